import Verif.Proofs.ContactRun

/-!
# C40, C41, C42: contact motion constraints
-/

set_option autoImplicit false
set_option linter.unusedSectionVars false

namespace Verif

open Finset Spec

/-! ## Rigid transforms -/

section
variable {K : Type} [CommRing K]

theorem M3.mul_assoc' (a b c : M3 K) : (a.mul b).mul c = a.mul (b.mul c) := by
  ext <;> simp only [M3.mul, M3.transpose, V3.dot] <;> ring

theorem M3.mul_one' (a : M3 K) : a.mul M3.one = a := by
  ext <;> simp [M3.mul, M3.transpose, V3.dot, M3.one]

theorem M3.one_mul' (a : M3 K) : M3.one.mul a = a := by
  ext <;> simp [M3.mul, M3.transpose, V3.dot, M3.one]

theorem M3.transpose_mul' (a b : M3 K) : (a.mul b).transpose = b.transpose.mul a.transpose := by
  ext <;> simp only [M3.mul, M3.transpose, V3.dot] <;> ring

theorem M3.RowsOrtho.mul_transpose' {m : M3 K} (h : m.RowsOrtho) : m.mul m.transpose = M3.one := by
  obtain ⟨h0, h1, h2, h3, h4, h5⟩ := h
  have h3' := (V3.dot_comm m.r1 m.r0).trans h3
  have h4' := (V3.dot_comm m.r2 m.r0).trans h4
  have h5' := (V3.dot_comm m.r2 m.r1).trans h5
  simp only [M3.mul, M3.transpose_transpose, M3.one, h0, h1, h2, h3, h4, h5, h3', h4', h5']

theorem PT.mul_assoc' (a b c : PT K) : (a.mul b).mul c = a.mul (b.mul c) := by
  unfold PT.mul
  rw [PT.mk.injEq]
  refine ⟨M3.mul_assoc' _ _ _, ?_⟩
  dsimp only
  rw [M3.mulVec_add, M3.transpose_mul', M3.mul_mulVec]
  ext <;> simp <;> ring

theorem PT.one_mul' (a : PT K) : PT.one.mul a = a := by
  unfold PT.mul PT.one
  dsimp only
  rw [M3.one_mul', M3.mulVec_zero]
  ext <;> simp

theorem PT.mul_one' (a : PT K) : a.mul PT.one = a := by
  unfold PT.mul PT.one
  dsimp only
  rw [M3.mul_one', M3.transpose_one, M3.one_mulVec]
  ext <;> simp

theorem PT.mul_inv' {a : PT K} (h : a.E.RowsOrtho) : a.mul a.inv = PT.one := by
  unfold PT.mul PT.inv PT.one
  dsimp only
  rw [h.mul_transpose', M3.transpose_transpose]
  ext <;> simp

theorem PT.inv_mul' {a : PT K} (h : a.E.RowsOrtho) : a.inv.mul a = PT.one := by
  unfold PT.mul PT.inv PT.one
  dsimp only
  have := h.transpose.mul_transpose'
  rw [M3.transpose_transpose] at this
  rw [this, M3.mulVec_neg, h.transpose_mulVec]
  ext <;> simp

theorem PT.inv_inv' {a : PT K} (h : a.E.RowsOrtho) : a.inv.inv = a := by
  unfold PT.inv
  dsimp only
  rw [M3.transpose_transpose, M3.mulVec_neg, h.transpose_mulVec]
  ext <;> simp

theorem PT.inv_mul_rev (a b : PT K) (hb : b.E.RowsOrtho) : (a.mul b).inv = b.inv.mul a.inv := by
  unfold PT.mul PT.inv
  dsimp only
  rw [M3.transpose_mul', PT.mk.injEq]
  refine ⟨rfl, ?_⟩
  rw [M3.transpose_transpose, M3.mul_mulVec, M3.mulVec_add, hb.mulVec_transpose, M3.mulVec_add, M3.mulVec_neg]
  ext <;> simp <;> ring

end

section
variable {K : Type} [Field K] [LinearOrder K] [IsStrictOrderedRing K]

namespace Spec

/-- `x` satisfies the equality rows. -/
def SatEq (n : ℕ) (c : EqC K) (x : ℕ → K) : Prop := ∀ i < c.nrEq, lineVal n c.A i x = c.b.get i

/-- The contact is in the problem and is not virtual. -/
def Active (d : SolverData K) (v : ContactReg K) (id : ContactId) : Prop :=
  IdMap.find id v.virt = none ∧ ∃ c ∈ d.allCont, c.id = id

/-- The robot has degrees of freedom. -/
def Mobile (rks : List (RobotKin K)) (r : ℤ) : Prop := ∃ rk, rks[r.toNat]? = some rk ∧ 0 < rk.mb.nrDof

/-- The value of a computation that succeeds. -/
def okOf {α : Type} : Out α → Option α
  | .ok a => some a
  | _ => none

/-- The index of a body of a robot. -/
def bodyIdx (rks : List (RobotKin K)) (bidx : ℕ → String → Out ℕ) (r : ℤ) (body : String) : Option ℕ :=
  (rks[r.toNat]?).bind fun rk =>
    if 0 < rk.mb.nrDof then (okOf (rk.path body)).bind List.getLast? else okOf (bidx r.toNat body)

/-- The pose of a body of a robot. -/
def bodyPose (rks : List (RobotKin K)) (bidx : ℕ → String → Out ℕ) (env : ContactEnv K) (r : ℤ)
    (body : String) : Option (PT K) :=
  (bodyIdx rks bidx r body).bind fun b => (env.bodyPosW[r.toNat]?).bind fun l => l[b]?

/-- Component `k` of the acceleration `J α̇ + Ψ` of frame `X` of a body: zero when the robot has no degree
of freedom. -/
def frameAcc (rks : List (RobotKin K)) (bidx : ℕ → String → Out ℕ) (d : SolverData K) (env : ContactEnv K)
    (x : ℕ → K) (r : ℤ) (body : String) (X : PT K) (k : ℕ) : K :=
  ((rks[r.toNat]?).bind fun rk => if rk.mb.nrDof = 0 then none else
    (d.alphaDBegin[r.toNat]?).bind fun a => (okOf (rk.path body)).bind fun path =>
      (bodyPose rks bidx env r body).map fun X0 =>
        ∑ q ∈ range rk.mb.nrDof, onDofs rk.mb path (fun p => (env.jac r.toNat path (X.mul X0)).get k p) q
          * x (a + q) + env.nacc r.toNat path X k).getD 0

/-- Component `k` of the velocity of frame `X` of a body. -/
def frameVel (rks : List (RobotKin K)) (env : ContactEnv K) (r : ℤ) (body : String) (X : PT K) (k : ℕ) : K :=
  ((rks[r.toNat]?).bind fun rk => if rk.mb.nrDof = 0 then none else
    (okOf (rk.path body)).map fun path => env.vel r.toNat path X k).getD 0

/-- Position error: the contact frame of body 2, `cf · bb⁻¹`, seen from the contact frame of body 1,
`cf`. -/
def poseErr (rks : List (RobotKin K)) (bidx : ℕ → String → Out ℕ) (env : ContactEnv K) (id : ContactId)
    (cf bb : PT K) (k : ℕ) : K :=
  ((bodyPose rks bidx env id.r1Index id.r1BodyName).bind fun X1 =>
    (bodyPose rks bidx env id.r2Index id.r2BodyName).map fun X2 =>
      let rel := ((cf.mul bb.inv).mul X2).mul (cf.mul X1).inv
      if k < 3 then (env.rotVel rel.E).get k else rel.r.get (k - 3)).getD 0

/-- What row `q` of a contact means: with `a` and `v` the acceleration and velocity of frame `X1` of body 1
relative to frame `X2` of body 2, the selected component of `a`, or of `v + dt a`, is zero, or that of
`v + dt a` is that of the position error. -/
def RowMeans (rks : List (RobotKin K)) (bidx : ℕ → String → Out ℕ) (d : SolverData K) (env : ContactEnv K)
    (kind : ContactKind K) (x : ℕ → K) (id : ContactId) (X1 X2 bb : PT K) (dof : Mat K) (q : ℕ) : Prop :=
  let a := fun k => frameAcc rks bidx d env x id.r1Index id.r1BodyName X1 k
    - frameAcc rks bidx d env x id.r2Index id.r2BodyName X2 k
  let v := fun k => frameVel rks env id.r1Index id.r1BodyName X1 k
    - frameVel rks env id.r2Index id.r2BodyName X2 k
  match kind with
  | .acc => ∑ k ∈ range 6, dof.get q k * a k = 0
  | .speed dt => ∑ k ∈ range 6, dof.get q k * (v k + dt * a k) = 0
  | .pos dt => ∑ k ∈ range 6, dof.get q k * (v k + dt * a k)
      = ∑ k ∈ range 6, dof.get q k * poseErr rks bidx env id X1 bb k

/-- By how much row `q` of a contact misses what it means, as an acceleration. -/
def rowGap (rks : List (RobotKin K)) (bidx : ℕ → String → Out ℕ) (d : SolverData K) (env : ContactEnv K)
    (kind : ContactKind K) (x : ℕ → K) (id : ContactId) (X1 X2 bb : PT K) (dof : Mat K) (q : ℕ) : K :=
  let a := fun k => frameAcc rks bidx d env x id.r1Index id.r1BodyName X1 k
    - frameAcc rks bidx d env x id.r2Index id.r2BodyName X2 k
  let v := fun k => frameVel rks env id.r1Index id.r1BodyName X1 k
    - frameVel rks env id.r2Index id.r2BodyName X2 k
  match kind with
  | .acc => ∑ k ∈ range 6, dof.get q k * a k
  | .speed dt => dt⁻¹ * ∑ k ∈ range 6, dof.get q k * (v k + dt * a k)
  | .pos dt => dt⁻¹ * (∑ k ∈ range 6, dof.get q k * (v k + dt * a k)
      - ∑ k ∈ range 6, dof.get q k * poseErr rks bidx env id X1 bb k)

/-- The frame of body 2 of a contact (of no use when robot 2 does not move). -/
def frame2 (c : ContactData K) : PT K :=
  match c.contacts.getLast? with
  | some sd => sd.X_b_p
  | none => c.X_b1_cf

end Spec

theorem common_active (d : SolverData K) (v : ContactReg K) (id : ContactId) :
    id ∈ (v.common d).map Prod.fst ↔ Active d v id := by
  rw [← IdMap.find_isSome, common_find]
  unfold Active
  constructor
  · intro h
    split_ifs at h with c
    · rw [Option.isSome_map, List.find?_isSome] at h
      obtain ⟨c', h1, h2⟩ := h
      exact ⟨Option.isNone_iff_eq_none.mp c, c', h1, by simpa using h2⟩
    · simp at h
  · rintro ⟨h1, c, h2, h3⟩
    rw [if_pos (Option.isNone_iff_eq_none.mpr h1), Option.isSome_map, List.find?_isSome]
    exact ⟨c, h2, by simpa using h3⟩

theorem common_first {d : SolverData K} {v : ContactReg K} {e : ContactId × PT K × PT K}
    (h : e ∈ v.common d) : IdMap.find e.1 v.virt = none ∧
      ∃ c, (d.allCont.find? fun c => decide (c.id = e.1)) = some c ∧ e.2.1 = c.X_b1_cf ∧ e.2.2 = c.X_b1_b2 := by
  have h1 := (IdMap.find_eq_some (common_sorted d v) e.1 e.2).mpr h
  rw [common_find] at h1
  split_ifs at h1 with c
  rw [Option.map_eq_some_iff] at h1
  obtain ⟨c', h1, h2⟩ := h1
  exact ⟨Option.isNone_iff_eq_none.mp c, c', h1, by rw [← h2], by rw [← h2]⟩

theorem sideOf_pose {rks : List (RobotKin K)} {bidx : ℕ → String → Out ℕ} {d : SolverData K}
    {r : ℤ} {body : String} {sign : K} {X : PT K} {l : List (ContactSide K)} {b : ℕ}
    (h : SideOf rks bidx d r body sign X l b) (env : ContactEnv K) :
    bodyPose rks bidx env r body = (env.bodyPosW[r.toNat]?).bind fun l => l[b]? := by
  obtain ⟨-, rk, h1, ⟨h2, a, path, h3, h4, h5, -⟩ | ⟨h2, h3, -⟩⟩ := h
  · unfold bodyPose bodyIdx
    rw [h1, Option.bind_some, if_pos h2, h4]
    simp only [okOf, Option.bind_some, h5]
  · unfold bodyPose bodyIdx
    rw [h1, Option.bind_some, if_neg (by omega), h3]
    simp only [okOf, Option.bind_some]

theorem sideOf_acc {rks : List (RobotKin K)} {bidx : ℕ → String → Out ℕ} {d : SolverData K}
    {r : ℤ} {body : String} {sign : K} {X : PT K} {l : List (ContactSide K)} {b : ℕ}
    (h : SideOf rks bidx d r body sign X l b) (env : ContactEnv K) (x : ℕ → K) (k : ℕ) :
    (l.map fun sd => sd.sign * sideAcc (rks.map fun rk => rk.mb) env x sd k).sum
      = sign * frameAcc rks bidx d env x r body X k ∧
    (l.map fun sd => sd.sign * sideVel env sd k).sum = sign * frameVel rks env r body X k := by
  have hp := sideOf_pose h env
  obtain ⟨-, rk, h1, ⟨h2, a, path, h3, h4, h5, rfl⟩ | ⟨h2, h3, rfl⟩⟩ := h
  · simp only [List.map_cons, List.map_nil, List.sum_cons, List.sum_nil, add_zero]
    unfold sideAcc frameAcc frameVel sideVel
    rw [h1, Option.bind_some, Option.bind_some, if_neg (by omega), if_neg (by omega), h3, h4, hp]
    dsimp only [okOf]
    rw [List.getElem?_map, h1]
    simp only [Option.map_some, Option.bind_some, Option.getD_some]
    refine ⟨?_, trivial⟩
    congr 1
    cases (env.bodyPosW[r.toNat]?).bind fun l => l[b]? <;> rfl
  · unfold frameAcc frameVel
    rw [h1, Option.bind_some, Option.bind_some, if_pos h2, if_pos h2]
    simp

theorem stored_frame2 {rks : List (RobotKin K)} {bidx : ℕ → String → Out ℕ} {d : SolverData K}
    {g : ContactReg K} {e : ContactId × PT K × PT K} {c : ContactData K} (h : Stored rks bidx d g e c) :
    ∃ l1 l2, c.contacts = l1 ++ l2 ∧
      SideOf rks bidx d e.1.r1Index e.1.r1BodyName 1 e.2.1 l1 c.b1 ∧
      SideOf rks bidx d e.1.r2Index e.1.r2BodyName (-1) (frame2 c) l2 c.b2 := by
  obtain ⟨l1, l2, X2, h1, h2, h3⟩ := h.sides
  refine ⟨l1, l2, h1, h2, ?_⟩
  obtain ⟨h0, rk, k1, ⟨k2, a, path, k3, k4, k5, k6⟩ | ⟨k2, k3, k4⟩⟩ := h3
  · refine ⟨h0, rk, k1, .inl ⟨k2, a, path, k3, k4, k5, ?_⟩⟩
    have : frame2 c = X2 := by
      unfold frame2
      rw [h1, k6, List.getLast?_concat]
    rw [this]
    exact k6
  · exact ⟨h0, rk, k1, .inr ⟨k2, k3, k4⟩⟩

theorem stored_vals {rks : List (RobotKin K)} {bidx : ℕ → String → Out ℕ} {d : SolverData K}
    {g : ContactReg K} {e : ContactId × PT K × PT K} {c : ContactData K} (h : Stored rks bidx d g e c)
    (env : ContactEnv K) (x : ℕ → K) :
    (∀ k, relAcc (rks.map fun rk => rk.mb) env x c k
      = frameAcc rks bidx d env x c.id.r1Index c.id.r1BodyName c.X_b1_cf k
        - frameAcc rks bidx d env x c.id.r2Index c.id.r2BodyName (frame2 c) k) ∧
    (∀ k, relVel env c k = frameVel rks env c.id.r1Index c.id.r1BodyName c.X_b1_cf k
      - frameVel rks env c.id.r2Index c.id.r2BodyName (frame2 c) k) ∧
    ∀ k, relErr env c k = poseErr rks bidx env c.id c.X_b1_cf c.X_b1_b2 k := by
  obtain ⟨l1, l2, h1, h2, h3⟩ := stored_frame2 h
  have ha : ∀ k, relAcc (rks.map fun rk => rk.mb) env x c k
      = frameAcc rks bidx d env x c.id.r1Index c.id.r1BodyName c.X_b1_cf k
        - frameAcc rks bidx d env x c.id.r2Index c.id.r2BodyName (frame2 c) k := by
    intro k
    unfold relAcc
    rw [h1, List.map_append, List.sum_append, (sideOf_acc h2 env x k).1, (sideOf_acc h3 env x k).1, h.id, h.cf]
    ring
  have hv : ∀ k, relVel env c k = frameVel rks env c.id.r1Index c.id.r1BodyName c.X_b1_cf k
      - frameVel rks env c.id.r2Index c.id.r2BodyName (frame2 c) k := by
    intro k
    unfold relVel
    rw [h1, List.map_append, List.sum_append, (sideOf_acc h2 env x k).2, (sideOf_acc h3 env x k).2, h.id, h.cf]
    ring
  have hp : ∀ k, relErr env c k = poseErr rks bidx env c.id c.X_b1_cf c.X_b1_b2 k := by
    intro k
    unfold relErr poseErr
    rw [h.id, sideOf_pose h2, sideOf_pose h3, h.r1, h.r2]
    cases (env.bodyPosW[e.1.r1Index.toNat]?).bind fun l => l[c.b1]? <;>
      cases (env.bodyPosW[e.1.r2Index.toNat]?).bind fun l => l[c.b2]? <;> rfl
  exact ⟨ha, hv, hp⟩

theorem stored_rowMeans {rks : List (RobotKin K)} {bidx : ℕ → String → Out ℕ} {d : SolverData K}
    {g : ContactReg K} {e : ContactId × PT K × PT K} {c : ContactData K} (h : Stored rks bidx d g e c)
    (env : ContactEnv K) (kind : ContactKind K) (x : ℕ → K) (q : ℕ) :
    ContactRow (rks.map fun rk => rk.mb) env kind x c q
      ↔ RowMeans rks bidx d env kind x c.id c.X_b1_cf (frame2 c) c.X_b1_b2 c.dof q := by
  obtain ⟨ha, hv, hp⟩ := stored_vals h env x
  unfold ContactRow RowMeans
  cases kind <;> simp only [ha, hv, hp]

theorem stored_rowGap {rks : List (RobotKin K)} {bidx : ℕ → String → Out ℕ} {d : SolverData K}
    {g : ContactReg K} {e : ContactId × PT K × PT K} {c : ContactData K} (h : Stored rks bidx d g e c)
    (env : ContactEnv K) {kind : ContactKind K} (hk : KindOK kind) (x : ℕ → K) (q : ℕ) :
    contRes (rks.map fun rk => rk.mb) env kind x c q
      = rowGap rks bidx d env kind x c.id c.X_b1_cf (frame2 c) c.X_b1_b2 c.dof q := by
  obtain ⟨ha, hv, hp⟩ := stored_vals h env x
  rw [contRes_val hk]
  unfold rowGap
  cases kind <;> simp only [ha, hv, hp]

/-- The core of C40: `update` succeeds and each line means what it should. -/
theorem contact_update {rks : List (RobotKin K)} {bidx : ℕ → String → Out ℕ} (hr : ContactRobotsOK rks bidx)
    {kind : ContactKind K} (hk : KindOK kind) {d : SolverData K} {v g : ContactReg K} {s : ContactC K}
    (I : ContactInv rks bidx d v g s) {env : ContactEnv K} (he : ContactEnvOK rks env)
    (hdof : ∀ id, Active d v id → (g.dofOf id).rows ≤ 6 ∧ (g.dofOf id).cols = 6)
    (hmob : ∀ id, Active d v id → Mobile rks id.r1Index ∨ Mobile rks id.r2Index) :
    ∃ s', s.update (rks.map fun rk => rk.mb) env kind = .ok s' ∧
      List.Forall₂ (fun c c' => c.update env = .ok c') s.cont s'.cont ∧
      s'.nrEq = contRows s'.cont ∧ s'.buf.A.rows = s'.cont.length * 6 ∧ s'.buf.b.size = s'.cont.length * 6 ∧
      s'.buf.A.cols = d.nrVars ∧
      (∀ l₁ c l₂, s'.cont = l₁ ++ c :: l₂ → ∀ q < c.dof.rows, ∀ x,
        (lineVal d.nrVars s'.eq.A (contRows l₁ + q) x = s'.eq.b.get (contRows l₁ + q) ↔
          RowMeans rks bidx d env kind x c.id c.X_b1_cf (frame2 c) c.X_b1_b2 c.dof q) ∧
        lineVal d.nrVars s'.eq.A (contRows l₁ + q) x - s'.eq.b.get (contRows l₁ + q)
          = rowGap rks bidx d env kind x c.id c.X_b1_cf (frame2 c) c.X_b1_b2 c.dof q) := by
  obtain ⟨h1, h2, h3, ⟨maxD, h4, h5⟩, h6⟩ := I
  have hall : ∀ c ∈ s.cont, ContOK rks c ∧ c.contacts ≠ [] ∧ c.dof.rows ≤ 6 ∧ c.dof.cols = 6 ∧
      ∀ k ∈ c.contacts.map sideKey, SideOK (rks.map fun rk => rk.mb) d.totalAlphaD maxD k := by
    intro c hc
    obtain ⟨e, hm, hs⟩ := forall₂_mem_right h1 hc
    have hact : Active d v e.1 := (common_active d v e.1).mp (List.mem_map_of_mem hm)
    obtain ⟨k1, k2⟩ := stored_ok hr h4 h6 hs
    refine ⟨k1, ?_, by rw [hs.dof]; exact (hdof _ hact).1, by rw [hs.dof]; exact (hdof _ hact).2, k2⟩
    obtain ⟨l1, l2, X2, g1, g2, g3⟩ := hs.sides
    intro hnil
    rw [g1, List.append_eq_nil_iff] at hnil
    have imm : ∀ (r : ℤ) (body : String) (sign : K) (X : PT K) (b : ℕ),
        SideOf rks bidx d r body sign X [] b → ¬ Mobile rks r := by
      rintro r body sign X b ⟨-, rk, m1, ⟨m2, a, path, -, -, -, m3⟩ | ⟨m2, -, -⟩⟩ ⟨rk', m4, m5⟩
      · simp at m3
      · rw [m1] at m4; cases m4; omega
    rw [hnil.1] at g2
    rw [hnil.2] at g3
    rcases hmob _ hact with hm | hm
    · exact imm _ _ _ _ _ g2 hm
    · exact imm _ _ _ _ _ g3 hm
  have hrows : contRows s.cont ≤ s.cont.length * 6 := by
    have : ∀ l : List (ContactData K), (∀ c ∈ l, c.dof.rows ≤ 6) → contRows l ≤ l.length * 6 := by
      intro l
      induction l with
      | nil => intro _; simp
      | cons c t ih =>
        intro h
        have := h c (by simp)
        have := ih (fun c hc => h c (by simp [hc]))
        rw [contRows_cons, List.length_cons]
        omega
    exact this _ fun c hc => (hall c hc).2.2.1
  obtain ⟨B, eB, RB, zB⟩ : ∃ B, s.clear kind = .ok B ∧
      BufOK d.nrVars d.totalAlphaD (s.cont.length * 6) maxD B ∧
      ∀ i < s.nrEq, ∀ x, resid d.nrVars B i x = 0 := by
    have gen : ∃ B, (do
        let A ← s.buf.A.setBlock 0 0 (Mat.zero s.nrEq s.totalAlphaD)
        let b ← s.buf.b.setSegment 0 ⟨s.nrEq, fun _ => (0 : K)⟩
        pure { s.buf with
          A := A
          b := b }) = Out.ok B ∧ ∀ i < s.nrEq, ∀ x, resid d.nrVars B i x = 0 := by
      unfold Mat.setBlock Vec.setSegment
      have hle : 0 + s.nrEq ≤ s.cont.length * 6 := by rw [h2]; omega
      rw [if_pos ⟨by rw [h5.rows]; exact hle, by
        rw [h5.cols]; have := h5.le; change 0 + s.totalAlphaD ≤ _; rw [h3]; omega⟩, Out.ok_bind,
        if_pos (by rw [h5.b]; exact hle), Out.ok_bind]
      refine Exists.intro _ (And.intro rfl fun i hi x => ?_)
      unfold resid lineVal
      dsimp only [Mat.zero]
      rw [if_pos ⟨Nat.zero_le _, by omega⟩, sub_zero]
      refine sum_eq_zero fun j _ => ?_
      by_cases hj : j < s.totalAlphaD
      · refine (congrArg (· * x j) (if_pos ?_)).trans (zero_mul _)
        exact ⟨⟨Nat.zero_le _, by omega⟩, Nat.zero_le _, by omega⟩
      · refine (congrArg (· * x j) ((if_neg ?_).trans (h5.zero i j (by rw [← h3]; omega)))).trans (zero_mul _)
        exact fun h => hj (by omega)
    have : ∃ B, s.clear kind = .ok B ∧ ∀ i < s.nrEq, ∀ x, resid d.nrVars B i x = 0 := by
      unfold ContactC.clear
      cases kind with
      | acc => exact ⟨_, rfl, fun i hi x => by simp [resid, lineVal, Mat.zero]⟩
      | speed dt => exact gen
      | pos dt => exact gen
    obtain ⟨B, e, z⟩ := this
    exact ⟨B, e, contactClear_frame e h5, z⟩
  obtain ⟨B', l', e', f, R', n', r', -⟩ := contactRowsLoop_ok rfl he hk s.cont hall (B, 0, [])
    (by dsimp only; omega) RB
  dsimp only at e' r'
  have eupd : s.update (rks.map fun rk => rk.mb) env kind = .ok { s with
      buf := B'
      cont := l' } := by
    unfold ContactC.update
    rw [eB, Out.ok_bind, e', Out.ok_bind, List.nil_append]
    rfl
  have hlen : l'.length = s.cont.length := f.length_eq.symm
  refine ⟨_, eupd, f, ?_, ?_, ?_, R'.cols, ?_⟩
  · dsimp only; rw [h2, n']
  · dsimp only; rw [hlen]; exact R'.rows
  · dsimp only; rw [hlen]; exact R'.b
  · intro l₁ c l₂ hl q hq x
    dsimp only [ContactC.eq] at hl ⊢
    have hi : contRows l₁ + q < s.nrEq := by
      rw [h2, ← n', hl, contRows_append, contRows_cons]; omega
    have h7 := r' l₁ c l₂ hl q hq x
    rw [Nat.zero_add, zB _ hi, zero_add] at h7
    have hm : c ∈ l' := by rw [hl]; simp
    obtain ⟨e, -, hs⟩ := forall₂_mem_right (forall₂_comp (fun a b c => stored_update) h1 f) hm
    rw [← stored_rowMeans hs, ← stored_rowGap hs env hk, ← contRes_iff hk, ← h7]
    unfold resid
    rw [sub_eq_zero]
    exact ⟨Iff.rfl, rfl⟩

/-- **C40** (rows).  At any point of an execution after `updateNrVars`, if every contact has a selection
matrix with six columns and at most six rows and a robot that can move, `update` succeeds.  The constraint
then has one entry for each non-virtual contact of the problem, none for the others; the entry has the frame
of the contact and the selection matrix read last; and `x` satisfies the rows exactly when for every such
contact and every row of its selection matrix the selected relative acceleration (velocity after `dt`,
velocity after `dt` minus position error) vanishes. -/
theorem C40_rows (rks : List (RobotKin K)) (bidx : ℕ → String → Out ℕ) (hr : ContactRobotsOK rks bidx)
    (kind : ContactKind K) (hk : KindOK kind) (d : SolverData K) (v g : ContactReg K) (s : ContactC K)
    (h : ContactRun rks bidx kind (some (d, v, g)) s) (env : ContactEnv K) (he : ContactEnvOK rks env)
    (hdof : ∀ id, Active d v id → (g.dofOf id).rows ≤ 6 ∧ (g.dofOf id).cols = 6)
    (hmob : ∀ id, Active d v id → Mobile rks id.r1Index ∨ Mobile rks id.r2Index) :
    ∃ s', s.update (rks.map fun rk => rk.mb) env kind = .ok s' ∧
      (s'.cont.map fun c => c.id).Nodup ∧ (∀ id, id ∈ s'.cont.map (fun c => c.id) ↔ Active d v id) ∧
      (∀ c ∈ s'.cont, c.dof = g.dofOf c.id ∧ ∃ c₀,
        (d.allCont.find? fun c' => decide (c'.id = c.id)) = some c₀ ∧ c.X_b1_cf = c₀.X_b1_cf) ∧
      s'.eq.nrEq = (s'.cont.map fun c => c.dof.rows).sum ∧ s'.eq.nrEq ≤ s'.eq.maxEq ∧
      s'.eq.A.rows = s'.eq.maxEq ∧ s'.eq.b.size = s'.eq.maxEq ∧ s'.eq.A.cols = d.nrVars ∧
      ∀ x, SatEq d.nrVars s'.eq x ↔ ∀ c ∈ s'.cont, ∀ q < c.dof.rows,
        RowMeans rks bidx d env kind x c.id c.X_b1_cf (frame2 c) c.X_b1_b2 c.dof q := by
  have I := contactInv hr h d v g rfl
  obtain ⟨s', e, f, n, rA, rb, cA, hrow⟩ := contact_update hr hk I he hdof hmob
  have st : List.Forall₂ (Stored rks bidx d g) (v.common d) s'.cont :=
    forall₂_comp (fun a b c => stored_update) I.stored f
  have ids : s'.cont.map (fun c => c.id) = (v.common d).map Prod.fst := by
    clear hrow n rA rb
    generalize v.common d = l at st
    generalize s'.cont = m at st
    induction st with
    | nil => rfl
    | cons hs _ ih => rw [List.map_cons, List.map_cons, hs.id, ih]
  refine ⟨s', e, ?_, fun id => ?_, fun c hc => ?_, n, ?_, rfl, rb.trans rA.symm, cA, fun x => ?_⟩
  · rw [ids]; exact IdMap.sorted_nodup (common_sorted d v)
  · rw [ids]; exact common_active d v id
  · obtain ⟨e, hm, hs⟩ := forall₂_mem_right st hc
    obtain ⟨-, c₀, k1, k2, -⟩ := common_first hm
    exact ⟨by rw [hs.dof, hs.id], c₀, by rw [hs.id]; exact k1, hs.cf.trans k2⟩
  · have hle : ∀ c ∈ s'.cont, c.dof.rows ≤ 6 := by
      intro c hc
      obtain ⟨e, hm, hs⟩ := forall₂_mem_right st hc
      rw [hs.dof]
      exact (hdof _ ((common_active d v e.1).mp (List.mem_map_of_mem hm))).1
    have : ∀ l : List (ContactData K), (∀ c ∈ l, c.dof.rows ≤ 6) → contRows l ≤ l.length * 6 := by
      intro l
      induction l with
      | nil => intro _; simp
      | cons c t ih =>
        intro h
        have := h c (by simp)
        have := ih (fun c hc => h c (by simp [hc]))
        rw [contRows_cons, List.length_cons]
        omega
    change s'.nrEq ≤ s'.buf.A.rows
    rw [n, rA]
    exact this _ hle
  · constructor
    · intro hx c hc q hq
      obtain ⟨l₁, l₂, hl⟩ := List.append_of_mem hc
      refine (hrow l₁ c l₂ hl q hq x).1.mp (hx _ ?_)
      change _ < s'.nrEq
      rw [n, hl, contRows_append, contRows_cons]
      omega
    · intro hx i hi
      change i < s'.nrEq at hi
      rw [n] at hi
      obtain ⟨l₁, c, l₂, q, hl, hq, rfl⟩ := contRows_split _ _ hi
      exact (hrow l₁ c l₂ hl q hq x).1.mpr (hx c (by rw [hl]; simp) q hq)

/-- **C40** (stacking): row `q` of a contact is the line after the rows of the contacts before it. -/
theorem C40_stacking (rks : List (RobotKin K)) (bidx : ℕ → String → Out ℕ) (hr : ContactRobotsOK rks bidx)
    (kind : ContactKind K) (hk : KindOK kind) (d : SolverData K) (v g : ContactReg K) (s : ContactC K)
    (h : ContactRun rks bidx kind (some (d, v, g)) s) (env : ContactEnv K) (he : ContactEnvOK rks env)
    (hdof : ∀ id, Active d v id → (g.dofOf id).rows ≤ 6 ∧ (g.dofOf id).cols = 6)
    (hmob : ∀ id, Active d v id → Mobile rks id.r1Index ∨ Mobile rks id.r2Index) :
    ∃ s', s.update (rks.map fun rk => rk.mb) env kind = .ok s' ∧
      ∀ l₁ c l₂, s'.cont = l₁ ++ c :: l₂ → ∀ q < c.dof.rows, ∀ x,
        let i := (l₁.map fun c => c.dof.rows).sum + q
        lineVal d.nrVars s'.eq.A i x = s'.eq.b.get i ↔
          RowMeans rks bidx d env kind x c.id c.X_b1_cf (frame2 c) c.X_b1_b2 c.dof q := by
  obtain ⟨s', e, -, -, -, -, -, hrow⟩ := contact_update hr hk (contactInv hr h d v g rfl) he hdof hmob
  exact ⟨s', e, fun l₁ c l₂ hl q hq x => (hrow l₁ c l₂ hl q hq x).1⟩

/-! ### Frames of fully constrained contacts -/

namespace Spec

/-- The selection matrix has a unit entry in each of the six columns. -/
def Locks (dof : Mat K) : Prop := ∀ j < 6, ∃ r < dof.rows, dof.get r j = 1

/-- The contact is as built. -/
def AsBuilt (rks : List (RobotKin K)) (bidx : ℕ → String → Out ℕ) (d : SolverData K)
    (e : ContactId × PT K × PT K) (c : ContactData K) : Prop :=
  c.X_b1_cf = e.2.1 ∧ c.X_b1_b2 = e.2.2 ∧ ∃ l1 l2, c.contacts = l1 ++ l2 ∧
    SideOf rks bidx d e.1.r1Index e.1.r1BodyName 1 e.2.1 l1 c.b1 ∧
    SideOf rks bidx d e.1.r2Index e.1.r2BodyName (-1) (e.2.1.mul e.2.2.inv) l2 c.b2

end Spec

theorem revOf_locks {dof : Mat K} {rev : ℕ → K} (h : revOf dof = .ok rev) (hl : Locks dof) :
    ∀ k < 6, rev k = 0 := by
  intro k hk
  unfold revOf at h
  split at h
  · cases h
    dsimp only
    rw [if_pos]
    obtain ⟨r, h1, h2⟩ := hl k hk
    rw [List.any_eq_true]
    exact ⟨r, List.mem_range.mpr h1, by simpa using h2⟩
  · cases h

theorem adjust_locked {env : ContactEnv K} (h0 : env.rotXYZ 0 0 0 = M3.one) {c : ContactData K}
    (hrev : ∀ k < 6, c.rev k = 0) (hcf : c.X_b1_cf.E.RowsOrtho) (hbb : c.X_b1_b2.E.RowsOrtho)
    {r : PT K × PT K} (h : c.adjust env (c.X_b1_cf.mul c.X_b1_b2.inv) = .ok r) :
    r = (c.X_b1_cf.mul c.X_b1_b2.inv, c.X_b1_b2) := by
  unfold ContactData.adjust at h
  obtain ⟨X1, -, h⟩ := Out.bind_eq_ok.mp h
  obtain ⟨X2, -, h⟩ := Out.bind_eq_ok.mp h
  cases h
  have hE : ∀ f : ℕ → K, (⟨env.rotXYZ (c.rev 0 * f 0) (c.rev 1 * f 1) (c.rev 2 * f 2),
      ⟨c.rev 3 * f 3, c.rev 4 * f 4, c.rev 5 * f 5⟩⟩ : PT K) = PT.one := by
    intro f
    rw [hrev 0 (by omega), hrev 1 (by omega), hrev 2 (by omega), hrev 3 (by omega), hrev 4 (by omega),
      hrev 5 (by omega)]
    simp only [zero_mul, h0]
    rfl
  simp only [hE, PT.one_mul']
  have hinv : (c.X_b1_b2.inv).E.RowsOrtho := hbb.transpose
  rw [PT.inv_mul_rev _ _ hinv, PT.inv_inv' hbb, PT.mul_assoc', PT.inv_mul' hcf, PT.mul_one']

theorem list_set_same {α : Type} (l : List α) (i : ℕ) (a : α) (h : l[i]? = some a) : l.set i a = l := by
  apply List.ext_getElem?
  intro j
  rw [List.getElem?_set]
  split_ifs with c1 c2
  · subst c1; exact h.symm
  · subst c1; rw [List.getElem?_eq_none (not_lt.mp c2)]
  · rfl

theorem update_locked {rks : List (RobotKin K)} {bidx : ℕ → String → Out ℕ} {d : SolverData K}
    {env : ContactEnv K} (h0 : env.rotXYZ 0 0 0 = M3.one) {e : ContactId × PT K × PT K} {c c' : ContactData K}
    (hrev : ∀ k < 6, c.rev k = 0) (hcf : e.2.1.E.RowsOrtho) (hbb : e.2.2.E.RowsOrtho)
    (hb : AsBuilt rks bidx d e c) (h : c.update env = .ok c') : c' = c := by
  obtain ⟨b1, b2, l1, l2, b3, b4, b5⟩ := hb
  unfold ContactData.update at h
  have key : ∀ (i : ℕ) (sd : ContactSide K), c.contacts[i]? = some sd →
      sd.X_b_p = c.X_b1_cf.mul c.X_b1_b2.inv → ∀ r, c.adjust env sd.X_b_p = .ok r →
      ({ c with
        contacts := c.contacts.set i { sd with X_b_p := r.1 }
        X_b1_b2 := r.2 } : ContactData K) = c := by
    intro i sd h1 h2 r h3
    rw [h2] at h3
    have := adjust_locked h0 hrev (by rw [b1]; exact hcf) (by rw [b2]; exact hbb) h3
    subst this
    rw [← h2, list_set_same _ _ _ h1]
  split at h
  · rename_i hlen
    obtain ⟨sd, k1, h⟩ := Out.bind_eq_ok.mp h
    obtain ⟨r, k2, h⟩ := Out.bind_eq_ok.mp h
    cases h
    refine key 1 sd (vecAt_eq_ok.mp k1) ?_ r k2
    rcases sideOf_cases b4 with rfl | ⟨s1, rfl, -, -⟩ <;> rcases sideOf_cases b5 with rfl | ⟨s2, rfl, -, g4⟩ <;>
      rw [b3] at k1 hlen
    · simp at hlen
    · simp at hlen
    · simp at hlen
    · cases k1
      rw [g4, b1, b2]
  · rename_i hlen
    obtain ⟨sd, k1, h⟩ := Out.bind_eq_ok.mp h
    split at h
    · cases h; rfl
    · rename_i hs
      obtain ⟨r, k2, h⟩ := Out.bind_eq_ok.mp h
      cases h
      refine key 0 sd (vecAt_eq_ok.mp k1) ?_ r k2
      rcases sideOf_cases b4 with rfl | ⟨s1, rfl, g1, -⟩ <;> rcases sideOf_cases b5 with rfl | ⟨s2, rfl, -, g4⟩ <;>
        rw [b3] at k1 hlen
      · cases k1
      · cases k1
        rw [g4, b1, b2]
      · cases k1
        exact absurd (by rw [g1]; norm_num) hs
      · cases k1
        exact absurd (by rw [g1]; norm_num) hs

theorem locked_inv {rks : List (RobotKin K)} {bidx : ℕ → String → Out ℕ}
    {kind : ContactKind K} {o : Option (SolverData K × ContactReg K × ContactReg K)} {s : ContactC K}
    (h : ContactRun rks bidx kind o s) : ∀ d v g, o = some (d, v, g) →
      List.Forall₂ (fun e c => c.id = e.1 ∧ (Locks (v.dofOf e.1) → e.2.1.E.RowsOrtho → e.2.2.E.RowsOrtho →
        (∀ k < 6, c.rev k = 0) ∧ AsBuilt rks bidx d e c)) (v.common d) s.cont := by
  induction h with
  | make => intro d v g e; cases e
  | registry o s g' _ ih => intro d v g e; exact ih d v g e
  | nrVars o s s' old d' uni bi deps junk _ hg hl h ih =>
    intro d v g e
    cases e
    unfold ContactC.updateNrVars at h
    obtain ⟨n, h1, h⟩ := Out.bind_eq_ok.mp h
    obtain ⟨cont, h2, h⟩ := Out.bind_eq_ok.mp h
    cases h
    obtain ⟨l', e2, f⟩ := build_loop _ _ _ h2
    rw [List.nil_append] at e2
    subst e2
    exact f.imp fun e c hb => ⟨hb.id, fun hl _ _ => ⟨revOf_locks hb.rev hl, hb.cf, hb.bb, hb.sides⟩⟩
  | dofs o s _ ih =>
    intro d v g e
    cases o with
    | none => cases e
    | some t =>
      cases e
      have h1 := ih t.1 t.2.1 t.2.2 rfl
      change List.Forall₂ _ _ (s.cont.map _)
      rw [List.forall₂_map_right_iff]
      exact h1
  | update o s s' env _ h0 h ih =>
    intro d v g e
    have h1 := ih d v g e
    unfold ContactC.update at h
    obtain ⟨B, k1, h⟩ := Out.bind_eq_ok.mp h
    obtain ⟨r, k2, h⟩ := Out.bind_eq_ok.mp h
    cases h
    have step : ∀ (l : List (ContactData K)) (s r : ContactBuf K × ℕ × List (ContactData K)),
        forEach l (contactStep (rks.map fun rk => rk.mb) env kind) s = .ok r → ∃ l', r.2.2 = s.2.2 ++ l' ∧
          List.Forall₂ (fun c c' => c.update env = .ok c') l l' := by
      intro l
      induction l with
      | nil => intro s r h; cases h; exact ⟨[], by simp, .nil⟩
      | cons c t ih =>
        intro s r h
        obtain ⟨s1, h1, h⟩ := Out.bind_eq_ok.mp h
        obtain ⟨c', h2, h1⟩ := Out.bind_eq_ok.mp h1
        obtain ⟨B1, h3, h1⟩ := Out.bind_eq_ok.mp h1
        obtain ⟨B2, h4, h1⟩ := Out.bind_eq_ok.mp h1
        cases h1
        obtain ⟨l', e, f⟩ := ih _ _ h
        exact ⟨c' :: l', by rw [e]; simp, .cons h2 f⟩
    obtain ⟨l', e', f⟩ := step _ _ _ k2
    dsimp only at e' ⊢
    rw [List.nil_append] at e'
    rw [e']
    refine forall₂_comp (fun e c c' hc hu => ?_) h1 f
    refine ⟨(contactData_update_same hu).id.trans hc.1, fun hl hcf hbb => ?_⟩
    obtain ⟨hrev, hb⟩ := hc.2 hl hcf hbb
    have := update_locked h0 hrev hcf hbb hb hu
    subst this
    exact ⟨hrev, hb⟩

/-- **C40** (frames): when the selection matrix of a contact at `updateNrVars` has a unit entry in every
column, as the default identity does, the frames never move: the updates keep the frames of the problem's
contact. -/
theorem C40_frames_locked (rks : List (RobotKin K)) (bidx : ℕ → String → Out ℕ)
    (hr : ContactRobotsOK rks bidx) (kind : ContactKind K) (d : SolverData K) (v g : ContactReg K)
    (s : ContactC K) (h : ContactRun rks bidx kind (some (d, v, g)) s) (c : ContactData K) (hc : c ∈ s.cont)
    (hl : Locks (v.dofOf c.id)) (c₀ : BiContact K)
    (h₀ : (d.allCont.find? fun c' => decide (c'.id = c.id)) = some c₀)
    (hcf : c₀.X_b1_cf.E.RowsOrtho) (hbb : c₀.X_b1_b2.E.RowsOrtho) :
    c.X_b1_cf = c₀.X_b1_cf ∧ c.X_b1_b2 = c₀.X_b1_b2 ∧
      (Mobile rks c.id.r2Index → frame2 c = c₀.X_b1_cf.mul c₀.X_b1_b2.inv) := by
  obtain ⟨e, hm, he⟩ := forall₂_mem_right (locked_inv h d v g rfl) hc
  obtain ⟨-, c₁, k1, k2, k3⟩ := common_first hm
  rw [← he.1, h₀] at k1
  cases k1
  rw [he.1] at hl
  obtain ⟨-, a1, a2, l1, l2, a3, a4, a5⟩ := he.2 hl (by rw [k2]; exact hcf) (by rw [k3]; exact hbb)
  refine ⟨a1.trans k2, a2.trans k3, fun hmob => ?_⟩
  obtain ⟨-, rk, m1, ⟨m2, a, path, -, -, -, m3⟩ | ⟨m2, -, -⟩⟩ := a5
  · unfold frame2
    rw [a3, m3, List.getLast?_concat, ← k2, ← k3]
  · obtain ⟨rk', m4, m5⟩ := hmob
    rw [he.1, m1] at m4
    cases m4
    omega

/-- The default selection matrix locks the frames. -/
theorem C40_default_locks (v : ContactReg K) (id : ContactId) (h : v.hasDof id = false) : Locks (v.dofOf id) := by
  intro j hj
  have : IdMap.find id v.dofs = none := by simpa [ContactReg.hasDof] using h
  unfold ContactReg.dofOf
  rw [this]
  exact ⟨j, hj, by simp [identity6]⟩

/-- **C40** (violation): `updateDofContacts` replaces the selection matrices but not the free directions:
the directions along which the frame of body 2 may move stay those of the matrices read by
`updateNrVars`. -/
theorem C40_stale_free_directions (s : ContactC K) :
    s.updateDofContacts.cont.map (fun c => c.rev) = s.cont.map (fun c => c.rev) ∧
    s.updateDofContacts.cont.map (fun c => c.dof) = s.cont.map (fun c => s.reg.dofOf c.id) := by
  constructor
  · change (s.cont.map _).map _ = _
    rw [List.map_map]
    rfl
  · change (s.cont.map _).map _ = _
    rw [List.map_map]
    rfl

/-! ## C41 -/

namespace Spec

/-- Operations on the registries, with their arguments. -/
inductive RegOp (K : Type) where
  | addVirtual (id : ContactId)
  | removeVirtual (id : ContactId)
  | resetVirtual
  | addDof (id : ContactId) (m : Mat K)
  | removeDof (id : ContactId)
  | resetDof
  | hasDof (id : ContactId)
  | getDof (id : ContactId)

/-- Replies. -/
inductive RegReply (K : Type) where
  | unit
  | bool (b : Bool)
  | mat (m : Mat K)

/-- The operation on the code. -/
def RegOp.run (s : ContactReg K) : RegOp K → RegReply K × ContactReg K
  | .addVirtual id => (.bool (s.addVirtual id).1, (s.addVirtual id).2)
  | .removeVirtual id => (.bool (s.removeVirtual id).1, (s.removeVirtual id).2)
  | .resetVirtual => (.unit, s.resetVirtual)
  | .addDof id m => (.bool (s.addDof id m).1, (s.addDof id m).2)
  | .removeDof id => (.bool (s.removeDof id).1, (s.removeDof id).2)
  | .resetDof => (.unit, s.resetDof)
  | .hasDof id => (.bool (s.hasDof id), s)
  | .getDof id => (.mat (s.dofContact id).1, (s.dofContact id).2)

/-- A set of ids and a map from ids to matrices. -/
structure RegSpec (K : Type) where
  virt : ContactId → Bool
  dofs : ContactId → Option (Mat K)

/-- What an operation must answer and do; `none` when the specification does not say (asking for the matrix
of an unknown contact). -/
def RegSpec.step (s : RegSpec K) : RegOp K → Option (RegReply K × RegSpec K)
  | .addVirtual id => some (.bool (!s.virt id), { s with virt := fun i => if i = id then true else s.virt i })
  | .removeVirtual id => some (.bool (s.virt id), { s with virt := fun i => if i = id then false else s.virt i })
  | .resetVirtual => some (.unit, { s with virt := fun _ => false })
  | .addDof id m => some (.bool (s.dofs id).isNone,
      { s with dofs := fun i => if i = id then some ((s.dofs id).getD m) else s.dofs i })
  | .removeDof id => some (.bool (s.dofs id).isSome,
      { s with dofs := fun i => if i = id then none else s.dofs i })
  | .resetDof => some (.unit, { s with dofs := fun _ => none })
  | .hasDof id => some (.bool (s.dofs id).isSome, s)
  | .getDof id => (s.dofs id).map fun m => (.mat m, s)

/-- What the registries mean. -/
def regMeans (s : ContactReg K) : RegSpec K :=
  ⟨fun id => (IdMap.find id s.virt).isSome, fun id => IdMap.find id s.dofs⟩

/-- A history on the code: the replies and the final state. -/
def runRegs (s : ContactReg K) : List (RegOp K) → List (RegReply K) × ContactReg K
  | [] => ([], s)
  | o :: t => ((o.run s).1 :: (runRegs (o.run s).2 t).1, (runRegs (o.run s).2 t).2)

/-- A history on the specification; `none` if it asks for the matrix of an unknown contact. -/
def runSpec (s : RegSpec K) : List (RegOp K) → Option (List (RegReply K) × RegSpec K)
  | [] => some ([], s)
  | o :: t => (s.step o).bind fun r => (runSpec r.2 t).map fun q => (r.1 :: q.1, q.2)

end Spec

/-- Both registries satisfy the invariant of `std::map`. -/
def RegSorted (s : ContactReg K) : Prop := IdMap.Sorted s.virt ∧ IdMap.Sorted s.dofs

theorem regOp_sorted {s : ContactReg K} (h : RegSorted s) (o : RegOp K) : RegSorted (o.run s).2 := by
  obtain ⟨h1, h2⟩ := h
  cases o with
  | addVirtual id => exact ⟨IdMap.sorted_insert h1, h2⟩
  | removeVirtual id => exact ⟨IdMap.sorted_erase h1, h2⟩
  | resetVirtual => exact ⟨List.Pairwise.nil, h2⟩
  | addDof id m => exact ⟨h1, IdMap.sorted_insert h2⟩
  | removeDof id => exact ⟨h1, IdMap.sorted_erase h2⟩
  | resetDof => exact ⟨h1, List.Pairwise.nil⟩
  | hasDof id => exact ⟨h1, h2⟩
  | getDof id =>
    change RegSorted (s.dofContact id).2
    unfold ContactReg.dofContact
    split
    · exact ⟨h1, h2⟩
    · exact ⟨h1, IdMap.sorted_insert h2⟩

theorem regOp_step {s : ContactReg K} (h : RegSorted s) (o : RegOp K) (r : RegReply K × RegSpec K)
    (hr : (regMeans s).step o = some r) : r = ((o.run s).1, regMeans (o.run s).2) := by
  obtain ⟨h1, h2⟩ := h
  cases o with
  | addVirtual id =>
    cases hr
    refine Prod.ext ?_ ?_
    · change RegReply.bool (!(IdMap.find id s.virt).isSome) = RegReply.bool (IdMap.find id s.virt).isNone
      cases IdMap.find id s.virt <;> rfl
    · change RegSpec.mk _ _ = RegSpec.mk _ _
      congr 1
      funext i
      change _ = (IdMap.find i (IdMap.insert id () s.virt)).isSome
      rw [IdMap.find_insert h1]
      split_ifs <;> rfl
  | removeVirtual id =>
    cases hr
    refine Prod.ext rfl ?_
    change RegSpec.mk _ _ = RegSpec.mk _ _
    congr 1
    funext i
    change _ = (IdMap.find i (IdMap.erase id s.virt)).isSome
    rw [IdMap.find_erase h1]
    split_ifs <;> rfl
  | resetVirtual => cases hr; rfl
  | addDof id m =>
    cases hr
    refine Prod.ext rfl ?_
    change RegSpec.mk _ _ = RegSpec.mk _ _
    congr 1
    funext i
    exact (IdMap.find_insert h2 id i m).symm
  | removeDof id =>
    cases hr
    refine Prod.ext rfl ?_
    change RegSpec.mk _ _ = RegSpec.mk _ _
    congr 1
    funext i
    exact (IdMap.find_erase h2 id i).symm
  | resetDof => cases hr; rfl
  | hasDof id => cases hr; rfl
  | getDof id =>
    change (IdMap.find id s.dofs).map _ = some r at hr
    rw [Option.map_eq_some_iff] at hr
    obtain ⟨m, h3, rfl⟩ := hr
    change _ = (RegReply.mat (s.dofContact id).1, regMeans (s.dofContact id).2)
    unfold ContactReg.dofContact
    rw [h3]

theorem runRegs_refines (l : List (RegOp K)) (s : ContactReg K) (h : RegSorted s)
    (q : List (RegReply K) × RegSpec K) (hq : runSpec (regMeans s) l = some q) :
    q = ((runRegs s l).1, regMeans (runRegs s l).2) := by
  induction l generalizing s q with
  | nil => cases hq; rfl
  | cons o t ih =>
    unfold runSpec at hq
    rw [Option.bind_eq_some_iff] at hq
    obtain ⟨r, h1, h2⟩ := hq
    have := regOp_step h o r h1
    subst this
    rw [Option.map_eq_some_iff] at h2
    obtain ⟨q', h3, rfl⟩ := h2
    have := ih _ (regOp_sorted h o) q' h3
    subst this
    rfl

/-- **C41** (partial: histories that ask for a matrix only when the contact has one).  From an empty
registry, every history answers and ends as a set of virtual contacts and a map of matrices do: `add…`
reports whether the id was absent (and keeps the matrix already there), `remove…` whether it was present,
queries change nothing.  The full property, for all histories, fails: `C41_query_counterexample`. -/
theorem C41_registry_partial (l : List (RegOp K)) (q : List (RegReply K) × RegSpec K)
    (hq : runSpec ⟨fun _ => false, fun _ => none⟩ l = some q) :
    (runRegs ContactReg.make l).1 = q.1 ∧ regMeans (runRegs ContactReg.make l).2 = q.2 := by
  have h0 : regMeans (ContactReg.make : ContactReg K) = ⟨fun _ => false, fun _ => none⟩ := by
    unfold regMeans ContactReg.make
    simp [IdMap.find]
  rw [← h0] at hq
  have hs : RegSorted (ContactReg.make : ContactReg K) := ⟨List.Pairwise.nil, List.Pairwise.nil⟩
  have := runRegs_refines l _ hs q hq
  subst this
  exact ⟨rfl, rfl⟩

/-- **C41** (violation): asking for the matrix of an unknown contact answers an empty matrix and registers
it; `hasDoFContact` then answers true, `addDofContact` is refused, and the next `updateNrVars` takes the
empty matrix instead of the identity. -/
theorem C41_query_counterexample (id : ContactId) (s : ContactReg K) (hs : RegSorted s)
    (h : s.hasDof id = false) (m : Mat K) :
    let s' := (s.dofContact id).2
    (s.dofContact id).1 = Mat.zero 0 0 ∧ s'.hasDof id = true ∧ (s'.addDof id m).1 = false ∧
      s.dofOf id = identity6 ∧ s'.dofOf id = Mat.zero 0 0 ∧ ((s'.addDof id m).2).dofOf id = Mat.zero 0 0 := by
  have hn : IdMap.find id s.dofs = none := by simpa [ContactReg.hasDof] using h
  have e : s.dofContact id = (Mat.zero 0 0, { s with dofs := s.dofs.insert id (Mat.zero 0 0) }) := by
    unfold ContactReg.dofContact
    rw [hn]
  have f : IdMap.find id (s.dofs.insert id (Mat.zero 0 0)) = some (Mat.zero 0 0) := by
    rw [IdMap.find_insert hs.2, if_pos rfl, hn]; rfl
  rw [e]
  refine ⟨rfl, ?_, ?_, ?_, ?_, ?_⟩
  · simp [ContactReg.hasDof, f]
  · simp [ContactReg.addDof, f]
  · unfold ContactReg.dofOf; rw [hn]; rfl
  · unfold ContactReg.dofOf; rw [f]; rfl
  · unfold ContactReg.dofOf ContactReg.addDof
    dsimp only
    rw [IdMap.find_insert (IdMap.sorted_insert hs.2), if_pos rfl, f]
    rfl

/-- **C41** (the one exception): on every history, `dofContact` of an unknown id is exactly
`addDofContact` of an empty matrix. -/
theorem C41_query_is_add (id : ContactId) (s : ContactReg K) (h : s.hasDof id = false) :
    (s.dofContact id).2 = (s.addDof id (Mat.zero 0 0)).2 := by
  have hn : IdMap.find id s.dofs = none := by simpa [ContactReg.hasDof] using h
  unfold ContactReg.dofContact
  rw [hn]
  rfl

/-! ## C42 -/

/-- **C42** (dedupe): after `updateNrVars` the constraint has exactly one entry per id that occurs among
the contacts of the problem and is not virtual, in increasing id order, with the data of the first contact
of the problem with that id. -/
theorem C42_dedupe (rks : List (RobotKin K)) (bidx : ℕ → String → Out ℕ) (d : SolverData K)
    (junk : ℕ → ℕ → K) (s s' : ContactC K) (h : s.updateNrVars rks bidx d junk = .ok s') :
    (s'.cont.map fun c => c.id).Pairwise (fun a b => a.lt b = true) ∧
    (∀ id, id ∈ s'.cont.map (fun c => c.id) ↔ Active d s.reg id) ∧
    ∀ c ∈ s'.cont, ∃ c₀, (d.allCont.find? fun c' => decide (c'.id = c.id)) = some c₀ ∧
      c.X_b1_cf = c₀.X_b1_cf ∧ c.X_b1_b2 = c₀.X_b1_b2 ∧ c.dof = s.reg.dofOf c.id := by
  unfold ContactC.updateNrVars at h
  obtain ⟨n, h1, h⟩ := Out.bind_eq_ok.mp h
  obtain ⟨cont, h2, h⟩ := Out.bind_eq_ok.mp h
  cases h
  obtain ⟨l', e2, f⟩ := build_loop _ _ _ h2
  rw [List.nil_append] at e2
  subst e2
  clear h2
  have ids : cont.map (fun c => c.id) = (s.reg.common d).map Prod.fst := by
    clear * - f
    generalize s.reg.common d = l at f
    induction f with
    | nil => rfl
    | cons hs _ ih => rw [List.map_cons, List.map_cons, hs.id, ih]
  refine ⟨?_, fun id => ?_, fun c hc => ?_⟩
  · change (cont.map fun c => c.id).Pairwise _
    rw [ids, List.pairwise_map]
    exact common_sorted d s.reg
  · change id ∈ cont.map (fun c => c.id) ↔ _
    rw [ids]
    exact common_active d s.reg id
  · obtain ⟨e, hm, hb⟩ := forall₂_mem_right f hc
    obtain ⟨-, c₀, k1, k2, k3⟩ := common_first hm
    exact ⟨c₀, by rw [hb.id]; exact k1, hb.cf.trans k2, hb.bb.trans k3, by rw [hb.dof, hb.id]⟩

/-- **C42** (construction): `updateNrVars` succeeds as soon as there is a robot and every non-virtual contact
refers to existing robots and bodies and has a selection matrix with at least six columns (or no row). -/
theorem C42_nrVars_ok (rks : List (RobotKin K)) (bidx : ℕ → String → Out ℕ) (d : SolverData K)
    (junk : ℕ → ℕ → K) (s : ContactC K) (hne : rks ≠ [])
    (hside : ∀ id, Active d s.reg id → ∀ t ∈ [(id.r1Index, id.r1BodyName), (id.r2Index, id.r2BodyName)],
      0 ≤ t.1 ∧ ∃ rk a, rks[t.1.toNat]? = some rk ∧ d.alphaDBegin[t.1.toNat]? = some a ∧
        (∃ p, rk.path t.2 = .ok p ∧ p ≠ []) ∧ ∃ b, bidx t.1.toNat t.2 = .ok b)
    (hdof : ∀ id, Active d s.reg id → (s.reg.dofOf id).rows = 0 ∨ 6 ≤ (s.reg.dofOf id).cols) :
    ∃ s', s.updateNrVars rks bidx d junk = .ok s' := by
  have hadd : ∀ (t : ℤ × String) (sign : K) (X : PT K) (l : List (ContactSide K)),
      (0 ≤ t.1 ∧ ∃ rk a, rks[t.1.toNat]? = some rk ∧ d.alphaDBegin[t.1.toNat]? = some a ∧
        (∃ p, rk.path t.2 = .ok p ∧ p ≠ []) ∧ ∃ b, bidx t.1.toNat t.2 = .ok b) →
      ∃ o, addSide rks bidx d t.1 t.2 sign X l = .ok o := by
    rintro t sign X l ⟨h0, rk, a, h1, h2, ⟨p, h3, h4⟩, b, h5⟩
    unfold addSide
    rw [vecAtI_ok h0 h1, Out.ok_bind]
    split_ifs
    · rw [vecAtI_ok h0 h2, Out.ok_bind, h3, Out.ok_bind]
      cases hb : p.getLast? with
      | none => exact absurd (List.getLast?_eq_none_iff.mp hb) h4
      | some b' => exact ⟨_, rfl⟩
    · rw [h5, Out.ok_bind]
      exact ⟨_, rfl⟩
  have hbuild : ∀ e ∈ s.reg.common d, ∃ c, buildContact rks bidx d s.reg e = .ok c := by
    intro e he
    have ha : Active d s.reg e.1 := (common_active d s.reg e.1).mp (List.mem_map_of_mem he)
    obtain ⟨o1, k1⟩ := hadd (e.1.r1Index, e.1.r1BodyName) 1 e.2.1 [] (hside _ ha _ (by simp))
    obtain ⟨o2, k2⟩ := hadd (e.1.r2Index, e.1.r2BodyName) (-1) (e.2.1.mul e.2.2.inv) o1.1
      (hside _ ha _ (by simp))
    unfold buildContact
    rw [k1, Out.ok_bind, k2, Out.ok_bind]
    unfold revOf
    rw [if_pos (hdof _ ha), Out.ok_bind]
    exact ⟨_, rfl⟩
  have hloop : ∀ (l : List (ContactId × PT K × PT K)) (acc : List (ContactData K)),
      (∀ e ∈ l, ∃ c, buildContact rks bidx d s.reg e = .ok c) →
      ∃ r, forEach l (fun c (l : List (ContactData K)) => do
        let cd ← buildContact rks bidx d s.reg c
        pure (l ++ [cd])) acc = .ok r := by
    intro l
    induction l with
    | nil => intro acc _; exact ⟨acc, rfl⟩
    | cons e t ih =>
      intro acc h
      obtain ⟨c, hc⟩ := h e (by simp)
      obtain ⟨r, hr⟩ := ih (acc ++ [c]) (fun e he => h e (by simp [he]))
      refine ⟨r, ?_⟩
      simp only [forEach, hc, Out.ok_bind, Out.pure_eq]
      exact hr
  obtain ⟨r, hr⟩ := hloop _ [] hbuild
  have hmax : ∃ n, maxDof (rks.map fun rk => rk.mb) = .ok n := by
    cases rks with
    | nil => exact absurd rfl hne
    | cons a t => exact ⟨_, rfl⟩
  obtain ⟨n, hn⟩ := hmax
  unfold ContactC.updateNrVars
  rw [hn, Out.ok_bind, hr, Out.ok_bind]
  exact ⟨_, rfl⟩

/-- **C42** (sizes): the allocated matrix has six rows per contact; the rows in use are those of the
selection matrices, at any point of an execution. They fit exactly when their sum does, in particular when
no selection matrix has more than six rows. -/
theorem C42_sizes (rks : List (RobotKin K)) (bidx : ℕ → String → Out ℕ) (hr : ContactRobotsOK rks bidx)
    (kind : ContactKind K) (d : SolverData K) (v g : ContactReg K) (s : ContactC K)
    (h : ContactRun rks bidx kind (some (d, v, g)) s) :
    s.eq.maxEq = 6 * s.cont.length ∧ s.eq.nrEq = (s.cont.map fun c => c.dof.rows).sum ∧
      ((∀ c ∈ s.cont, c.dof.rows ≤ 6) → s.eq.nrEq ≤ s.eq.maxEq) := by
  have I := contactInv hr h d v g rfl
  obtain ⟨maxD, -, R⟩ := I.buf
  refine ⟨R.rows.trans (Nat.mul_comm _ _), I.nrEq, fun hc => ?_⟩
  change s.nrEq ≤ s.buf.A.rows
  rw [R.rows, I.nrEq]
  clear I R h
  generalize s.cont = l at hc
  induction l with
  | nil => simp
  | cons c t ih =>
    have := hc c (by simp)
    have := ih (fun c h => hc c (by simp [h]))
    rw [contRows_cons, List.length_cons]
    omega

theorem contactSide_rows {mbs : List (MultiBody K)} {env : ContactEnv K} {kind : ContactKind K}
    {dof : Mat K} {index : ℕ} {c : ContactSide K} {B B' : ContactBuf K} {n tot N maxD : ℕ}
    (h : contactSide mbs env kind dof index c B = .ok B') (R : BufOK n tot N maxD B) : dof.rows ≤ 6 := by
  unfold contactSide at h
  obtain ⟨mb, -, h⟩ := Out.bind_eq_ok.mp h
  obtain ⟨X, -, h⟩ := Out.bind_eq_ok.mp h
  obtain ⟨P, h3, h⟩ := Out.bind_eq_ok.mp h
  obtain ⟨_, -, h⟩ := Out.bind_eq_ok.mp h
  obtain ⟨dj, h5, h⟩ := Out.bind_eq_ok.mp h
  unfold Mat.mul at h3
  split at h3
  · cases h3
    unfold Mat.setBlock at h5
    split at h5
    · rename_i hc
      have := hc.1
      rw [R.dr] at this
      dsimp only at this
      omega
    · cases h5
  · cases h3

theorem contactLoop_rows {mbs : List (MultiBody K)} {env : ContactEnv K} {kind : ContactKind K}
    {n tot N maxD : ℕ} (l : List (ContactData K))
    (hs : ∀ c ∈ l, ∀ k ∈ c.contacts.map sideKey, SideOK mbs tot maxD k)
    (s r : ContactBuf K × ℕ × List (ContactData K)) (R : BufOK n tot N maxD s.1)
    (h : forEach l (contactStep mbs env kind) s = .ok r) : ∀ c ∈ l, c.dof.rows ≤ 6 := by
  induction l generalizing s with
  | nil => intro c hc; simp at hc
  | cons a t ih =>
    obtain ⟨s1, h1, h⟩ := Out.bind_eq_ok.mp h
    obtain ⟨c', h2, h1⟩ := Out.bind_eq_ok.mp h1
    obtain ⟨B1, h3, h1⟩ := Out.bind_eq_ok.mp h1
    obtain ⟨B2, h4, h1⟩ := Out.bind_eq_ok.mp h1
    cases h1
    have same := contactData_update_same h2
    have R1 := contactSides_frame h3 (by rw [same.sides]; exact hs a (by simp)) R
    have R2 := contactPosTerm_frame h4 R1
    intro c hc
    rcases List.mem_cons.mp hc with rfl | hc
    · cases hcc : c'.contacts with
      | nil =>
        have : c.contacts = [] := by
          have := same.sides
          rw [hcc] at this
          simpa using this.symm
        unfold ContactData.update at h2
        rw [this] at h2
        cases h2
      | cons sd t' =>
        rw [hcc] at h3
        obtain ⟨B0, h5, -⟩ := Out.bind_eq_ok.mp h3
        rw [← same.dof]
        exact contactSide_rows h5 R
    · exact ih (fun c hc => hs c (by simp [hc])) _ R2 h c hc

/-- **C42** (too many rows): an update with a selection matrix of more than six rows never succeeds: the
buffer it writes has six. -/
theorem C42_too_many_rows (rks : List (RobotKin K)) (bidx : ℕ → String → Out ℕ) (hr : ContactRobotsOK rks bidx)
    (kind : ContactKind K) (d : SolverData K) (v g : ContactReg K) (s s' : ContactC K)
    (h : ContactRun rks bidx kind (some (d, v, g)) s) (env : ContactEnv K) (c : ContactData K) (hc : c ∈ s.cont)
    (h6 : 6 < c.dof.rows) : s.update (rks.map fun rk => rk.mb) env kind ≠ .ok s' := by
  intro hu
  have I := contactInv hr h d v g rfl
  obtain ⟨h1, h2, h3, ⟨maxD, h4, h5⟩, hfit⟩ := I
  unfold ContactC.update at hu
  obtain ⟨B, k1, hu⟩ := Out.bind_eq_ok.mp hu
  obtain ⟨r, k2, -⟩ := Out.bind_eq_ok.mp hu
  have R := contactClear_frame k1 h5
  have hs : ∀ c ∈ s.cont, ∀ k ∈ c.contacts.map sideKey,
      SideOK (rks.map fun rk => rk.mb) d.totalAlphaD maxD k := fun c hc => by
    obtain ⟨e, -, he⟩ := forall₂_mem_right h1 hc
    exact (stored_ok hr h4 hfit he).2
  exact absurd (contactLoop_rows s.cont hs _ _ R k2 c hc) (by omega)

/-- **C42** (partial: all selection matrices have six rows).  `descEq` of a line describes the contact the
line belongs to.  The full property, for any row counts, fails: `C42_desc_counterexample`. -/
theorem C42_desc_partial (s : ContactC K) (h6 : ∀ c ∈ s.cont, c.dof.rows = 6) (l₁ l₂ : List (ContactData K))
    (c : ContactData K) (hl : s.cont = l₁ ++ c :: l₂) (q : ℕ) (hq : q < c.dof.rows) :
    s.desc ((l₁.map fun c => c.dof.rows).sum + q)
      = .ok (c.contacts.map fun sd => (sd.robotIndex, sd.bodyIndex)) := by
  have h1 : (l₁.map fun c => c.dof.rows).sum = 6 * l₁.length := by
    have : ∀ l : List (ContactData K), (∀ c ∈ l, c.dof.rows = 6) →
        (l.map fun c => c.dof.rows).sum = 6 * l.length := by
      intro l
      induction l with
      | nil => intro _; rfl
      | cons c t ih =>
        intro h
        rw [List.map_cons, List.sum_cons, h c (by simp), ih (fun c hc => h c (by simp [hc])), List.length_cons]
        ring
    exact this l₁ fun c hc => h6 c (by rw [hl]; simp [hc])
  have h2 := h6 c (by rw [hl]; simp)
  unfold ContactC.desc
  rw [h1, show (6 * l₁.length + q) / 6 = l₁.length by omega, hl,
    (vecAt_eq_ok.mpr (by simp) : vecAt (l₁ ++ c :: l₂) l₁.length = .ok c)]
  rfl

/-- **C42** (violation): a contact with fewer than six rows shifts the lines of the contacts after it but
not their descriptions: if the first contact has fewer rows, the first line of the second contact (line
`c₁.dof.rows`) is described as the first contact. -/
theorem C42_desc_counterexample (s : ContactC K) (c₁ c₂ : ContactData K) (l : List (ContactData K))
    (hs : s.cont = c₁ :: c₂ :: l) (h : c₁.dof.rows < 6) :
    s.desc c₁.dof.rows = .ok (c₁.contacts.map fun sd => (sd.robotIndex, sd.bodyIndex)) := by
  unfold ContactC.desc
  rw [Nat.div_eq_of_lt h, hs]
  rfl

/-- **C42** (violation): contacts between two robots without degrees of freedom are not left out, and
updating a constraint that has one is undefined behaviour (the first side is read from an empty list). -/
theorem C42_immobile_ub (rks : List (RobotKin K)) (bidx : ℕ → String → Out ℕ)
    (kind : ContactKind K) (d : SolverData K) (v g : ContactReg K) (s s' : ContactC K)
    (hr : ContactRobotsOK rks bidx)
    (h : ContactRun rks bidx kind (some (d, v, g)) s) (id : ContactId) (ha : Active d v id)
    (h1 : ¬ Mobile rks id.r1Index) (h2 : ¬ Mobile rks id.r2Index) (env : ContactEnv K) :
    id ∈ s.cont.map (fun c => c.id) ∧ s.update (rks.map fun rk => rk.mb) env kind ≠ .ok s' := by
  have I := contactInv hr h d v g rfl
  have ids : s.cont.map (fun c => c.id) = (v.common d).map Prod.fst := by
    have st := I.stored
    clear I h
    generalize v.common d = l at st
    generalize s.cont = m at st
    induction st with
    | nil => rfl
    | cons hs _ ih => rw [List.map_cons, List.map_cons, hs.id, ih]
  have hm : id ∈ s.cont.map (fun c => c.id) := by rw [ids]; exact (common_active d v id).mpr ha
  refine ⟨hm, fun hu => ?_⟩
  obtain ⟨c, hc, rfl⟩ := List.mem_map.mp hm
  obtain ⟨e, -, st⟩ := forall₂_mem_right I.stored hc
  have hnil : c.contacts = [] := by
    obtain ⟨l1, l2, X2, g1, ⟨-, rk, m1, ⟨m2, -⟩ | ⟨-, -, rfl⟩⟩, ⟨-, rk', m1', ⟨m2', -⟩ | ⟨-, -, rfl⟩⟩⟩ := st.sides
    · exact absurd ⟨rk, by rw [st.id]; exact m1, m2⟩ h1
    · exact absurd ⟨rk, by rw [st.id]; exact m1, m2⟩ h1
    · exact absurd ⟨rk', by rw [st.id]; exact m1', m2'⟩ h2
    · exact g1
  unfold ContactC.update at hu
  obtain ⟨B, k1, hu⟩ := Out.bind_eq_ok.mp hu
  obtain ⟨r, k2, -⟩ := Out.bind_eq_ok.mp hu
  obtain ⟨l₁, l₂, hl⟩ := List.append_of_mem hc
  rw [hl] at k2
  have key : ∀ (l : List (ContactData K)) (s r : ContactBuf K × ℕ × List (ContactData K)),
      forEach (l ++ c :: l₂) (contactStep (rks.map fun rk => rk.mb) env kind) s = .ok r → False := by
    intro l
    induction l with
    | nil =>
      intro s r h
      obtain ⟨s1, h1, -⟩ := Out.bind_eq_ok.mp h
      obtain ⟨c', h2, -⟩ := Out.bind_eq_ok.mp h1
      unfold ContactData.update at h2
      rw [hnil] at h2
      cases h2
    | cons a t ih =>
      intro s r h
      obtain ⟨s1, -, h⟩ := Out.bind_eq_ok.mp h
      exact ih _ _ h
  exact key _ _ _ k2

end

/-! ### Non-vacuity -/

namespace ContactEx

/-- A robot with two one-dof joints and a fixed robot. -/
def rks : List (RobotKin ℚ) :=
  [⟨⟨[⟨"j0", 1, none⟩, ⟨"j1", 1, none⟩], 2, [-1, 0], [0, 1]⟩, fun n => if n = "arm" then .ok [0, 1] else .ok [0]⟩,
   ⟨⟨[⟨"fixed", 0, none⟩], 1, [-1], [0]⟩, fun _ => .ok [0]⟩]

def bidx : ℕ → String → Out ℕ := fun _ _ => .ok 0

def bb : PT ℚ := ⟨M3.one, ⟨1, 2, 3⟩⟩
def cf : PT ℚ := ⟨M3.one, ⟨0, 0, 1⟩⟩
/-- Arm against the ground, arm against the base of the same robot, and a duplicate of the first. -/
def bi : List (BiContact ℚ) :=
  [⟨⟨0, 1, "arm", "ground", 0⟩, [], [], [], [], bb, cf⟩, ⟨⟨0, 0, "arm", "base", 0⟩, [], [], [], [], bb, cf⟩,
   ⟨⟨0, 1, "arm", "ground", 0⟩, [], [], [], [], PT.one, cf⟩]

def env : ContactEnv ℚ :=
  ⟨[[PT.one, PT.one], [PT.one]], fun r p _ => ⟨6, ((rks[r]?).map fun rk => pathDof rk.mb p).getD 0,
    fun i j => i + j⟩, fun _ _ _ k => k,
    fun _ _ _ _ => 1, fun _ _ _ => 1, fun _ _ _ => M3.one, fun _ => 0⟩

theorem good : GoodInput (rks.map fun rk => rk.mb) bi := by
  refine ⟨?_, ?_⟩
  · intro m hm j hj l q hl
    simp only [rks, List.map_cons, List.map_nil, List.mem_cons, List.not_mem_nil, or_false] at hm
    rcases hm with rfl | rfl <;> simp only [List.mem_cons, List.not_mem_nil, or_false] at hj
    · rcases hj with rfl | rfl <;> cases hl
    · subst hj; cases hl
  · intro c hc
    simp only [bi, List.mem_cons, List.not_mem_nil, or_false] at hc
    rcases hc with rfl | rfl | rfl <;> simp

theorem robots : ContactRobotsOK rks bidx := by
  have h0 : ∀ rk ∈ rks, ∀ name p, rk.path name = .ok p → p = [0] ∨ (p = [0, 1] ∧ rk.mb.joints.length = 2 ∧
      rk.mb.nrBodies = 2) := by
    intro rk hrk name p hp
    simp only [rks, List.mem_cons, List.not_mem_nil, or_false] at hrk
    rcases hrk with rfl | rfl
    · dsimp only at hp
      split at hp
      · cases hp; right; exact ⟨rfl, rfl, rfl⟩
      · cases hp; left; rfl
    · cases hp; left; rfl
  have h1 : ∀ rk ∈ rks, 0 < rk.mb.joints.length ∧ 0 < rk.mb.nrBodies := by
    intro rk hrk
    simp only [rks, List.mem_cons, List.not_mem_nil, or_false] at hrk
    rcases hrk with rfl | rfl <;> simp
  refine ⟨?_, ?_, ?_, ?_⟩
  · intro rk hrk name p hp i hi
    rcases h0 rk hrk name p hp with rfl | ⟨rfl, h2, h3⟩
    · simp only [List.mem_cons, List.not_mem_nil, or_false] at hi
      subst hi; exact (h1 rk hrk).1
    · rw [h2]
      simp only [List.mem_cons, List.not_mem_nil, or_false] at hi
      omega
  · intro rk hrk name p hp
    rcases h0 rk hrk name p hp with rfl | ⟨rfl, -, -⟩ <;> simp
  · intro rk hrk name p b hp hb
    rcases h0 rk hrk name p hp with rfl | ⟨rfl, h2, h3⟩
    · cases hb; exact (h1 rk hrk).2
    · simp only [List.getLast?_cons_cons, List.getLast?_singleton, Option.some.injEq] at hb
      omega
  · intro r rk name b hrk hb
    cases hb
    exact (h1 rk (List.mem_of_getElem? hrk)).2

theorem envOK : ContactEnvOK rks env := by
  refine ⟨?_, ?_⟩
  · intro r rk hrk
    match r, hrk with
    | 0, hrk => cases hrk; exact ⟨_, rfl, rfl⟩
    | 1, hrk => cases hrk; exact ⟨_, rfl, rfl⟩
  · intro r rk path X hrk
    refine ⟨rfl, ?_⟩
    dsimp only [env]
    rw [hrk]
    rfl

/-- Identity for the ground contact, only three rows for the other one. -/
def reg : ContactReg ℚ :=
  (ContactReg.make.addDof ⟨0, 0, "arm", "base", 0⟩ ⟨3, 6, fun i j => if j = i + 3 then 1 else 0⟩).2

theorem reg_dofs (id : ContactId) : (reg.dofOf id).rows ≤ 6 ∧ (reg.dofOf id).cols = 6 := by
  unfold ContactReg.dofOf reg ContactReg.addDof ContactReg.make
  dsimp only
  rw [show IdMap.insert (⟨0, 0, "arm", "base", 0⟩ : ContactId)
    (⟨3, 6, fun i j => if j = i + 3 then 1 else 0⟩ : Mat ℚ) [] = [(_, _)] from rfl, IdMap.find_cons]
  split
  · exact ⟨by simp, rfl⟩
  · exact ⟨le_rfl, rfl⟩

/-- Hypotheses of C40 and C42, in an execution with an update and an `updateDofContacts`: there are two
contacts (the duplicate is dropped). -/
example : ∃ d g s, ContactRun rks bidx (.pos (1/100)) (some (d, ContactReg.make, g)) s ∧
    (∀ id, Active d ContactReg.make id ↔ id = ⟨0, 1, "arm", "ground", 0⟩ ∨ id = ⟨0, 0, "arm", "base", 0⟩) ∧
    s.cont.length = 2 ∧ KindOK (ContactKind.pos (1/100 : ℚ)) ∧ ContactRobotsOK rks bidx ∧ ContactEnvOK rks env ∧
    (∀ id, Active d ContactReg.make id → (g.dofOf id).rows ≤ 6 ∧ (g.dofOf id).cols = 6) ∧
    (∀ id, Active d ContactReg.make id → Mobile rks id.r1Index ∨ Mobile rks id.r2Index) ∧
    (∃ c ∈ s.cont, c.id = ⟨0, 1, "arm", "ground", 0⟩ ∧ Locks ((ContactReg.make : ContactReg ℚ).dofOf c.id)) ∧
    cf.E.RowsOrtho ∧ bb.E.RowsOrtho := by
  obtain ⟨d, deps, e, L⟩ := layout_ok SolverData.init (rks.map fun rk => rk.mb) [] bi good.1 good.2
  have hall : d.allCont = bi := by rw [L.allCont]; rfl
  have hact : ∀ id, Active d (ContactReg.make : ContactReg ℚ) id ↔
      id = ⟨0, 1, "arm", "ground", 0⟩ ∨ id = ⟨0, 0, "arm", "base", 0⟩ := by
    intro id
    unfold Active
    rw [hall]
    simp only [bi, List.mem_cons, List.not_mem_nil, or_false]
    constructor
    · rintro ⟨-, c, rfl | rfl | rfl, rfl⟩
      · exact .inl rfl
      · exact .inr rfl
      · exact .inl rfl
    · rintro (rfl | rfl)
      · exact ⟨rfl, _, .inl rfl, rfl⟩
      · exact ⟨rfl, _, .inr (.inl rfl), rfl⟩
  have hmob0 : Mobile rks 0 := ⟨_, rfl, by norm_num [MultiBody.nrDof]⟩
  have hmob : ∀ id, Active d (ContactReg.make : ContactReg ℚ) id → Mobile rks id.r1Index ∨ Mobile rks id.r2Index := by
    intro id h
    rcases (hact id).mp h with rfl | rfl
    · exact .inl hmob0
    · exact .inl hmob0
  have hbegin : d.alphaDBegin = [0, 2] := by rw [L.alphaDBegin]; rfl
  obtain ⟨s₁, e₁⟩ := C42_nrVars_ok rks bidx d (fun _ _ => 5) ContactC.make (by simp [rks]) (by
    intro id h t ht
    have h0 : (0 : ℤ) ≤ 0 ∧ ∃ rk a, rks[(0 : ℤ).toNat]? = some rk ∧ d.alphaDBegin[(0 : ℤ).toNat]? = some a ∧
        ∀ n, (∃ p, rk.path n = .ok p ∧ p ≠ []) ∧ ∃ b, bidx (0 : ℤ).toNat n = .ok b := by
      refine ⟨le_rfl, _, 0, rfl, by rw [hbegin]; rfl, fun n => ⟨?_, _, rfl⟩⟩
      dsimp only
      split
      · exact ⟨_, rfl, by simp⟩
      · exact ⟨_, rfl, by simp⟩
    have h1 : (0 : ℤ) ≤ 1 ∧ ∃ rk a, rks[(1 : ℤ).toNat]? = some rk ∧ d.alphaDBegin[(1 : ℤ).toNat]? = some a ∧
        ∀ n, (∃ p, rk.path n = .ok p ∧ p ≠ []) ∧ ∃ b, bidx (1 : ℤ).toNat n = .ok b :=
      ⟨by norm_num, _, 2, rfl, by rw [hbegin]; rfl, fun n => ⟨⟨_, rfl, by simp⟩, _, rfl⟩⟩
    obtain ⟨h00, rk0, a0, g1, g2, g3⟩ := h0
    obtain ⟨h01, rk1, a1, g4, g5, g6⟩ := h1
    rcases (hact id).mp h with rfl | rfl <;>
      simp only [List.mem_cons, List.not_mem_nil, or_false] at ht <;> rcases ht with rfl | rfl
    · exact ⟨h00, rk0, a0, g1, g2, g3 _⟩
    · exact ⟨h01, rk1, a1, g4, g5, g6 _⟩
    · exact ⟨h00, rk0, a0, g1, g2, g3 _⟩
    · exact ⟨h00, rk0, a0, g1, g2, g3 _⟩) (fun id _ => .inr (le_of_eq rfl))
  have run₁ : ContactRun rks bidx (.pos (1/100)) (some (d, ContactReg.make, ContactReg.make)) s₁ :=
    .nrVars _ _ _ _ _ [] bi deps _ .make good e e₁
  obtain ⟨s₂, e₂, -⟩ := C40_rows rks bidx robots (.pos (1/100)) (by norm_num [KindOK]) d _ _ s₁ run₁ env envOK
    (fun id _ => ⟨le_rfl, rfl⟩) hmob
  have run₂ := ContactRun.dofs _ _ (ContactRun.registry _ _ reg (.update _ _ _ env run₁ rfl e₂))
  obtain ⟨s₃, e₃, p1, p2, -⟩ := C40_rows rks bidx robots (.pos (1/100)) (by norm_num [KindOK]) d _ reg _ run₂ env
    envOK (fun id _ => reg_dofs id) hmob
  have run₃ := ContactRun.update _ _ _ env run₂ rfl e₃
  refine ⟨d, reg, s₃, run₃, hact, ?_, by norm_num [KindOK], robots, envOK, fun id _ => reg_dofs id, hmob, ?_, ?_, ?_⟩
  · rw [← List.length_map (f := fun c : ContactData ℚ => c.id)]
    have : (s₃.cont.map fun c => c.id).Perm
        [⟨0, 1, "arm", "ground", 0⟩, ⟨0, 0, "arm", "base", 0⟩] := by
      rw [List.perm_ext_iff_of_nodup p1 (by simp)]
      intro id
      rw [p2 id, hact id]
      simp
    rw [this.length_eq]
    rfl
  · obtain ⟨c, hc, hid⟩ := List.mem_map.mp ((p2 ⟨0, 1, "arm", "ground", 0⟩).mpr ((hact _).mpr (.inl rfl)))
    exact ⟨c, hc, hid, C40_default_locks _ _ rfl⟩
  · norm_num [cf, M3.one, M3.RowsOrtho, V3.dot]
  · norm_num [bb, M3.one, M3.RowsOrtho, V3.dot]

/-- A history meeting the hypothesis of C41, with a query and a refused addition. -/
example (id : ContactId) (m m' : Mat ℚ) :
    (runSpec ⟨fun _ => false, fun _ => none⟩ [.addDof id m, .addDof id m', .getDof id, .addVirtual id,
      .removeVirtual id, .removeVirtual id]).map Prod.fst
      = some [.bool true, .bool false, .mat m, .bool true, .bool true, .bool false] := by
  simp [runSpec, RegSpec.step]

end ContactEx

end Verif
