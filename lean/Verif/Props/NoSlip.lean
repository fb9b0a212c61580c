import Verif.Props.ContactConstr
import Verif.Props.Converge

/-!
# C63: contacts do not slip

Along every motion whose accelerations satisfy the rows of a contact acceleration constraint at every
instant, the selected components of the relative velocity of the two contact frames do not change;
with a contact speed constraint they decrease exponentially.  A contact whose six directions are
constrained and whose frames coincide with no relative velocity at the start keeps its two frames
together for ever.
-/

set_option autoImplicit false
set_option linter.unusedSectionVars false

namespace Verif

open Finset Spec

/-! ## Frames moving together -/

/-- Two rigid frames that move with the same velocity (each in its own coordinates) and coincide at
time 0 coincide ever after. -/
theorem frames_together {X1 X2 : ℝ → PT ℝ} {U : ℝ → MV ℝ} (h1 : ∀ t, 0 ≤ t → FrameMoves X1 (U t) t)
    (h2 : ∀ t, 0 ≤ t → FrameMoves X2 (U t) t) (r1 : ∀ t, 0 ≤ t → (X1 t).Rigid)
    (r2 : ∀ t, 0 ≤ t → (X2 t).Rigid) (h0 : X1 0 = X2 0) {t : ℝ} (ht : 0 ≤ t) : X1 t = X2 t := by
  have hd : ∀ t, 0 ≤ t → ∀ v w, ((X1 t).E.mulVec v).dot ((X2 t).E.mulVec w) = v.dot w := by
    intro t ht v w
    have c := const_of_hasDerivAt_zero
      (f := fun τ => ((X1 τ).E.mulVec v).dot ((X2 τ).E.mulVec w)) (fun t ht => by
        refine (((h1 t ht).1 v).dot ((h2 t ht).1 w)).congr_deriv ?_
        simp [V3.dot]
        ring) ht
    rw [c, h0]
    exact (r2 0 le_rfl).1.dot_mulVec v w
  have hE : ∀ t, 0 ≤ t → (X1 t).E = (X2 t).E := by
    intro t ht
    have hv : ∀ w, (X1 t).E.mulVec w = (X2 t).E.mulVec w := by
      intro w
      have h3 : (X1 t).E.transpose.mulVec ((X2 t).E.mulVec w) = w := by
        have h4 : ∀ v : V3 ℝ, v.dot ((X1 t).E.transpose.mulVec ((X2 t).E.mulVec w)) = v.dot w := by
          intro v
          rw [M3.dot_mulVec, M3.transpose_transpose]
          exact hd t ht v w
        have hx := h4 ⟨1, 0, 0⟩
        have hy := h4 ⟨0, 1, 0⟩
        have hz := h4 ⟨0, 0, 1⟩
        simp only [V3.dot, one_mul, zero_mul, add_zero, zero_add] at hx hy hz
        exact V3.ext hx hy hz
      have h5 := congrArg (X1 t).E.mulVec h3
      rw [(r1 t ht).1.mulVec_transpose] at h5
      exact h5.symm
    have hx := hv ⟨1, 0, 0⟩
    have hy := hv ⟨0, 1, 0⟩
    have hz := hv ⟨0, 0, 1⟩
    simp only [M3.mulVec, V3.dot, mul_one, mul_zero, add_zero, zero_add, V3.mk.injEq] at hx hy hz
    obtain ⟨a0, a1, a2⟩ := hx
    obtain ⟨b0, b1, b2⟩ := hy
    obtain ⟨c0, c1, c2⟩ := hz
    exact M3.ext (V3.ext a0 b0 c0) (V3.ext a1 b1 c1) (V3.ext a2 b2 c2)
  have hD : ∀ t, 0 ≤ t → HasD3 (fun τ => (X1 τ).r - (X2 τ).r) 0 t := fun t ht =>
    ((h1 t ht).2.sub (h2 t ht).2).congr_deriv (by rw [hE t ht, sub_self])
  have ex := const_of_hasDerivAt_zero (fun t ht => (hD t ht).1) ht
  have ey := const_of_hasDerivAt_zero (fun t ht => (hD t ht).2.1) ht
  have ez := const_of_hasDerivAt_zero (fun t ht => (hD t ht).2.2) ht
  dsimp only at ex ey ez
  rw [h0, sub_self] at ex ey ez
  exact PT.ext (hE t ht) (sub_eq_zero.1 (V3.ext ex ey ez))

/-! ## Statement -/

namespace Spec

/-- A motion vector from its entries, angular part first. -/
def mvOf {K : Type} (f : ℕ → K) : MV K := ⟨⟨f 0, f 1, f 2⟩, ⟨f 3, f 4, f 5⟩⟩

/-- World pose of frame `X` of a body. -/
def sidePose {K : Type} [Field K] [LinearOrder K] [IsStrictOrderedRing K] (rks : List (RobotKin K))
    (bidx : ℕ → String → Out ℕ) (env : ContactEnv K) (r : ℤ) (body : String) (X : PT K) : PT K :=
  X.mul ((bodyPose rks bidx env r body).getD PT.one)

/-- The robots move with the accelerations `y`: at every time what the constraint reads (`env`) is
what RBDyn computes from the state of each robot, and every robot follows its kinematics (`Evolves`);
the robots without degrees of freedom stay where they are. -/
structure EnvMoves (rks : List (RobotKin ℝ)) (d : SolverData ℝ) (env : ℝ → ContactEnv ℝ)
    (st : ℕ → ℝ → KState ℝ) (x : ℕ → ℝ → ℕ → ℝ) (y : ℝ → ℕ → ℝ) : Prop where
  mobile : ∀ (r : ℕ) (rk : RobotKin ℝ), rks[r]? = some rk → 0 < rk.mb.nrDof → ∃ a, d.alphaDBegin[r]? = some a ∧
    (∀ t, (env t).bodyPosW[r]? = some (st r t).bodyPosW) ∧
    ∀ body path, rk.path body = .ok path →
      (∀ t, 0 ≤ t → Evolves rk.mb (st r) path (x r) (fun q => y t (a + q)) t) ∧
      ∀ t X,
        Jac.jacobianAt rk.mb (st r t) ⟨path, 0⟩ X = .ok ((env t).jac r path X) ∧
        (∃ V, Jac.velocityAt (st r t) ⟨path, 0⟩ X = .ok V ∧ ∀ k < 6, (env t).vel r path X k = V.get k) ∧
        ∃ W, Jac.normalAccAt (st r t) ⟨path, 0⟩ X 0 = .ok W ∧ ∀ k < 6, (env t).nacc r path X k = W.get k
  fixed : ∀ (r : ℕ) (rk : RobotKin ℝ), rks[r]? = some rk → rk.mb.nrDof = 0 → ∃ l : List (PT ℝ),
    (∀ t, (env t).bodyPosW[r]? = some l) ∧ ∀ X ∈ l, X.Rigid

end Spec

/-! ## One side -/

section
variable {rks : List (RobotKin ℝ)} {bidx : ℕ → String → Out ℕ} {d : SolverData ℝ}
  {env : ℝ → ContactEnv ℝ} {st : ℕ → ℝ → KState ℝ} {x : ℕ → ℝ → ℕ → ℝ} {y : ℝ → ℕ → ℝ}

theorem mvOf_get {V : MV ℝ} {f : ℕ → ℝ} (h : ∀ k < 6, f k = V.get k) : mvOf f = V := by
  have h0 := h 0 (by norm_num)
  have h1 := h 1 (by norm_num)
  have h2 := h 2 (by norm_num)
  have h3 := h 3 (by norm_num)
  have h4 := h 4 (by norm_num)
  have h5 := h 5 (by norm_num)
  unfold mvOf
  rw [h0, h1, h2, h3, h4, h5]
  rfl

/-- A frame of a body moves with its reported velocity, and the derivative of this velocity is the
acceleration of the rows. -/
theorem side_moves (h : EnvMoves rks d env st x y) (r : ℤ) (body : String) {X : PT ℝ} (hX : X.Rigid)
    {t : ℝ} (ht : 0 ≤ t) :
    (∀ τ, (sidePose rks bidx (env τ) r body X).Rigid) ∧
    FrameMoves (fun τ => sidePose rks bidx (env τ) r body X) (mvOf (frameVel rks (env t) r body X)) t ∧
    ∀ k < 6, HasDerivAt (fun τ => frameVel rks (env τ) r body X k)
      (frameAcc rks bidx d (env t) (y t) r body X k) t := by
  have still : ∀ P : PT ℝ, P.Rigid → (∀ τ, (bodyPose rks bidx (env τ) r body).getD PT.one = P) →
      (∀ τ k, frameVel rks (env τ) r body X k = 0) →
      (∀ k, frameAcc rks bidx d (env t) (y t) r body X k = 0) →
      (∀ τ, (sidePose rks bidx (env τ) r body X).Rigid) ∧
      FrameMoves (fun τ => sidePose rks bidx (env τ) r body X) (mvOf (frameVel rks (env t) r body X)) t ∧
      ∀ k < 6, HasDerivAt (fun τ => frameVel rks (env τ) r body X k)
        (frameAcc rks bidx d (env t) (y t) r body X k) t := by
    intro P hP h1 h2 h3
    unfold sidePose
    simp only [h1, h2, h3]
    refine ⟨fun _ => hX.mul hP, ?_, fun k _ => hasDerivAt_const _ _⟩
    rw [show mvOf (frameVel rks (env t) r body X) = 0 from mvOf_get fun k _ => by
      rw [h2]; unfold MV.get; split <;> (unfold V3.get; split <;> rfl)]
    exact FrameMoves.fixed _ t
  cases hrk : rks[r.toNat]? with
  | none =>
    refine still PT.one M3.isRot_one (fun τ => ?_) (fun τ k => ?_) fun k => ?_
    · unfold bodyPose bodyIdx; rw [hrk]; rfl
    · unfold frameVel; rw [hrk]; rfl
    · unfold frameAcc; rw [hrk]; rfl
  | some rk =>
    by_cases hdof : rk.mb.nrDof = 0
    · obtain ⟨l, hl, hr⟩ := h.fixed _ _ hrk hdof
      have hb : ∀ τ, bodyPose rks bidx (env τ) r body = (bodyIdx rks bidx r body).bind fun b => l[b]? := by
        intro τ; unfold bodyPose; rw [hl τ]; rfl
      refine still (((bodyIdx rks bidx r body).bind fun b => l[b]?).getD PT.one) ?_
        (fun τ => by rw [hb]) (fun τ k => ?_) fun k => ?_
      · cases e : (bodyIdx rks bidx r body).bind fun b => l[b]? with
        | none => exact M3.isRot_one
        | some P =>
          obtain ⟨b, -, e2⟩ := Option.bind_eq_some_iff.1 e
          exact hr P (List.mem_of_getElem? e2)
      · unfold frameVel; rw [hrk]; simp [hdof]
      · unfold frameAcc; rw [hrk]; simp [hdof]
    · have hpos : 0 < rk.mb.nrDof := Nat.pos_of_ne_zero hdof
      obtain ⟨a, ha, hpose, hpath⟩ := h.mobile _ _ hrk hpos
      cases hp : okOf (rk.path body) with
      | none =>
        refine still PT.one M3.isRot_one (fun τ => ?_) (fun τ k => ?_) fun k => ?_
        · unfold bodyPose bodyIdx; rw [hrk]; simp [hpos, hp]
        · unfold frameVel; rw [hrk]; simp [hdof, hp]
        · unfold frameAcc; rw [hrk]; simp [hdof, hp, ha]
      | some path =>
        have hp' : rk.path body = .ok path := by
          cases e : rk.path body with
          | ok q => rw [e] at hp; simp only [okOf, Option.some.injEq] at hp; rw [hp]
          | ub => rw [e] at hp; cases hp
          | throws q => rw [e] at hp; cases hp
        obtain ⟨hev, henv⟩ := hpath _ _ hp'
        obtain ⟨N, hN⟩ : ∃ N, path.getLast? = some N := by
          exact ⟨_, List.getLast?_eq_some_getLast ((hev t ht).moves t).sized.ne⟩
        have hNm := List.mem_of_getLast? hN
        have hbp : ∀ τ, bodyPose rks bidx (env τ) r body = some (kPose (st r.toNat τ) N) := by
          intro τ
          have hlt := ((hev t ht).moves τ).sized.pos N hNm
          unfold bodyPose bodyIdx
          rw [hrk, hpose τ]
          simp only [Option.bind_some, if_pos hpos, hp, hN]
          rw [List.getElem?_eq_getElem hlt]
          unfold kPose
          rw [List.getD_eq_getElem _ _ hlt]
        have hvel : ∀ τ, ∀ k < 6, frameVel rks (env τ) r body X k
            = (X.mulM (kVel (st r.toNat τ) N)).get k := by
          intro τ k hk
          obtain ⟨-, ⟨V, e1, e2⟩, -⟩ := henv τ X
          rw [jac_velAt (J := ⟨path, 0⟩) ((hev t ht).moves τ).sized hN X] at e1
          unfold frameVel
          rw [hrk]
          simp only [Option.bind_some, if_neg hdof, hp, Option.map_some, Option.getD_some]
          rw [e2 k hk, Out.ok.inj e1]
        have hside : ∀ τ, sidePose rks bidx (env τ) r body X = X.mul (kPose (st r.toNat τ) N) := by
          intro τ; unfold sidePose; rw [hbp]; rfl
        refine ⟨?_, ?_, fun k hk => ?_⟩
        · intro τ; rw [hside]; exact hX.mul (((hev t ht).moves τ).rigid N hNm)
        · rw [show (fun τ => sidePose rks bidx (env τ) r body X)
            = fun τ => X.mul (kPose (st r.toNat τ) N) from funext hside, mvOf_get (hvel t)]
          exact ((hev t ht).frame N hNm).carried hX
        · rw [show (fun τ => frameVel rks (env τ) r body X k)
            = fun τ => (X.mulM (kVel (st r.toNat τ) N)).get k from funext fun τ => hvel τ k hk]
          refine ((body_acc (hev t ht) hN hX).get k).congr_deriv ?_
          obtain ⟨e1, -, W, e2, e3⟩ := henv t (X.mul (kPose (st r.toNat t) N))
          obtain ⟨-, -, W, e4, e5⟩ := henv t X
          rw [jac_accAt (J := ⟨path, 0⟩) ((hev t ht).moves t).sized hN X] at e4
          rw [jac_at (J := ⟨path, 0⟩) ((hev t ht).moves t).sized] at e1
          unfold frameAcc
          rw [hrk]
          simp only [Option.bind_some, if_neg hdof, ha, hp, hbp, Option.map_some, Option.getD_some]
          rw [e5 k hk, ← Out.ok.inj e1, ← Out.ok.inj e4, MV.zero_cross, add_zero, (lin_get k).add]
          congr 1
          have g := full_gen ((hev t ht).moves t).sized.mem ((hev t ht).moves t).rigid
            (X.mul (kPose (st r.toNat t) N))
            ⟨6, rk.mb.nrDof, fun k q => onDofs rk.mb path (fun p =>
              ((pathCols rk.mb (kCol (st r.toNat t) (X.mul (kPose (st r.toNat t) N))) path).getD p 0).get k) q⟩
            6 (fun a v => v.get a) lin_get rfl (fun a _ c _ => rfl) (fun q => y t (a + q)) k hk
          rw [← g]
          rfl

/-! ## C63 -/

/-- Relative velocity of frame `X1` of body 1 with respect to frame `X2` of body 2 (each in its own
coordinates), selected by a row of the selection matrix. -/
noncomputable def Spec.slipVel (rks : List (RobotKin ℝ)) (env : ContactEnv ℝ) (id : ContactId)
    (X1 X2 : PT ℝ) (dof : Mat ℝ) (q : ℕ) : ℝ :=
  ∑ k ∈ range 6, dof.get q k * (frameVel rks env id.r1Index id.r1BodyName X1 k
    - frameVel rks env id.r2Index id.r2BodyName X2 k)

/-- Rate of a selected relative velocity `v` promised by a kind of constraint, with selected position
error `e`: kept constant, brought to zero in one time step, or brought to `e` over the time step. -/
noncomputable def Spec.slipRate (kind : ContactKind ℝ) (v e : ℝ) : ℝ :=
  match kind with
  | .acc => 0
  | .speed dt => -(v / dt)
  | .pos dt => (e - v) / dt

/-- The derivative of the selected relative velocity, for frames that stay what they are at time
`t`: zero, minus the velocity over the time step, or minus the velocity minus the position error. -/
theorem slipVel_deriv (h : EnvMoves rks d env st x y) {kind : ContactKind ℝ} (hk : KindOK kind)
    {id : ContactId} {X1 X2 bb : PT ℝ} (h1 : X1.Rigid) (h2 : X2.Rigid) {dof : Mat ℝ} {q : ℕ} {t : ℝ}
    (ht : 0 ≤ t) (hrow : RowMeans rks bidx d (env t) kind (y t) id X1 X2 bb dof q) :
    HasDerivAt (fun τ => slipVel rks (env τ) id X1 X2 dof q)
      (slipRate kind (slipVel rks (env t) id X1 X2 dof q)
        (∑ k ∈ range 6, dof.get q k * poseErr rks bidx (env t) id X1 bb k)) t := by
  have hd : HasDerivAt (fun τ => slipVel rks (env τ) id X1 X2 dof q)
      (∑ k ∈ range 6, dof.get q k * (frameAcc rks bidx d (env t) (y t) id.r1Index id.r1BodyName X1 k
        - frameAcc rks bidx d (env t) (y t) id.r2Index id.r2BodyName X2 k)) t := by
    unfold slipVel
    refine HasDerivAt.fun_sum fun k hk => HasDerivAt.const_mul _ ?_
    have hk' := Finset.mem_range.1 hk
    exact ((side_moves h _ _ h1 ht).2.2 k hk').sub ((side_moves h _ _ h2 ht).2.2 k hk')
  refine hd.congr_deriv ?_
  unfold RowMeans at hrow
  have split : ∀ dt : ℝ, ∑ k ∈ range 6, dof.get q k * (frameVel rks (env t) id.r1Index id.r1BodyName X1 k
        - frameVel rks (env t) id.r2Index id.r2BodyName X2 k
        + dt * (frameAcc rks bidx d (env t) (y t) id.r1Index id.r1BodyName X1 k
          - frameAcc rks bidx d (env t) (y t) id.r2Index id.r2BodyName X2 k))
      = slipVel rks (env t) id X1 X2 dof q + dt * ∑ k ∈ range 6, dof.get q k *
        (frameAcc rks bidx d (env t) (y t) id.r1Index id.r1BodyName X1 k
          - frameAcc rks bidx d (env t) (y t) id.r2Index id.r2BodyName X2 k) := by
    intro dt
    unfold slipVel
    rw [Finset.mul_sum, ← Finset.sum_add_distrib]
    exact Finset.sum_congr rfl fun k _ => by ring
  cases kind with
  | acc => exact hrow
  | speed dt =>
    have hdt : (0 : ℝ) < dt := hk
    dsimp only [slipRate] at hrow ⊢
    rw [split] at hrow
    field_simp
    linarith
  | pos dt =>
    have hdt : (0 : ℝ) < dt := hk
    dsimp only [slipRate] at hrow ⊢
    rw [split] at hrow
    field_simp
    linarith

/-- What is asked of the control loop: one contact constraint, updated at every time from 0 on after any calls
(`ContactRun`), whose rows the accelerations satisfy. -/
structure Spec.ContactLoop (rks : List (RobotKin ℝ)) (bidx : ℕ → String → Out ℕ) (kind : ContactKind ℝ)
    (d : SolverData ℝ) (v g : ContactReg ℝ) (env : ℝ → ContactEnv ℝ) (y : ℝ → ℕ → ℝ)
    (s' : ℝ → ContactC ℝ) : Prop where
  robots : ContactRobotsOK rks bidx
  step : KindOK kind
  envOK : ∀ t, 0 ≤ t → ContactEnvOK rks (env t) ∧ (env t).rotXYZ 0 0 0 = M3.one
  dof : ∀ id, Active d v id → (g.dofOf id).rows ≤ 6 ∧ (g.dofOf id).cols = 6
  mob : ∀ id, Active d v id → Mobile rks id.r1Index ∨ Mobile rks id.r2Index
  run : ∀ t, 0 ≤ t → ∃ s, ContactRun rks bidx kind (some (d, v, g)) s ∧
    s.update (rks.map fun rk => rk.mb) (env t) kind = .ok (s' t)
  sat : ∀ t, 0 ≤ t → SatEq d.nrVars (s' t).eq (y t)

/-- At every instant from 0 on and for every contact and every row of its selection matrix (the frames being
those the constraint uses at that instant), the selected relative velocity has the derivative the
constraint promises. -/
theorem C63_instant {kind : ContactKind ℝ} {v g : ContactReg ℝ} {s' : ℝ → ContactC ℝ}
    (h : EnvMoves rks d env st x y) (L : ContactLoop rks bidx kind d v g env y s') {t : ℝ} (ht : 0 ≤ t)
    {c : ContactData ℝ} (hc : c ∈ (s' t).cont) (h1 : c.X_b1_cf.Rigid) (h2 : (frame2 c).Rigid)
    {q : ℕ} (hq : q < c.dof.rows) :
    HasDerivAt (fun τ => slipVel rks (env τ) c.id c.X_b1_cf (frame2 c) c.dof q)
      (slipRate kind (slipVel rks (env t) c.id c.X_b1_cf (frame2 c) c.dof q)
        (∑ k ∈ range 6, c.dof.get q k * poseErr rks bidx (env t) c.id c.X_b1_cf c.X_b1_b2 k)) t := by
  obtain ⟨s, hs, hu⟩ := L.run t ht
  obtain ⟨s1, e, -, -, -, -, -, -, -, -, hrow⟩ := C40_rows rks bidx L.robots kind L.step d v g s hs (env t)
    (L.envOK t ht).1 L.dof L.mob
  have es : s1 = s' t := Out.ok.inj (e.symm.trans hu)
  subst es
  exact slipVel_deriv h L.step h1 h2 ht ((hrow (y t)).1 (L.sat t ht) c hc q hq)

/-- The rows of a fully constrained contact hold with the frames the contact was built with. -/
theorem locked_rows {kind : ContactKind ℝ} {v g : ContactReg ℝ} {s' : ℝ → ContactC ℝ}
    (L : ContactLoop rks bidx kind d v g env y s') {id : ContactId}
    (hid : Active d v id) (hv : v.hasDof id = false) (hg : g.hasDof id = false) {c₀ : BiContact ℝ}
    (h₀ : (d.allCont.find? fun c' => decide (c'.id = id)) = some c₀)
    (hcf : c₀.X_b1_cf.Rigid) (hbb : c₀.X_b1_b2.Rigid) {t : ℝ} (ht : 0 ≤ t) {q : ℕ} (hq : q < 6) :
    RowMeans rks bidx d (env t) kind (y t) id c₀.X_b1_cf (c₀.X_b1_cf.mul c₀.X_b1_b2.inv) c₀.X_b1_b2
      identity6 q := by
  obtain ⟨s, hs, hu⟩ := L.run t ht
  obtain ⟨s1, e, -, hm, hdof, -, -, -, -, -, hrow⟩ := C40_rows rks bidx L.robots kind L.step d v g s hs
    (env t) (L.envOK t ht).1 L.dof L.mob
  have es : s1 = s' t := Out.ok.inj (e.symm.trans hu)
  subst es
  obtain ⟨c, hc, rfl⟩ := List.mem_map.1 ((hm id).2 hid)
  have hrun := ContactRun.update _ _ _ (env t) hs (L.envOK t ht).2 hu
  obtain ⟨k1, k2, k3⟩ := C40_frames_locked rks bidx L.robots kind d v g _ hrun c hc
    (C40_default_locks v c.id hv) c₀ h₀ hcf.1 hbb.1
  have kd : c.dof = identity6 := by
    rw [(hdof c hc).1]
    have : IdMap.find c.id g.dofs = none := by simpa [ContactReg.hasDof] using hg
    unfold ContactReg.dofOf
    rw [this]
    rfl
  have hr := (hrow (y t)).1 (L.sat t ht) c hc q (by rw [kd]; exact hq)
  rw [k1, k2, kd] at hr
  by_cases hmob : Mobile rks c.id.r2Index
  · rw [k3 hmob] at hr
    exact hr
  · -- the frame of body 2 plays no role when robot 2 does not move
    have e1 : ∀ X Y k, frameAcc rks bidx d (env t) (y t) c.id.r2Index c.id.r2BodyName X k
        = frameAcc rks bidx d (env t) (y t) c.id.r2Index c.id.r2BodyName Y k := by
      intro X Y k
      unfold frameAcc
      cases hrk : rks[c.id.r2Index.toNat]? with
      | none => rfl
      | some rk =>
        have : rk.mb.nrDof = 0 := by
          by_contra hne
          exact hmob ⟨rk, hrk, Nat.pos_of_ne_zero hne⟩
        simp [this]
    have e2 : ∀ X Y k, frameVel rks (env t) c.id.r2Index c.id.r2BodyName X k
        = frameVel rks (env t) c.id.r2Index c.id.r2BodyName Y k := by
      intro X Y k
      unfold frameVel
      cases hrk : rks[c.id.r2Index.toNat]? with
      | none => rfl
      | some rk =>
        have : rk.mb.nrDof = 0 := by
          by_contra hne
          exact hmob ⟨rk, hrk, Nat.pos_of_ne_zero hne⟩
        simp [this]
    unfold RowMeans at hr ⊢
    simp only [e1 (frame2 c) (c₀.X_b1_cf.mul c₀.X_b1_b2.inv),
      e2 (frame2 c) (c₀.X_b1_cf.mul c₀.X_b1_b2.inv)] at hr
    exact hr

theorem slipVel_identity (env : ContactEnv ℝ) (id : ContactId) (X1 X2 : PT ℝ) {q : ℕ} (hq : q < 6) :
    slipVel rks env id X1 X2 identity6 q = frameVel rks env id.r1Index id.r1BodyName X1 q
      - frameVel rks env id.r2Index id.r2BodyName X2 q := by
  unfold slipVel identity6
  simp [hq]

/-- Relative velocity of the frames of a fully constrained contact: constant with
`ContactAccConstr`, exponentially decreasing with `ContactSpeedConstr`. -/
theorem C63_velocity {kind : ContactKind ℝ} {v g : ContactReg ℝ} {s' : ℝ → ContactC ℝ}
    (h : EnvMoves rks d env st x y) (L : ContactLoop rks bidx kind d v g env y s') {id : ContactId}
    (hid : Active d v id) (hv : v.hasDof id = false) (hg : g.hasDof id = false) {c₀ : BiContact ℝ}
    (h₀ : (d.allCont.find? fun c' => decide (c'.id = id)) = some c₀)
    (hcf : c₀.X_b1_cf.Rigid) (hbb : c₀.X_b1_b2.Rigid) {t : ℝ} (ht : 0 ≤ t) {k : ℕ} (hk : k < 6) :
    let rel := fun τ => frameVel rks (env τ) id.r1Index id.r1BodyName c₀.X_b1_cf k
      - frameVel rks (env τ) id.r2Index id.r2BodyName (c₀.X_b1_cf.mul c₀.X_b1_b2.inv) k
    match kind with
    | .acc => rel t = rel 0
    | .speed dt => rel t = rel 0 * Real.exp (-(t / dt))
    | .pos _ => True := by
  intro rel
  have hd := fun t (ht : 0 ≤ t) => slipVel_deriv h L.step hcf (hcf.mul hbb.inv) ht
    (locked_rows L hid hv hg h₀ hcf hbb ht hk)
  simp only [slipVel_identity _ _ _ _ hk] at hd
  cases kind with
  | acc => exact const_of_hasDerivAt_zero hd ht
  | speed dt =>
    have hdt : (0 : ℝ) < dt := L.step
    dsimp only [slipRate] at hd ⊢
    have hE : ∀ t, HasDerivAt (fun τ => Real.exp (τ / dt)) (Real.exp (t / dt) * (1 / dt)) t := fun t =>
      ((hasDerivAt_id t).div_const dt).exp
    have c := const_of_hasDerivAt_zero (f := fun τ => rel τ * Real.exp (τ / dt)) (fun t ht =>
      ((hd t ht).mul (hE t)).congr_deriv (by ring)) ht
    simp only [zero_div, Real.exp_zero, mul_one] at c
    rw [← c, mul_assoc, ← Real.exp_add, add_neg_cancel, Real.exp_zero, mul_one]
  | pos dt => trivial

/-- **No slip**: with `ContactAccConstr` or `ContactSpeedConstr`, a fully constrained contact whose
two frames coincide and have no relative velocity at the start keeps them together. -/
theorem C63_no_slip {kind : ContactKind ℝ} (hkind : ∀ dt, kind ≠ .pos dt) {v g : ContactReg ℝ}
    {s' : ℝ → ContactC ℝ}
    (h : EnvMoves rks d env st x y) (L : ContactLoop rks bidx kind d v g env y s') {id : ContactId}
    (hid : Active d v id) (hv : v.hasDof id = false) (hg : g.hasDof id = false) {c₀ : BiContact ℝ}
    (h₀ : (d.allCont.find? fun c' => decide (c'.id = id)) = some c₀)
    (hcf : c₀.X_b1_cf.Rigid) (hbb : c₀.X_b1_b2.Rigid)
    (h0 : ∀ k < 6, frameVel rks (env 0) id.r1Index id.r1BodyName c₀.X_b1_cf k
      = frameVel rks (env 0) id.r2Index id.r2BodyName (c₀.X_b1_cf.mul c₀.X_b1_b2.inv) k)
    (hp : sidePose rks bidx (env 0) id.r1Index id.r1BodyName c₀.X_b1_cf
      = sidePose rks bidx (env 0) id.r2Index id.r2BodyName (c₀.X_b1_cf.mul c₀.X_b1_b2.inv)) {t : ℝ} (ht : 0 ≤ t) :
    sidePose rks bidx (env t) id.r1Index id.r1BodyName c₀.X_b1_cf
      = sidePose rks bidx (env t) id.r2Index id.r2BodyName (c₀.X_b1_cf.mul c₀.X_b1_b2.inv) := by
  have hrel : ∀ τ, 0 ≤ τ → ∀ k < 6, frameVel rks (env τ) id.r1Index id.r1BodyName c₀.X_b1_cf k
      = frameVel rks (env τ) id.r2Index id.r2BodyName (c₀.X_b1_cf.mul c₀.X_b1_b2.inv) k := by
    intro τ hτ k hk
    have := C63_velocity h L hid hv hg h₀ hcf hbb hτ hk
    cases kind with
    | acc =>
      dsimp only at this
      rw [h0 k hk, sub_self] at this
      exact sub_eq_zero.1 this
    | speed dt =>
      dsimp only at this
      rw [h0 k hk, sub_self, zero_mul] at this
      exact sub_eq_zero.1 this
    | pos dt => exact absurd rfl (hkind dt)
  have hX2 := hcf.mul hbb.inv
  refine frames_together (X1 := fun τ => sidePose rks bidx (env τ) id.r1Index id.r1BodyName c₀.X_b1_cf)
    (X2 := fun τ => sidePose rks bidx (env τ) id.r2Index id.r2BodyName (c₀.X_b1_cf.mul c₀.X_b1_b2.inv))
    (fun τ hτ => (side_moves h _ _ hcf hτ).2.1) (fun τ hτ => ?_)
    (fun τ hτ => (side_moves h _ _ hcf hτ).1 τ) (fun τ hτ => (side_moves h _ _ hX2 hτ).1 τ) hp ht
  have e : mvOf (frameVel rks (env τ) id.r1Index id.r1BodyName c₀.X_b1_cf)
      = mvOf (frameVel rks (env τ) id.r2Index id.r2BodyName (c₀.X_b1_cf.mul c₀.X_b1_b2.inv)) := by
    unfold mvOf
    rw [hrel τ hτ 0 (by norm_num), hrel τ hτ 1 (by norm_num), hrel τ hτ 2 (by norm_num), hrel τ hτ 3 (by norm_num),
      hrel τ hτ 4 (by norm_num), hrel τ hτ 5 (by norm_num)]
  rw [e]
  exact (side_moves h _ _ hX2 hτ).2.1

end

/-! ## Two sliders in contact, moving together -/

namespace SlipEx

noncomputable def getOk {α : Type} (o : Out α) (a : α) : α := (okOf o).getD a

/-- Two copies of the slider. -/
noncomputable def rks : List (RobotKin ℝ) := [⟨ConvEx.mb, fun _ => .ok [0]⟩, ⟨ConvEx.mb, fun _ => .ok [0]⟩]
def bidx : ℕ → String → Out ℕ := fun _ _ => .ok 0

/-- What the constraint reads at time `t`: both robots have position `-(1 + t) exp (-t)`. -/
noncomputable def env (t : ℝ) : ContactEnv ℝ :=
  ⟨[(ConvEx.st t).bodyPosW, (ConvEx.st t).bodyPosW],
   fun _ p X => if p = [0] then getOk (Jac.jacobianAt ConvEx.mb (ConvEx.st t) ⟨[0], 0⟩ X) ⟨6, 1, fun _ _ => 0⟩
     else ⟨6, pathDof ConvEx.mb p, fun _ _ => 0⟩,
   fun _ _ X k => (getOk (Jac.normalAccAt (ConvEx.st t) ⟨[0], 0⟩ X 0) 0).get k,
   fun _ _ X k => (getOk (Jac.velocityAt (ConvEx.st t) ⟨[0], 0⟩ X) 0).get k,
   fun _ _ _ => 1, fun _ _ _ => M3.one, fun _ => 0⟩

/-- The two bodies share their frames; the contact frame is one unit along `y`. -/
noncomputable def c₀ : BiContact ℝ :=
  ⟨⟨0, 1, "left", "right", 0⟩, [], [], [], [], PT.one, PT.ofTrans ⟨0, 1, 0⟩⟩

theorem moves (d : SolverData ℝ) (hd : d.alphaDBegin = [0, 1]) :
    EnvMoves rks d env (fun _ => ConvEx.st) (fun _ τ _ => ConvEx.v τ) (fun t _ => ConvEx.acc t) := by
  refine ⟨fun r rk hrk hdof => ?_, fun r rk hrk hdof => ?_⟩
  · have key : ∀ a, d.alphaDBegin[r]? = some a → (∀ t, (env t).bodyPosW[r]? = some (ConvEx.st t).bodyPosW) →
        rk = ⟨ConvEx.mb, fun _ => .ok [0]⟩ → ∃ a, d.alphaDBegin[r]? = some a ∧
      (∀ t, (env t).bodyPosW[r]? = some (ConvEx.st t).bodyPosW) ∧
      ∀ body path, rk.path body = .ok path →
      (∀ t, 0 ≤ t → Evolves rk.mb ConvEx.st path (fun τ _ => ConvEx.v τ) (fun _ => ConvEx.acc t) t) ∧
      ∀ t X,
        Jac.jacobianAt rk.mb (ConvEx.st t) ⟨path, 0⟩ X = .ok ((env t).jac r path X) ∧
        (∃ V, Jac.velocityAt (ConvEx.st t) ⟨path, 0⟩ X = .ok V ∧ ∀ k < 6, (env t).vel r path X k = V.get k) ∧
        ∃ W, Jac.normalAccAt (ConvEx.st t) ⟨path, 0⟩ X 0 = .ok W ∧ ∀ k < 6, (env t).nacc r path X k = W.get k := by
      intro a ha hp e
      subst e
      refine ⟨a, ha, hp, fun body path h => ?_⟩
      cases h
      refine ⟨fun t _ => ConvEx.evolves t, fun t X => ?_⟩
      have hs := ((ConvEx.evolves t).moves t).sized
      have e1 := jac_at (J := ⟨[0], 0⟩) hs X
      have e2 := jac_velAt (J := ⟨[0], 0⟩) hs rfl X
      have e3 := jac_accAt (J := ⟨[0], 0⟩) hs rfl X 0
      refine ⟨?_, ⟨_, e2, fun k _ => ?_⟩, _, e3, fun k _ => ?_⟩
      · dsimp only [env]
        rw [if_pos rfl, e1]
        rfl
      · dsimp only [env]
        rw [e2]
        rfl
      · dsimp only [env]
        rw [e3]
        rfl
    match r, hrk with
    | 0, hrk => exact key 0 (by rw [hd]; rfl) (fun t => rfl) (by cases hrk; rfl)
    | 1, hrk => exact key 1 (by rw [hd]; rfl) (fun t => rfl) (by cases hrk; rfl)
  · match r, hrk with
    | 0, hrk => cases hrk; simp [ConvEx.mb, MultiBody.nrDof] at hdof
    | 1, hrk => cases hrk; simp [ConvEx.mb, MultiBody.nrDof] at hdof

theorem rk_eq {rk : RobotKin ℝ} (h : rk ∈ rks) : rk = ⟨ConvEx.mb, fun _ => .ok [0]⟩ := by
  simpa [rks] using h

theorem robots : ContactRobotsOK rks bidx := by
  refine ⟨?_, ?_, ?_, ?_⟩
  · intro rk hrk name p hp i hi
    cases rk_eq hrk
    cases hp
    simp at hi
    subst hi
    simp [ConvEx.mb]
  · intro rk hrk name p hp
    cases rk_eq hrk
    cases hp
    simp
  · intro rk hrk name p b hp hb
    cases rk_eq hrk
    cases hp
    cases hb
    simp [ConvEx.mb]
  · intro r rk name b hrk hb
    cases hb
    cases rk_eq (List.mem_of_getElem? hrk)
    simp [ConvEx.mb]

theorem envOK (t : ℝ) : ContactEnvOK rks (env t) := by
  refine ⟨?_, ?_⟩
  · intro r rk hrk
    match r, hrk with
    | 0, hrk => cases hrk; exact ⟨_, rfl, rfl⟩
    | 1, hrk => cases hrk; exact ⟨_, rfl, rfl⟩
  · intro r rk path X hrk
    cases rk_eq (List.mem_of_getElem? hrk)
    dsimp only [env]
    split
    · rename_i e
      subst e
      rw [jac_at (J := ⟨[0], 0⟩) ((ConvEx.evolves t).moves t).sized X]
      exact ⟨rfl, rfl⟩
    · exact ⟨rfl, rfl⟩

/-- The two sides of the contact read the same things. -/
theorem same_acc (d : SolverData ℝ) (hd : d.alphaDBegin = [0, 1]) (t : ℝ) (X : PT ℝ) (k : ℕ) :
    frameAcc rks bidx d (env t) (fun _ => ConvEx.acc t) 0 "left" X k
      = frameAcc rks bidx d (env t) (fun _ => ConvEx.acc t) 1 "right" X k := by
  unfold frameAcc bodyPose bodyIdx
  rw [hd]
  rfl

theorem same_vel (t : ℝ) (X : PT ℝ) (k : ℕ) :
    frameVel rks (env t) 0 "left" X k = frameVel rks (env t) 1 "right" X k := rfl

theorem frames_eq : c₀.X_b1_cf.mul c₀.X_b1_b2.inv = c₀.X_b1_cf := by
  simp only [c₀]
  ext <;> simp [PT.mul, PT.ofTrans, PT.inv, PT.one, M3.mul, M3.one, M3.transpose, M3.mulVec, V3.dot]

/-- The hypotheses of C63 are met by a motion that is not constant. -/
example (kind : ContactKind ℝ) (hk : kind = .acc ∨ kind = .speed (1 / 100)) :
    ∃ d s', EnvMoves rks d env (fun _ => ConvEx.st) (fun _ τ _ => ConvEx.v τ) (fun t _ => ConvEx.acc t) ∧
    ContactLoop rks bidx kind d ContactReg.make ContactReg.make env (fun t _ => ConvEx.acc t) s' ∧
    Active d ContactReg.make c₀.id ∧ (d.allCont.find? fun c' => decide (c'.id = c₀.id)) = some c₀ ∧
    c₀.X_b1_cf.Rigid ∧ c₀.X_b1_b2.Rigid ∧
    (∀ t, 0 ≤ t → sidePose rks bidx (env t) 0 "left" c₀.X_b1_cf
      = sidePose rks bidx (env t) 1 "right" (c₀.X_b1_cf.mul c₀.X_b1_b2.inv)) ∧
    sidePose rks bidx (env 0) 0 "left" c₀.X_b1_cf = PT.ofTrans ⟨-1, 1, 0⟩ := by
  have hgood : GoodInput (rks.map fun rk => rk.mb) [c₀] := by
    refine ⟨?_, ?_⟩
    · intro m hm j hj l q hl
      simp only [rks, List.map_cons, List.map_nil, List.mem_cons, List.not_mem_nil, or_false, or_self] at hm
      subst hm
      simp only [ConvEx.mb, List.mem_cons, List.not_mem_nil, or_false] at hj
      subst hj
      cases hl
    · intro c hc
      simp only [List.mem_cons, List.not_mem_nil, or_false] at hc
      subst hc
      simp [c₀]
  obtain ⟨d, deps, e, L⟩ := layout_ok SolverData.init (rks.map fun rk => rk.mb) [] [c₀] hgood.1 hgood.2
  have hall : d.allCont = [c₀] := by rw [L.allCont]; rfl
  have hd : d.alphaDBegin = [0, 1] := by rw [L.alphaDBegin]; rfl
  have hact : ∀ id, Active d (ContactReg.make : ContactReg ℝ) id ↔ id = c₀.id := by
    intro id
    unfold Active
    rw [hall]
    simp only [List.mem_cons, List.not_mem_nil, or_false]
    constructor
    · rintro ⟨-, c, rfl, rfl⟩; rfl
    · rintro rfl; exact ⟨rfl, _, rfl, rfl⟩
  have hm1 : ∀ r : ℤ, r = 0 ∨ r = 1 → Mobile rks r := by
    rintro r (rfl | rfl) <;> exact ⟨_, rfl, by norm_num [ConvEx.mb, MultiBody.nrDof]⟩
  have hmob : ∀ id, Active d (ContactReg.make : ContactReg ℝ) id →
      Mobile rks id.r1Index ∨ Mobile rks id.r2Index := by
    intro id h
    cases (hact id).1 h
    exact .inl (hm1 _ (.inl rfl))
  have hkk : KindOK kind := by rcases hk with rfl | rfl <;> norm_num [KindOK]
  obtain ⟨s₁, e₁⟩ := C42_nrVars_ok rks bidx d (fun _ _ => 5) ContactC.make (by simp [rks]) (by
    intro id h t ht
    cases (hact id).1 h
    simp only [c₀, List.mem_cons, List.not_mem_nil, or_false] at ht
    rcases ht with rfl | rfl
    · exact ⟨le_rfl, _, 0, rfl, by rw [hd]; rfl, ⟨_, rfl, by simp⟩, _, rfl⟩
    · exact ⟨by norm_num, _, 1, rfl, by rw [hd]; rfl, ⟨_, rfl, by simp⟩, _, rfl⟩)
    (fun id _ => .inr (le_of_eq rfl))
  have run : ContactRun rks bidx kind (some (d, ContactReg.make, ContactReg.make)) s₁ :=
    .nrVars _ _ _ _ _ [] [c₀] deps _ .make hgood e e₁
  have hu := fun t => C40_rows rks bidx robots kind hkk d _ _ s₁ run (env t) (envOK t)
    (fun id _ => ⟨le_rfl, rfl⟩) hmob
  choose s' h1 h2 h3 h4 h5 h6 h7 h8 h9 h10 using hu
  have hfind : (d.allCont.find? fun c' => decide (c'.id = c₀.id)) = some c₀ := by rw [hall]; simp
  have hR1 : c₀.X_b1_cf.Rigid := PT.rigid_ofTrans _
  have hR2 : c₀.X_b1_b2.Rigid := M3.isRot_one
  have hL : ContactLoop rks bidx kind d ContactReg.make ContactReg.make env (fun t _ => ConvEx.acc t) s' := by
    refine ⟨robots, hkk, fun t _ => ⟨envOK t, rfl⟩, fun id _ => ⟨le_rfl, rfl⟩, hmob, fun t _ => ⟨s₁, run, h1 t⟩,
      fun t _ => (h10 t _).2 fun c hc q hq => ?_⟩
    obtain ⟨k1, k2, k3⟩ := C40_frames_locked rks bidx robots kind d _ _ _
      (ContactRun.update _ _ _ (env t) run rfl (h1 t)) c hc (C40_default_locks _ c.id rfl) c₀
      (by rw [(hact _).1 ((h3 t _).1 (List.mem_map_of_mem hc))]; exact hfind) hR1.1 hR2.1
    have hid : c.id = ⟨0, 1, "left", "right", 0⟩ := (hact _).1 ((h3 t _).1 (List.mem_map_of_mem hc))
    have hf := k3 (hm1 _ (.inr (by rw [hid])))
    rw [hf, k1, frames_eq, hid]
    rcases hk with rfl | rfl
    · unfold RowMeans
      simp only [same_acc d hd, sub_self, mul_zero, Finset.sum_const_zero]
    · unfold RowMeans
      simp only [same_acc d hd, same_vel, sub_self, mul_zero, add_zero, Finset.sum_const_zero]
  refine ⟨d, s', moves d hd, hL, (hact _).2 rfl, hfind, hR1, hR2, fun t ht => ?_, ?_⟩
  · refine C63_no_slip (fun dt h => ?_) (moves d hd) hL ((hact _).2 rfl) rfl rfl hfind hR1 hR2
      (fun k _ => ?_) ?_ ht
    · rcases hk with rfl | rfl <;> cases h
    · rw [frames_eq]; rfl
    · rw [frames_eq]; rfl
  · unfold sidePose bodyPose bodyIdx
    simp only [env, rks, ConvEx.st, ConvEx.q, c₀]
    simp [ConvEx.mb, MultiBody.nrDof, okOf]
    ext <;> simp [PT.mul, PT.ofTrans, M3.mul, M3.one, M3.transpose, M3.mulVec, V3.dot]

end SlipEx

end Verif
