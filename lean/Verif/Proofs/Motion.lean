import Verif.Model.Motion
import Verif.Proofs.Jacobian

/-!
# Helper lemmas on the motion constraint
-/

set_option autoImplicit false
set_option linter.unusedSectionVars false

namespace Verif

open Finset

variable {K : Type} [CommRing K]

/-! ## Specification: joint torques from inverse dynamics -/

namespace Spec

/-- A body of the robot touched by a contact: body, position of the contact's first weight in `x`,
contact points in the body frame and their friction cones. -/
structure Side (K : Type) where
  body : String
  begin' : ℕ
  points : List (V3 K)
  cones : List (FrictionCone K)

/-- Generators before point `j`. -/
def before (cones : List (FrictionCone K)) (j : ℕ) : ℕ :=
  ∑ m ∈ range j, (cones.getD m ⟨[]⟩).generators.length

/-- Contact force at point `j` of a side: the combination of the cone generators by the weights. -/
def Side.force (s : Side K) (x : ℕ → K) (j : ℕ) : V3 K :=
  combo (s.cones.getD j ⟨[]⟩).generators (fun k => x (s.begin' + before s.cones j + k))

/-- Number of weights the side reads. -/
def Side.width (s : Side K) : ℕ := before s.cones s.points.length

/-- Path of a body (empty when the body does not exist). -/
def pathOf (rk : RobotKin K) (body : String) : List ℕ := ((rk.path body).val?).getD []

/-- Linear velocity of the point whose 6-row Jacobian along the path is `J`, per unit velocity of dof
`d` of the robot. -/
def pointCol (mb : MultiBody K) (path : List ℕ) (J : Mat K) (d : ℕ) : V3 K :=
  ⟨onDofs mb path (fun k => J.get 3 k) d, onDofs mb path (fun k => J.get 4 k) d,
    onDofs mb path (fun k => J.get 5 k) d⟩

/-- Generalised force of the contact on dof `d`: `Σ_j J_jᵀ F_j`. -/
def contactTorque (rk : RobotKin K) (env : MotionEnv K) (s : Side K) (x : ℕ → K) (d : ℕ) : K :=
  ∑ j ∈ range s.points.length,
    (pointCol rk.mb (pathOf rk s.body) (env.jac s.body (s.points.getD j 0)) d).dot (s.force x j)

/-- Inverse dynamics `τ = H α̇ + C - Σ Jᵀ F` for the robot whose accelerations start at `aB`. -/
def invDyn (rk : RobotKin K) (env : MotionEnv K) (aB : ℕ) (sides : List (Side K)) (x : ℕ → K)
    (d : ℕ) : K :=
  ∑ j ∈ range rk.mb.nrDof, env.H.get d j * x (aB + j) + env.C.get d
    - (sides.map fun s => contactTorque rk env s x d).sum

/-- The sides of a contact (with first weight `b`) that are on robot `r`. -/
def sidesOf (r : ℕ) (c : BiContact K) (b : ℕ) : List (Side K) :=
  (if (r : ℤ) = c.id.r1Index then [⟨c.id.r1BodyName, b, c.r1Points, c.r1Cones⟩] else [])
  ++ (if (r : ℤ) = c.id.r2Index then [⟨c.id.r2BodyName, b, c.r2Points, c.r2Cones⟩] else [])

/-- The sides of all contacts that are on robot `r`. -/
def sides (r : ℕ) (d : SolverData K) : List (Side K) :=
  (d.allCont.zip d.lambdaBegin).flatMap fun cb => sidesOf r cb.1 cb.2

/-- The side the code keeps when both bodies of a contact are on robot `r`: the second one. -/
def lastSideOf (r : ℕ) (c : BiContact K) (b : ℕ) : List (Side K) :=
  if (r : ℤ) = c.id.r2Index then [⟨c.id.r2BodyName, b, c.r2Points, c.r2Cones⟩]
  else if (r : ℤ) = c.id.r1Index then [⟨c.id.r1BodyName, b, c.r1Points, c.r1Cones⟩] else []

/-- See `lastSideOf`. -/
def lastSides (r : ℕ) (d : SolverData K) : List (Side K) :=
  (d.allCont.zip d.lambdaBegin).flatMap fun cb => lastSideOf r cb.1 cb.2

/-- Every point has a cone on each side, and both sides use the same number of weights
(`C19`: true of every contact built by the constructors). -/
def ContactShaped (c : BiContact K) : Prop :=
  c.r1Points.length ≤ c.r1Cones.length ∧ c.r2Points.length ≤ c.r2Cones.length ∧
  before c.r2Cones c.r2Points.length = before c.r1Cones c.r1Points.length

/-- The robot knows the bodies its contacts name: the joint path exists, is not empty, names existing
joints and visits none twice (RBDyn guarantees it for every body of the robot). -/
def BodiesOK (rk : RobotKin K) (l : List (Side K)) : Prop :=
  ∀ s ∈ l, ∃ path, rk.path s.body = .ok path ∧ path ≠ [] ∧ path.Nodup ∧
    ∀ i ∈ path, i < rk.mb.joints.length

end Spec

open Spec

/-! ## The contact list -/

/-- The `ContactData` of a side. -/
def Spec.Side.data (rk : RobotKin K) (s : Side K) : MContact K :=
  ⟨s.body, pathOf rk s.body, s.begin', s.points, s.cones.map fun c => c.generators.map fun g => -g⟩

theorem make_side {rk : RobotKin K} {s : Side K} {path : List ℕ} (h : rk.path s.body = .ok path)
    (h0 : path ≠ []) : MContact.make rk s.body s.begin' s.points s.cones = .ok (s.data rk) := by
  unfold MContact.make Side.data pathOf
  simp [h, h0, Out.val?]

theorem contStep_ok (rk : RobotKin K) (d : SolverData K) (r i : ℕ) (c : BiContact K) (b : ℕ)
    (hc : d.allCont[i]? = some c) (hb : d.lambdaBegin[i]? = some b)
    (h : BodiesOK rk (sidesOf r c b)) (cont : List (MContact K)) :
    MotionCommon.contStep rk d r i cont = .ok (cont ++ (sidesOf r c b).map (Side.data rk)) := by
  unfold MotionCommon.contStep
  rw [vecAt_eq_ok.mpr hc, vecAt_eq_ok.mpr hb]
  simp only [Out.ok_bind]
  unfold sidesOf at h ⊢
  by_cases h1 : (r : ℤ) = c.id.r1Index <;> by_cases h2 : (r : ℤ) = c.id.r2Index
  · simp only [if_pos h1, if_pos h2] at h ⊢
    obtain ⟨p, hp, hp0, _⟩ := h ⟨c.id.r1BodyName, b, c.r1Points, c.r1Cones⟩ (by simp)
    obtain ⟨q, hq, hq0, _⟩ := h ⟨c.id.r2BodyName, b, c.r2Points, c.r2Cones⟩ (by simp)
    have e1 := make_side hp hp0
    have e2 := make_side hq hq0
    dsimp only at e1 e2
    rw [e1, Out.ok_bind, Out.pure_eq, Out.ok_bind, e2]
    simp
  · simp only [if_pos h1, if_neg h2] at h ⊢
    obtain ⟨p, hp, hp0, _⟩ := h ⟨c.id.r1BodyName, b, c.r1Points, c.r1Cones⟩ (by simp)
    have e1 := make_side hp hp0
    dsimp only at e1
    rw [e1]
    simp
  · simp only [if_neg h1, if_pos h2] at h ⊢
    obtain ⟨q, hq, hq0, _⟩ := h ⟨c.id.r2BodyName, b, c.r2Points, c.r2Cones⟩ (by simp)
    have e2 := make_side hq hq0
    dsimp only at e2
    rw [Out.pure_eq, Out.ok_bind, e2]
    simp
  · simp only [if_neg h1, if_neg h2] at h ⊢
    simp

theorem bodiesOK_mono {rk : RobotKin K} {l l' : List (Side K)} (h : BodiesOK rk l)
    (hs : ∀ s ∈ l', s ∈ l) : BodiesOK rk l' := fun s m => h s (hs s m)

theorem contLoop_ok (rk : RobotKin K) (d : SolverData K) (r : ℕ)
    (hl : d.lambdaBegin.length = d.allCont.length) (h : BodiesOK rk (sides r d)) :
    forRange d.allCont.length (MotionCommon.contStep rk d r) []
      = .ok ((sides r d).map (Side.data rk)) := by
  obtain ⟨s', e, hs⟩ := forRange_inv (n := d.allCont.length) (f := MotionCommon.contStep rk d r)
    (s := []) (fun i s => s = (((d.allCont.zip d.lambdaBegin).take i).flatMap
      fun cb => sidesOf r cb.1 cb.2).map (Side.data rk)) (by simp)
    (by
      rintro i hi s rfl
      have h1 : d.allCont[i]? = some d.allCont[i] := List.getElem?_eq_getElem hi
      have h2 : d.lambdaBegin[i]? = some (d.lambdaBegin[i]'(by omega)) := List.getElem?_eq_getElem _
      have hz : (d.allCont.zip d.lambdaBegin)[i]?
          = some (d.allCont[i], d.lambdaBegin[i]'(by omega)) := by
        rw [List.getElem?_zip_eq_some]; exact ⟨h1, h2⟩
      have hmem : (d.allCont[i], d.lambdaBegin[i]'(by omega)) ∈ d.allCont.zip d.lambdaBegin :=
        List.mem_of_getElem? hz
      refine ⟨_, contStep_ok rk d r i _ _ h1 h2 (bodiesOK_mono h ?_) _, ?_⟩
      · intro s hs
        exact List.mem_flatMap.mpr ⟨_, hmem, hs⟩
      · rw [List.take_add_one, hz]
        simp)
  rw [e, hs, List.take_of_length_le (by simp [hl])]
  rfl

/-! ## The matrix -/

/-- The column blocks a side writes. -/
def Spec.Side.blocks (rk : RobotKin K) (env : MotionEnv K) (s : Side K) : List (ℕ × Mat K) :=
  (List.range s.points.length).map fun j =>
    (s.begin' + before s.cones j,
      ⟨rk.mb.nrDof, (s.cones.getD j ⟨[]⟩).generators.length, fun d k =>
        -(pointCol rk.mb (pathOf rk s.body) (env.jac s.body (s.points.getD j 0)) d).dot
          ((s.cones.getD j ⟨[]⟩).generators.getD k 0)⟩)

theorem before_succ (cones : List (FrictionCone K)) (j : ℕ) :
    before cones (j + 1) = before cones j + (cones.getD j ⟨[]⟩).generators.length := by
  simp [before, Finset.sum_range_succ]

theorem before_mono (cones : List (FrictionCone K)) {i j : ℕ} (h : i ≤ j) :
    before cones i ≤ before cones j := by
  unfold before
  exact Finset.sum_le_sum_of_subset (by simpa using h)

theorem setBlock_congr {A M N : Mat K} {b : ℕ} (h1 : M.rows = N.rows) (h2 : M.cols = N.cols)
    (h : ∀ a < M.rows, ∀ c < M.cols, M.get a c = N.get a c) :
    A.setBlock 0 b M = A.setBlock 0 b N := by
  unfold Mat.setBlock
  rw [h1, h2] at *
  split
  · congr 2
    funext a c
    split
    · rename_i hc; exact h _ (by omega) _ (by omega)
    · rfl
  · rfl

theorem getD_map_gens (cones : List (FrictionCone K)) (j k : ℕ) :
    (((cones.map fun c => c.generators.map fun g => -g).getD j []).getD k 0)
      = -((cones.getD j ⟨[]⟩).generators.getD k 0) := by
  simp only [List.getD_eq_getElem?_getD, List.getElem?_map]
  cases cones[j]? with
  | none => simp
  | some c =>
    simp only [Option.map_some, Option.getD_some, List.getElem?_map]
    cases c.generators[k]? <;> simp

theorem pointStep_ok (rk : RobotKin K) (env : MotionEnv K) (m : MotionCommon K) (s : Side K)
    (hn : m.nrDof = rk.mb.nrDof) {path : List ℕ} (hp : rk.path s.body = .ok path)
    (hnd : path.Nodup) (hi : ∀ i ∈ path, i < rk.mb.joints.length)
    (hdof : pathDof rk.mb path ≤ rk.mb.nrDof)
    (j : ℕ) (hj : j < s.points.length) (hc : s.points.length ≤ s.cones.length) (A : Mat K)
    (hw : (s.cones.getD j ⟨[]⟩).generators.length ≤ m.scratch) :
    MotionCommon.pointStep rk.mb env m (s.data rk) j (A, before s.cones j)
      = (do
        let A' ← A.setBlock 0 (s.begin' + before s.cones j)
          ⟨rk.mb.nrDof, (s.cones.getD j ⟨[]⟩).generators.length, fun d k =>
            -(pointCol rk.mb (pathOf rk s.body) (env.jac s.body (s.points.getD j 0)) d).dot
              ((s.cones.getD j ⟨[]⟩).generators.getD k 0)⟩
        pure (A', before s.cones (j + 1))) := by
  have hpath : pathOf rk s.body = path := by simp [pathOf, hp, Out.val?]
  unfold MotionCommon.pointStep
  set gens := (s.cones.map fun c => c.generators.map fun g => -g).getD j [] with hg
  have hjc : j < s.cones.length := by omega
  have e1 : vecAt (s.data rk).minusGenerators j = .ok gens := by
    rw [vecAt_eq_ok, hg, List.getD_eq_getElem?_getD]
    simp [Side.data, hjc]
  have e2 : vecAt (s.data rk).points j = .ok (s.points.getD j 0) := by
    rw [vecAt_eq_ok, List.getD_eq_getElem?_getD]
    simp [Side.data, hj]
  have hlen : gens.length = (s.cones.getD j ⟨[]⟩).generators.length := by
    simp [hg, hjc]
  have epath : (s.data rk).path = path := hpath
  simp only [e1, e2, Out.ok_bind, epath]
  rw [if_neg (by rw [hn, hlen]; omega)]
  obtain ⟨R, hR, r1, r2, r3⟩ := fullJacobian_ok rk.mb path
    (jacLambdaBlock gens (env.jac (s.data rk).body (s.points.getD j 0)) (pathDof rk.mb path))
    (Mat.zero m.scratch m.nrDof) hi hnd (le_refl _)
    (by simp only [jacLambdaBlock, Mat.zero]; omega) (by simp [Mat.zero, hn])
  rw [hR]
  simp only [Out.ok_bind]
  have hb : R.block 0 0 gens.length m.nrDof
      = .ok ⟨gens.length, m.nrDof, fun a b => R.get a b⟩ := by
    unfold Mat.block
    rw [if_pos ⟨by rw [r1]; simp only [Mat.zero]; omega, by rw [r2]; simp [Mat.zero]⟩]
    simp
  rw [hb]
  simp only [Out.ok_bind]
  rw [setBlock_congr (N := ⟨rk.mb.nrDof, (s.cones.getD j ⟨[]⟩).generators.length, fun d k =>
      -(pointCol rk.mb (pathOf rk s.body) (env.jac s.body (s.points.getD j 0)) d).dot
        ((s.cones.getD j ⟨[]⟩).generators.getD k 0)⟩) hn hlen]
  · rw [before_succ, hlen]; rfl
  · intro d hd k hk
    dsimp only at hd hk ⊢
    rw [r3 k hk d (by omega)]
    simp only [jacLambdaBlock]
    rw [onDofs_lin3, hg, getD_map_gens, hpath]
    simp only [pointCol, V3.dot, V3.neg_x, V3.neg_y, V3.neg_z, Side.data]
    ring

theorem pathDof_le (mb : MultiBody K) (path : List ℕ) (hn : path.Nodup)
    (hi : ∀ i ∈ path, i < mb.joints.length) : pathDof mb path ≤ mb.nrDof := by
  have h1 : pathDof mb path = ∑ i ∈ path.toFinset, jdof mb i := by
    unfold pathDof
    rw [← List.sum_toFinset _ hn]
    rfl
  have h2 : mb.nrDof = ∑ i ∈ range mb.joints.length, jdof mb i := by
    have : ∀ n ≤ mb.joints.length, jpos mb n = ∑ i ∈ range n, jdof mb i := by
      intro n hn
      induction n with
      | zero => simp [jpos]
      | succ n ih => rw [jpos_succ mb n (by omega), ih (by omega), Finset.sum_range_succ]
    rw [← this _ (le_refl _), jpos_length]
  rw [h1, h2]
  refine Finset.sum_le_sum_of_subset ?_
  intro i h
  simpa using hi i (by simpa using h)

theorem contactStep_ok (rk : RobotKin K) (env : MotionEnv K) (m : MotionCommon K) (s : Side K)
    (hn : m.nrDof = rk.mb.nrDof) {path : List ℕ} (hp : rk.path s.body = .ok path)
    (hnd : path.Nodup) (hi : ∀ i ∈ path, i < rk.mb.joints.length)
    (hc : s.points.length ≤ s.cones.length) (A : Mat K) (hA : A.rows = rk.mb.nrDof)
    (hfit : s.begin' + s.width ≤ A.cols) (hw : s.width ≤ m.scratch) :
    MotionCommon.contactStep rk.mb env m (s.data rk) A
      = .ok ⟨A.rows, A.cols, over (s.blocks rk env) A.get⟩ := by
  unfold MotionCommon.contactStep
  have hpts : (s.data rk).points = s.points := rfl
  rw [hpts]
  obtain ⟨st, e, hst⟩ := forRange_inv (n := s.points.length)
    (f := MotionCommon.pointStep rk.mb env m (s.data rk)) (s := (A, 0))
    (fun i st => st = (⟨A.rows, A.cols, over ((List.range i).map fun j =>
      (s.begin' + before s.cones j,
        (⟨rk.mb.nrDof, (s.cones.getD j ⟨[]⟩).generators.length, fun d k =>
          -(pointCol rk.mb (pathOf rk s.body) (env.jac s.body (s.points.getD j 0)) d).dot
            ((s.cones.getD j ⟨[]⟩).generators.getD k 0)⟩ : Mat K))) A.get⟩, before s.cones i))
    (by simp [over, before])
    (by
      rintro j hj st rfl
      have hm := before_mono s.cones (show j + 1 ≤ s.points.length by omega)
      have hs := before_succ s.cones j
      unfold Side.width at hfit hw
      rw [pointStep_ok rk env m s hn hp hnd hi (pathDof_le _ _ hnd hi) j hj hc _ (by omega)]
      rw [setBlock_col (by simp [hA]) (by simp only; omega)]
      refine ⟨_, rfl, ?_⟩
      rw [List.range_succ, List.map_append, over_append]
      rfl)
  rw [e, hst]
  rfl

/-- The layout facts the motion constraint relies on. -/
structure DataOK (d : SolverData K) (r : ℕ) (mb : MultiBody K) (aB : ℕ) : Prop where
  hB : d.alphaDBegin[r]? = some aB
  hfit : aB + mb.nrDof ≤ d.totalAlphaD
  hL : d.lambdaBegin = starts d.totalAlphaD (d.allCont.map BiContact.nL)
  hT : d.totalLambda = (d.allCont.map BiContact.nL).sum
  hN : d.nrVars = d.totalAlphaD + d.totalLambda

theorem LayoutSpec.dataOK {old : SolverData K} {mbs : List (MultiBody K)}
    {uni : List (UniContact K)} {bi : List (BiContact K)} {d : SolverData K} {deps : List (Dep K)}
    (s : LayoutSpec old mbs uni bi d deps) {r : ℕ} {mb : MultiBody K} (h : mbs[r]? = some mb) :
    DataOK d r mb (((mbs.take r).map MultiBody.nrDof).sum) := by
  have hr : r < mbs.length := by
    by_contra hc; rw [List.getElem?_eq_none (not_lt.mp hc)] at h; cases h
  have e : d.allCont.map BiContact.nL = uni.map UniContact.nL ++ bi.map BiContact.nL := by
    rw [s.allCont, List.map_append, List.map_map]
    congr 1
    exact List.map_congr_left fun c _ => BiContact.nL_ofUni c
  refine ⟨?_, ?_, ?_, ?_, s.nrVars⟩
  · rw [s.alphaDBegin, List.getElem?_eq_getElem (by simpa using hr), getElem_starts]
    simp [List.map_take]
  · have h' : (mbs.map MultiBody.nrDof)[r]? = some mb.nrDof := by simp [h]
    have := take_succ_sum_le _ r (mbs.map MultiBody.nrDof).length _ (by simpa using hr) h'
    rw [List.take_length] at this
    rw [s.totalAlphaD, List.map_take]
    exact this
  · rw [s.lambdaBegin, e]
  · rw [s.totalLambda, s.nrUniLambda, s.nrBiLambda, e, List.sum_append]

theorem nL_eq_before (c : BiContact K) (h : c.r1Points.length ≤ c.r1Cones.length) :
    c.nL = before c.r1Cones c.r1Points.length := by
  have h1 := BiContact.nrLambda_ok c h
  have h2 := bi_nrLambda c h
  rw [h1] at h2
  exact Out.ok.inj h2

/-- What the contacts of a zipped entry satisfy. -/
theorem mem_zip_fit {d : SolverData K} {r : ℕ} {mb : MultiBody K} {aB : ℕ} (D : DataOK d r mb aB)
    {cb : BiContact K × ℕ} (h : cb ∈ d.allCont.zip d.lambdaBegin) :
    cb.1 ∈ d.allCont ∧ d.totalAlphaD ≤ cb.2 ∧ cb.2 + cb.1.nL ≤ d.nrVars ∧
      cb.1.nL ≤ d.totalLambda := by
  obtain ⟨k, hk⟩ := List.mem_iff_getElem?.mp h
  rw [List.getElem?_zip_eq_some] at hk
  have hkl : k < d.allCont.length := by
    by_contra hc; rw [List.getElem?_eq_none (not_lt.mp hc)] at hk; cases hk.1
  have hn : (d.allCont.map BiContact.nL)[k]? = some cb.1.nL := by simp [hk.1]
  have hb : cb.2 = d.totalAlphaD + ((d.allCont.map BiContact.nL).take k).sum := by
    have h2 := hk.2
    rw [D.hL, List.getElem?_eq_getElem (by simpa using hkl), getElem_starts] at h2
    exact (Option.some.inj h2).symm
  have := take_succ_sum_le _ k (d.allCont.map BiContact.nL).length _ (by simpa using hkl) hn
  rw [List.take_length] at this
  have hT := D.hT
  have hN := D.hN
  exact ⟨List.mem_of_getElem? hk.1, by omega, by omega, by omega⟩

theorem zip_pairwise (a : ℕ) (l : List (BiContact K)) :
    (l.zip (starts a (l.map BiContact.nL))).Pairwise (fun p q => p.2 + p.1.nL ≤ q.2) := by
  have lower : ∀ (l : List (BiContact K)) (a : ℕ) q, q ∈ l.zip (starts a (l.map BiContact.nL)) →
      a ≤ q.2 := by
    intro l
    induction l with
    | nil => simp
    | cons c t ih =>
      intro a q hq
      simp only [List.map_cons, starts, List.zip_cons_cons, List.mem_cons] at hq
      rcases hq with rfl | hq
      · exact le_refl _
      · have := ih _ _ hq; omega
  induction l generalizing a with
  | nil => simp
  | cons c t ih =>
    simp only [List.map_cons, starts, List.zip_cons_cons]
    exact List.Pairwise.cons (fun q hq => lower t _ q hq) (ih _)

theorem mem_sidesOf {r : ℕ} {c : BiContact K} {b : ℕ} {s : Side K} (hs : ContactShaped c)
    (h : s ∈ sidesOf r c b) :
    s.begin' = b ∧ s.width = c.nL ∧ s.points.length ≤ s.cones.length := by
  have := nL_eq_before c hs.1
  unfold sidesOf at h
  rcases List.mem_append.mp h with h | h
  · split at h
    · simp only [List.mem_singleton] at h
      subst h
      exact ⟨rfl, by rw [this]; rfl, hs.1⟩
    · simp at h
  · split at h
    · simp only [List.mem_singleton] at h
      subst h
      exact ⟨rfl, by rw [this, ← hs.2.2]; rfl, hs.2.1⟩
    · simp at h

theorem mem_lastSideOf {r : ℕ} {c : BiContact K} {b : ℕ} {s : Side K}
    (h : s ∈ lastSideOf r c b) : s ∈ sidesOf r c b := by
  unfold lastSideOf at h
  unfold sidesOf
  split at h
  · rename_i h2; simp only [List.mem_singleton] at h; subst h; simp [h2]
  · rename_i h2
    split at h
    · rename_i h1; simp only [List.mem_singleton] at h; subst h; simp [h1]
    · simp at h

theorem mem_blocks {rk : RobotKin K} {env : MotionEnv K} {s : Side K} {p : ℕ × Mat K}
    (h : p ∈ s.blocks rk env) :
    p.2.rows = rk.mb.nrDof ∧ s.begin' ≤ p.1 ∧ p.1 + p.2.cols ≤ s.begin' + s.width := by
  unfold Side.blocks at h
  obtain ⟨j, hj, rfl⟩ := List.mem_map.mp h
  have h1 := before_mono s.cones (show j + 1 ≤ s.points.length by simpa using hj)
  rw [before_succ] at h1
  unfold Side.width
  dsimp only
  omega

theorem blocks_disj (rk : RobotKin K) (env : MotionEnv K) (s : Side K) :
    Disj (s.blocks rk env) := by
  unfold Side.blocks Disj
  rw [List.pairwise_map]
  refine List.Pairwise.imp ?_ List.pairwise_lt_range
  intro i j hij c hc
  have h1 := before_mono s.cones (show i + 1 ≤ j by omega)
  rw [before_succ] at h1
  dsimp only at hc
  omega

theorem cov_blocks (rk : RobotKin K) (env : MotionEnv K) (s : Side K) (a c : ℕ) :
    Cov (s.blocks rk env) a c ↔ a < rk.mb.nrDof ∧ s.begin' ≤ c ∧ c < s.begin' + s.width := by
  constructor
  · rintro ⟨p, hp, h⟩
    have := mem_blocks hp
    omega
  · rintro ⟨h1, h2, h3⟩
    unfold Side.width at h3
    have key : ∀ n, c < s.begin' + before s.cones n → ∃ j < n, s.begin' + before s.cones j ≤ c ∧
        c < s.begin' + before s.cones (j + 1) := by
      intro n
      induction n with
      | zero => intro h; simp [before] at h; omega
      | succ n ih =>
        intro h
        by_cases hh : c < s.begin' + before s.cones n
        · obtain ⟨j, hj, r⟩ := ih hh; exact ⟨j, by omega, r⟩
        · exact ⟨n, by omega, by omega, h⟩
    obtain ⟨j, hj, hj1, hj2⟩ := key _ h3
    rw [before_succ] at hj2
    exact ⟨_, List.mem_map.mpr ⟨j, List.mem_range.mpr hj, rfl⟩, h1, hj1, by dsimp only; omega⟩

/-- All column blocks, as kept in the end. -/
def allBlocks (rk : RobotKin K) (env : MotionEnv K) (aB : ℕ) (l : List (Side K)) :
    List (ℕ × Mat K) := (aB, env.H) :: l.flatMap fun s => s.blocks rk env

theorem over_sides (rk : RobotKin K) (env : MotionEnv K) (r : ℕ) (c : BiContact K) (b : ℕ)
    (hs : ContactShaped c) (f : ℕ → ℕ → K) :
    over ((sidesOf r c b).flatMap fun s => s.blocks rk env) f
      = over ((lastSideOf r c b).flatMap fun s => s.blocks rk env) f := by
  unfold sidesOf lastSideOf
  by_cases h1 : (r : ℤ) = c.id.r1Index <;> by_cases h2 : (r : ℤ) = c.id.r2Index
  · rw [if_pos h1, if_pos h2, if_pos h2]
    simp only [List.flatMap_append, List.flatMap_cons, List.flatMap_nil, List.append_nil]
    refine over_same (fun a c' => ?_) f
    rw [cov_blocks, cov_blocks]
    unfold Side.width
    dsimp only
    rw [hs.2.2]
    exact id
  · simp only [if_pos h1, if_neg h2]; simp
  · simp only [if_neg h1, if_pos h2]; simp
  · simp only [if_neg h1, if_neg h2]; simp

theorem over_allSides (rk : RobotKin K) (env : MotionEnv K) (r : ℕ)
    (l : List (BiContact K × ℕ)) (hs : ∀ cb ∈ l, ContactShaped cb.1) (f : ℕ → ℕ → K) :
    over ((l.flatMap fun cb => sidesOf r cb.1 cb.2).flatMap fun s => s.blocks rk env) f
      = over ((l.flatMap fun cb => lastSideOf r cb.1 cb.2).flatMap fun s => s.blocks rk env) f := by
  induction l generalizing f with
  | nil => rfl
  | cons cb t ih =>
    simp only [List.flatMap_cons, List.flatMap_append, over_append]
    rw [over_sides rk env r cb.1 cb.2 (hs cb (by simp)), ih (fun q hq => hs q (by simp [hq]))]

theorem allBlocks_disj (rk : RobotKin K) (env : MotionEnv K) (r : ℕ) {d : SolverData K} {aB : ℕ}
    (D : DataOK d r rk.mb aB) (hs : ∀ c ∈ d.allCont, ContactShaped c)
    (hH : env.H.cols = rk.mb.nrDof) :
    Disj (allBlocks rk env aB (lastSides r d)) := by
  unfold allBlocks
  refine List.Pairwise.cons ?_ ?_
  · intro q hq c hc
    obtain ⟨s, hs', hq⟩ := List.mem_flatMap.mp hq
    obtain ⟨cb, hcb, hs'⟩ := List.mem_flatMap.mp hs'
    have h1 := mem_zip_fit D hcb
    have h2 := mem_sidesOf (hs _ h1.1) (mem_lastSideOf hs')
    have h3 := mem_blocks hq
    have h4 := D.hfit
    dsimp only at hc
    omega
  · unfold lastSides
    rw [List.flatMap_assoc, List.pairwise_flatMap]
    constructor
    · rintro cb hcb
      rw [List.pairwise_flatMap]
      refine ⟨fun s _ => blocks_disj rk env s, ?_⟩
      unfold lastSideOf
      split
      · simp
      · split <;> simp
    · have hp := zip_pairwise d.totalAlphaD d.allCont
      rw [← D.hL] at hp
      refine List.Pairwise.imp_of_mem ?_ hp
      intro p q hp hq hpq x hx y hy c hc
      obtain ⟨s, hs1, hx⟩ := List.mem_flatMap.mp hx
      obtain ⟨s', hs2, hy⟩ := List.mem_flatMap.mp hy
      have a1 := mem_sidesOf (hs _ (mem_zip_fit D hp).1) (mem_lastSideOf hs1)
      have a2 := mem_sidesOf (hs _ (mem_zip_fit D hq).1) (mem_lastSideOf hs2)
      have b1 := mem_blocks hx
      have b2 := mem_blocks hy
      omega

theorem allBlocks_fit (rk : RobotKin K) (env : MotionEnv K) (r : ℕ) {d : SolverData K} {aB : ℕ}
    (D : DataOK d r rk.mb aB) (hs : ∀ c ∈ d.allCont, ContactShaped c)
    (hH : env.H.cols = rk.mb.nrDof) (hH' : env.H.rows = rk.mb.nrDof) :
    ∀ p ∈ allBlocks rk env aB (lastSides r d), p.2.rows = rk.mb.nrDof ∧ p.1 + p.2.cols ≤ d.nrVars := by
  intro p hp
  rcases List.mem_cons.mp hp with rfl | hp
  · have := D.hfit; have := D.hN
    exact ⟨hH', by dsimp only; omega⟩
  · obtain ⟨s, hs', hq⟩ := List.mem_flatMap.mp hp
    obtain ⟨cb, hcb, hs'⟩ := List.mem_flatMap.mp hs'
    have h1 := mem_zip_fit D hcb
    have h2 := mem_sidesOf (hs _ h1.1) (mem_lastSideOf hs')
    have h3 := mem_blocks hq
    exact ⟨h3.1, by omega⟩

theorem sum_map_range (n : ℕ) (f : ℕ → K) : ((List.range n).map f).sum = ∑ j ∈ range n, f j := by
  induction n with
  | zero => simp
  | succ n ih => rw [List.range_succ, List.map_append, List.sum_append, ih, Finset.sum_range_succ]; simp

theorem blocks_sum (rk : RobotKin K) (env : MotionEnv K) (s : Side K) (x : ℕ → K) (a : ℕ) :
    ((s.blocks rk env).map fun p => ∑ k ∈ range p.2.cols, p.2.get a k * x (p.1 + k)).sum
      = - contactTorque rk env s x a := by
  unfold Side.blocks contactTorque
  rw [List.map_map, sum_map_range, ← Finset.sum_neg_distrib]
  refine Finset.sum_congr rfl fun j _ => ?_
  simp only [Function.comp]
  unfold Side.force combo
  set col := pointCol rk.mb (pathOf rk s.body) (env.jac s.body (s.points.getD j 0)) a
  have : ∀ (n : ℕ) (g : ℕ → V3 K), col.dot (∑ k ∈ range n, g k) = ∑ k ∈ range n, col.dot (g k) := by
    intro n g
    induction n with
    | zero => simp [V3.dot_zero]
    | succ n ih => rw [Finset.sum_range_succ, V3.dot_add, ih, Finset.sum_range_succ]
  rw [this, ← Finset.sum_neg_distrib]
  refine Finset.sum_congr rfl fun k _ => ?_
  rw [V3.dot_smul]
  ring

/-- Sizes of what RBDyn computes. -/
def Spec.EnvOK (rk : RobotKin K) (env : MotionEnv K) : Prop :=
  env.H.rows = rk.mb.nrDof ∧ env.H.cols = rk.mb.nrDof ∧ env.C.size = rk.mb.nrDof

/-- State of the constraint after `updateNrVars` with data `d`. -/
structure MReady (rk : RobotKin K) (d : SolverData K) (r aB : ℕ) (s : MotionCommon K) : Prop where
  robot : s.robotIndex = r
  n : s.nrDof = rk.mb.nrDof
  hB : s.alphaDBegin = aB
  lB : s.lambdaBegin = d.totalAlphaD
  scr : s.scratch = d.totalLambda
  cont : s.cont = (sides r d).map (Side.data rk)
  rows : s.A.rows = rk.mb.nrDof
  cols : s.A.cols = d.nrVars
  cur : s.curTorque.size = rk.mb.nrDof
  zero : ∀ a < rk.mb.nrDof, ∀ c < d.nrVars, ¬ (aB ≤ c ∧ c < aB + rk.mb.nrDof) →
    (∀ t ∈ lastSides r d, ¬ (t.begin' ≤ c ∧ c < t.begin' + t.width)) → s.A.get a c = 0

theorem updateNrVars_ready (rk : RobotKin K) (d : SolverData K) (r aB : ℕ) (s : MotionCommon K)
    (D : DataOK d r rk.mb aB) (hb : BodiesOK rk (sides r d)) (h1 : s.robotIndex = r)
    (h2 : s.nrDof = rk.mb.nrDof) (h3 : s.curTorque.size = rk.mb.nrDof) :
    ∃ s', s.updateNrVars rk d = .ok s' ∧ MReady rk d r aB s' ∧ s'.curTorque = s.curTorque := by
  unfold MotionCommon.updateNrVars
  rw [h1, vecAt_eq_ok.mpr D.hB]
  simp only [Out.ok_bind]
  rw [contLoop_ok rk d r (by rw [D.hL]; simp) hb]
  refine ⟨_, rfl, ⟨rfl, h2, rfl, rfl, rfl, rfl, ?_, rfl, h3, ?_⟩, rfl⟩
  · simp [Mat.zero, h2]
  · intros; rfl

theorem contacts_ok (rk : RobotKin K) (env : MotionEnv K) (m : MotionCommon K)
    (hn : m.nrDof = rk.mb.nrDof) (l : List (Side K)) (hb : BodiesOK rk l) (A : Mat K)
    (hA : A.rows = rk.mb.nrDof)
    (hl : ∀ s ∈ l, s.points.length ≤ s.cones.length ∧ s.begin' + s.width ≤ A.cols ∧
      s.width ≤ m.scratch) :
    forEach (l.map (Side.data rk)) (MotionCommon.contactStep rk.mb env m) A
      = .ok ⟨A.rows, A.cols, over (l.flatMap fun s => s.blocks rk env) A.get⟩ := by
  induction l generalizing A with
  | nil => rfl
  | cons s t ih =>
    obtain ⟨path, hp, _, hnd, hi⟩ := hb s (by simp)
    obtain ⟨c1, c2, c3⟩ := hl s (by simp)
    simp only [List.map_cons, forEach]
    rw [contactStep_ok rk env m s hn hp hnd hi c1 A hA c2 c3, Out.ok_bind]
    have := ih (bodiesOK_mono hb (by simp +contextual))
      ⟨A.rows, A.cols, over (s.blocks rk env) A.get⟩ hA (fun s hs => hl s (by simp [hs]))
    rw [this, List.flatMap_cons, over_append]

theorem mem_sides_fit {rk : RobotKin K} {d : SolverData K} {r aB : ℕ} (D : DataOK d r rk.mb aB)
    (hs : ∀ c ∈ d.allCont, ContactShaped c) {s : Side K} (h : s ∈ sides r d) :
    s.points.length ≤ s.cones.length ∧ s.begin' + s.width ≤ d.nrVars ∧
      s.width ≤ d.totalLambda ∧ d.totalAlphaD ≤ s.begin' := by
  obtain ⟨cb, hcb, h⟩ := List.mem_flatMap.mp h
  have h1 := mem_zip_fit D hcb
  have h2 := mem_sidesOf (hs _ h1.1) h
  exact ⟨h2.2.2, by omega, by omega, by omega⟩

theorem mem_lastSides {d : SolverData K} {r : ℕ} {s : Side K} (h : s ∈ lastSides r d) :
    s ∈ sides r d := by
  obtain ⟨cb, hcb, h⟩ := List.mem_flatMap.mp h
  exact List.mem_flatMap.mpr ⟨cb, hcb, mem_lastSideOf h⟩

/-- What `computeMatrix` leaves behind. -/
structure Computed (rk : RobotKin K) (env : MotionEnv K) (d : SolverData K) (r aB : ℕ)
    (s s' : MotionCommon K) : Prop where
  ready : MReady rk d r aB s'
  H : s'.fdH = env.H
  C : s'.fdC = env.C
  AL : s'.AL = ⟨env.C.size, fun i => .fin (-env.C.get i)⟩
  AU : s'.AU = ⟨env.C.size, fun i => .fin (-env.C.get i)⟩
  cur : s'.curTorque = s.curTorque
  row : ∀ a < rk.mb.nrDof, ∀ x : ℕ → K,
    s'.A.rowMul a x = invDyn rk env aB (lastSides r d) x a - env.C.get a

theorem computeMatrix_ok (rk : RobotKin K) (env : MotionEnv K) (d : SolverData K) (r aB : ℕ)
    (s : MotionCommon K) (D : DataOK d r rk.mb aB) (hb : BodiesOK rk (sides r d))
    (hs : ∀ c ∈ d.allCont, ContactShaped c) (E : EnvOK rk env) (R : MReady rk d r aB s) :
    ∃ s', s.computeMatrix rk.mb env = .ok s' ∧ Computed rk env d r aB s s' := by
  obtain ⟨E1, E2, E3⟩ := E
  have hfit := D.hfit
  have hN := D.hN
  unfold MotionCommon.computeMatrix
  rw [if_neg (by rw [R.n]; omega), R.cont, R.hB,
    setBlock_col (by rw [R.rows, E1]) (by rw [R.cols, E2]; omega)]
  simp only [Out.ok_bind]
  have hc := contacts_ok rk env s R.n (sides r d) hb ⟨s.A.rows, s.A.cols, fun a c =>
      if a < env.H.rows ∧ aB ≤ c ∧ c < aB + env.H.cols then env.H.get a (c - aB)
        else s.A.get a c⟩ R.rows (fun t ht => by
    have := mem_sides_fit D hs ht
    rw [R.scr]
    dsimp only
    rw [R.cols]
    exact ⟨this.1, this.2.1, this.2.2.1⟩)
  rw [hc]
  simp only [Out.ok_bind]
  have hover : over ((sides r d).flatMap fun s => s.blocks rk env)
      (fun a c => if a < env.H.rows ∧ aB ≤ c ∧ c < aB + env.H.cols then env.H.get a (c - aB)
        else s.A.get a c)
      = over (allBlocks rk env aB (lastSides r d)) s.A.get := by
    unfold sides
    rw [over_allSides rk env r _ (fun cb h => hs _ (mem_zip_fit D h).1)]
    rfl
  rw [hover]
  have hcov : ∀ a < rk.mb.nrDof, ∀ c, ¬ Cov (allBlocks rk env aB (lastSides r d)) a c →
      ¬ (aB ≤ c ∧ c < aB + rk.mb.nrDof) ∧
      (∀ t ∈ lastSides r d, ¬ (t.begin' ≤ c ∧ c < t.begin' + t.width)) := by
    intro a ha c h
    refine ⟨fun h' => h ⟨_, List.mem_cons_self, ?_⟩, fun t ht h' => h ?_⟩
    · dsimp only; omega
    · obtain ⟨p, hp, hp'⟩ := (cov_blocks rk env t a c).mpr ⟨ha, h'⟩
      exact ⟨p, List.mem_cons_of_mem _ (List.mem_flatMap.mpr ⟨t, ht, hp⟩), hp'⟩
  have hcov' : ∀ a < rk.mb.nrDof, ∀ c, ¬ (aB ≤ c ∧ c < aB + rk.mb.nrDof) →
      (∀ t ∈ lastSides r d, ¬ (t.begin' ≤ c ∧ c < t.begin' + t.width)) →
      ¬ Cov (allBlocks rk env aB (lastSides r d)) a c := by
    rintro a ha c h1 h2 ⟨p, hp, hp'⟩
    rcases List.mem_cons.mp hp with rfl | hp
    · exact h1 (by dsimp only at hp'; omega)
    · obtain ⟨t, ht, hp⟩ := List.mem_flatMap.mp hp
      exact h2 t ht ((cov_blocks rk env t a c).mp ⟨p, hp, hp'⟩).2
  have hrow : ∀ a < rk.mb.nrDof, ∀ x : ℕ → K,
      (Mat.rowMul ⟨s.A.rows, s.A.cols, over (allBlocks rk env aB (lastSides r d)) s.A.get⟩ a x : K)
        = invDyn rk env aB (lastSides r d) x a - env.C.get a := by
    intro a ha x
    rw [rowMul_over _ s.A a x (allBlocks_disj rk env r D hs E2)]
    · unfold allBlocks invDyn
      rw [List.map_cons, List.sum_cons]
      dsimp only
      rw [E2]
      have : ∀ l : List (Side K),
          ((l.flatMap fun s => s.blocks rk env).map
            fun p => ∑ k ∈ range p.2.cols, p.2.get a k * x (p.1 + k)).sum
          = - (l.map fun s => contactTorque rk env s x a).sum := by
        intro l
        induction l with
        | nil => simp
        | cons t l ih =>
          rw [List.flatMap_cons, List.map_append, List.sum_append, ih, blocks_sum, List.map_cons,
            List.sum_cons]
          ring
      rw [this]
      ring
    · intro p hp
      have := allBlocks_fit rk env r D hs E2 E1 p hp
      rw [R.cols]
      exact ⟨by omega, this.2⟩
    · intro c hc h
      have := hcov a ha c h
      exact R.zero a ha c (by rw [← R.cols]; exact hc) this.1 this.2
  refine ⟨_, rfl, ⟨R.robot, R.n, rfl, R.lB, R.scr, rfl, R.rows, R.cols, R.cur, ?_⟩,
    rfl, rfl, rfl, rfl, rfl, hrow⟩
  intro a ha c hc h1 h2
  change over _ s.A.get a c = 0
  rw [over_not_cov (hcov' a ha c h1 h2)]
  exact R.zero a ha c hc h1 h2

theorem contactTorque_zero (rk : RobotKin K) (env : MotionEnv K) (s : Side K) (x : ℕ → K) (a : ℕ)
    (h : ∀ c, s.begin' ≤ c → x c = 0) : contactTorque rk env s x a = 0 := by
  unfold contactTorque
  refine Finset.sum_eq_zero fun j _ => ?_
  have : s.force x j = 0 := by
    unfold Side.force combo
    refine Finset.sum_eq_zero fun k _ => ?_
    dsimp only
    rw [h _ (by omega), V3.zero_smul']
  rw [this, V3.dot_zero]

/-- The torque `computeTorque` stores is the one of the lines. -/
theorem computeTorque_ok (rk : RobotKin K) (env : MotionEnv K) (d : SolverData K) (r aB : ℕ)
    (s s' : MotionCommon K) (D : DataOK d r rk.mb aB) (hs : ∀ c ∈ d.allCont, ContactShaped c)
    (E : EnvOK rk env) (Cm : Computed rk env d r aB s s') (x aD lam : Vec K)
    (hx : x.size = d.nrVars) (ha : alphaDVec d x = .ok aD) (hl : lambdaVec d x = .ok lam) :
    ∃ s2, s'.computeTorque aD lam = .ok s2 ∧ MReady rk d r aB s2 ∧ s2.A = s'.A ∧
      s2.AL = s'.AL ∧ s2.AU = s'.AU ∧
      ∀ a < rk.mb.nrDof, s2.curTorque.get a = invDyn rk env aB (lastSides r d) x.get a := by
  have hN := D.hN
  have hfit := D.hfit
  have R := Cm.ready
  obtain ⟨E1, E2, E3⟩ := E
  unfold alphaDVec Vec.segment at ha
  rw [if_pos (by omega)] at ha
  obtain rfl := Out.ok.inj ha
  unfold lambdaVec Vec.segment SolverData.lambdaBegin0 at hl
  rw [if_pos (by omega)] at hl
  obtain rfl := Out.ok.inj hl
  unfold MotionCommon.computeTorque Vec.segment
  dsimp only
  rw [R.hB, R.n, if_pos hfit]
  simp only [Out.ok_bind]
  rw [Cm.H, Cm.C, if_neg (by omega), if_neg (by rw [R.cols, R.lB, R.rows]; omega)]
  refine ⟨_, rfl, ⟨R.robot, rfl, rfl, R.lB, R.scr, R.cont, R.rows, R.cols, ?_, R.zero⟩,
    rfl, rfl, rfl, ?_⟩
  · exact E1
  · intro a ha
    dsimp only
    have split : ∀ y : ℕ → K, s'.A.rowMul a y = ∑ c ∈ range d.totalAlphaD, s'.A.get a c * y c
        + ∑ k ∈ range d.totalLambda, s'.A.get a (d.totalAlphaD + k) * y (d.totalAlphaD + k) := by
      intro y
      unfold Mat.rowMul
      rw [R.cols, hN, Finset.sum_range_add]
    have h1 := Cm.row a ha x.get
    have h2 := Cm.row a ha (fun c => if c < d.totalAlphaD then x.get c else 0)
    rw [split] at h1 h2
    have h3 : ∑ c ∈ range d.totalAlphaD,
          s'.A.get a c * (fun c => if c < d.totalAlphaD then x.get c else 0) c
        = ∑ c ∈ range d.totalAlphaD, s'.A.get a c * x.get c := by
      refine Finset.sum_congr rfl fun c hc => ?_
      dsimp only
      rw [if_pos (by simpa using hc)]
    have h4 : ∑ k ∈ range d.totalLambda, s'.A.get a (d.totalAlphaD + k) *
        (fun c => if c < d.totalAlphaD then x.get c else 0) (d.totalAlphaD + k) = 0 := by
      refine Finset.sum_eq_zero fun k _ => ?_
      dsimp only
      rw [if_neg (by omega), mul_zero]
    have h5 : (List.map (fun s => contactTorque rk env s
        (fun c => if c < d.totalAlphaD then x.get c else 0) a) (lastSides r d)).sum = 0 := by
      have : ∀ t ∈ lastSides r d, contactTorque rk env t
          (fun c => if c < d.totalAlphaD then x.get c else 0) a = 0 := by
        intro t ht
        refine contactTorque_zero rk env t _ a fun c hc => ?_
        have := mem_sides_fit D hs (mem_lastSides ht)
        rw [if_neg (by omega)]
      rw [List.map_congr_left this]
      simp
    rw [h3, h4] at h2
    unfold invDyn at h1 h2 ⊢
    rw [h5] at h2
    have h6 : ∑ j ∈ range rk.mb.nrDof, env.H.get a j *
        (fun c => if c < d.totalAlphaD then x.get c else 0) (aB + j)
        = ∑ j ∈ range rk.mb.nrDof, env.H.get a j * x.get (aB + j) := by
      refine Finset.sum_congr rfl fun j hj => ?_
      dsimp only
      rw [if_pos (by have := Finset.mem_range.mp hj; omega)]
    rw [h6] at h2
    unfold Mat.rowMul
    rw [E2, R.lB]
    simp only [Nat.zero_add]
    linear_combination (-1 : K) * h2 + h1

end Verif
