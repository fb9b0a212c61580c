import Verif.Model.Kine
import Verif.Proofs.Geometry
import Verif.Proofs.Jacobian
import Verif.Proofs.Layout
import Mathlib.Data.List.GetD

/-!
# Helper lemmas on the kinematic tasks
-/

set_option autoImplicit false
set_option linter.unusedSectionVars false

namespace Verif

open Finset Spec

section
variable {K : Type} [CommRing K]

/-! ## Spatial algebra -/

namespace MV

instance : Neg (MV K) := ⟨fun a => ⟨-a.ang, -a.lin⟩⟩
instance : SMul K (MV K) := ⟨fun c a => ⟨c • a.ang, c • a.lin⟩⟩
@[simp] theorem neg_ang (a : MV K) : (-a).ang = -a.ang := rfl
@[simp] theorem neg_lin (a : MV K) : (-a).lin = -a.lin := rfl
@[simp] theorem smul_ang (c : K) (a : MV K) : (c • a).ang = c • a.ang := rfl
@[simp] theorem smul_lin (c : K) (a : MV K) : (c • a).lin = c • a.lin := rfl

instance : AddCommGroup (MV K) where
  add_assoc a b c := by ext <;> simp <;> ring
  zero_add a := by ext <;> simp
  add_zero a := by ext <;> simp
  add_comm a b := by ext <;> simp <;> ring
  neg_add_cancel a := by ext <;> simp
  sub_eq_add_neg a b := by ext <;> simp <;> ring
  nsmul := nsmulRec
  zsmul := zsmulRec

theorem get_add (a b : MV K) (i : ℕ) : (a + b).get i = a.get i + b.get i := by
  unfold get
  split <;> simp only [add_ang, add_lin, V3.get] <;> split <;> simp

theorem get_smul (c : K) (a : MV K) (i : ℕ) : (c • a).get i = c * a.get i := by
  unfold get
  split <;> simp only [smul_ang, smul_lin, V3.get] <;> split <;> simp

theorem get_sub (a b : MV K) (i : ℕ) : (a - b).get i = a.get i - b.get i := by
  unfold get
  split <;> simp only [sub_ang, sub_lin, V3.get] <;> split <;> simp

theorem get_neg (a : MV K) (i : ℕ) : (-a).get i = -a.get i := by
  unfold get
  split <;> simp only [neg_ang, neg_lin, V3.get] <;> split <;> simp

theorem get_zero (i : ℕ) : (0 : MV K).get i = 0 := by
  unfold get
  split <;> simp only [zero_ang, zero_lin, V3.get] <;> split <;> simp

theorem cross_add (a b c : MV K) : a.cross (b + c) = a.cross b + a.cross c := by
  ext <;> simp [cross] <;> ring

theorem cross_smul (a b : MV K) (c : K) : a.cross (c • b) = c • a.cross b := by
  ext <;> simp [cross] <;> ring

end MV

/-- Additive and homogeneous maps on motion vectors. -/
structure MV.Lin {M : Type} [AddCommMonoid M] [SMul K M] (φ : MV K → M) : Prop where
  zero : φ 0 = 0
  add : ∀ a b, φ (a + b) = φ a + φ b
  smul : ∀ (c : K) a, φ (c • a) = c • φ a

theorem MV.Lin.sum {M : Type} [AddCommMonoid M] [SMul K M] {φ : MV K → M} (h : MV.Lin φ)
    (n : ℕ) (f : ℕ → MV K) : φ (∑ i ∈ range n, f i) = ∑ i ∈ range n, φ (f i) := by
  induction n with
  | zero => simp [h.zero]
  | succ n ih => rw [Finset.sum_range_succ, Finset.sum_range_succ, h.add, ih]

namespace M3

theorem IsRot.transpose {m : M3 K} (h : m.IsRot) : m.transpose.IsRot := by
  refine ⟨h.1.transpose, ?_⟩
  have := h.cross_mulVec ⟨1, 0, 0⟩ ⟨0, 1, 0⟩
  have e0 : m.mulVec ⟨1, 0, 0⟩ = m.transpose.r0 := by
    ext <;> simp [mulVec, M3.transpose, V3.dot]
  have e1 : m.mulVec ⟨0, 1, 0⟩ = m.transpose.r1 := by
    ext <;> simp [mulVec, M3.transpose, V3.dot]
  have e2 : m.mulVec ((⟨1, 0, 0⟩ : V3 K).cross ⟨0, 1, 0⟩) = m.transpose.r2 := by
    ext <;> simp [mulVec, M3.transpose, V3.dot]
  rwa [e0, e1, e2] at this

theorem transpose_mul (a b : M3 K) : (a.mul b).transpose = b.transpose.mul a.transpose := by
  simp only [mul, M3.transpose, V3.dot, M3.mk.injEq, V3.mk.injEq]
  refine ⟨⟨?_, ?_, ?_⟩, ⟨?_, ?_, ?_⟩, ?_, ?_, ?_⟩ <;> ring

theorem mul_assoc' (a b c : M3 K) : (a.mul b).mul c = a.mul (b.mul c) := by
  simp only [mul, M3.transpose, V3.dot, M3.mk.injEq, V3.mk.injEq]
  refine ⟨⟨?_, ?_, ?_⟩, ⟨?_, ?_, ?_⟩, ?_, ?_, ?_⟩ <;> ring

theorem mul_one' (a : M3 K) : a.mul one = a := by
  simp [mul, M3.transpose, V3.dot, one]

theorem one_mul' (a : M3 K) : one.mul a = a := by
  simp [mul, M3.transpose, V3.dot, one]

theorem ext_mulVec {a b : M3 K} (h : ∀ v, a.mulVec v = b.mulVec v) : a = b := by
  have h0 := h ⟨1, 0, 0⟩
  have h1 := h ⟨0, 1, 0⟩
  have h2 := h ⟨0, 0, 1⟩
  simp [mulVec, V3.dot] at h0 h1 h2
  ext <;> simp [h0, h1, h2]

theorem RowsOrtho.mul_transpose {m : M3 K} (h : m.RowsOrtho) : m.mul m.transpose = one :=
  ext_mulVec fun v => by rw [mul_mulVec, h.mulVec_transpose, one_mulVec]

theorem RowsOrtho.transpose_mul_self {m : M3 K} (h : m.RowsOrtho) : m.transpose.mul m = one :=
  ext_mulVec fun v => by rw [mul_mulVec, h.transpose_mulVec, one_mulVec]

theorem rowsOrtho_of_mul {m : M3 K} (h : m.mul m.transpose = one) : m.RowsOrtho := by
  simp only [mul, M3.transpose, one, M3.mk.injEq, V3.mk.injEq] at h
  obtain ⟨⟨a, b, c⟩, ⟨d, e, f⟩, g, i, j⟩ := h
  exact ⟨a, e, j, b, c, f⟩

theorem isRot_one : (one : M3 K).IsRot := by
  simp [IsRot, RowsOrtho, one, V3.dot, V3.cross]

theorem IsRot.mul {a b : M3 K} (ha : a.IsRot) (hb : b.IsRot) : (a.mul b).IsRot := by
  constructor
  · apply rowsOrtho_of_mul
    rw [M3.transpose_mul, mul_assoc', ← mul_assoc' b, hb.1.mul_transpose, one_mul',
      ha.1.mul_transpose]
  · -- rows of `a b` are `bᵀ` applied to the rows of `a`
    have e : ∀ v : V3 K, (⟨v.dot b.transpose.r0, v.dot b.transpose.r1, v.dot b.transpose.r2⟩ : V3 K)
        = b.transpose.mulVec v := by
      intro v
      ext <;> simp [mulVec, V3.dot] <;> ring
    show (V3.cross (⟨a.r0.dot b.transpose.r0, a.r0.dot b.transpose.r1, a.r0.dot b.transpose.r2⟩ : V3 K)
      ⟨a.r1.dot b.transpose.r0, a.r1.dot b.transpose.r1, a.r1.dot b.transpose.r2⟩)
      = ⟨a.r2.dot b.transpose.r0, a.r2.dot b.transpose.r1, a.r2.dot b.transpose.r2⟩
    rw [e, e, e, hb.transpose.cross_mulVec, ha.2]

end M3

namespace PT

/-- Plücker transforms with a rotation matrix. -/
def Rigid (X : PT K) : Prop := X.E.IsRot

theorem mulM_add (X : PT K) (a b : MV K) : X.mulM (a + b) = X.mulM a + X.mulM b := by
  ext <;> simp [mulM, M3.mulVec, V3.dot] <;> ring

theorem mulM_smul (X : PT K) (c : K) (a : MV K) : X.mulM (c • a) = c • X.mulM a := by
  ext <;> simp [mulM, M3.mulVec, V3.dot] <;> ring

theorem mulM_zero' (X : PT K) : X.mulM 0 = 0 := by
  ext <;> simp [mulM, M3.mulVec, V3.dot]

theorem mulM_lin (X : PT K) : MV.Lin (K := K) X.mulM := ⟨mulM_zero' X, mulM_add X, mulM_smul X⟩

/-- `(X Y) v = X (Y v)`. -/
theorem mul_mulM (X Y : PT K) (hY : Y.Rigid) (v : MV K) : (X.mul Y).mulM v = X.mulM (Y.mulM v) := by
  have h := hY.cross_mulVec (Y.E.transpose.mulVec X.r) v.ang
  rw [hY.1.mulVec_transpose] at h
  unfold mulM mul
  dsimp only
  rw [M3.mul_mulVec, M3.mul_mulVec]
  congr 2
  rw [V3.add_cross, M3.mulVec_sub, M3.mulVec_add, ← h, M3.mulVec_sub]
  abel

theorem inv_mulM (X : PT K) (hX : X.Rigid) (v : MV K) : X.inv.mulM (X.mulM v) = v := by
  have h := hX.cross_mulVec X.r v.ang
  unfold mulM inv
  dsimp only
  rw [hX.1.transpose_mulVec]
  ext1
  · rfl
  · dsimp only
    rw [V3.neg_cross, h, sub_neg_eq_add, ← M3.mulVec_add, hX.1.transpose_mulVec]
    abel

theorem mulM_inv (X : PT K) (hX : X.Rigid) (v : MV K) : X.mulM (X.inv.mulM v) = v := by
  have h := hX.cross_mulVec X.r (X.E.transpose.mulVec v.ang)
  rw [hX.1.mulVec_transpose] at h
  unfold mulM inv
  dsimp only
  rw [hX.1.mulVec_transpose]
  ext1
  · rfl
  · dsimp only
    rw [M3.mulVec_sub, hX.1.mulVec_transpose, ← h, V3.neg_cross, sub_neg_eq_add]
    abel

theorem Rigid.inv {X : PT K} (h : X.Rigid) : X.inv.Rigid := M3.IsRot.transpose h
theorem Rigid.mul {X Y : PT K} (h : X.Rigid) (h' : Y.Rigid) : (X.mul Y).Rigid := M3.IsRot.mul h h'
theorem rigid_ofTrans (r : V3 K) : (ofTrans r).Rigid := M3.isRot_one
theorem rigid_ofRot {E : M3 K} (h : E.IsRot) : (ofRot E).Rigid := h

end PT

/-! ## Columns of a Jacobian -/

/-- Pose, velocity and subspace of a joint, total. -/
def kPose (st : KState K) (i : ℕ) : PT K := st.bodyPosW.getD i PT.one
def kVel (st : KState K) (i : ℕ) : MV K := st.bodyVelB.getD i 0
def kSub (st : KState K) (i d : ℕ) : MV K := (st.motionSubspace.getD i []).getD d 0

/-- The tables of the state have an entry for each joint of the path. -/
structure Spec.KSized (mb : MultiBody K) (st : KState K) (path : List ℕ) : Prop where
  ne : path ≠ []
  nodup : path.Nodup
  mem : ∀ i ∈ path, i < mb.joints.length
  pos : ∀ i ∈ path, i < st.bodyPosW.length
  vel : ∀ i ∈ path, i < st.bodyVelB.length
  acc : ∀ i ∈ path, i < st.normalAccB.length
  sub : ∀ i ∈ path, i < st.motionSubspace.length ∧
    jdof mb i ≤ (st.motionSubspace.getD i []).length

/-- The column of dof `d` of joint `i`. -/
def kCol (st : KState K) (X : PT K) (i d : ℕ) : MV K := (X.mul (kPose st i).inv).mulM (kSub st i d)

/-- The columns along a path. -/
def pathCols (mb : MultiBody K) (g : ℕ → ℕ → MV K) (path : List ℕ) : List (MV K) :=
  path.flatMap fun i => (List.range (jdof mb i)).map (g i)

theorem pathCols_length (mb : MultiBody K) (g : ℕ → ℕ → MV K) (path : List ℕ) :
    (pathCols mb g path).length = pathDof mb path := by
  unfold pathCols pathDof
  rw [List.length_flatMap]
  congr 1
  refine List.map_congr_left fun i _ => ?_
  simp [jdof]

theorem forRange_append {α : Type} (g : ℕ → α) (n : ℕ) (acc : List α) :
    forRange n (fun d acc => (.ok (acc ++ [g d]) : Out (List α))) acc
      = .ok (acc ++ (List.range n).map g) := by
  obtain ⟨s', h1, h2⟩ := forRange_inv (n := n)
    (f := fun d (acc : List α) => (.ok (acc ++ [g d]) : Out (List α)))
    (fun d l => l = acc ++ (List.range d).map g) (s := acc) (by simp)
    (fun d s _ hs => ⟨_, rfl, by rw [hs, List.range_succ]; simp⟩)
  rw [h1, h2]

theorem jac_cols (mb : MultiBody K) (st : KState K) (X : PT K) (path : List ℕ)
    (hm : ∀ i ∈ path, i < mb.joints.length) (hp : ∀ i ∈ path, i < st.bodyPosW.length)
    (hs : ∀ i ∈ path, i < st.motionSubspace.length ∧
      jdof mb i ≤ (st.motionSubspace.getD i []).length) :
    Jac.cols mb st path X = .ok (pathCols mb (kCol st X) path) := by
  have key : ∀ acc, forEach path (fun i acc => do
      let Xi ← vecAt st.bodyPosW i
      let j ← vecAt mb.joints i
      let S ← vecAt st.motionSubspace i
      forRange j.dof (fun d acc => do
        let s ← vecAt S d
        pure (acc ++ [(X.mul Xi.inv).mulM s])) acc) acc
      = .ok (acc ++ pathCols mb (kCol st X) path) := by
    induction path with
    | nil => intro acc; simp [forEach, pathCols]
    | cons i t ih =>
      intro acc
      have hi := hm i (by simp)
      have hi' := hp i (by simp)
      obtain ⟨hi'', hd⟩ := hs i (by simp)
      have e : (do
          let Xi ← vecAt st.bodyPosW i
          let j ← vecAt mb.joints i
          let S ← vecAt st.motionSubspace i
          forRange j.dof (fun d acc => do
            let s ← vecAt S d
            pure (acc ++ [(X.mul Xi.inv).mulM s])) acc : Out (List (MV K)))
          = .ok (acc ++ (List.range (jdof mb i)).map (kCol st X i)) := by
        rw [vecAt_ok hi', Out.ok_bind, vecAt_ok hi, Out.ok_bind, vecAt_ok hi'', Out.ok_bind]
        have hj : mb.joints[i].dof = jdof mb i := by simp [jdof, hi]
        rw [hj, ← forRange_append]
        refine forRange_congr fun d hdlt acc => ?_
        have hS : st.motionSubspace.getD i [] = st.motionSubspace[i] :=
          List.getD_eq_getElem _ _ hi''
        have hd' : d < (st.motionSubspace[i]).length := by rw [← hS]; omega
        rw [vecAt_ok hd', Out.ok_bind]
        unfold kCol kPose kSub
        rw [hS, List.getD_eq_getElem _ _ hi', List.getD_eq_getElem _ _ hd']
        rfl
      unfold forEach
      rw [e, Out.ok_bind]
      refine (ih (fun j hj => hm j (by simp [hj])) (fun j hj => hp j (by simp [hj]))
        (fun j hj => hs j (by simp [hj])) _).trans ?_
      simp [pathCols]
  exact key []

/-! ## Jacobian times velocity -/

/-- Combination of the columns of a path with the velocities of its dofs. -/
def pathSum (mb : MultiBody K) (g : ℕ → ℕ → MV K) (x : ℕ → K) : List ℕ → MV K
  | [] => 0
  | i :: t => ∑ d ∈ range (jdof mb i), x (jpos mb i + d) • g i d + pathSum mb g x t

theorem pathSum_append (mb : MultiBody K) (g : ℕ → ℕ → MV K) (x : ℕ → K) (l l' : List ℕ) :
    pathSum mb g x (l ++ l') = pathSum mb g x l + pathSum mb g x l' := by
  induction l with
  | nil => simp [pathSum]
  | cons i t ih => simp only [List.cons_append, pathSum, ih]; abel

theorem pathSum_map (mb : MultiBody K) (g : ℕ → ℕ → MV K) (x : ℕ → K) {φ : MV K → MV K}
    (hφ : MV.Lin (K := K) φ) (l : List ℕ) :
    pathSum mb (fun i d => φ (g i d)) x l = φ (pathSum mb g x l) := by
  induction l with
  | nil => simp [pathSum, hφ.zero]
  | cons i t ih =>
    simp only [pathSum, ih, hφ.add, hφ.sum, hφ.smul]

/-- A row of the full Jacobian applied to the velocity. -/
theorem onDofs_pathSum (mb : MultiBody K) (g : ℕ → ℕ → MV K) (x : ℕ → K) {φ : MV K → K}
    (hφ : MV.Lin (K := K) φ) (path : List ℕ) (hp : ∀ i ∈ path, i < mb.joints.length) :
    ∑ c ∈ range mb.nrDof, onDofs mb path (fun k => φ ((pathCols mb g path).getD k 0)) c * x c
      = φ (pathSum mb g x path) := by
  induction path with
  | nil => simp [onDofs, pathSum, hφ.zero]
  | cons i t ih =>
    have hi := jpos_fit mb (hp i (by simp))
    have hcols : pathCols mb g (i :: t)
        = (List.range (jdof mb i)).map (g i) ++ pathCols mb g t := by simp [pathCols]
    have e2 : (fun k => φ ((pathCols mb g (i :: t)).getD (jdof mb i + k) 0))
        = fun k => φ ((pathCols mb g t).getD k 0) := by
      funext k
      rw [hcols, List.getD_append_right _ _ _ _ (by simp)]
      simp
    simp only [onDofs, add_mul, Finset.sum_add_distrib, ite_mul, zero_mul]
    rw [e2, ih (fun j hj => hp j (by simp [hj])),
      sum_shift_ite _ _ _ hi (fun c => φ ((pathCols mb g (i :: t)).getD (c - jpos mb i) 0) * x c)]
    rw [pathSum, hφ.add, hφ.sum]
    congr 1
    refine Finset.sum_congr rfl fun d hd => ?_
    rw [Nat.add_sub_cancel_left, hφ.smul, hcols,
      List.getD_append _ _ _ _ (by simpa using hd)]
    rw [List.getD_eq_getElem _ _ (by simpa using hd)]
    simp [mul_comm]

namespace Spec

/-- Velocities of the bodies along a path as `rbd::forwardVelocity` (RBDyn) computes them, for the
vector `x` of joint velocities: each body moves with its predecessor (carried by the joint transform `P`)
plus the motion of its joint. -/
def Chain (mb : MultiBody K) (st : KState K) (x : ℕ → K) : Option ℕ → List ℕ → Prop
  | _, [] => True
  | none, i :: t =>
    kVel st i = ∑ d ∈ range (jdof mb i), x (jpos mb i + d) • kSub st i d ∧ Chain mb st x (some i) t
  | some p, i :: t =>
    (∃ P : PT K, P.Rigid ∧ kPose st i = P.mul (kPose st p) ∧
      kVel st i = P.mulM (kVel st p) + ∑ d ∈ range (jdof mb i), x (jpos mb i + d) • kSub st i d) ∧
    Chain mb st x (some i) t

/-- The state is a consistent result of forward kinematics and velocity along the path. -/
structure Moves (mb : MultiBody K) (st : KState K) (path : List ℕ) (x : ℕ → K) : Prop where
  sized : KSized mb st path
  rigid : ∀ i ∈ path, (kPose st i).Rigid
  chain : Chain mb st x none path

end Spec

theorem chain_sum {mb : MultiBody K} {st : KState K} {x : ℕ → K} (path : List ℕ) (p : ℕ)
    (hr : ∀ i ∈ p :: path, (kPose st i).Rigid) (h : Chain mb st x (some p) path) (N : ℕ)
    (hN : (p :: path).getLast? = some N) :
    (kPose st N).inv.mulM (kVel st N) = (kPose st p).inv.mulM (kVel st p)
      + pathSum mb (fun i d => (kPose st i).inv.mulM (kSub st i d)) x path := by
  induction path generalizing p with
  | nil =>
    simp at hN
    subst hN
    simp [pathSum]
  | cons i t ih =>
    obtain ⟨⟨P, hP, e1, e2⟩, hc⟩ := h
    have hi := hr i (by simp)
    have hp := hr p (by simp)
    rw [ih i (fun j hj => hr j (by simp at hj ⊢; tauto)) hc (by simpa using hN)]
    have e3 : (kPose st i).inv.mulM (kVel st i) = (kPose st p).inv.mulM (kVel st p)
        + ∑ d ∈ range (jdof mb i), x (jpos mb i + d) • (kPose st i).inv.mulM (kSub st i d) := by
      have a1 : P.mulM (kVel st p) = (kPose st i).mulM ((kPose st p).inv.mulM (kVel st p)) := by
        rw [e1, PT.mul_mulM _ _ hp, PT.mulM_inv _ hp]
      rw [e2, PT.mulM_add, (PT.mulM_lin _).sum, a1, PT.inv_mulM _ hi]
      simp only [PT.mulM_smul]
    rw [e3, pathSum, add_assoc]

/-- The velocity of the body at the end of the path. -/
theorem moves_vel {mb : MultiBody K} {st : KState K} {path : List ℕ} {x : ℕ → K}
    (h : Moves mb st path x) {N : ℕ} (hN : path.getLast? = some N) :
    (kPose st N).inv.mulM (kVel st N)
      = pathSum mb (fun i d => (kPose st i).inv.mulM (kSub st i d)) x path := by
  obtain ⟨hs, hr, hc⟩ := h
  cases path with
  | nil => simp at hN
  | cons i t =>
    obtain ⟨e, hc'⟩ := hc
    rw [chain_sum t i hr hc' N hN, e, (PT.mulM_lin _).sum, pathSum]
    simp only [PT.mulM_smul]

/-- Combination of the columns at `X`: the velocity of the body expressed at `X`. -/
theorem moves_at {mb : MultiBody K} {st : KState K} {path : List ℕ} {x : ℕ → K}
    (h : Moves mb st path x) {N : ℕ} (hN : path.getLast? = some N) (X : PT K) :
    pathSum mb (kCol st X) x path = X.mulM ((kPose st N).inv.mulM (kVel st N)) := by
  rw [moves_vel h hN, ← pathSum_map _ _ _ (PT.mulM_lin X)]
  have aux : ∀ l : List ℕ, (∀ i ∈ l, (kPose st i).Rigid) → pathSum mb (kCol st X) x l
      = pathSum mb (fun i d => X.mulM ((kPose st i).inv.mulM (kSub st i d))) x l := by
    intro l hl
    induction l with
    | nil => rfl
    | cons i t ih =>
      simp only [pathSum]
      rw [ih (fun j hj => hl j (by simp [hj]))]
      congr 1
      refine Finset.sum_congr rfl fun d _ => ?_
      unfold kCol
      rw [PT.mul_mulM _ _ (hl i (by simp)).inv]
  exact aux path h.rigid

/-! ## The RBDyn functions on a consistent state -/

theorem jac_body {J : Jac K} (h : J.path ≠ []) :
    ∃ N, J.path.getLast? = some N ∧ N ∈ J.path ∧ J.body = .ok N := by
  obtain ⟨N, hN⟩ : ∃ N, J.path.getLast? = some N := by
    cases e : J.path.getLast? with
    | none => exact absurd (List.getLast?_eq_none_iff.mp e) h
    | some N => exact ⟨N, rfl⟩
  exact ⟨N, hN, List.mem_of_getLast? hN, by unfold Jac.body; rw [hN]⟩

theorem vecAt_getD {α : Type} {l : List α} {i : ℕ} (d : α) (h : i < l.length) :
    vecAt l i = .ok (l.getD i d) := by
  rw [vecAt_ok h, List.getD_eq_getElem _ _ h]

theorem jac_at {mb : MultiBody K} {st : KState K} {J : Jac K} (h : KSized mb st J.path) (X : PT K) :
    J.jacobianAt mb st X = .ok ⟨6, pathDof mb J.path, fun a k =>
      ((pathCols mb (kCol st X) J.path).getD k 0).get a⟩ := by
  unfold Jac.jacobianAt
  rw [jac_cols mb st X J.path h.mem h.pos h.sub, Out.ok_bind, Out.pure_eq, pathCols_length]

theorem jac_velAt {mb : MultiBody K} {st : KState K} {J : Jac K} (h : KSized mb st J.path)
    {N : ℕ} (hN : J.path.getLast? = some N) (X : PT K) :
    J.velocityAt st X = .ok (X.mulM (kVel st N)) := by
  unfold Jac.velocityAt Jac.body
  rw [hN]
  simp only [Out.ok_bind]
  rw [vecAt_getD 0 (h.vel N (List.mem_of_getLast? hN))]
  rfl

theorem jac_accAt {mb : MultiBody K} {st : KState K} {J : Jac K} (h : KSized mb st J.path)
    {N : ℕ} (hN : J.path.getLast? = some N) (X : PT K) (W : MV K) :
    J.normalAccAt st X W = .ok (X.mulM (st.normalAccB.getD N 0) + W.cross (X.mulM (kVel st N))) := by
  unfold Jac.normalAccAt Jac.body
  rw [hN]
  simp only [Out.ok_bind]
  rw [vecAt_getD 0 (h.vel N (List.mem_of_getLast? hN)), Out.ok_bind,
    vecAt_getD 0 (h.acc N (List.mem_of_getLast? hN))]
  rfl

theorem onDofs_congr_path (mb : MultiBody K) (path : List ℕ) (f g : ℕ → K)
    (h : ∀ k < pathDof mb path, f k = g k) (c : ℕ) : onDofs mb path f c = onDofs mb path g c := by
  induction path generalizing f g with
  | nil => rfl
  | cons i t ih =>
    rw [pathDof_cons] at h
    simp only [onDofs]
    rw [ih (fun k => f (jdof mb i + k)) (fun k => g (jdof mb i + k)) (fun k hk => h _ (by
      unfold jdof; omega))]
    congr 1
    split
    · refine h _ ?_
      have : jdof mb i = ((mb.joints[i]?).map Joint.dof).getD 0 := rfl
      omega
    · rfl

/-- `fullJacobian` of a matrix whose rows are linear functions of the columns at `X`. -/
theorem full_of_cols {mb : MultiBody K} {st : KState K} {path : List ℕ} (hs : KSized mb st path)
    (X : PT K) (jac res : Mat K) (r : ℕ) (φ : ℕ → MV K → K)
    (hrows : jac.rows = r) (hcols : jac.cols = pathDof mb path)
    (hget : ∀ a < r, ∀ k < pathDof mb path,
      jac.get a k = φ a ((pathCols mb (kCol st X) path).getD k 0))
    (h1 : r ≤ res.rows) (h2 : mb.nrDof = res.cols) :
    ∃ R, fullJacobian mb path jac res = .ok R ∧ R.rows = res.rows ∧ R.cols = res.cols ∧
      ∀ a < r, ∀ c < mb.nrDof, R.get a c
        = onDofs mb path (fun k => φ a ((pathCols mb (kCol st X) path).getD k 0)) c := by
  obtain ⟨R, g1, g2, g3, g4⟩ := fullJacobian_ok mb path jac res hs.mem hs.nodup (by omega)
    (by omega) (by omega)
  refine ⟨R, g1, g2, g3, fun a ha c hc => ?_⟩
  rw [g4 a (by omega) c hc]
  exact onDofs_congr_path mb path _ _ (fun k hk => hget a ha k hk) c

/-- ... applied to the velocity. -/
theorem full_mul {mb : MultiBody K} {st : KState K} {path : List ℕ} {x : ℕ → K}
    (h : Moves mb st path x) {N : ℕ} (hN : path.getLast? = some N) (X : PT K) (R : Mat K) (r : ℕ)
    (φ : ℕ → MV K → K) (hφ : ∀ a, MV.Lin (K := K) (φ a)) (hc : R.cols = mb.nrDof)
    (hget : ∀ a < r, ∀ c < mb.nrDof, R.get a c
      = onDofs mb path (fun k => φ a ((pathCols mb (kCol st X) path).getD k 0)) c) :
    ∀ a < r, R.rowMul a x = φ a (X.mulM ((kPose st N).inv.mulM (kVel st N))) := by
  intro a ha
  unfold Mat.rowMul
  rw [← moves_at h hN X, ← onDofs_pathSum mb _ x (hφ a) path h.sized.mem, hc]
  refine Finset.sum_congr rfl fun c hc => ?_
  rw [hget a ha c (by simpa using hc)]

theorem PT.mul_assoc' (X Y Z : PT K) : (X.mul Y).mul Z = X.mul (Y.mul Z) := by
  unfold PT.mul
  dsimp only
  rw [M3.mul_assoc', M3.mulVec_add, M3.transpose_mul, M3.mul_mulVec, add_assoc]

/-- `full_mul` when the frame is carried by the body at the end of the path. -/
theorem full_mul' {mb : MultiBody K} {st : KState K} {path : List ℕ} {x : ℕ → K}
    (h : Moves mb st path x) {N : ℕ} (hN : path.getLast? = some N) (X Y : PT K)
    (hX : X = Y.mul (kPose st N)) (R : Mat K) (r : ℕ)
    (φ : ℕ → MV K → K) (hφ : ∀ a, MV.Lin (K := K) (φ a)) (hc : R.cols = mb.nrDof)
    (hget : ∀ a < r, ∀ c < mb.nrDof, R.get a c
      = onDofs mb path (fun k => φ a ((pathCols mb (kCol st X) path).getD k 0)) c) :
    ∀ a < r, R.rowMul a x = φ a (Y.mulM (kVel st N)) := by
  intro a ha
  have hr := h.rigid N (List.mem_of_getLast? hN)
  rw [full_mul h hN X R r φ hφ hc hget a ha, hX, PT.mul_mulM _ _ hr, PT.mulM_inv _ hr]

/-- The frame at a point of the body with the orientation of the world. -/
theorem world_frame (X : PT K) (hX : X.Rigid) (p : V3 K) :
    PT.ofTrans ((PT.ofTrans p).mul X).r
      = ((PT.ofRot X.E.transpose).mul (PT.ofTrans p)).mul X := by
  unfold PT.ofTrans PT.ofRot PT.mul
  dsimp only
  rw [M3.mul_one', hX.1.transpose_mul_self, M3.transpose_one, M3.mulVec_zero, add_zero]

theorem jac_world {mb : MultiBody K} {st : KState K} {J : Jac K} (h : KSized mb st J.path)
    {N : ℕ} (hN : J.path.getLast? = some N) :
    J.jacobian mb st = .ok ⟨6, pathDof mb J.path, fun a k =>
      ((pathCols mb (kCol st (PT.ofTrans ((PT.ofTrans J.point).mul (kPose st N)).r)) J.path).getD
        k 0).get a⟩ := by
  unfold Jac.jacobian Jac.body
  rw [hN]
  simp only [Out.ok_bind]
  rw [vecAt_getD PT.one (h.pos N (List.mem_of_getLast? hN)), Out.ok_bind]
  exact jac_at h _

theorem jac_bodyJac {mb : MultiBody K} {st : KState K} {J : Jac K} (h : KSized mb st J.path)
    {N : ℕ} (hN : J.path.getLast? = some N) :
    J.bodyJacobian mb st = .ok ⟨6, pathDof mb J.path, fun a k =>
      ((pathCols mb (kCol st ((PT.ofTrans J.point).mul (kPose st N))) J.path).getD k 0).get a⟩ := by
  unfold Jac.bodyJacobian Jac.body
  rw [hN]
  simp only [Out.ok_bind]
  rw [vecAt_getD PT.one (h.pos N (List.mem_of_getLast? hN)), Out.ok_bind]
  exact jac_at h _

theorem jac_vel {mb : MultiBody K} {st : KState K} {J : Jac K} (h : KSized mb st J.path)
    {N : ℕ} (hN : J.path.getLast? = some N) :
    J.velocity st = .ok (((PT.ofRot (kPose st N).E.transpose).mul (PT.ofTrans J.point)).mulM
      (kVel st N)) := by
  unfold Jac.velocity Jac.body
  rw [hN]
  simp only [Out.ok_bind]
  rw [vecAt_getD PT.one (h.pos N (List.mem_of_getLast? hN)), Out.ok_bind]
  exact jac_velAt h hN _

theorem jac_acc {mb : MultiBody K} {st : KState K} {J : Jac K} (h : KSized mb st J.path)
    {N : ℕ} (hN : J.path.getLast? = some N) :
    J.normalAcc st = .ok
      (((PT.ofRot (kPose st N).E.transpose).mul (PT.ofTrans J.point)).mulM (st.normalAccB.getD N 0)
        + MV.cross ⟨(kPose st N).E.transpose.mulVec (kVel st N).ang, 0⟩
          (((PT.ofRot (kPose st N).E.transpose).mul (PT.ofTrans J.point)).mulM (kVel st N))) := by
  unfold Jac.normalAcc Jac.body
  rw [hN]
  simp only [Out.ok_bind]
  rw [vecAt_getD PT.one (h.pos N (List.mem_of_getLast? hN)), Out.ok_bind,
    vecAt_getD 0 (h.vel N (List.mem_of_getLast? hN)), Out.ok_bind]
  exact jac_accAt h hN _ _

theorem block_ok {M : Mat K} {i j r c : ℕ} (h : i + r ≤ M.rows ∧ j + c ≤ M.cols) :
    M.block i j r c = .ok ⟨r, c, fun a b => M.get (i + a) (j + b)⟩ := by
  unfold Mat.block
  exact if_pos h

/-! ## Linear rows -/

theorem lin_get (a : ℕ) : MV.Lin (K := K) (fun v : MV K => v.get a) :=
  ⟨MV.get_zero a, fun x y => MV.get_add x y a, fun c x => MV.get_smul c x a⟩

theorem lin_neg_get (a : ℕ) : MV.Lin (K := K) (fun v : MV K => -v.get a) :=
  ⟨by simp [MV.get_zero], fun x y => by rw [MV.get_add]; ring,
    fun c x => by rw [MV.get_smul, smul_eq_mul]; ring⟩

theorem lin_subCross (err : MV K) (a : ℕ) :
    MV.Lin (K := K) (fun v : MV K => v.get a - (err.cross ⟨v.ang, 0⟩).get a) := by
  have h1 : err.cross (⟨(0 : MV K).ang, 0⟩ : MV K) = 0 := by ext <;> simp [MV.cross]
  have h2 : ∀ x y : MV K, err.cross ⟨(x + y).ang, 0⟩ = err.cross ⟨x.ang, 0⟩ + err.cross ⟨y.ang, 0⟩ := by
    intro x y; ext <;> simp [MV.cross] <;> ring
  have h3 : ∀ (c : K) (x : MV K), err.cross ⟨(c • x).ang, 0⟩ = c • err.cross ⟨x.ang, 0⟩ := by
    intro c x; ext <;> simp [MV.cross] <;> ring
  refine ⟨?_, fun x y => ?_, fun c x => ?_⟩
  · rw [h1, MV.get_zero, sub_zero]
  · rw [h2, MV.get_add, MV.get_add]; ring
  · rw [h3, MV.get_smul, MV.get_smul, smul_eq_mul]; ring

theorem lin_lMul (L : ℕ → ℕ → K) (a : ℕ) :
    MV.Lin (K := K) (fun v : MV K => ∑ j ∈ range 6, L a j * v.get j) := by
  refine ⟨?_, fun x y => ?_, fun c x => ?_⟩
  · simp [MV.get_zero]
  · rw [← Finset.sum_add_distrib]
    exact Finset.sum_congr rfl fun j _ => by rw [MV.get_add]; ring
  · rw [smul_eq_mul, Finset.mul_sum]
    exact Finset.sum_congr rfl fun j _ => by rw [MV.get_smul]; ring

theorem subCross_ok (err : MV K) (M : Mat K) (h : M.rows = 6) :
    subCross err M M.cols = .ok ⟨6, M.cols, fun a k => if k < M.cols then
      M.get a k - (err.cross ⟨⟨M.get 0 k, M.get 1 k, M.get 2 k⟩, 0⟩).get a else M.get a k⟩ := by
  unfold subCross
  obtain ⟨s', h1, h2, h3, h4⟩ := forRange_inv (n := M.cols)
    (f := fun i (M : Mat K) =>
      if i < M.cols ∧ M.rows = 6 then
        (.ok ⟨M.rows, M.cols, fun a k =>
          if k = i then
            M.get a i - (err.cross ⟨⟨M.get 0 i, M.get 1 i, M.get 2 i⟩, 0⟩).get a
          else M.get a k⟩ : Out (Mat K))
      else .ub)
    (fun i M' => M'.rows = 6 ∧ M'.cols = M.cols ∧ ∀ a k, M'.get a k = if k < i then
      M.get a k - (err.cross ⟨⟨M.get 0 k, M.get 1 k, M.get 2 k⟩, 0⟩).get a else M.get a k)
    (s := M) ⟨h, rfl, by simp⟩ (by
      rintro i hi M' ⟨e1, e2, e3⟩
      refine ⟨_, if_pos ⟨by omega, e1⟩, e1, e2, fun a k => ?_⟩
      dsimp only
      by_cases hk : k = i
      · subst hk
        rw [if_pos rfl, if_pos (by omega), e3, e3, e3, e3]
        simp
      · rw [if_neg hk, e3]
        by_cases hk' : k < i
        · rw [if_pos hk', if_pos (by omega)]
        · rw [if_neg hk', if_neg (by omega)])
  rw [h1]
  congr 1
  cases s' with
  | mk r c g =>
    dsimp only at h2 h3 h4
    subst h2 h3
    congr 1
    funext a k
    exact h4 a k

end

end Verif
