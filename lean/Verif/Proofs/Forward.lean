import Verif.Model.Forward
import Verif.Proofs.NormalAcc
import Verif.Proofs.Drift
import Mathlib.Analysis.SpecialFunctions.Trigonometric.Deriv

/-!
# Helper lemmas: joints, forward kinematics and velocity
-/

set_option autoImplicit false
set_option linter.unusedSectionVars false

namespace Verif

open Finset Spec

/-! ## Joints -/

theorem angleAxisMat_mulVec (θ : ℝ) (a v : V3 ℝ) : (angleAxisMat θ a).mulVec v
    = Real.cos θ • v + Real.sin θ • a.cross v + ((1 - Real.cos θ) * a.dot v) • a := by
  ext <;> simp [angleAxisMat, M3.mulVec, V3.dot] <;> ring

theorem angleAxisMat_isRot (θ : ℝ) {a : V3 ℝ} (ha : a.dot a = 1) : (angleAxisMat θ a).IsRot := by
  have hs := Real.sin_sq_add_cos_sq θ
  unfold V3.dot at ha
  obtain ⟨x, y, z⟩ := a
  refine ⟨⟨?_, ?_, ?_, ?_, ?_, ?_⟩, ?_⟩
  all_goals (try ext)
  all_goals simp only [angleAxisMat, V3.dot, V3.cross]
  all_goals dsimp only at ha
  all_goals (generalize Real.sin θ = s at *; generalize Real.cos θ = c at *; grind)

theorem quatE_isRot {w x y z : ℝ} (h : w * w + x * x + y * y + z * z = 1) : (quatE w x y z).IsRot := by
  refine ⟨⟨?_, ?_, ?_, ?_, ?_, ?_⟩, ?_⟩
  all_goals (try ext)
  all_goals simp only [quatE, V3.dot, V3.cross]
  all_goals grind

namespace Spec

/-- The unit quaternion `(q0, q1, q2, q3)` turns with the angular velocity `ω` given in the frame of
the son: `q' = 1/2 q (0, ω)`. -/
def QuatMoves (q : ℝ → List ℝ) (w : V3 ℝ) (t : ℝ) : Prop :=
  HasDerivAt (fun τ => (q τ).getD 0 0) (-((q t).getD 1 0 * w.x + (q t).getD 2 0 * w.y + (q t).getD 3 0 * w.z) / 2) t ∧
  HasDerivAt (fun τ => (q τ).getD 1 0) (((q t).getD 0 0 * w.x + (q t).getD 2 0 * w.z - (q t).getD 3 0 * w.y) / 2) t ∧
  HasDerivAt (fun τ => (q τ).getD 2 0) (((q t).getD 0 0 * w.y + (q t).getD 3 0 * w.x - (q t).getD 1 0 * w.z) / 2) t ∧
  HasDerivAt (fun τ => (q τ).getD 3 0) (((q t).getD 0 0 * w.z + (q t).getD 1 0 * w.y - (q t).getD 2 0 * w.x) / 2) t

/-- The quaternion held by the first four parameters has norm one. -/
def UnitQuat (q : List ℝ) : Prop :=
  q.getD 0 0 * q.getD 0 0 + q.getD 1 0 * q.getD 1 0 + q.getD 2 0 * q.getD 2 0 + q.getD 3 0 * q.getD 3 0 = 1

/-- The parameters `q` of a joint are of the right number; quaternions have norm one. -/
def JointConfig (ty : JType) (q : List ℝ) : Prop :=
  q.length = ty.params ∧ match ty with
    | .spherical => UnitQuat q
    | .free => UnitQuat q
    | _ => True

/-- Axes are unit vectors. -/
def AxisOK : JType → Prop
  | .rev a => a.dot a = 1
  | .prism a => a.dot a = 1
  | .cyl a => a.dot a = 1
  | _ => True

/-- The parameters of the joint change at time `t` with the joint velocity `alpha`: what RBDyn
integrates. -/
def JointMoves (ty : JType) (q : ℝ → List ℝ) (alpha : List ℝ) (t : ℝ) : Prop :=
  match ty with
  | .fixed => True
  | .rev _ => HasDerivAt (fun τ => (q τ).getD 0 0) (alpha.getD 0 0) t
  | .prism _ => HasDerivAt (fun τ => (q τ).getD 0 0) (alpha.getD 0 0) t
  | .cyl _ => HasDerivAt (fun τ => (q τ).getD 0 0) (alpha.getD 0 0) t ∧
      HasDerivAt (fun τ => (q τ).getD 1 0) (alpha.getD 1 0) t
  | .spherical => QuatMoves q ⟨alpha.getD 0 0, alpha.getD 1 0, alpha.getD 2 0⟩ t
  | .free => QuatMoves q ⟨alpha.getD 0 0, alpha.getD 1 0, alpha.getD 2 0⟩ t ∧
      HasD3 (fun τ => ⟨(q τ).getD 4 0, (q τ).getD 5 0, (q τ).getD 6 0⟩)
        ((quatE ((q t).getD 0 0) ((q t).getD 1 0) ((q t).getD 2 0) ((q t).getD 3 0)).transpose.mulVec
          ⟨alpha.getD 3 0, alpha.getD 4 0, alpha.getD 5 0⟩) t

end Spec

/-- The pose of a joint, total. -/
noncomputable def poseD (ty : JType) (q : List ℝ) : PT ℝ :=
  match ty with
  | .fixed => PT.one
  | .rev a => PT.ofRot (angleAxisMat (-q.getD 0 0) a)
  | .prism a => PT.ofTrans (q.getD 0 0 • a)
  | .cyl a => ⟨angleAxisMat (-q.getD 0 0) a, q.getD 1 0 • a⟩
  | .spherical => PT.ofRot (quatE (q.getD 0 0) (q.getD 1 0) (q.getD 2 0) (q.getD 3 0))
  | .free => ⟨quatE (q.getD 0 0) (q.getD 1 0) (q.getD 2 0) (q.getD 3 0),
      ⟨q.getD 4 0, q.getD 5 0, q.getD 6 0⟩⟩

theorem jpose_ok (ty : JType) {q : List ℝ} (h : q.length = ty.params) : ty.pose q = .ok (poseD ty q) := by
  cases ty <;> simp only [JType.params] at h <;>
    simp [JType.pose, poseD, vecAt_getD (0 : ℝ), h]

theorem poseD_rigid {ty : JType} (ha : AxisOK ty) {q : List ℝ} (h : JointConfig ty q) :
    (poseD ty q).Rigid := by
  cases ty with
  | fixed => exact M3.isRot_one
  | rev a => exact angleAxisMat_isRot _ ha
  | prism a => exact M3.isRot_one
  | cyl a => exact angleAxisMat_isRot _ ha
  | spherical => exact quatE_isRot h.2
  | free => exact quatE_isRot h.2

/-- The motion of a joint, total. -/
noncomputable def motionD (ty : JType) (alpha : List ℝ) : MV ℝ :=
  ∑ d ∈ range ty.dof, alpha.getD d 0 • ty.subspace.getD d 0

theorem subspace_length (ty : JType) : ty.subspace.length = ty.dof := by
  cases ty <;> rfl

theorem motion_ok (ty : JType) {alpha : List ℝ} (h : alpha.length = ty.dof) :
    ty.motion alpha = .ok (motionD ty alpha) := by
  unfold JType.motion motionD
  obtain ⟨s', h1, h2⟩ := forRange_inv (n := ty.dof)
    (f := fun d (m : MV ℝ) => (do
      let s ← vecAt ty.subspace d
      let a ← vecAt alpha d
      pure ⟨m.ang + a • s.ang, m.lin + a • s.lin⟩ : Out (MV ℝ)))
    (fun d m => m = ∑ k ∈ range d, alpha.getD k 0 • ty.subspace.getD k 0) (s := 0) (by simp)
    (fun d hd s hs => by
      refine ⟨_, by rw [vecAt_getD 0 (by rw [subspace_length]; exact hd), Out.ok_bind,
        vecAt_getD 0 (by omega), Out.ok_bind]; rfl, ?_⟩
      rw [Finset.sum_range_succ, ← hs]
      rfl)
  rw [h1, h2]

/-- A turning axis. -/
theorem rev_moves {a : V3 ℝ} (ha : a.dot a = 1) {q : ℝ → ℝ} {q' t : ℝ} (h : HasDerivAt q q' t) (v : V3 ℝ) :
    HasD3 (fun τ => (angleAxisMat (-q τ) a).mulVec v)
      (-((q' • a).cross ((angleAxisMat (-q t) a).mulVec v))) t := by
  have hc : HasDerivAt (fun τ => Real.cos (-q τ)) (-Real.sin (q t) * q') t := by
    simpa using h.cos
  have hs : HasDerivAt (fun τ => Real.sin (-q τ)) (-(Real.cos (q t) * q')) t := by
    simp only [Real.sin_neg]
    exact h.sin.neg
  simp only [angleAxisMat_mulVec]
  refine (((HasD3.smul hc (HasD3.const v t)).add (HasD3.smul hs (HasD3.const (a.cross v) t))).add
    (HasD3.smul (((hasDerivAt_const t (1 : ℝ)).sub hc).mul (hasDerivAt_const t (a.dot v)))
      (HasD3.const a t))).congr_deriv ?_
  unfold V3.dot at ha
  rw [Real.cos_neg, Real.sin_neg]
  generalize Real.sin (q t) = s
  generalize Real.cos (q t) = c
  ext
  · simp [V3.dot]
    linear_combination (s * q' * v.x) * ha
  · simp [V3.dot]
    linear_combination (s * q' * v.y) * ha
  · simp [V3.dot]
    linear_combination (s * q' * v.z) * ha

/-- A turning quaternion. -/
theorem quat_moves {q : ℝ → List ℝ} {w : V3 ℝ} {t : ℝ} (h : QuatMoves q w t) (hu : UnitQuat (q t)) (v : V3 ℝ) :
    HasD3 (fun τ => (quatE ((q τ).getD 0 0) ((q τ).getD 1 0) ((q τ).getD 2 0) ((q τ).getD 3 0)).mulVec v)
      (-(w.cross ((quatE ((q t).getD 0 0) ((q t).getD 1 0) ((q t).getD 2 0) ((q t).getD 3 0)).mulVec v))) t := by
  obtain ⟨h0, h1, h2, h3⟩ := h
  unfold UnitQuat at hu
  have c (c : ℝ) := hasDerivAt_const t c
  have e (a b : ℝ → ℝ) {a' b' : ℝ} (ha : HasDerivAt a a' t) (hb : HasDerivAt b b' t) :
      HasDerivAt (fun τ => a τ * b τ) (a' * b t + a t * b') t := ha.mul hb
  refine ⟨?_, ?_, ?_⟩
  · refine (((((c 1).sub ((c 2).mul ((h2.mul h2).add (h3.mul h3)))).mul (c v.x)).add
      ((((c 2).mul ((h1.mul h2).add (h0.mul h3)))).mul (c v.y))).add
      ((((c 2).mul ((h1.mul h3).sub (h0.mul h2)))).mul (c v.z))).congr_deriv ?_
    generalize (q t).getD 0 0 = q0 at *
    generalize (q t).getD 1 0 = q1 at *
    generalize (q t).getD 2 0 = q2 at *
    generalize (q t).getD 3 0 = q3 at *
    simp [quatE, M3.mulVec, V3.dot]
    grind
  · refine ((((((c 2).mul ((h1.mul h2).sub (h0.mul h3)))).mul (c v.x)).add
      (((c 1).sub ((c 2).mul ((h1.mul h1).add (h3.mul h3)))).mul (c v.y))).add
      ((((c 2).mul ((h2.mul h3).add (h0.mul h1)))).mul (c v.z))).congr_deriv ?_
    generalize (q t).getD 0 0 = q0 at *
    generalize (q t).getD 1 0 = q1 at *
    generalize (q t).getD 2 0 = q2 at *
    generalize (q t).getD 3 0 = q3 at *
    simp [quatE, M3.mulVec, V3.dot]
    grind
  · refine ((((((c 2).mul ((h1.mul h3).add (h0.mul h2)))).mul (c v.x)).add
      ((((c 2).mul ((h2.mul h3).sub (h0.mul h1)))).mul (c v.y))).add
      (((c 1).sub ((c 2).mul ((h1.mul h1).add (h2.mul h2)))).mul (c v.z))).congr_deriv ?_
    generalize (q t).getD 0 0 = q0 at *
    generalize (q t).getD 1 0 = q1 at *
    generalize (q t).getD 2 0 = q2 at *
    generalize (q t).getD 3 0 = q3 at *
    simp [quatE, M3.mulVec, V3.dot]
    grind

theorem joint_moves {ty : JType} (ha : AxisOK ty) {q : ℝ → List ℝ} {alpha : List ℝ} {t : ℝ}
    (hq : JointConfig ty (q t)) (h : JointMoves ty q alpha t) :
    FrameMoves (fun τ => poseD ty (q τ)) (motionD ty alpha) t := by
  have z3 : ∀ m : M3 ℝ, m.mulVec 0 = 0 := fun m => by ext <;> simp [M3.mulVec, V3.dot]
  cases ty with
  | fixed => exact (FrameMoves.fixed PT.one t)
  | rev a =>
    have e : motionD (.rev a) alpha = ⟨alpha.getD 0 0 • a, 0⟩ := by
      ext <;> simp [motionD, JType.dof, JType.subspace]
    rw [e]
    refine ⟨fun v => rev_moves ha h v, ?_⟩
    exact (HasD3.const 0 t).congr_deriv (z3 _).symm
  | prism a =>
    have e : motionD (.prism a) alpha = ⟨0, alpha.getD 0 0 • a⟩ := by
      ext <;> simp [motionD, JType.dof, JType.subspace]
    rw [e]
    refine ⟨fun v => (HasD3.const v t).congr_fun (fun τ => M3.one_mulVec v) |>.congr_deriv ?_, ?_⟩
    · ext <;> simp
    · refine (HasD3.smul h (HasD3.const a t)).congr_deriv ?_
      show _ = M3.one.transpose.mulVec _
      ext <;> simp [M3.one, M3.transpose, M3.mulVec, V3.dot]
  | cyl a =>
    have e : motionD (.cyl a) alpha = ⟨alpha.getD 0 0 • a, alpha.getD 1 0 • a⟩ := by
      ext <;> simp [motionD, JType.dof, JType.subspace, Finset.sum_range_succ]
    rw [e]
    refine ⟨fun v => rev_moves ha h.1 v, ?_⟩
    refine (HasD3.smul h.2 (HasD3.const a t)).congr_deriv ?_
    have k : ((angleAxisMat (-(q t).getD 0 0) a).transpose).mulVec a = a := by
      have hr := angleAxisMat_isRot (-(q t).getD 0 0) ha
      have k : (angleAxisMat (-(q t).getD 0 0) a).mulVec a = a := by
        rw [angleAxisMat_mulVec]
        replace ha : a.dot a = 1 := ha
        rw [ha]
        ext <;> simp <;> ring
      have := hr.1.transpose_mulVec a
      rwa [k] at this
    show _ = (angleAxisMat (-(q t).getD 0 0) a).transpose.mulVec _
    rw [M3.mulVec_smul, k]
    ext <;> simp
  | spherical =>
    have e : motionD .spherical alpha = ⟨⟨alpha.getD 0 0, alpha.getD 1 0, alpha.getD 2 0⟩, 0⟩ := by
      ext <;> simp [motionD, JType.dof, JType.subspace, Finset.sum_range_succ]
    rw [e]
    refine ⟨fun v => quat_moves h hq.2 v, ?_⟩
    exact (HasD3.const 0 t).congr_deriv (z3 _).symm
  | free =>
    have e : motionD .free alpha = ⟨⟨alpha.getD 0 0, alpha.getD 1 0, alpha.getD 2 0⟩,
        ⟨alpha.getD 3 0, alpha.getD 4 0, alpha.getD 5 0⟩⟩ := by
      ext <;> simp [motionD, JType.dof, JType.subspace, Finset.sum_range_succ]
    rw [e]
    exact ⟨fun v => quat_moves h.1 hq.2 v, h.2⟩


/-! ## Kinematic trees -/

section
variable {K : Type} [CommRing K]

/-- The predecessor of body `i`; `none` for the world. -/
def par (mb : MultiBody K) (i : ℕ) : Option ℕ :=
  (mb.pred[i]?).bind fun p => if p = -1 then none else some p.toNat

theorem par_lt {mb : MultiBody K} (ht : Tree mb) {i p : ℕ} (h : par mb i = some p) : p < i := by
  unfold par at h
  cases e : mb.pred[i]? with
  | none => rw [e] at h; simp at h
  | some a =>
    rw [e, Option.bind_some] at h
    rcases ht.pred i a e with rfl | ⟨q, hq, rfl⟩
    · simp at h
    · rw [if_neg (by omega)] at h
      simp at h
      omega

/-- A loop over the joints that computes the value of each body from the value of its predecessor. -/
theorem tree_loop {α : Type} {mb : MultiBody K} (ht : Tree mb) (d : α) (f : ℕ → Option α → α)
    {step : ℕ → List α → Out (List α)} {acc : List α} (hl : acc.length = mb.nrJoints)
    (hstep : ∀ i < mb.nrJoints, ∀ acc : List α, acc.length = mb.nrJoints →
      step i acc = .ok (acc.set i (f i ((par mb i).map fun p => acc.getD p d)))) :
    ∃ acc', forRange mb.nrJoints step acc = .ok acc' ∧ acc'.length = mb.nrJoints ∧
      ∀ i < mb.nrJoints, acc'.getD i d = f i ((par mb i).map fun p => acc'.getD p d) := by
  have hset : ∀ (l : List α) (n k : ℕ) (a : α), k ≠ n → (l.set n a).getD k d = l.getD k d := by
    intro l n k a h
    simp only [List.getD_eq_getElem?_getD]
    rw [List.getElem?_set_ne (Ne.symm h)]
  have hpar : ∀ (l : List α) (n k : ℕ) (a : α), k ≤ n →
      ((par mb k).map fun p => (l.set n a).getD p d) = (par mb k).map fun p => l.getD p d := by
    intro l n k a h
    cases e : par mb k with
    | none => rfl
    | some p => simp only [Option.map_some]; rw [hset _ _ _ _ (by have := par_lt ht e; omega)]
  have key : ∀ n ≤ mb.nrJoints, ∃ acc', forRange n step acc = .ok acc' ∧ acc'.length = mb.nrJoints ∧
      ∀ i < n, acc'.getD i d = f i ((par mb i).map fun p => acc'.getD p d) := by
    intro n
    induction n with
    | zero => intro _; exact ⟨acc, rfl, hl, by intro i hi; omega⟩
    | succ n ih =>
      intro hn
      obtain ⟨acc1, e1, l1, r1⟩ := ih (by omega)
      refine ⟨_, by simp only [forRange, e1, Out.ok_bind]; exact hstep n (by omega) acc1 l1,
        by simp [l1], fun i hi => ?_⟩
      rw [hpar _ _ _ _ (by omega)]
      by_cases hin : i = n
      · subst hin
        rw [List.getD_eq_getElem?_getD, List.getElem?_set_self (by omega)]
        rfl
      · rw [hset _ _ _ _ hin]
        exact r1 i (by omega)
  exact key _ le_rfl

namespace Spec

/-- The joints from a child of the body `o` (`none`: the world) on, each the child of the one before. -/
def IsPath (mb : MultiBody K) : Option ℕ → List ℕ → Prop
  | _, [] => True
  | o, i :: t => par mb i = o ∧ i < mb.nrJoints ∧ IsPath mb (some i) t

end Spec

theorem Spec.IsPath.mem {mb : MultiBody K} {path : List ℕ} : ∀ {o}, IsPath mb o path → ∀ i ∈ path, i < mb.nrJoints := by
  induction path with
  | nil => intro _ _ i hi; simp at hi
  | cons a t ih =>
    intro o h i hi
    rcases List.mem_cons.mp hi with rfl | hi
    · exact h.2.1
    · exact ih h.2.2 i hi

theorem Spec.IsPath.sorted {mb : MultiBody K} (ht : Tree mb) {path : List ℕ} :
    ∀ {o}, IsPath mb o path → path.Pairwise (· < ·) ∧ ∀ p, o = some p → ∀ i ∈ path, p < i := by
  induction path with
  | nil => intro o _; exact ⟨List.Pairwise.nil, by simp⟩
  | cons a t ih =>
    intro o h
    obtain ⟨i1, i2⟩ := ih h.2.2
    refine ⟨List.pairwise_cons.mpr ⟨i2 a rfl, i1⟩, ?_⟩
    rintro p rfl i hi
    have ha := par_lt ht h.1
    rcases List.mem_cons.mp hi with rfl | hi
    · exact ha
    · exact ha.trans (i2 a rfl i hi)

/-- The path to a body. -/
theorem jacPath_ok {mb : MultiBody K} (ht : Tree mb) (i : ℕ) : ∀ (n : ℕ) (acc : List ℕ), i < mb.nrJoints →
    i + 1 < n → IsPath mb (some i) acc →
    ∃ path, jacPath mb n (i : ℤ) acc = .ok path ∧ IsPath mb none path ∧
      path.getLast? = (i :: acc).getLast? := by
  induction i using Nat.strong_induction_on with
  | _ i ih =>
    intro n acc hi hn hp
    obtain ⟨n, rfl⟩ : ∃ m, n = m + 1 := ⟨n - 1, by omega⟩
    have hlen : i < mb.pred.length := by rw [ht.predLen]; exact hi
    have e : jacPath mb (n + 1) (i : ℤ) acc = jacPath mb n mb.pred[i] (i :: acc) := by
      rw [jacPath, if_neg (by omega), vecAtI_natCast, vecAt_ok hlen, Out.ok_bind, Int.toNat_natCast]
    rw [e]
    rcases ht.pred i mb.pred[i] (List.getElem?_eq_getElem hlen) with h | ⟨p, hpi, h⟩
    · have hpar : par mb i = none := by simp [par, List.getElem?_eq_getElem hlen, h]
      obtain ⟨n, rfl⟩ : ∃ m, n = m + 1 := ⟨n - 1, by omega⟩
      rw [h, jacPath, if_pos rfl]
      exact ⟨_, rfl, ⟨hpar, hi, hp⟩, rfl⟩
    · have hpar : par mb i = some p := by
        simp only [par, List.getElem?_eq_getElem hlen, h, Option.bind_some]
        rw [if_neg (by omega), Int.toNat_natCast]
      rw [h]
      obtain ⟨path, e1, e2, e3⟩ := ih p hpi n (i :: acc) (by omega) (by omega) ⟨hpar, hi, hp⟩
      exact ⟨path, e1, e2, e3.trans (by rw [List.getLast?_cons_cons])⟩

end

/-! ## Forward kinematics and velocity -/

namespace Spec

/-- A kinematic tree with one type and one static transform per joint. -/
structure GeomOK (g : RbdRobot) : Prop where
  tree : Tree g.mb
  types : g.types.length = g.mb.nrJoints
  trans : g.Xt.length = g.mb.nrJoints
  dofs : g.mb.joints.map Joint.dof = g.types.map JType.dof
  rigid : ∀ X ∈ g.Xt, X.Rigid
  axes : ∀ ty ∈ g.types, AxisOK ty

/-- Configuration and velocity of the right sizes. -/
structure ConfigOK (g : RbdRobot) (q alpha : List (List ℝ)) : Prop where
  qLen : q.length = g.mb.nrJoints
  aLen : alpha.length = g.mb.nrJoints
  joint : ∀ i ty, g.types[i]? = some ty → JointConfig ty (q.getD i []) ∧ (alpha.getD i []).length = ty.dof

end Spec

/-- Type of joint `i`. -/
def tyAt (g : RbdRobot) (i : ℕ) : JType := g.types.getD i .fixed
/-- `parentToSon[i]`. -/
noncomputable def ptsAt (g : RbdRobot) (q : List (List ℝ)) (i : ℕ) : PT ℝ :=
  (poseD (tyAt g i) (q.getD i [])).mul (g.Xt.getD i PT.one)
/-- `jointVelocity[i]`. -/
noncomputable def vjAt (g : RbdRobot) (alpha : List (List ℝ)) (i : ℕ) : MV ℝ :=
  motionD (tyAt g i) (alpha.getD i [])

theorem map_loop {α : Type} (n : ℕ) (f : ℕ → α) {step : ℕ → List α → Out (List α)}
    (h : ∀ i < n, ∀ acc, step i acc = .ok (acc ++ [f i])) :
    forRange n step [] = .ok ((List.range n).map f) := by
  obtain ⟨s', h1, h2⟩ := forRange_inv (n := n) (f := step) (fun d l => l = (List.range d).map f) (s := [])
    (by simp) (fun i hi s hs => ⟨_, h i hi s, by rw [hs, List.range_succ]; simp⟩)
  rw [h1, h2]

theorem tyAt_some {g : RbdRobot} (hg : GeomOK g) {i : ℕ} (hi : i < g.mb.nrJoints) :
    g.types[i]? = some (tyAt g i) := by
  have : i < g.types.length := by rw [hg.types]; exact hi
  simp [tyAt, List.getElem?_eq_getElem this]

theorem vecAt_some {α : Type} {l : List α} {i : ℕ} {a : α} (h : l[i]? = some a) : vecAt l i = .ok a :=
  vecAt_eq_ok.mpr h

theorem jointPoses_ok {g : RbdRobot} (hg : GeomOK g) {q alpha : List (List ℝ)} (hc : ConfigOK g q alpha) :
    g.jointPoses q = .ok ((List.range g.mb.nrJoints).map (ptsAt g q)) := by
  refine map_loop _ _ fun i hi acc => ?_
  rw [vecAt_some (tyAt_some hg hi), Out.ok_bind, vecAt_getD [] (by rw [hc.qLen]; exact hi), Out.ok_bind,
    jpose_ok _ (hc.joint i _ (tyAt_some hg hi)).1.1, Out.ok_bind,
    vecAt_getD PT.one (by rw [hg.trans]; exact hi), Out.ok_bind]
  rfl

theorem jointVels_ok {g : RbdRobot} (hg : GeomOK g) {q alpha : List (List ℝ)} (hc : ConfigOK g q alpha) :
    g.jointVels alpha = .ok ((List.range g.mb.nrJoints).map (vjAt g alpha)) := by
  refine map_loop _ _ fun i hi acc => ?_
  rw [vecAt_some (tyAt_some hg hi), Out.ok_bind, vecAt_getD [] (by rw [hc.aLen]; exact hi), Out.ok_bind,
    motion_ok _ (hc.joint i _ (tyAt_some hg hi)).2, Out.ok_bind]
  rfl

theorem pred_cases {K : Type} [CommRing K] {mb : MultiBody K} (ht : Tree mb) {i : ℕ} (hi : i < mb.nrJoints) :
    vecAt mb.succ i = .ok i ∧ ((vecAt mb.pred i = .ok (-1) ∧ par mb i = none) ∨
      ∃ p : ℕ, p < i ∧ vecAt mb.pred i = .ok (p : ℤ) ∧ par mb i = some p) := by
  have hlen : i < mb.pred.length := by rw [ht.predLen]; exact hi
  refine ⟨?_, ?_⟩
  · rw [vecAt_ok (by rw [ht.succ]; simpa using hi)]
    simp [ht.succ]
  · rw [vecAt_ok hlen]
    rcases ht.pred i mb.pred[i] (List.getElem?_eq_getElem hlen) with h | ⟨p, hp, h⟩
    · exact Or.inl ⟨by rw [h], by simp [par, List.getElem?_eq_getElem hlen, h]⟩
    · refine Or.inr ⟨p, hp, by rw [h], ?_⟩
      simp only [par, List.getElem?_eq_getElem hlen, h, Option.bind_some]
      rw [if_neg (by omega), Int.toNat_natCast]

/-- Pose of a body from the pose of its predecessor. -/
noncomputable def poseStep (P : PT ℝ) : Option (PT ℝ) → PT ℝ
  | none => P
  | some W => P.mul W

/-- Velocity of a body from the velocity of its predecessor. -/
noncomputable def velStep (P : PT ℝ) (v : MV ℝ) : Option (MV ℝ) → MV ℝ
  | none => v
  | some vp => P.mulM vp + v

theorem getD_map_range {α : Type} (n : ℕ) (f : ℕ → α) (d : α) {i : ℕ} (hi : i < n) :
    ((List.range n).map f).getD i d = f i := by
  simp [List.getD_eq_getElem?_getD, hi]

theorem bodyPoses_ok {g : RbdRobot} (hg : GeomOK g) (q : List (List ℝ)) {W0 : List (PT ℝ)}
    (hW : W0.length = g.mb.nrJoints) :
    ∃ W, g.bodyPoses ((List.range g.mb.nrJoints).map (ptsAt g q)) W0 = .ok W ∧ W.length = g.mb.nrJoints ∧
      ∀ i < g.mb.nrJoints, W.getD i PT.one
        = poseStep (ptsAt g q i) ((par g.mb i).map fun p => W.getD p PT.one) := by
  refine tree_loop hg.tree PT.one (fun i o => poseStep (ptsAt g q i) o) hW fun i hi acc hl => ?_
  obtain ⟨hs, h⟩ := pred_cases hg.tree hi
  rw [vecAt_getD PT.one (by simpa using hi), getD_map_range _ _ _ hi, Out.ok_bind]
  rcases h with ⟨h1, h2⟩ | ⟨p, hp, h1, h2⟩
  · rw [h1, Out.ok_bind, hs, Out.ok_bind, if_neg (by simp), vecSet_ok (by omega), h2]
    rfl
  · rw [h1, Out.ok_bind, hs, Out.ok_bind, if_pos (by omega), vecAtI_natCast,
      vecAt_getD PT.one (by omega), Out.ok_bind, vecSet_ok (by omega), h2]
    rfl

theorem bodyVels_ok {g : RbdRobot} (hg : GeomOK g) (q alpha : List (List ℝ)) {V0 : List (MV ℝ)}
    (hV : V0.length = g.mb.nrJoints) :
    ∃ V, g.bodyVels ((List.range g.mb.nrJoints).map (ptsAt g q))
        ((List.range g.mb.nrJoints).map (vjAt g alpha)) V0 = .ok V ∧ V.length = g.mb.nrJoints ∧
      ∀ i < g.mb.nrJoints, V.getD i 0
        = velStep (ptsAt g q i) (vjAt g alpha i) ((par g.mb i).map fun p => V.getD p 0) := by
  refine tree_loop hg.tree 0 (fun i o => velStep (ptsAt g q i) (vjAt g alpha i) o) hV fun i hi acc hl => ?_
  obtain ⟨hs, h⟩ := pred_cases hg.tree hi
  rw [vecAt_getD PT.one (by simpa using hi), getD_map_range _ _ _ hi, Out.ok_bind,
    vecAt_getD 0 (by simpa using hi), getD_map_range _ _ _ hi, Out.ok_bind]
  rcases h with ⟨h1, h2⟩ | ⟨p, hp, h1, h2⟩
  · rw [h1, Out.ok_bind, hs, Out.ok_bind, if_neg (by simp), vecSet_ok (by omega), h2]
    rfl
  · rw [h1, Out.ok_bind, hs, Out.ok_bind, if_pos (by omega), vecAtI_natCast,
      vecAt_getD 0 (by omega), Out.ok_bind, vecSet_ok (by omega), h2]
    rfl

/-- The contents of a configuration after forward kinematics and velocity. -/
structure Forwarded (g : RbdRobot) (q alpha alphaD : List (List ℝ)) (mbc : Mbc ℝ (List (PT ℝ))) : Prop where
  alphaD : mbc.alphaD = alphaD
  pts : mbc.parentToSon = (List.range g.mb.nrJoints).map (ptsAt g q)
  vj : mbc.jointVelocity = (List.range g.mb.nrJoints).map (vjAt g alpha)
  posLen : mbc.rest.length = g.mb.nrJoints
  velLen : mbc.bodyVelB.length = g.mb.nrJoints
  pos : ∀ i < g.mb.nrJoints, mbc.rest.getD i PT.one
    = poseStep (ptsAt g q i) ((par g.mb i).map fun p => mbc.rest.getD p PT.one)
  vel : ∀ i < g.mb.nrJoints, mbc.bodyVelB.getD i 0
    = velStep (ptsAt g q i) (vjAt g alpha i) ((par g.mb i).map fun p => mbc.bodyVelB.getD p 0)

theorem forward_ok {g : RbdRobot} (hg : GeomOK g) {q alpha : List (List ℝ)} (alphaD : List (List ℝ))
    (hc : ConfigOK g q alpha) {W0 : List (PT ℝ)} {V0 : List (MV ℝ)} (hW : W0.length = g.mb.nrJoints)
    (hV : V0.length = g.mb.nrJoints) :
    ∃ mbc, g.forward W0 V0 q alpha alphaD = .ok mbc ∧ Forwarded g q alpha alphaD mbc := by
  obtain ⟨W, w1, w2, w3⟩ := bodyPoses_ok hg q hW
  obtain ⟨V, v1, v2, v3⟩ := bodyVels_ok hg q alpha hV
  refine ⟨⟨alphaD, _, _, V, W⟩, ?_, ⟨rfl, rfl, rfl, w2, v2, w3, v3⟩⟩
  unfold RbdRobot.forward
  rw [jointPoses_ok hg hc, Out.ok_bind, w1, Out.ok_bind, jointVels_ok hg hc, Out.ok_bind, v1, Out.ok_bind,
    Out.pure_eq]

theorem Forwarded.sized {g : RbdRobot} {q alpha alphaD : List (List ℝ)} {mbc : Mbc ℝ (List (PT ℝ))}
    (h : Forwarded g q alpha alphaD mbc) : MbcSized g.mb mbc :=
  ⟨by rw [h.pts]; simp, by rw [h.vj]; simp, h.velLen⟩

theorem ptsAt_rigid {g : RbdRobot} (hg : GeomOK g) {q alpha : List (List ℝ)} (hc : ConfigOK g q alpha)
    {i : ℕ} (hi : i < g.mb.nrJoints) : (ptsAt g q i).Rigid := by
  have hx : (g.Xt.getD i PT.one).Rigid := by
    have : i < g.Xt.length := by rw [hg.trans]; exact hi
    rw [List.getD_eq_getElem _ _ this]
    exact hg.rigid _ (List.getElem_mem this)
  have ht := tyAt_some hg hi
  exact PT.Rigid.mul (poseD_rigid (hg.axes _ (List.mem_of_getElem? ht)) (hc.joint i _ ht).1) hx

theorem Forwarded.rigid {g : RbdRobot} (hg : GeomOK g) {q alpha alphaD : List (List ℝ)}
    {mbc : Mbc ℝ (List (PT ℝ))} (hc : ConfigOK g q alpha) (h : Forwarded g q alpha alphaD mbc) (i : ℕ) :
    i < g.mb.nrJoints → (mbc.rest.getD i PT.one).Rigid := by
  induction i using Nat.strong_induction_on with
  | _ i ih =>
    intro hi
    rw [h.pos i hi]
    cases e : par g.mb i with
    | none => exact ptsAt_rigid hg hc hi
    | some p =>
      have hp := par_lt hg.tree e
      exact PT.Rigid.mul (ptsAt_rigid hg hc hi) (ih p hp (by omega))

/-! ## Dofs of a joint in the vector of all dofs -/

theorem flatten_getD {α : Type} (l : List (List α)) (i d : ℕ) (x : α) (h : d < (l.getD i []).length) :
    l.flatten.getD (((l.take i).map List.length).sum + d) x = (l.getD i []).getD d x := by
  induction l generalizing i with
  | nil => simp at h
  | cons a t ih =>
    cases i with
    | zero =>
      simp only [List.getD_cons_zero] at h ⊢
      simp only [List.take_zero, List.map_nil, List.sum_nil, zero_add, List.flatten_cons]
      exact List.getD_append _ _ _ _ h
    | succ i =>
      simp only [List.getD_cons_succ] at h ⊢
      rw [← ih i h, List.take_succ_cons, List.map_cons, List.sum_cons, List.flatten_cons,
        List.getD_append_right _ _ _ _ (by omega)]
      congr 1
      omega

theorem jdof_eq {g : RbdRobot} (hg : GeomOK g) {i : ℕ} (hi : i < g.mb.nrJoints) :
    jdof g.mb i = (tyAt g i).dof := by
  have h := congrArg (fun l => l[i]?) hg.dofs
  simp only [List.getElem?_map, tyAt_some hg hi] at h
  simp [jdof, h]

theorem alpha_lengths {g : RbdRobot} (hg : GeomOK g) {q alpha : List (List ℝ)} (hc : ConfigOK g q alpha) :
    alpha.map List.length = g.mb.joints.map Joint.dof := by
  rw [hg.dofs]
  apply List.ext_getElem
  · simp [hc.aLen, hg.types]
  · intro i h1 h2
    simp only [List.length_map] at h1 h2
    have := (hc.joint i _ (List.getElem?_eq_getElem h2)).2
    rw [List.getD_eq_getElem _ _ h1] at this
    simpa using this

theorem alpha_entry {g : RbdRobot} (hg : GeomOK g) {q alpha : List (List ℝ)} (hc : ConfigOK g q alpha)
    {i d : ℕ} (hi : i < g.mb.nrJoints) (hd : d < jdof g.mb i) :
    alpha.flatten.getD (jpos g.mb i + d) 0 = (alpha.getD i []).getD d 0 := by
  have e : jpos g.mb i = ((alpha.take i).map List.length).sum := by
    unfold jpos
    rw [List.map_take, ← alpha_lengths hg hc, List.map_take]
  rw [e]
  refine flatten_getD _ _ _ _ ?_
  rw [(hc.joint i _ (tyAt_some hg hi)).2, ← jdof_eq hg hi]
  exact hd

/-- The velocity of a joint in terms of the vector of all joint velocities. -/
theorem vj_sum {g : RbdRobot} (hg : GeomOK g) {q alpha : List (List ℝ)} (hc : ConfigOK g q alpha)
    (mbc : Mbc ℝ (List (PT ℝ))) (acc : List (MV ℝ)) {i : ℕ} (hi : i < g.mb.nrJoints) :
    ∑ d ∈ range (jdof g.mb i), alpha.flatten.getD (jpos g.mb i + d) 0 • kSub (g.kState alpha mbc acc) i d
      = vjAt g alpha i := by
  unfold vjAt motionD
  rw [← jdof_eq hg hi]
  refine Finset.sum_congr rfl fun d hd => ?_
  rw [alpha_entry hg hc hi (by simpa using hd)]
  congr 1
  have : i < g.types.length := by rw [hg.types]; exact hi
  simp [kSub, RbdRobot.kState, tyAt, List.getD_eq_getElem?_getD, List.getElem?_eq_getElem this]

/-! ## Motion of the bodies -/

/-- A moving frame on a moving frame. -/
theorem frameMoves_mul {P W : ℝ → PT ℝ} {u U : MV ℝ} {t : ℝ} (hP : FrameMoves P u t) (hW : FrameMoves W U t)
    (hr : (P t).Rigid) : FrameMoves (fun τ => (P τ).mul (W τ)) ((P t).mulM U + u) t := by
  refine ⟨fun v => ?_, ?_⟩
  · refine ((hP.mulVec (hW.1 v)).congr_fun fun τ => M3.mul_mulVec _ _ _).congr_deriv ?_
    show _ = -(((P t).E.mulVec U.ang + u.ang).cross (((P t).E.mul (W t).E).mulVec v))
    rw [M3.mulVec_neg, M3.mul_mulVec, ← hr.cross_mulVec]
    ext <;> simp <;> ring
  · refine (hW.2.add (hW.transpose_mulVec hP.2)).congr_deriv ?_
    show _ = ((P t).E.mul (W t).E).transpose.mulVec ((P t).E.mulVec (U.lin - (P t).r.cross U.ang) + u.lin)
    rw [M3.transpose_mul, M3.mul_mulVec, ← M3.mulVec_add]
    congr 1
    rw [M3.mulVec_add, hr.1.transpose_mulVec]
    ext <;> simp <;> ring

namespace Spec

/-- The robot moves along the configurations `q` with velocities `alpha`; at time `t` its joint
accelerations are `xd`. -/
structure RobotMoves (g : RbdRobot) (q alpha : ℝ → List (List ℝ)) (xd : ℕ → ℝ) (t : ℝ) : Prop where
  config : ∀ τ, ConfigOK g (q τ) (alpha τ)
  joints : ∀ i ty, g.types[i]? = some ty →
    JointMoves ty (fun τ => (q τ).getD i []) ((alpha t).getD i []) t
  acc : ∀ c, HasDerivAt (fun τ => (alpha τ).flatten.getD c 0) (xd c) t

end Spec

theorem ptsAt_moves {g : RbdRobot} (hg : GeomOK g) {q alpha : ℝ → List (List ℝ)} {xd : ℕ → ℝ} {t : ℝ}
    (h : RobotMoves g q alpha xd t) {i : ℕ} (hi : i < g.mb.nrJoints) :
    FrameMoves (fun τ => ptsAt g (q τ) i) (vjAt g (alpha t) i) t := by
  have ht := tyAt_some hg hi
  have ha := hg.axes _ (List.mem_of_getElem? ht)
  have hc := ((h.config t).joint i _ ht).1
  have := frameMoves_mul (joint_moves ha hc (h.joints i _ ht)) (FrameMoves.fixed (g.Xt.getD i PT.one) t)
    (poseD_rigid ha hc)
  rw [mulM_zero, zero_add] at this
  exact this

/-- Every body moves with its velocity. -/
theorem body_moves {g : RbdRobot} (hg : GeomOK g) {q alpha : ℝ → List (List ℝ)} {alphaD : ℝ → List (List ℝ)}
    {xd : ℕ → ℝ} {t : ℝ} (h : RobotMoves g q alpha xd t) {mbc : ℝ → Mbc ℝ (List (PT ℝ))}
    (hf : ∀ τ, Forwarded g (q τ) (alpha τ) (alphaD τ) (mbc τ)) (i : ℕ) :
    i < g.mb.nrJoints →
    FrameMoves (fun τ => (mbc τ).rest.getD i PT.one) ((mbc t).bodyVelB.getD i 0) t := by
  induction i using Nat.strong_induction_on with
  | _ i ih =>
    intro hi
    have hm := ptsAt_moves hg h hi
    have e1 := fun τ => (hf τ).pos i hi
    have e2 := (hf t).vel i hi
    cases e : par g.mb i with
    | none =>
      simp only [e, Option.map_none, poseStep] at e1
      simp only [e, Option.map_none, velStep] at e2
      simp only [e1]
      rw [e2]
      exact hm
    | some p =>
      have hp := par_lt hg.tree e
      simp only [e, Option.map_some, poseStep] at e1
      simp only [e, Option.map_some, velStep] at e2
      simp only [e1]
      rw [e2]
      exact frameMoves_mul hm (ih p hp (by omega)) (ptsAt_rigid hg (h.config t) hi)

section
variable {g : RbdRobot} {q alpha alphaD : List (List ℝ)} {mbc : Mbc ℝ (List (PT ℝ))} {acc : List (MV ℝ)}

theorem forwarded_chain (hg : GeomOK g) (hc : ConfigOK g q alpha) (hf : Forwarded g q alpha alphaD mbc)
    (acc : List (MV ℝ)) (path : List ℕ) : ∀ o, IsPath g.mb o path →
      Chain g.mb (g.kState alpha mbc acc) (fun c => alpha.flatten.getD c 0) o path := by
  induction path with
  | nil => intro o _; cases o <;> exact True.intro
  | cons i t ih =>
    rintro o ⟨h1, h2, h3⟩
    have e1 := hf.pos i h2
    have e2 := hf.vel i h2
    cases o with
    | none =>
      rw [h1] at e2
      refine ⟨?_, ih _ h3⟩
      rw [vj_sum hg hc mbc acc h2]
      exact e2
    | some p =>
      rw [h1] at e1 e2
      refine ⟨⟨_, ptsAt_rigid hg hc h2, e1, ?_⟩, ih _ h3⟩
      rw [vj_sum hg hc mbc acc h2]
      exact e2

theorem normalRec_getD (hg : GeomOK g) (hf : Forwarded g q alpha alphaD mbc)
    {i : ℕ} (hi : i < g.mb.nrJoints) (h : NormalRec g.mb mbc acc i) :
    acc.getD i 0 = (match par g.mb i with
      | none => (mbc.bodyVelB.getD i 0).cross (vjAt g alpha i)
      | some p => (ptsAt g q i).mulM (acc.getD p 0) + (mbc.bodyVelB.getD i 0).cross (vjAt g alpha i)) := by
  obtain ⟨p, X, vb, vj, a, h1, h2, h3, h4, h5, h6⟩ := h
  have hX : X = ptsAt g q i := by
    rw [hf.pts] at h2
    simp [hi] at h2
    exact h2.symm
  have hvj : vj = vjAt g alpha i := by
    rw [hf.vj] at h4
    simp [hi] at h4
    exact h4.symm
  have hvb : mbc.bodyVelB.getD i 0 = vb := by simp [List.getD_eq_getElem?_getD, h3]
  have ha : acc.getD i 0 = X.mulM a + vb.cross vj := by simp [List.getD_eq_getElem?_getD, h6]
  rw [ha, hvb, hX, hvj]
  unfold predAcc at h5
  unfold par
  rw [h1, Option.bind_some]
  split at h5
  · rename_i hp
    cases h5
    rw [if_pos hp, mulM_zero, zero_add]
  · rename_i hp
    rw [if_neg hp]
    simp [List.getD_eq_getElem?_getD, h5]

theorem forwarded_nchain (hg : GeomOK g) (hc : ConfigOK g q alpha) (hf : Forwarded g q alpha alphaD mbc)
    (hn : ∀ i < g.mb.nrJoints, NormalRec g.mb mbc acc i) (path : List ℕ) : ∀ o, IsPath g.mb o path →
      NormalChain g.mb (g.kState alpha mbc acc) (fun c => alpha.flatten.getD c 0) o path := by
  induction path with
  | nil => intro o _; cases o <;> exact True.intro
  | cons i t ih =>
    rintro o ⟨h1, h2, h3⟩
    have e1 := hf.pos i h2
    have e2 := normalRec_getD hg hf h2 (hn i h2)
    rw [h1] at e2
    cases o with
    | none =>
      refine ⟨?_, ih _ h3⟩
      rw [vj_sum hg hc mbc acc h2]
      exact e2
    | some p =>
      rw [h1] at e1
      refine ⟨⟨_, ptsAt_rigid hg hc h2, e1, ?_⟩, ih _ h3⟩
      rw [vj_sum hg hc mbc acc h2]
      exact e2

theorem forwarded_moves (hg : GeomOK g) (hc : ConfigOK g q alpha) (hf : Forwarded g q alpha alphaD mbc)
    (hl : acc.length = g.mb.nrJoints) {path : List ℕ} (hp : IsPath g.mb none path) (hne : path ≠ []) :
    Moves g.mb (g.kState alpha mbc acc) path (fun c => alpha.flatten.getD c 0) where
  sized := {
    ne := hne
    nodup := ((hp.sorted hg.tree).1.imp fun h => Nat.ne_of_lt h)
    mem := fun i hi => hp.mem i hi
    pos := fun i hi => by show i < mbc.rest.length; rw [hf.posLen]; exact hp.mem i hi
    vel := fun i hi => by show i < mbc.bodyVelB.length; rw [hf.velLen]; exact hp.mem i hi
    acc := fun i hi => by show i < acc.length; rw [hl]; exact hp.mem i hi
    sub := fun i hi => by
      have hi := hp.mem i hi
      have h' : i < g.types.length := by rw [hg.types]; exact hi
      refine ⟨by simpa [RbdRobot.kState] using h', ?_⟩
      rw [jdof_eq hg hi]
      simp [RbdRobot.kState, tyAt, List.getD_eq_getElem?_getD, List.getElem?_eq_getElem h', subspace_length] }
  rigid := fun i hi => hf.rigid hg hc i (hp.mem i hi)
  chain := forwarded_chain hg hc hf acc path none hp

end

end Verif
