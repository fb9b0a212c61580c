import Verif.Props.Visual
import Verif.Props.Rotation

/-!
# C65: rotation rows of `PositionBasedVisServoTask`

The rotation part of the error is the rotation vector of the transposed rotation, in the convention of
SpaceVecAlg, that is the opposite of the rotation vector from the target to the sensor: it is zero
exactly when sensor and target have the same orientation and its square decreases at the reported
speed, as the translation part does.  With `rbd::getAngleAxis` in the other convention (the vector of
the transposed rotation) the square would increase at that rate (`C65_pbvs_rotation_convention`), so that
the two halves of the error would disagree.
-/

set_option autoImplicit false
set_option linter.unusedSectionVars false

namespace Verif

open Finset Spec

namespace Spec

/-- The first three rows of `L` have the form of the interaction matrix of the rotation vector `u` of
`E`: `ω` plus multiples of `u × ω` and `u × (u × ω)`. -/
def RotationRows (L : ℕ → ℕ → ℝ) (E : M3 ℝ) : Prop :=
  ∀ u, RotVec E u → ∃ p q : ℝ, ∀ a < 3, ∀ V : MV ℝ, ∑ j ∈ range 6, L a j * V.get j
    = (V.ang + p • u.cross V.ang + q • u.cross (u.cross V.ang)).get a

/-- The first three entries. -/
def head3 (v : Vec ℝ) : V3 ℝ := ⟨v.get 0, v.get 1, v.get 2⟩

end Spec

theorem Spec.RotVec.transpose {R : M3 ℝ} {w : V3 ℝ} (hR : R.IsRot) (h : RotVec R w) :
    RotVec R.transpose (-w) := by
  have e0 : (-w).dot (-w) = w.dot w := by simp only [V3.dot, V3.neg_x, V3.neg_y, V3.neg_z]; ring
  refine ⟨by rw [e0]; exact h.1, fun v => ?_⟩
  rw [e0]
  -- both sides have the same products with every vector
  have key : ∀ z : V3 ℝ, z.dot (R.transpose.mulVec v) = (R.mulVec z).dot v := by
    intro z
    rw [M3.dot_mulVec, M3.transpose_transpose]
  have ext' : ∀ a b : V3 ℝ, (∀ z : V3 ℝ, z.dot a = z.dot b) → a = b := by
    intro a b hab
    have hx := hab ⟨1, 0, 0⟩
    have hy := hab ⟨0, 1, 0⟩
    have hz := hab ⟨0, 0, 1⟩
    simp only [V3.dot, one_mul, zero_mul, add_zero, zero_add] at hx hy hz
    exact V3.ext hx hy hz
  refine ext' _ _ fun z => ?_
  rw [key, h.2 z]
  simp only [V3.dot, V3.add_x, V3.add_y, V3.add_z, V3.sub_x, V3.sub_y, V3.sub_z, V3.smul_x, V3.smul_y,
    V3.smul_z, V3.neg_x, V3.neg_y, V3.neg_z, V3.cross_x, V3.cross_y, V3.cross_z]
  ring

theorem cross_dot_self (u w : V3 ℝ) (p q : ℝ) :
    u.dot (w + p • u.cross w + q • u.cross (u.cross w)) = u.dot w := by
  simp only [V3.dot, V3.add_x, V3.add_y, V3.add_z, V3.smul_x, V3.smul_y, V3.smul_z, V3.cross_x,
    V3.cross_y, V3.cross_z]
  ring

theorem trace_transpose (m : M3 ℝ) : m.transpose.trace = m.trace := rfl

section
variable {mb : MultiBody ℝ} {st : ℝ → KState ℝ} {x : ℝ → ℕ → ℝ} {xd : ℕ → ℝ} {t : ℝ}

/-- What the rotation rows are at every time. -/
theorem pbvs_rotation (aa : M3 ℝ → V3 ℝ) (L : M3 ℝ → ℕ → ℕ → ℝ) (s : PbvsT ℝ) (T : PT ℝ)
    (h : Evolves mb st s.jac.path x xd t) (hb : s.jac.path.getLast? = some s.bodyIndex)
    (hr : s.jacMat.rows = 6) (hc : s.jacMat.cols = mb.nrDof) (τ : ℝ) :
    ∃ s', pbvsStep aa L mb (st τ) s T = .ok s' ∧
      s'.eval.ang = aa (T.E.mul (cameraAt s.X_b_s (st τ) s.bodyIndex).E.transpose) ∧
      s'.speed.get = (fun a => ∑ j ∈ range 6,
        L ((cameraAt s.X_b_s (st τ) s.bodyIndex).E.mul T.E.transpose) a j
          * (s.X_b_s.mulM (kVel (st τ) s.bodyIndex)).get j) := by
  obtain ⟨R, h1, h2⟩ := visual_exact 6
    (L (targetToSensor (cameraAt s.X_b_s (st τ) s.bodyIndex) T).E)
    (fun _ V => pbvsLdot (targetToSensor (cameraAt s.X_b_s (st τ) s.bodyIndex) T).E ⟨V 0, V 1, V 2⟩)
    s.bodyIndex s.jac s.X_b_s s.jacMat (h.moves τ) hb hr hc _ rfl
  unfold pbvsStep PbvsT.update PbvsT.error
  dsimp only at h1 ⊢
  rw [h1]
  refine ⟨_, rfl, ?_, rfl⟩
  show aa (targetToSensor _ T).E.transpose = _
  unfold targetToSensor PT.mul PT.inv
  dsimp only
  rw [M3.transpose_mul, M3.transpose_transpose]

/-- The rotation part of the error of `PositionBasedVisServoTask`: the opposite of the rotation vector
from the target to the sensor, zero exactly when they have the same orientation; its square decreases
at the reported speed. -/
theorem C65_pbvs_rotation {aa : M3 ℝ → V3 ℝ} (hv : RotVelOK aa) (L : M3 ℝ → ℕ → ℕ → ℝ) (s : PbvsT ℝ)
    {T : PT ℝ} (hT : T.Rigid) (hX : s.X_b_s.Rigid) (h : Evolves mb st s.jac.path x xd t)
    (hb : s.jac.path.getLast? = some s.bodyIndex)
    (hr : s.jacMat.rows = 6) (hc : s.jacMat.cols = mb.nrDof)
    (hL : ∀ E, RotationRows (L E) E)
    (hh : LessThanHalfTurn T.E (cameraAt s.X_b_s (st t) s.bodyIndex).E) :
    ∃ s' : ℝ → PbvsT ℝ, (∀ τ, pbvsStep aa L mb (st τ) s T = .ok (s' τ)) ∧
      RotVec ((cameraAt s.X_b_s (st t) s.bodyIndex).E.mul T.E.transpose) (-(s' t).eval.ang) ∧
      ((s' t).eval.ang = 0 ↔ (cameraAt s.X_b_s (st t) s.bodyIndex).E = T.E) ∧
      NormRate (fun τ => (s' τ).eval.ang) (fun τ => head3 (s' τ).speed) t := by
  choose s' u1 u2 u3 using pbvs_rotation aa L s T h hb hr hc
  have hrig := fun τ => (h.moves τ).rigid s.bodyIndex (List.mem_of_getLast? hb)
  have hcam : ∀ τ, (cameraAt s.X_b_s (st τ) s.bodyIndex).Rigid := fun τ => hX.mul (hrig τ)
  have hRot : (T.E.mul (cameraAt s.X_b_s (st t) s.bodyIndex).E.transpose).IsRot :=
    M3.IsRot.mul hT (M3.IsRot.transpose (hcam t))
  have hvec := hv _ hRot hh
  have hneg := hvec.transpose hRot
  rw [M3.transpose_mul, M3.transpose_transpose] at hneg
  refine ⟨s', u1, ?_, ?_, ?_⟩
  · rw [u2]; exact hneg
  · rw [u2, hvec.zero_iff, mul_transpose_eq_one (hcam t)]
  · have d := rot_rate hv (FrameMoves.fixed T t) (camera_moves h hb hX) (fun _ => hT) hcam hh
    refine normRate_of (d.congr_of_eventuallyEq (Filter.Eventually.of_forall fun τ => ?_)) ?_
    · dsimp only; rw [u2]
    · obtain ⟨p, q, hpq⟩ := hL _ _ hneg
      have hs : head3 (s' t).speed = (s.X_b_s.mulM (kVel (st t) s.bodyIndex)).ang
          + p • (-(s' t).eval.ang).cross (s.X_b_s.mulM (kVel (st t) s.bodyIndex)).ang
          + q • (-(s' t).eval.ang).cross ((-(s' t).eval.ang).cross
            (s.X_b_s.mulM (kVel (st t) s.bodyIndex)).ang) := by
        unfold head3
        rw [u3, u2]
        dsimp only
        rw [hpq 0 (by norm_num), hpq 1 (by norm_num), hpq 2 (by norm_num)]
        rfl
      have hd := cross_dot_self (-(s' t).eval.ang) (s.X_b_s.mulM (kVel (st t) s.bodyIndex)).ang p q
      rw [← hs] at hd
      have hn : ∀ a b : V3 ℝ, (-a).dot b = -a.dot b := fun a b => by
        simp only [V3.dot, V3.neg_x, V3.neg_y, V3.neg_z]; ring
      rw [hn, hn, neg_inj] at hd
      rw [hd, u2, MV.zero_ang, sub_zero]

/-- With `rbd::getAngleAxis` in the convention opposite to the one of SpaceVecAlg, the square of the
rotation part would increase at the reported speed. -/
theorem C65_pbvs_rotation_convention {aa : M3 ℝ → V3 ℝ} (hv : RotVelOK fun R => aa R.transpose)
    (L : M3 ℝ → ℕ → ℕ → ℝ) (s : PbvsT ℝ)
    {T : PT ℝ} (hT : T.Rigid) (hX : s.X_b_s.Rigid) (h : Evolves mb st s.jac.path x xd t)
    (hb : s.jac.path.getLast? = some s.bodyIndex)
    (hr : s.jacMat.rows = 6) (hc : s.jacMat.cols = mb.nrDof)
    (hL : ∀ E, RotationRows (L E) E)
    (hh : LessThanHalfTurn T.E (cameraAt s.X_b_s (st t) s.bodyIndex).E) :
    ∃ s' : ℝ → PbvsT ℝ, (∀ τ, pbvsStep aa L mb (st τ) s T = .ok (s' τ)) ∧
      NormRate (fun τ => (s' τ).eval.ang) (fun τ => -head3 (s' τ).speed) t := by
  have hv' : RotVelOK fun R => -aa R := fun R hR htr => by
    have := (hv R.transpose (M3.IsRot.transpose hR) (by rw [trace_transpose]; exact htr)).transpose
      (M3.IsRot.transpose hR)
    dsimp only at this
    rw [M3.transpose_transpose] at this
    exact this
  choose s' u1 u2 u3 using pbvs_rotation aa L s T h hb hr hc
  obtain ⟨z, z1, -, -, z4⟩ := C65_pbvs_rotation hv' L s hT hX h hb hr hc hL hh
  choose z' v1 v2 v3 using pbvs_rotation (fun R => -aa R) L s T h hb hr hc
  have ez : z = z' := funext fun τ => Out.ok.inj ((z1 τ).symm.trans (v1 τ))
  subst ez
  have e1 : ∀ τ, (z τ).eval.ang = -(s' τ).eval.ang := fun τ => by rw [v2, u2]
  have e2 : ∀ τ, head3 (z τ).speed = head3 (s' τ).speed := fun τ => by
    unfold head3; rw [v3, u3]
  refine ⟨s', u1, ?_⟩
  unfold NormRate at z4 ⊢
  refine (z4.congr_of_eventuallyEq (Filter.Eventually.of_forall fun τ => ?_)).congr_deriv ?_
  · dsimp only
    rw [e1]
    simp only [normSq, V3.neg_x, V3.neg_y, V3.neg_z]
    ring
  · dsimp only
    rw [e1, e2]
    simp only [V3.neg_x, V3.neg_y, V3.neg_z]
    ring

end

/-! ## A sensor on a turning body, the target one radian ahead -/

namespace VisEx
open RotEx

/-- A pose Jacobian with rotation rows of that form. -/
def poseJacR (_ : M3 ℝ) (a j : ℕ) : ℝ := if a = j then 1 else 0

theorem poseJacR_rows (E : M3 ℝ) : RotationRows (poseJacR E) E := by
  refine fun u _ => ⟨0, 0, fun a ha V => ?_⟩
  interval_cases a <;> simp [Finset.sum_range_succ, poseJacR, MV.get, V3.get]

theorem ahead : LessThanHalfTurn (rotZ 1) (cameraAt pbvs.X_b_s (DriftEx.st 0) pbvs.bodyIndex).E := by
  have := rotZ_trace (θ := 1) (by rw [abs_one]; linarith [Real.two_le_pi])
  unfold LessThanHalfTurn
  simp only [M3.trace, rotZ] at this
  simpa [M3.trace, rotZ, cameraAt, pbvs, PbvsT.make, PT.mul, PT.ofTrans, M3.mul, M3.one, M3.transpose,
    M3.mulVec, V3.dot, kPose, DriftEx.st, DriftEx.pose, DriftEx.ang] using this

/-- The hypotheses are met and the error is not zero. -/
example : ∃ s' : ℝ → PbvsT ℝ, (s' 0).eval.ang ≠ 0 ∧
    NormRate (fun τ => (s' τ).eval.ang) (fun τ => head3 (s' τ).speed) 0 := by
  obtain ⟨s', -, -, h1, h2⟩ := C65_pbvs_rotation C77_formula poseJacR pbvs (T := ⟨rotZ 1, 0⟩) (rotZ_rot 1)
    (rigid_trans _) (DriftEx.evolves 0) rfl rfl rfl poseJacR_rows ahead
  refine ⟨s', fun h => ?_, h2⟩
  have e := congrArg (fun m : M3 ℝ => m.r0.y) (h1.1 h)
  have := Real.sin_pos_of_pos_of_lt_pi one_pos (by linarith [Real.two_le_pi])
  simp [rotZ, cameraAt, pbvs, PbvsT.make, PT.mul, PT.ofTrans, M3.mul, M3.one, M3.transpose,
    M3.mulVec, V3.dot, kPose, DriftEx.st, DriftEx.pose, DriftEx.ang] at e
  exact this.ne e

/-- A function with the other convention. -/
example : ∃ s' : ℝ → PbvsT ℝ,
    NormRate (fun τ => (s' τ).eval.ang) (fun τ => -head3 (s' τ).speed) 0 := by
  obtain ⟨s', -, h⟩ := C65_pbvs_rotation_convention (aa := fun R => svaRotVel R.transpose)
    (fun R hR ht => by dsimp only; rw [M3.transpose_transpose]; exact C77_formula R hR ht) poseJacR pbvs
    (T := ⟨rotZ 1, 0⟩) (rotZ_rot 1) (rigid_trans _) (DriftEx.evolves 0) rfl rfl rfl poseJacR_rows ahead
  exact ⟨s', h⟩

end VisEx

end Verif
