import Verif.Proofs.RotLoop
import Verif.Props.Momentum

/-!
# C77, C78: orientation errors

C77: the error of the orientation and transform tasks is zero exactly at the target orientation and, as
long as the frame is less than half a turn away, its square decreases at twice the product of the error
and the reported speed: the part of C59 that goes through `sva::rotationVelocity`.

C78: a `SetPointTask` over an orientation task brings the frame to the target orientation,
exponentially, from every orientation less than half a turn away with a bounded speed.

`rotVel` is any function that gives the rotation vector of rotations of less than half a turn
(`Spec.RotVelOK`); the formula of SpaceVecAlg does (`C77_formula`) and no two functions differ there
(`C77_unique`).
-/

set_option autoImplicit false
set_option linter.unusedSectionVars false

namespace Verif

open Finset Spec

namespace Spec

/-- The orientations `A` and `B` differ by less than half a turn. -/
def LessThanHalfTurn (A B : M3 ℝ) : Prop := -1 < (A.mul B.transpose).trace

/-- Squared norm. -/
def normSq (a : V3 ℝ) : ℝ := a.x ^ 2 + a.y ^ 2 + a.z ^ 2

/-- The squared norm of the error `e` changes at the rate the speed `v` gives. -/
def NormRate (e v : ℝ → V3 ℝ) (t : ℝ) : Prop :=
  HasDerivAt (fun τ => normSq (e τ))
    (-2 * ((e t).x * (v t).x + (e t).y * (v t).y + (e t).z * (v t).z)) t

/-- Sum of the squares of the differences of the entries. -/
def gap (A B : M3 ℝ) : ℝ :=
  ((A.r0.x - B.r0.x) ^ 2 + (A.r0.y - B.r0.y) ^ 2 + (A.r0.z - B.r0.z) ^ 2)
  + ((A.r1.x - B.r1.x) ^ 2 + (A.r1.y - B.r1.y) ^ 2 + (A.r1.z - B.r1.z) ^ 2)
  + ((A.r2.x - B.r2.x) ^ 2 + (A.r2.y - B.r2.y) ^ 2 + (A.r2.z - B.r2.z) ^ 2)

/-- The orientation `X` goes to `ori`, its distance to `ori` (the error `e`) staying below half a turn:
with the stiffness `k`, the energy `k |e|² + |v|²` never grows, and error, speed and difference of the
matrices vanish exponentially. -/
structure TurnsTo (X : ℝ → M3 ℝ) (ori : M3 ℝ) (k : ℝ) (e v : ℝ → V3 ℝ) : Prop where
  below : ∀ t, 0 ≤ t → LessThanHalfTurn ori (X t) ∧ normSq (e t) < Real.pi ^ 2
  energy : ∀ t1 t2, 0 ≤ t1 → t1 ≤ t2 → k * normSq (e t2) + normSq (v t2) ≤ k * normSq (e t1) + normSq (v t1)
  vanish : ∃ C r : ℝ, 0 < r ∧
    ∀ t, 0 ≤ t → normSq (e t) + normSq (v t) + gap (X t) ori ≤ C * Real.exp (-(r * t))

end Spec

/-! ## C77 -/

/-- The formula of SpaceVecAlg gives the rotation vector. -/
theorem C77_formula : RotVelOK svaRotVel := svaRotVel_ok

/-- There is one rotation vector of less than half a turn. -/
theorem C77_unique {R : M3 ℝ} {w w' : V3 ℝ} (h : RotVec R w) (h' : RotVec R w') : w = w' :=
  h.unique h'

theorem normRate_of {e v : ℝ → V3 ℝ} {t r : ℝ} (h : HasDerivAt (fun τ => (e τ).dot (e τ)) r t)
    (hr : r = -2 * (e t).dot (v t)) : NormRate e v t := by
  subst hr
  refine (h.congr_deriv ?_).congr_of_eventuallyEq (Filter.Eventually.of_forall fun τ => ?_)
  · simp only [V3.dot]
  · simp only [V3.dot, normSq]; ring

/-- A rotation preserves what `NormRate` speaks of. -/
theorem rot_dot {Q : M3 ℝ} (hQ : Q.IsRot) (a b : V3 ℝ) : (Q.mulVec a).dot (Q.mulVec b) = a.dot b :=
  hQ.1.dot_mulVec a b

theorem rot_eq_zero {Q : M3 ℝ} (hQ : Q.IsRot) (a : V3 ℝ) : Q.mulVec a = 0 ↔ a = 0 := by
  constructor
  · intro h
    refine V3.eq_zero_of_dot_self ?_
    rw [← rot_dot hQ, h, V3.dot_zero]
  · rintro rfl
    exact M3.mulVec_zero _

section
variable {mb : MultiBody ℝ} {st : ℝ → KState ℝ} {x : ℝ → ℕ → ℝ} {xd : ℕ → ℝ} {t : ℝ}
  {rotVel : M3 ℝ → V3 ℝ}

/-- The angular speed an orientation task reports. -/
theorem ori_speed (X : PT ℝ) (p : V3 ℝ) (U : MV ℝ) :
    (((PT.ofRot X.E.transpose).mul (PT.ofTrans p)).mulM U).ang = X.E.transpose.mulVec U.ang := by
  unfold PT.mulM PT.mul PT.ofRot PT.ofTrans
  dsimp only
  rw [M3.mul_one']

/-- OrientationTask. -/
theorem C77_orientation (hv : RotVelOK rotVel) (b : ℕ) (J : Jac ℝ) {ori : M3 ℝ} (ho : ori.IsRot)
    (res : Mat ℝ) (h : Evolves mb st J.path x xd t) (hb : J.path.getLast? = some b)
    (hr : res.rows = 3) (hc : res.cols = mb.nrDof) (hh : LessThanHalfTurn ori (kPose (st t) b).E) :
    ∃ o : ℝ → Out3 ℝ,
      (∀ τ, orientationUpdate (rotationErrorOf rotVel) mb (st τ) b J ori res = .ok (o τ)) ∧
      ((o t).eval = 0 ↔ (kPose (st t) b).E = ori) ∧
      NormRate (fun τ => (o τ).eval) (fun τ => (o τ).speed) t := by
  choose R h1 h2 using fun τ => ori_exact (rotationErrorOf rotVel) b J ori res (h.moves τ) hb hr hc
  have hrig := fun τ => (h.moves τ).rigid b (List.mem_of_getLast? hb)
  have hT : ∀ τ, (kPose (st τ) b).E.transpose.IsRot := fun τ => M3.IsRot.transpose (hrig τ)
  refine ⟨_, h1, ?_, ?_⟩
  · show (rotationErrorOf rotVel (kPose (st t) b).E ori) = 0 ↔ _
    unfold rotationErrorOf
    rw [rot_eq_zero (hT t), (hv _ (ho.mul (hT t)) hh).zero_iff, mul_transpose_eq_one (hrig t)]
  · have d := rot_rate hv (FrameMoves.fixed (⟨ori, 0⟩ : PT ℝ) t)
      (h.frame b (List.mem_of_getLast? hb)) (fun _ => ho) hrig hh
    refine normRate_of (d.congr_of_eventuallyEq (Filter.Eventually.of_forall fun τ => ?_)) ?_
    · exact rot_dot (hT τ) _ _
    · dsimp only
      rw [ori_speed, rotationErrorOf, rot_dot (hT t), MV.zero_ang, sub_zero]

/-- SurfaceOrientationTask. -/
theorem C77_surface_orientation (hv : RotVelOK rotVel) (b : ℕ) (J : Jac ℝ) {ori : M3 ℝ}
    (ho : ori.IsRot) {X_b_s : PT ℝ} (hX : X_b_s.Rigid) (res : Mat ℝ)
    (h : Evolves mb st J.path x xd t) (hb : J.path.getLast? = some b)
    (hr : res.rows = 3) (hc : res.cols = mb.nrDof)
    (hh : LessThanHalfTurn ori (X_b_s.E.mul (kPose (st t) b).E)) :
    ∃ o : ℝ → Out3 ℝ, (∀ τ, surfaceOriUpdate rotVel mb (st τ) b J ori X_b_s res = .ok (o τ)) ∧
      ((o t).eval = 0 ↔ X_b_s.E.mul (kPose (st t) b).E = ori) ∧
      NormRate (fun τ => (o τ).eval) (fun τ => (o τ).speed) t := by
  choose R h1 h2 using fun τ => surfOri_exact rotVel b J ori X_b_s res (h.moves τ) hb hr hc
  have hrig := fun τ => (h.moves τ).rigid b (List.mem_of_getLast? hb)
  have e : ∀ τ, (ori.mul (kPose (st τ) b).E.transpose).mul X_b_s.E.transpose
      = ori.mul (X_b_s.mul (kPose (st τ) b)).E.transpose := fun τ => by
    unfold PT.mul
    dsimp only
    rw [M3.transpose_mul, M3.mul_assoc']
  refine ⟨_, h1, ?_, ?_⟩
  · dsimp only
    rw [e t, (hv _ (ho.mul (M3.IsRot.transpose (hX.mul (hrig t)))) hh).zero_iff,
      mul_transpose_eq_one (hX.mul (hrig t))]
    rfl
  · have d := rot_rate hv (FrameMoves.fixed (⟨ori, 0⟩ : PT ℝ) t)
      ((h.frame b (List.mem_of_getLast? hb)).carried hX) (fun _ => ho)
      (fun τ => hX.mul (hrig τ)) hh
    refine normRate_of (d.congr_of_eventuallyEq (Filter.Eventually.of_forall fun τ => ?_)) ?_
    · dsimp only; rw [e τ]
    · dsimp only; rw [e t, MV.zero_ang, sub_zero]

/-- `sva::transformError`: angular part. -/
theorem transformError_ang (A B : PT ℝ) (C : M3 ℝ) :
    ((PT.ofRot C).mulM (transformErrorOf rotVel A B)).ang
      = (C.mul A.E.transpose).mulVec (rotVel (B.E.mul A.E.transpose)) := by
  unfold transformErrorOf transformVelocityOf PT.mulM PT.ofRot PT.inv PT.mul
  dsimp only
  rw [M3.mul_mulVec]

/-- `sva::transformError`: linear part. -/
theorem transformError_lin (A B : PT ℝ) (hA : A.Rigid) :
    (transformErrorOf rotVel A B).lin = B.r - A.r := by
  unfold transformErrorOf transformVelocityOf PT.mulM PT.ofRot PT.inv PT.mul
  dsimp only
  rw [V3.zero_cross, sub_zero, M3.transpose_transpose, M3.mulVec_add, hA.1.transpose_mulVec,
    M3.mulVec_neg, hA.1.transpose_mulVec]
  abel

/-- TransformTask. -/
theorem C77_transform (hv : RotVelOK rotVel) (b : ℕ) (J : Jac ℝ) {X_0_t X_b_p : PT ℝ} {E_0_c : M3 ℝ}
    (ht : X_0_t.Rigid) (hX : X_b_p.Rigid) (hE : E_0_c.IsRot) (res : Mat ℝ)
    (h : Evolves mb st J.path x xd t) (hb : J.path.getLast? = some b)
    (hr : res.rows = 6) (hc : res.cols = mb.nrDof)
    (hh : LessThanHalfTurn X_0_t.E (X_b_p.mul (kPose (st t) b)).E) :
    ∃ o : ℝ → Out6 ℝ, (∀ τ, transformUpdate (transformErrorOf rotVel) mb (st τ) b J X_0_t X_b_p E_0_c
        res = .ok (o τ)) ∧
      ((o t).eval = 0 ↔ X_b_p.mul (kPose (st t) b) = X_0_t) ∧
      NormRate (fun τ => (o τ).eval.ang) (fun τ => (o τ).speed.ang) t ∧
      HasD3 (fun τ => (o τ).eval.lin) (-(o t).speed.lin) t := by
  have hlin := C59_transform (transformErrorOf rotVel) (fun A B hA => transformError_lin A B hA) b J X_0_t
    X_b_p E_0_c hX res h hb hr hc
  choose R h1 h2 using fun τ => transform_exact (transformErrorOf rotVel) b J X_0_t X_b_p E_0_c res
    (h.moves τ) hb hr hc _ rfl
  obtain ⟨o', o1, o2⟩ := hlin
  have eo := funext fun τ => Out.ok.inj ((o1 τ).symm.trans (h1 τ))
  have hrig := fun τ => (h.moves τ).rigid b (List.mem_of_getLast? hb)
  have hQ : ∀ τ, (E_0_c.mul (X_b_p.mul (kPose (st τ) b)).E.transpose).IsRot := fun τ =>
    hE.mul (M3.IsRot.transpose (hX.mul (hrig τ)))
  have hR := hv _ (M3.IsRot.mul ht (M3.IsRot.transpose (hX.mul (hrig t)))) hh
  subst eo
  refine ⟨_, h1, ?_, ?_, o2⟩
  · have e1 := transformError_ang (rotVel := rotVel) (X_b_p.mul (kPose (st t) b)) X_0_t E_0_c
    have e2 : ((PT.ofRot E_0_c).mulM (transformErrorOf rotVel (X_b_p.mul (kPose (st t) b)) X_0_t)).lin
        = E_0_c.mulVec (X_0_t.r - (X_b_p.mul (kPose (st t) b)).r) := by
      rw [← transformError_lin (rotVel := rotVel) _ X_0_t (hX.mul (hrig t))]
      unfold PT.ofRot
      simp only [PT.mulM, V3.zero_cross, sub_zero]
    dsimp only
    rw [MV.ext_iff, e1, e2, MV.zero_ang, MV.zero_lin, rot_eq_zero (hQ t), rot_eq_zero hE, hR.zero_iff,
      mul_transpose_eq_one (hX.mul (hrig t)), PT.ext_iff, sub_eq_zero]
    exact and_congr_right fun _ => eq_comm
  · have d := rot_rate hv (FrameMoves.fixed X_0_t t)
      ((h.frame b (List.mem_of_getLast? hb)).carried hX) (fun _ => ht) (fun τ => hX.mul (hrig τ)) hh
    refine normRate_of (d.congr_of_eventuallyEq (Filter.Eventually.of_forall fun τ => ?_)) ?_
    · dsimp only
      rw [transformError_ang, rot_dot (hQ τ)]
    · dsimp only
      have e3 : (((PT.ofRot (E_0_c.mul (X_b_p.mul (kPose (st t) b)).E.transpose)).mul X_b_p).mulM
          (kVel (st t) b)).ang = (E_0_c.mul (X_b_p.mul (kPose (st t) b)).E.transpose).mulVec
            (X_b_p.mulM (kVel (st t) b)).ang := by
        unfold PT.mulM
        dsimp only
        rw [← M3.mul_mulVec]
        rfl
      rw [transformError_ang, e3, rot_dot (hQ t), MV.zero_ang, sub_zero]

/-- SurfaceTransformTask. -/
theorem C77_surface_transform (hv : RotVelOK rotVel) (b : ℕ) (J : Jac ℝ) {X_0_t X_b_p : PT ℝ}
    (ht : X_0_t.Rigid) (hX : X_b_p.Rigid) (res : Mat ℝ)
    (h : Evolves mb st J.path x xd t) (hb : J.path.getLast? = some b)
    (hr : res.rows = 6) (hc : res.cols = mb.nrDof)
    (hh : LessThanHalfTurn X_0_t.E (X_b_p.mul (kPose (st t) b)).E) :
    ∃ o : ℝ → Out6 ℝ, (∀ τ, surfaceUpdate (transformVelocityOf rotVel) mb (st τ) b J X_0_t X_b_p res
        = .ok (o τ)) ∧
      ((o t).eval = 0 ↔ X_b_p.mul (kPose (st t) b) = X_0_t) ∧
      NormRate (fun τ => (o τ).eval.ang) (fun τ => (o τ).speed.ang) t ∧
      HasD3 (fun τ => (o τ).eval.lin) (-(o t).speed.lin) t := by
  obtain ⟨o', o1, o2⟩ := C59_surface_transform (transformVelocityOf rotVel) (fun _ => rfl) b J X_0_t
    X_b_p hX res h hb hr hc
  choose R h1 h2 using fun τ => surface_exact (transformVelocityOf rotVel) b J X_0_t X_b_p res
    (h.moves τ) hb hr hc _ _ _ rfl rfl rfl
  have eo := funext fun τ => Out.ok.inj ((o1 τ).symm.trans (h1 τ))
  have hrig := fun τ => (h.moves τ).rigid b (List.mem_of_getLast? hb)
  have hR := hv _ (M3.IsRot.mul ht (M3.IsRot.transpose (hX.mul (hrig t)))) hh
  subst eo
  refine ⟨_, h1, ?_, ?_, o2⟩
  · have e2 : (X_0_t.mul (X_b_p.mul (kPose (st t) b)).inv).r
        = (X_b_p.mul (kPose (st t) b)).E.mulVec (X_0_t.r - (X_b_p.mul (kPose (st t) b)).r) := by
      generalize X_b_p.mul (kPose (st t) b) = A
      unfold PT.inv PT.mul
      dsimp only
      rw [M3.transpose_transpose, M3.mulVec_sub]
      abel
    dsimp only
    unfold transformVelocityOf
    rw [MV.ext_iff, e2, MV.zero_ang, MV.zero_lin, rot_eq_zero (hX.mul (hrig t)), PT.ext_iff, sub_eq_zero,
      eq_comm (a := X_0_t.r)]
    refine and_congr_left fun _ => ?_
    exact hR.zero_iff.trans (mul_transpose_eq_one (hX.mul (hrig t)))
  · have d := rot_rate hv (FrameMoves.fixed X_0_t t)
      ((h.frame b (List.mem_of_getLast? hb)).carried hX) (fun _ => ht) (fun τ => hX.mul (hrig τ)) hh
    refine normRate_of d ?_
    dsimp only
    rw [MV.zero_ang, sub_zero, MV.sub_ang, V3.dot_sub]
    show _ = -2 * (_ - V3.dot _ (V3.cross _ _))
    rw [V3.dot_cross_self, sub_zero]
    rfl

/-- MultiRobotTransformTask. -/
theorem C77_multi_robot {mb2 : MultiBody ℝ} {st2 : ℝ → KState ℝ} {x2 : ℝ → ℕ → ℝ} {xd2 : ℕ → ℝ}
    (hv : RotVelOK rotVel) (b1 b2 : ℕ) (J1 J2 : Jac ℝ) {X1 X2 : PT ℝ} (hX1 : X1.Rigid) (hX2 : X2.Rigid)
    (res1 res2 : Mat ℝ) (h1 : Evolves mb st J1.path x xd t) (hb1 : J1.path.getLast? = some b1)
    (h2 : Evolves mb2 st2 J2.path x2 xd2 t) (hb2 : J2.path.getLast? = some b2)
    (hr1 : res1.rows = 6) (hc1 : res1.cols = mb.nrDof)
    (hr2 : res2.rows = 6) (hc2 : res2.cols = mb2.nrDof)
    (hh : LessThanHalfTurn (X2.mul (kPose (st2 t) b2)).E (X1.mul (kPose (st t) b1)).E) :
    ∃ o : ℝ → Out6 ℝ × Mat ℝ,
      (∀ τ, multiTransformUpdate (transformVelocityOf rotVel) mb mb2 (st τ) (st2 τ) b1 b2 J1 J2 X1 X2
        res1 res2 = .ok (o τ)) ∧
      ((o t).1.eval = 0 ↔ X1.mul (kPose (st t) b1) = X2.mul (kPose (st2 t) b2)) ∧
      NormRate (fun τ => (o τ).1.eval.ang) (fun τ => (o τ).1.speed.ang) t ∧
      HasD3 (fun τ => (o τ).1.eval.lin) (-(o t).1.speed.lin) t := by
  obtain ⟨o', o1, o2⟩ := C59_multi_robot (transformVelocityOf rotVel) (fun _ => rfl) b1 b2 J1 J2 X1 X2
    hX1 hX2 res1 res2 h1 hb1 h2 hb2 hr1 hc1 hr2 hc2
  choose R1 R2 g1 g2 g3 using fun τ => multi_exact (transformVelocityOf rotVel) b1 b2 J1 J2 X1 X2 res1 res2
    (h1.moves τ) hb1 (h2.moves τ) hb2 hr1 hc1 hr2 hc2 _ _ _ _ _ _ rfl rfl rfl rfl rfl rfl
  have eo := funext fun τ => Out.ok.inj ((o1 τ).symm.trans (g1 τ))
  have hrig1 := fun τ => (h1.moves τ).rigid b1 (List.mem_of_getLast? hb1)
  have hrig2 := fun τ => (h2.moves τ).rigid b2 (List.mem_of_getLast? hb2)
  have hR := hv _ (M3.IsRot.mul (hX2.mul (hrig2 t)) (M3.IsRot.transpose (hX1.mul (hrig1 t)))) hh
  subst eo
  refine ⟨_, g1, ?_, ?_, o2⟩
  · have e2 : ((X2.mul (kPose (st2 t) b2)).mul (X1.mul (kPose (st t) b1)).inv).r
        = (X1.mul (kPose (st t) b1)).E.mulVec
          ((X2.mul (kPose (st2 t) b2)).r - (X1.mul (kPose (st t) b1)).r) := by
      generalize X1.mul (kPose (st t) b1) = A
      generalize X2.mul (kPose (st2 t) b2) = B
      unfold PT.inv PT.mul
      dsimp only
      rw [M3.transpose_transpose, M3.mulVec_sub]
      abel
    dsimp only
    unfold transformVelocityOf
    rw [MV.ext_iff, e2, MV.zero_ang, MV.zero_lin, rot_eq_zero (hX1.mul (hrig1 t)), PT.ext_iff, sub_eq_zero,
      eq_comm (a := (X2.mul (kPose (st2 t) b2)).r)]
    refine and_congr_left fun _ => ?_
    exact hR.zero_iff.trans (mul_transpose_eq_one (hX1.mul (hrig1 t)))
  · have d := rot_rate hv ((h2.frame b2 (List.mem_of_getLast? hb2)).carried hX2)
      ((h1.frame b1 (List.mem_of_getLast? hb1)).carried hX1) (fun τ => hX2.mul (hrig2 τ))
      (fun τ => hX1.mul (hrig1 τ)) hh
    refine normRate_of d ?_
    have e3 : (((PT.ofRot ((X2.mul (kPose (st2 t) b2)).mul
        (X1.mul (kPose (st t) b1)).inv).E.transpose).mul X2).mulM (kVel (st2 t) b2)).ang
        = ((X2.mul (kPose (st2 t) b2)).E.mul (X1.mul (kPose (st t) b1)).E.transpose).transpose.mulVec
          (X2.mulM (kVel (st2 t) b2)).ang := by
      generalize kVel (st2 t) b2 = U
      generalize X1.mul (kPose (st t) b1) = A
      generalize X2.mul (kPose (st2 t) b2) = B
      unfold PT.mulM
      dsimp only
      rw [← M3.mul_mulVec]
      rfl
    dsimp only
    rw [MV.sub_ang, MV.sub_ang, e3, V3.dot_sub, V3.dot_sub, V3.dot_sub, M3.dot_mulVec, M3.transpose_transpose]
    have e4 : ((X2.mul (kPose (st2 t) b2)).E.mul (X1.mul (kPose (st t) b1)).E.transpose).mulVec
        (transformVelocityOf rotVel ((X2.mul (kPose (st2 t) b2)).mul (X1.mul (kPose (st t) b1)).inv)).ang
        = rotVel ((X2.mul (kPose (st2 t) b2)).E.mul (X1.mul (kPose (st t) b1)).E.transpose) :=
      hR.mulVec_self
    rw [e4]
    show _ = -2 * (_ - V3.dot _ (V3.cross _ _) - _)
    rw [V3.dot_cross_self, sub_zero]
    rfl

end

/-! ## C78 -/

theorem normSq_eq (a : V3 ℝ) : normSq a = a.dot a := by simp only [normSq, V3.dot]; ring

section
variable {X : ℝ → PT ℝ} {U : ℝ → MV ℝ} {ori : M3 ℝ} {rotVel : M3 ℝ → V3 ℝ} {k d : ℝ}

/-- In the coordinates of the frame. -/
theorem damped_frame (hv : RotVelOK rotVel) (ho : ori.IsRot) (hk : 0 < k) (hd : 0 < d)
    (rX : ∀ τ, (X τ).Rigid) (hX : ∀ t, 0 ≤ t → FrameMoves X (U t) t)
    (hU : ∀ t, 0 ≤ t → HasD3 (fun τ => (U τ).ang)
      (k • rotVel (ori.mul (X t).E.transpose) - d • (U t).ang) t) :
    RotDamped (fun τ => (ori.mul (X τ).E.transpose).cosAngle)
      (fun τ => (ori.mul (X τ).E.transpose).sinAxis) (fun τ => rotVel (ori.mul (X τ).E.transpose))
      (fun τ => (U τ).ang) k d := by
  have hR : ∀ τ, (ori.mul (X τ).E.transpose).IsRot := fun τ => ho.mul (M3.IsRot.transpose (rX τ))
  refine ⟨hk, hd, fun t => (hR t).cos_le, fun t => (hR t).le_cos, fun t ht => ?_,
    ⟨1, one_pos, fun t ht => ?_⟩, hU, fun t ht hc => ?_⟩
  · have := cosAngle_deriv (FrameMoves.fixed (⟨ori, 0⟩ : PT ℝ) t) (hX t ht)
    rwa [MV.zero_ang, sub_zero] at this
  · obtain ⟨D, D1, D2⟩ := sinAxis_deriv ori (hX t ht) (rX t) ho
    exact ⟨D, 0, D1, by simp [V3.dot], by simpa [V3.zero_cross, V3.dot] using D2⟩
  · have h := hv _ (hR t) (by unfold M3.cosAngle at hc; linarith)
    exact ⟨by rw [h.parts.2, h.angle], h.norm⟩

/-- In coordinates that do not turn. -/
theorem damped_fixed (hv : RotVelOK rotVel) (ho : ori.IsRot) (hk : 0 < k) (hd : 0 < d)
    (rX : ∀ τ, (X τ).Rigid) (hX : ∀ t, 0 ≤ t → FrameMoves X (U t) t) {C : M3 ℝ} (hC : C.IsRot)
    (hU : ∀ t, 0 ≤ t → HasD3 (fun τ => (C.mul (X τ).E.transpose).mulVec (U τ).ang)
      (k • (C.mul (X t).E.transpose).mulVec (rotVel (ori.mul (X t).E.transpose))
        - d • (C.mul (X t).E.transpose).mulVec (U t).ang) t) :
    RotDamped (fun τ => (ori.mul (X τ).E.transpose).cosAngle)
      (fun τ => (C.mul (X τ).E.transpose).mulVec (ori.mul (X τ).E.transpose).sinAxis)
      (fun τ => (C.mul (X τ).E.transpose).mulVec (rotVel (ori.mul (X τ).E.transpose)))
      (fun τ => (C.mul (X τ).E.transpose).mulVec (U τ).ang) k d := by
  have hR : ∀ τ, (ori.mul (X τ).E.transpose).IsRot := fun τ => ho.mul (M3.IsRot.transpose (rX τ))
  have hQ : ∀ τ, (C.mul (X τ).E.transpose).IsRot := fun τ => hC.mul (M3.IsRot.transpose (rX τ))
  refine ⟨hk, hd, fun t => (hR t).cos_le, fun t => (hR t).le_cos, fun t ht => ?_,
    ⟨1, one_pos, fun t ht => ?_⟩, hU, fun t ht hc => ?_⟩
  · have := cosAngle_deriv (FrameMoves.fixed (⟨ori, 0⟩ : PT ℝ) t) (hX t ht)
    rw [MV.zero_ang, sub_zero] at this
    rwa [rot_dot (hQ t)]
  · obtain ⟨D, D1, D2⟩ := sinAxis_deriv ori (hX t ht) (rX t) ho
    have hf := (FrameMoves.fixed (⟨C, 0⟩ : PT ℝ) t).mulVec ((hX t ht).transpose_mulVec D1)
    rw [MV.zero_ang, V3.zero_cross, sub_zero] at hf
    refine ⟨_, 0, hf.congr_fun fun τ => M3.mul_mulVec _ _ _, by simp [V3.dot], ?_⟩
    rw [V3.zero_cross, V3.zero_dot, add_zero]
    rw [rot_dot (hQ t), ← M3.mul_mulVec, rot_dot (hQ t), V3.add_dot]
    have : ((U t).ang.cross (ori.mul (X t).E.transpose).sinAxis).dot (U t).ang = 0 := by
      simp only [V3.dot, V3.cross]; ring
    rw [this, add_zero]
    exact D2
  · have h := hv _ (hR t) (by unfold M3.cosAngle at hc; linarith)
    refine ⟨?_, by rw [rot_dot (hQ t)]; exact h.norm⟩
    rw [h.parts.2, h.angle, M3.mulVec_smul]

/-- The difference of two orientations. -/
theorem gap_le {A B : M3 ℝ} (hA : A.IsRot) (hB : B.IsRot) :
    gap A B ≤ 2 * Real.arccos (B.mul A.transpose).cosAngle ^ 2 := by
  have hR : (B.mul A.transpose).IsRot := hB.mul hA.transpose
  have hc := Real.one_sub_sq_div_two_le_cos (x := Real.arccos (B.mul A.transpose).cosAngle)
  rw [Real.cos_arccos hR.le_cos hR.cos_le] at hc
  have e : gap A B = 4 * (1 - (B.mul A.transpose).cosAngle) := by
    obtain ⟨⟨a0, a1, a2, -, -, -⟩, -⟩ := hA
    obtain ⟨⟨b0, b1, b2, -, -, -⟩, -⟩ := hB
    simp only [V3.dot] at a0 a1 a2 b0 b1 b2
    simp only [gap, M3.cosAngle, M3.trace, M3.mul, M3.transpose, V3.dot]
    linarith
  linarith

theorem turnsTo_of {X : ℝ → M3 ℝ} {s e v : ℝ → V3 ℝ}
    (h : RotDamped (fun τ => (ori.mul (X τ).transpose).cosAngle) s e v k d)
    (ho : ori.IsRot) (rX : ∀ τ, (X τ).IsRot) (h0 : LessThanHalfTurn ori (X 0))
    (hE : k * normSq (e 0) + normSq (v 0) < k * Real.pi ^ 2) : TurnsTo X ori k e v := by
  have c0 : -1 < (ori.mul (X 0).transpose).cosAngle := by
    unfold LessThanHalfTurn at h0
    unfold M3.cosAngle
    linarith
  have E0 : RotDamped.energy (fun τ => (ori.mul (X τ).transpose).cosAngle) v k 0 < k * Real.pi ^ 2 := by
    unfold RotDamped.energy
    rw [← (h.vec 0 le_rfl c0).2, ← normSq_eq, ← normSq_eq]
    exact hE
  have hc := fun t (ht : 0 ≤ t) => h.stays E0 ht
  have hn : ∀ t, 0 ≤ t → normSq (e t) = Real.arccos (ori.mul (X t).transpose).cosAngle ^ 2 :=
    fun t ht => by rw [normSq_eq]; exact (h.vec t ht (hc t ht)).2
  have hen : ∀ t, 0 ≤ t → k * normSq (e t) + normSq (v t)
      = RotDamped.energy (fun τ => (ori.mul (X τ).transpose).cosAngle) v k t := fun t ht => by
    rw [hn t ht, normSq_eq]; rfl
  obtain ⟨C, r, hr, hdec⟩ := h.decay E0
  refine ⟨fun t ht => ⟨?_, ?_⟩, fun t1 t2 h1 h2 => ?_, 3 * C, r, hr, fun t ht => ?_⟩
  · have := hc t ht
    unfold M3.cosAngle at this
    unfold LessThanHalfTurn
    linarith
  · rw [hn t ht]
    refine pow_lt_pow_left₀ ?_ (Real.arccos_nonneg _) two_ne_zero
    rcases (Real.arccos_le_pi (ori.mul (X t).transpose).cosAngle).lt_or_eq with h' | h'
    · exact h'
    · exact absurd (Real.arccos_eq_pi.1 h') (by have := hc t ht; linarith)
  · rw [hen t1 h1, hen t2 (h1.trans h2)]
    exact h.energy_le E0 h1 h2
  · have a := hdec t ht
    have b := gap_le (rX t) ho
    have c := V3.normSq_nonneg (v t)
    rw [hn t ht, normSq_eq]
    linarith

end

section
variable {mb : MultiBody ℝ} {st : ℝ → KState ℝ} {x y : ℝ → ℕ → ℝ} {b0 : ℕ} {k : ℝ}
  {rotVel : M3 ℝ → V3 ℝ}

/-- The speed of a task of three rows, in the loop around a `SetPointTask`. -/
theorem loop_speed3 {o : ℝ → Out3 ℝ}
    (L : SetPointLoop 3 k b0 (fun t => (o t).hl) y)
    (hrows : ∀ t, (o t).jacMat.rows = 3) {t : ℝ} (ht : 0 ≤ t)
    (h1 : SpeedDrift3 o (fun c => y t (b0 + c)) t) :
    HasD3 (fun τ => (o τ).speed) (k • (o t).eval - (2 * Real.sqrt k) • (o t).speed) t := by
  have key : ∀ a < 3, HasDerivAt (fun τ => (o τ).speed.get a)
      (k * (o t).eval.get a - 2 * Real.sqrt k * (o t).speed.get a) t := fun a ha =>
    (h1 a ha).congr_deriv
      ((setpoint_key L (a := a) fun t => by simp [Out3.hl, hrows, ha]).2 t ht)
  exact ⟨key 0 (by norm_num), key 1 (by norm_num), key 2 (by norm_num)⟩

/-- A `SetPointTask` over an `OrientationTask`: the body turns to the target orientation. -/
theorem C78_orientation (hv : RotVelOK rotVel) (b : ℕ) (J : Jac ℝ) {ori : M3 ℝ} (ho : ori.IsRot)
    (res : Mat ℝ) (h : ∀ t, 0 ≤ t → Evolves mb st J.path x (fun c => y t (b0 + c)) t)
    (hb : J.path.getLast? = some b) (hr : res.rows = 3) (hc : res.cols = mb.nrDof) {o : ℝ → Out3 ℝ}
    (hu : ∀ t, orientationUpdate (rotationErrorOf rotVel) mb (st t) b J ori res = .ok (o t))
    (L : SetPointLoop 3 k b0 (fun t => (o t).hl) y) (hk : 0 < k)
    (h0 : LessThanHalfTurn ori (kPose (st 0) b).E)
    (hE : k * normSq (o 0).eval + normSq (o 0).speed < k * Real.pi ^ 2) :
    TurnsTo (fun t => (kPose (st t) b).E) ori k (fun t => (o t).eval) fun t => (o t).speed := by
  have mv := (h 0 le_rfl).moves
  have hrig := fun τ => (mv τ).rigid b (List.mem_of_getLast? hb)
  choose R g1 g2 using fun τ => ori_exact (rotationErrorOf rotVel) b J ori res (mv τ) hb hr hc
  have hrows : ∀ t, (o t).jacMat.rows = 3 := fun t => by
    obtain ⟨q, q1, q2, -⟩ := C51_orientation (rotationErrorOf rotVel) b J ori res (mv t) hb hr hc
    rw [Out.ok.inj ((hu t).symm.trans q1)]
    exact q2
  have he : ∀ t, (o t).eval = (M3.one.mul (kPose (st t) b).E.transpose).mulVec
      (rotVel (ori.mul (kPose (st t) b).E.transpose)) := fun t => by
    rw [Out.ok.inj ((hu t).symm.trans (g1 t)), M3.one_mul']
    rfl
  have hs : ∀ t, (o t).speed = (M3.one.mul (kPose (st t) b).E.transpose).mulVec
      (kVel (st t) b).ang := fun t => by
    rw [Out.ok.inj ((hu t).symm.trans (g1 t)), M3.one_mul']
    exact ori_speed _ _ _
  have d := damped_fixed (X := fun τ => kPose (st τ) b) (U := fun τ => kVel (st τ) b) hv ho hk
    (d := 2 * Real.sqrt k) (mul_pos two_pos (Real.sqrt_pos.2 hk)) hrig
    (fun t ht => (h t ht).frame b (List.mem_of_getLast? hb)) M3.isRot_one fun t ht => by
      obtain ⟨q, q1, q2⟩ := C58_orientation (rotationErrorOf rotVel) b J ori res (h t ht) hb hr hc
      have e : q = o := funext fun τ => Out.ok.inj ((q1 τ).symm.trans (hu τ))
      have := loop_speed3 L hrows ht (e ▸ q2)
      rw [he t, hs t] at this
      exact this.congr_fun fun τ => (hs τ).symm
  simp only [← he, ← hs] at d
  exact turnsTo_of d ho hrig h0 hE

/-- A `SetPointTask` over a `SurfaceOrientationTask`: the surface turns to the target orientation. -/
theorem C78_surface_orientation (hv : RotVelOK rotVel) (b : ℕ) (J : Jac ℝ) {ori : M3 ℝ}
    (ho : ori.IsRot) {X_b_s : PT ℝ} (hX : X_b_s.Rigid) (res : Mat ℝ)
    (h : ∀ t, 0 ≤ t → Evolves mb st J.path x (fun c => y t (b0 + c)) t)
    (hb : J.path.getLast? = some b) (hr : res.rows = 3) (hc : res.cols = mb.nrDof) {o : ℝ → Out3 ℝ}
    (hu : ∀ t, surfaceOriUpdate rotVel mb (st t) b J ori X_b_s res = .ok (o t))
    (L : SetPointLoop 3 k b0 (fun t => (o t).hl) y) (hk : 0 < k)
    (h0 : LessThanHalfTurn ori (X_b_s.E.mul (kPose (st 0) b).E))
    (hE : k * normSq (o 0).eval + normSq (o 0).speed < k * Real.pi ^ 2) :
    TurnsTo (fun t => X_b_s.E.mul (kPose (st t) b).E) ori k (fun t => (o t).eval)
      fun t => (o t).speed := by
  have mv := (h 0 le_rfl).moves
  have hrig := fun τ => (mv τ).rigid b (List.mem_of_getLast? hb)
  choose R g1 g2 using fun τ => surfOri_exact rotVel b J ori X_b_s res (mv τ) hb hr hc
  have hrows : ∀ t, (o t).jacMat.rows = 3 := fun t => by
    obtain ⟨q, q1, q2, -⟩ := C51_surface_orientation rotVel b J ori X_b_s res (mv t) hb hr hc
    rw [Out.ok.inj ((hu t).symm.trans q1)]
    exact q2
  have he : ∀ t, (o t).eval = rotVel (ori.mul (X_b_s.mul (kPose (st t) b)).E.transpose) := fun t => by
    rw [Out.ok.inj ((hu t).symm.trans (g1 t))]
    unfold PT.mul
    dsimp only
    rw [M3.transpose_mul, M3.mul_assoc']
  have hs : ∀ t, (o t).speed = (X_b_s.mulM (kVel (st t) b)).ang := fun t => by
    rw [Out.ok.inj ((hu t).symm.trans (g1 t))]
  have d := damped_frame (X := fun τ => X_b_s.mul (kPose (st τ) b))
    (U := fun τ => X_b_s.mulM (kVel (st τ) b)) hv ho hk
    (d := 2 * Real.sqrt k) (mul_pos two_pos (Real.sqrt_pos.2 hk)) (fun τ => hX.mul (hrig τ))
    (fun t ht => ((h t ht).frame b (List.mem_of_getLast? hb)).carried hX) fun t ht => by
      obtain ⟨q, q1, q2⟩ := C58_surface_orientation rotVel b J ori X_b_s hX res (h t ht) hb hr hc
      have e : q = o := funext fun τ => Out.ok.inj ((q1 τ).symm.trans (hu τ))
      have := loop_speed3 L hrows ht (e ▸ q2)
      rw [he t, hs t] at this
      exact this.congr_fun fun τ => (hs τ).symm
  simp only [← he, ← hs] at d
  exact turnsTo_of d ho (fun τ => hX.mul (hrig τ)) h0 hE

/-- What `SetPointTask` reads of a task with six rows. -/
def Out6.hl {K : Type} [Zero K] (o : Out6 K) : HL K :=
  ⟨o.jacMat, ⟨6, o.eval.get⟩, ⟨6, o.speed.get⟩, ⟨6, o.normalAcc.get⟩⟩

/-- A `SetPointTask` over a `TransformTask`: the frame turns to the target orientation and goes to the
target position. -/
theorem C78_transform (hv : RotVelOK rotVel) (b : ℕ) (J : Jac ℝ) {X_0_t X_b_p : PT ℝ} {E_0_c : M3 ℝ}
    (ht : X_0_t.Rigid) (hX : X_b_p.Rigid) (hC : E_0_c.IsRot) (res : Mat ℝ)
    (h : ∀ t, 0 ≤ t → Evolves mb st J.path x (fun c => y t (b0 + c)) t)
    (hb : J.path.getLast? = some b) (hr : res.rows = 6) (hc : res.cols = mb.nrDof) {o : ℝ → Out6 ℝ}
    (hu : ∀ t, transformUpdate (transformErrorOf rotVel) mb (st t) b J X_0_t X_b_p E_0_c res = .ok (o t))
    (L : SetPointLoop 6 k b0 (fun t => (o t).hl) y) (hk : 0 < k)
    (h0 : LessThanHalfTurn X_0_t.E (X_b_p.mul (kPose (st 0) b)).E)
    (hE : k * normSq (o 0).eval.ang + normSq (o 0).speed.ang < k * Real.pi ^ 2) :
    TurnsTo (fun t => (X_b_p.mul (kPose (st t) b)).E) X_0_t.E k (fun t => (o t).eval.ang)
        (fun t => (o t).speed.ang) ∧
      ∀ a < 3, (∀ t, 0 ≤ t → (o t).eval.lin.get a = critical (Real.sqrt k) ((o 0).eval.lin.get a)
          (-(o 0).speed.lin.get a) t) ∧
        Filter.Tendsto (fun t => (X_b_p.mul (kPose (st t) b)).r.get a) Filter.atTop
          (nhds (X_0_t.r.get a)) := by
  have mv := (h 0 le_rfl).moves
  have hrig := fun τ => (mv τ).rigid b (List.mem_of_getLast? hb)
  choose R g1 g2 using fun τ => transform_exact (transformErrorOf rotVel) b J X_0_t X_b_p E_0_c res
    (mv τ) hb hr hc _ rfl
  have hrows : ∀ t, (o t).jacMat.rows = 6 := fun t => by
    obtain ⟨q, q1, q2, -⟩ := C51_transform (transformErrorOf rotVel) b J X_0_t X_b_p E_0_c res (mv t) hb
      hr hc
    rw [Out.ok.inj ((hu t).symm.trans q1)]
    exact q2
  have he : ∀ t, (o t).eval.ang = (E_0_c.mul (X_b_p.mul (kPose (st t) b)).E.transpose).mulVec
      (rotVel (X_0_t.E.mul (X_b_p.mul (kPose (st t) b)).E.transpose)) := fun t => by
    rw [Out.ok.inj ((hu t).symm.trans (g1 t))]
    exact transformError_ang _ _ _
  have hel : ∀ t, (o t).eval.lin = E_0_c.mulVec (X_0_t.r - (X_b_p.mul (kPose (st t) b)).r) := fun t => by
    rw [Out.ok.inj ((hu t).symm.trans (g1 t)), ← transformError_lin (rotVel := rotVel) _ X_0_t
      (hX.mul (hrig t))]
    unfold PT.ofRot
    simp only [PT.mulM, V3.zero_cross, sub_zero]
  have hs : ∀ t, (o t).speed.ang = (E_0_c.mul (X_b_p.mul (kPose (st t) b)).E.transpose).mulVec
      (X_b_p.mulM (kVel (st t) b)).ang := fun t => by
    rw [Out.ok.inj ((hu t).symm.trans (g1 t))]
    unfold PT.mulM
    dsimp only
    rw [← M3.mul_mulVec]
    rfl
  have drift : ∀ t, 0 ≤ t → ∀ a < 6, HasDerivAt (fun τ => (o τ).speed.get a)
      (k * (o t).eval.get a - 2 * Real.sqrt k * (o t).speed.get a) t := fun t ht' a ha => by
    obtain ⟨q, q1, q2⟩ := C58_transform (transformErrorOf rotVel) b J X_0_t X_b_p E_0_c hX hC res
      (h t ht') hb hr hc
    have e : q = o := funext fun τ => Out.ok.inj ((q1 τ).symm.trans (hu τ))
    subst e
    exact (q2 a ha).congr_deriv
      ((setpoint_key L (a := a) fun t => by simp [Out6.hl, hrows, ha]).2 t ht')
  constructor
  · have d := damped_fixed (X := fun τ => X_b_p.mul (kPose (st τ) b))
      (U := fun τ => X_b_p.mulM (kVel (st τ) b)) hv (ori := X_0_t.E) ht hk
      (d := 2 * Real.sqrt k) (mul_pos two_pos (Real.sqrt_pos.2 hk)) (fun τ => hX.mul (hrig τ))
      (fun t ht' => ((h t ht').frame b (List.mem_of_getLast? hb)).carried hX) hC fun t ht' => by
        have key : HasD3 (fun τ => (o τ).speed.ang)
            (k • (o t).eval.ang - (2 * Real.sqrt k) • (o t).speed.ang) t :=
          ⟨drift t ht' 0 (by norm_num), drift t ht' 1 (by norm_num), drift t ht' 2 (by norm_num)⟩
        rw [he t, hs t] at key
        exact key.congr_fun fun τ => (hs τ).symm
    simp only [← he, ← hs] at d
    exact turnsTo_of d ht (fun τ => hX.mul (hrig τ)) h0 hE
  · have follows : ∀ a < 3, Follows (fun t => (o t).hl) b0 (3 + a) y := fun a ha => by
      refine ⟨fun t ht' => ?_, fun t ht' => ?_⟩
      · obtain ⟨q, q1, q2⟩ := C59_transform (transformErrorOf rotVel)
          (fun A B hA => transformError_lin A B hA) b J X_0_t X_b_p E_0_c hX res (h t ht') hb hr hc
        have e : q = o := funext fun τ => Out.ok.inj ((q1 τ).symm.trans (hu τ))
        subst e
        refine ((q2.get a).congr_deriv ?_).congr_of_eventuallyEq
          (Filter.Eventually.of_forall fun τ => MV.get_lin _ ha)
        show _ = 0 - MV.get _ _
        rw [MV.get_lin _ ha, zero_sub]
        match a, ha with
        | 0, _ => rfl
        | 1, _ => rfl
        | 2, _ => rfl
      · obtain ⟨q, q1, q2⟩ := C58_transform (transformErrorOf rotVel) b J X_0_t X_b_p E_0_c hX hC res
          (h t ht') hb hr hc
        have e : q = o := funext fun τ => Out.ok.inj ((q1 τ).symm.trans (hu τ))
        subst e
        exact q2 (3 + a) (by omega)
    have tend : ∀ a < 3, Filter.Tendsto (fun t => (o t).eval.lin.get a) Filter.atTop (nhds 0) :=
      fun a ha => by
        have := C62_converges L (a := 3 + a) (fun t => by simp [Out6.hl, hrows]; omega) (follows a ha) hk
        exact this.congr fun t => MV.get_lin _ ha
    refine fun a ha => ⟨fun t ht' => ?_, ?_⟩
    · have := C62_setpoint L (a := 3 + a) (fun t => by simp [Out6.hl, hrows]; omega) (follows a ha) ht'
      simp only [Out6.hl, MV.get_lin _ ha] at this
      exact this
    · have hp : ∀ t, (X_b_p.mul (kPose (st t) b)).r = X_0_t.r - E_0_c.transpose.mulVec (o t).eval.lin :=
        fun t => by rw [hel t, hC.1.transpose_mulVec]; abel
      have t0 : Filter.Tendsto (fun t => (o t).eval.lin.x) Filter.atTop (nhds 0) := tend 0 (by norm_num)
      have t1 : Filter.Tendsto (fun t => (o t).eval.lin.y) Filter.atTop (nhds 0) := tend 1 (by norm_num)
      have t2 : Filter.Tendsto (fun t => (o t).eval.lin.z) Filter.atTop (nhds 0) := tend 2 (by norm_num)
      have hl : ∀ c0 c1 c2 : ℝ, Filter.Tendsto (fun t => c0 * (o t).eval.lin.x + c1 * (o t).eval.lin.y
          + c2 * (o t).eval.lin.z) Filter.atTop (nhds 0) := fun c0 c1 c2 => by
        simpa using ((t0.const_mul c0).add (t1.const_mul c1)).add (t2.const_mul c2)
      simp only [hp]
      match a, ha with
      | 0, _ =>
        have h' := (hl E_0_c.r0.x E_0_c.r1.x E_0_c.r2.x).const_sub X_0_t.r.x
        rw [sub_zero] at h'
        exact h'
      | 1, _ =>
        have h' := (hl E_0_c.r0.y E_0_c.r1.y E_0_c.r2.y).const_sub X_0_t.r.y
        rw [sub_zero] at h'
        exact h'
      | 2, _ =>
        have h' := (hl E_0_c.r0.z E_0_c.r1.z E_0_c.r2.z).const_sub X_0_t.r.z
        rw [sub_zero] at h'
        exact h'

end

/-! ## A joint that turns -/

namespace RotEx
open ConvEx

/-- Turned about `z` by the angle `θ`. -/
noncomputable def rotZ (θ : ℝ) : M3 ℝ :=
  ⟨⟨Real.cos θ, Real.sin θ, 0⟩, ⟨-Real.sin θ, Real.cos θ, 0⟩, ⟨0, 0, 1⟩⟩

theorem rotZ_rot (θ : ℝ) : (rotZ θ).IsRot := by
  have h2 := Real.sin_sq_add_cos_sq θ
  simp only [rotZ, M3.IsRot, M3.RowsOrtho, V3.dot, V3.cross]
  refine ⟨⟨?_, ?_, ?_, ?_, ?_, ?_⟩, ?_⟩
  · nlinarith
  · nlinarith
  · ring
  · ring
  · ring
  · ring
  · ext <;> dsimp only
    · ring
    · ring
    · nlinarith

theorem rotZ_transpose (θ : ℝ) : (rotZ θ).transpose = rotZ (-θ) := by
  simp [rotZ, M3.transpose]

theorem rotZ_trace {θ : ℝ} (h : |θ| < Real.pi) : -1 < (rotZ θ).trace := by
  have h1 : Real.cos Real.pi < Real.cos |θ| :=
    Real.cos_lt_cos_of_nonneg_of_le_pi (abs_nonneg θ) le_rfl h
  rw [Real.cos_abs, Real.cos_pi] at h1
  simp only [M3.trace, rotZ]
  linarith

/-- The rotation vector of a rotation about `z`. -/
theorem rotZ_vec {θ : ℝ} (h : |θ| < Real.pi) : RotVec (rotZ θ) ⟨0, 0, θ⟩ := by
  have e : V3.dot ⟨0, 0, θ⟩ ⟨0, 0, θ⟩ = θ ^ 2 := by simp only [V3.dot]; ring
  refine ⟨by rw [e]; exact sq_lt_sq' (by have := abs_lt.1 h; linarith) (abs_lt.1 h).2, fun v => ?_⟩
  rw [e, Real.sqrt_sq_eq_abs, Real.cos_abs]
  rcases eq_or_ne θ 0 with rfl | hθ
  · ext <;> simp [rotZ, M3.mulVec, V3.dot]
  · have hs : Real.sinc |θ| * θ = Real.sin θ := by
      rw [Real.sinc_of_ne_zero (abs_ne_zero.2 hθ)]
      rcases abs_cases θ with ⟨a, -⟩ | ⟨a, -⟩
      · rw [a, div_mul_cancel₀ _ hθ]
      · rw [a, Real.sin_neg, neg_div_neg_eq, div_mul_cancel₀ _ hθ]
    have hc : (1 - Real.cos θ) / θ ^ 2 * (θ * v.z) * θ = (1 - Real.cos θ) * v.z := by
      field_simp
    ext
    · simp [rotZ, M3.mulVec, V3.dot, V3.cross]
      linear_combination (-v.y) * hs
    · simp [rotZ, M3.mulVec, V3.dot, V3.cross]
      linear_combination v.x * hs
    · simp [rotZ, M3.mulVec, V3.dot, V3.cross]
      linear_combination -hc

theorem sva_rotZ {θ : ℝ} (h : |θ| < Real.pi) : svaRotVel (rotZ θ) = ⟨0, 0, θ⟩ :=
  C77_unique (C77_formula _ (rotZ_rot θ) (rotZ_trace h)) (rotZ_vec h)

/-- A joint about `z` whose angle is `-(1 + τ) exp (-τ)`: from rest at `-1` to `0`. -/
noncomputable def st (τ : ℝ) : KState ℝ :=
  ⟨[⟨rotZ (q τ), 0⟩], [⟨⟨0, 0, v τ⟩, 0⟩], [[⟨⟨0, 0, 1⟩, 0⟩]], [[v τ]], [0]⟩

theorem evolves (t : ℝ) : Evolves mb st [0] (fun τ _ => v τ) (fun _ => acc t) t := by
  have hc := (Real.hasDerivAt_cos (q t)).comp t (q_deriv t)
  have hs := (Real.hasDerivAt_sin (q t)).comp t (q_deriv t)
  refine ⟨fun τ => ⟨⟨by simp, by simp, by simp [mb], by simp [st], by simp [st], by simp [st], ?_⟩,
    ?_, ?_⟩, fun τ i _ d => rfl, fun c => v_deriv t, ?_, ?_⟩
  · simp [st, mb, jdof]
  · intro i hi
    simp at hi
    subst hi
    exact rotZ_rot _
  · refine ⟨?_, trivial⟩
    ext <;> simp [kVel, kSub, st, mb, jdof, jpos]
  · intro i hi
    simp at hi
    subst hi
    refine ⟨fun w => ⟨?_, ?_, ?_⟩, ?_⟩
    · refine (((hc.mul_const w.x).add (hs.mul_const w.y)).congr_deriv ?_).congr_of_eventuallyEq ?_
      · simp [kVel, kPose, st, rotZ, M3.mulVec, V3.dot]; ring
      · exact Filter.Eventually.of_forall fun τ => by simp [kPose, st, rotZ, M3.mulVec, V3.dot]
    · refine ((((hs.neg).mul_const w.x).add (hc.mul_const w.y)).congr_deriv ?_).congr_of_eventuallyEq ?_
      · simp [kVel, kPose, st, rotZ, M3.mulVec, V3.dot]; ring
      · exact Filter.Eventually.of_forall fun τ => by simp [kPose, st, rotZ, M3.mulVec, V3.dot]
    · refine ((hasDerivAt_const t w.z).congr_deriv ?_).congr_of_eventuallyEq ?_
      · simp [kVel, kPose, st, rotZ, M3.mulVec, V3.dot]
      · exact Filter.Eventually.of_forall fun τ => by simp [kPose, st, rotZ, M3.mulVec, V3.dot]
    · refine ((HasD3.const 0 t).congr_fun fun τ => rfl).congr_deriv ?_
      ext <;> simp [kVel, kPose, st, rotZ, M3.mulVec, V3.dot]
  · refine ⟨?_, trivial⟩
    ext <;> simp [kVel, kSub, kAcc, st, mb, jdof, jpos, MV.cross]

/-- The angle stays below one radian. -/
theorem q_lt {t : ℝ} (ht : 0 ≤ t) : |q t| < Real.pi := by
  have h1 : (1 + t) * Real.exp (-t) ≤ 1 := by
    have := mul_le_mul_of_nonneg_right (Real.add_one_le_exp t) (Real.exp_pos (-t)).le
    rw [← Real.exp_add, add_neg_cancel, Real.exp_zero] at this
    linarith
  have h0 : 0 ≤ (1 + t) * Real.exp (-t) := by positivity
  unfold q
  rw [abs_neg, abs_of_nonneg h0]
  linarith [Real.two_le_pi]

theorem half {t : ℝ} (ht : 0 ≤ t) : LessThanHalfTurn M3.one (kPose (st t) 0).E := by
  show -1 < (M3.one.mul (rotZ (q t)).transpose).trace
  rw [M3.one_mul', rotZ_transpose]
  exact rotZ_trace (by rw [abs_neg]; exact q_lt ht)

theorem half' {t : ℝ} (ht : 0 ≤ t) : LessThanHalfTurn M3.one (M3.one.mul (kPose (st t) 0).E) := by
  rw [M3.one_mul']
  exact half ht

/-- C77 on this motion, with the formula of SpaceVecAlg. -/
example : ∃ o : ℝ → Out3 ℝ, (∀ τ, orientationUpdate (rotationErrorOf svaRotVel) mb (st τ) 0 ⟨[0], 0⟩ M3.one
      ⟨3, 1, fun _ _ => 7⟩ = .ok (o τ)) ∧
    ((o 1).eval = 0 ↔ (kPose (st 1) 0).E = M3.one) ∧
    NormRate (fun τ => (o τ).eval) (fun τ => (o τ).speed) 1 :=
  C77_orientation C77_formula 0 ⟨[0], 0⟩ M3.isRot_one _ (evolves 1) rfl rfl rfl (half zero_le_one)

example : ∃ o : ℝ → Out6 ℝ, (∀ τ, transformUpdate (transformErrorOf svaRotVel) mb (st τ) 0 ⟨[0], 0⟩ PT.one
      PT.one M3.one ⟨6, 1, fun _ _ => 7⟩ = .ok (o τ)) ∧
    ((o 1).eval = 0 ↔ PT.one.mul (kPose (st 1) 0) = PT.one) ∧
    NormRate (fun τ => (o τ).eval.ang) (fun τ => (o τ).speed.ang) 1 ∧
    HasD3 (fun τ => (o τ).eval.lin) (-(o 1).speed.lin) 1 :=
  C77_transform C77_formula 0 ⟨[0], 0⟩ (X_0_t := PT.one) (X_b_p := PT.one) M3.isRot_one M3.isRot_one
    M3.isRot_one _ (evolves 1) rfl rfl rfl (half' zero_le_one)

/-- The update of the orientation task. -/
theorem update (τ : ℝ) : ∃ (e : V3 ℝ) (R : Mat ℝ), orientationUpdate (rotationErrorOf svaRotVel) mb (st τ) 0
      ⟨[0], 0⟩ M3.one ⟨3, 1, fun _ _ => 7⟩ = .ok ⟨e, ⟨0, 0, v τ⟩, 0, R⟩ ∧ R.rows = 3 ∧
    (0 ≤ τ → e = ⟨0, 0, -q τ⟩) ∧ ∀ z, R.rowMul 0 z = 0 ∧ R.rowMul 1 z = 0 ∧ R.rowMul 2 z = z 0 := by
  obtain ⟨R, h1, h2⟩ := ori_exact (rotationErrorOf svaRotVel) 0 ⟨[0], 0⟩ M3.one ⟨3, 1, fun _ _ => 7⟩
    ((evolves 0).moves τ) rfl rfl rfl
  obtain ⟨o, h3, h4, -⟩ := C51_orientation (rotationErrorOf svaRotVel) 0 ⟨[0], 0⟩ M3.one
    ⟨3, 1, fun _ _ => 7⟩ ((evolves 0).moves τ) rfl rfl rfl
  have e := Out.ok.inj (h3.symm.trans h1)
  refine ⟨rotationErrorOf svaRotVel (kPose (st τ) 0).E M3.one, R, h1.trans ?_, by rw [e] at h4; exact h4, fun ht => ?_, fun z => ⟨?_, ?_, ?_⟩⟩
  · congr 2
    · ext <;> simp [kPose, kVel, st, rotZ, PT.mul, PT.mulM, PT.ofTrans, PT.ofRot,
        M3.transpose, M3.one, M3.mul, M3.mulVec, V3.dot]
    · ext <;> simp [kPose, kVel, kAcc, st, rotZ, PT.mul, PT.mulM, PT.ofTrans, PT.ofRot,
        M3.transpose, M3.one, M3.mul, M3.mulVec, V3.dot, MV.cross]
  · show rotationErrorOf svaRotVel (rotZ (q τ)) M3.one = _
    unfold rotationErrorOf
    rw [M3.one_mul', rotZ_transpose, sva_rotZ (by rw [abs_neg]; exact q_lt ht)]
    ext <;> simp [rotZ, M3.mulVec, V3.dot]
  all_goals
    rw [h2 z _ (by norm_num)]
    simp [wSum, pathSum, kPose, kSub, st, rotZ, mb, jdof, jpos, PT.mul, PT.mulM, PT.ofTrans, PT.inv,
      M3.transpose, M3.one, M3.mul, M3.mulVec, V3.dot, V3.get]

/-- The kinetic and potential energy at the start. -/
theorem start : 1 * normSq ⟨0, 0, 1⟩ + normSq ⟨0, 0, v 0⟩ < 1 * Real.pi ^ 2 := by
  have h := Real.two_le_pi
  have e : 1 * normSq ⟨0, 0, 1⟩ + normSq ⟨0, 0, v 0⟩ = 1 := by simp [normSq, v]
  rw [e]
  nlinarith

/-- The loop of stiffness 1. -/
theorem loop3 {e : ℝ → V3 ℝ} {R : ℝ → Mat ℝ} (hR : ∀ t, (R t).rows = 3)
    (he : ∀ t, 0 ≤ t → e t = ⟨0, 0, -q t⟩)
    (h2 : ∀ t z, (R t).rowMul 0 z = 0 ∧ (R t).rowMul 1 z = 0 ∧ (R t).rowMul 2 z = z 0) :
    SetPointLoop 3 1 0 (fun t => Out3.hl ⟨e t, ⟨0, 0, v t⟩, 0, R t⟩) fun t _ => acc t := by
  refine MomEx.loop_of (fun t => ⟨rfl, rfl, rfl, hR t⟩) fun t ht i hi => ?_
  have hi' : i < 3 := by
    have : i < (R t).rows := hi
    rwa [hR] at this
  have er : rowAt (R t) 0 (fun _ => acc t) i = (R t).rowMul i fun _ => acc t := by
    simp [rowAt, Mat.rowMul]
  obtain ⟨a0, a1, a2⟩ := h2 t fun _ => acc t
  show rowAt (R t) 0 (fun _ => acc t) i + V3.get 0 i = _
  rw [er]
  match i, hi' with
  | 0, _ => rw [a0]; simp [Out3.hl, V3.get, he t ht]
  | 1, _ => rw [a1]; simp [Out3.hl, V3.get, he t ht]
  | 2, _ => rw [a2]; simp [Out3.hl, V3.get, he t ht, q, v, acc]; ring

/-- The loop of stiffness 1 produces this motion; the theorem says that the joint reaches the target
orientation. -/
example : ∃ o : ℝ → Out3 ℝ, (∀ t, orientationUpdate (rotationErrorOf svaRotVel) mb (st t) 0 ⟨[0], 0⟩
      M3.one ⟨3, 1, fun _ _ => 7⟩ = .ok (o t)) ∧
    SetPointLoop 3 1 0 (fun t => (o t).hl) (fun t _ => acc t) ∧ (o 0).eval = ⟨0, 0, 1⟩ ∧
    TurnsTo (fun t => (kPose (st t) 0).E) M3.one 1 (fun t => (o t).eval) fun t => (o t).speed := by
  choose e R h1 hR he h2 using update
  have e0 : e 0 = ⟨0, 0, 1⟩ := by rw [he 0 le_rfl]; simp [q]
  have L := loop3 hR he h2
  refine ⟨_, h1, L, e0, ?_⟩
  refine C78_orientation (b0 := 0) (x := fun τ _ => v τ) (y := fun t _ => acc t) C77_formula 0 ⟨[0], 0⟩
    M3.isRot_one _ (fun t _ => evolves t) rfl rfl rfl h1 L one_pos (half le_rfl) ?_
  show 1 * normSq (e 0) + normSq ⟨0, 0, v 0⟩ < 1 * Real.pi ^ 2
  rw [e0]
  exact start

/-- C77 for the other tasks. -/
example : ∃ o : ℝ → Out3 ℝ, (∀ τ, surfaceOriUpdate svaRotVel mb (st τ) 0 ⟨[0], 0⟩ M3.one PT.one
      ⟨3, 1, fun _ _ => 7⟩ = .ok (o τ)) ∧
    ((o 1).eval = 0 ↔ M3.one.mul (kPose (st 1) 0).E = M3.one) ∧
    NormRate (fun τ => (o τ).eval) (fun τ => (o τ).speed) 1 :=
  C77_surface_orientation C77_formula 0 ⟨[0], 0⟩ M3.isRot_one (X_b_s := PT.one) M3.isRot_one _ (evolves 1)
    rfl rfl rfl (half' zero_le_one)

example : ∃ o : ℝ → Out6 ℝ, (∀ τ, surfaceUpdate (transformVelocityOf svaRotVel) mb (st τ) 0 ⟨[0], 0⟩ PT.one
      PT.one ⟨6, 1, fun _ _ => 7⟩ = .ok (o τ)) ∧
    ((o 1).eval = 0 ↔ PT.one.mul (kPose (st 1) 0) = PT.one) ∧
    NormRate (fun τ => (o τ).eval.ang) (fun τ => (o τ).speed.ang) 1 ∧
    HasD3 (fun τ => (o τ).eval.lin) (-(o 1).speed.lin) 1 :=
  C77_surface_transform C77_formula 0 ⟨[0], 0⟩ (X_0_t := PT.one) (X_b_p := PT.one) M3.isRot_one M3.isRot_one
    _ (evolves 1) rfl rfl rfl (half' zero_le_one)

/-- Two robots: this joint and the one of `DriftEx` at time 0. -/
example : ∃ o : ℝ → Out6 ℝ × Mat ℝ, (∀ τ, multiTransformUpdate (transformVelocityOf svaRotVel) mb DriftEx.mb
      (st τ) (DriftEx.st τ) 0 0 ⟨[0], 0⟩ ⟨[0], 0⟩ PT.one PT.one ⟨6, 1, fun _ _ => 7⟩ ⟨6, 1, fun _ _ => 7⟩
        = .ok (o τ)) ∧
    ((o 0).1.eval = 0 ↔ PT.one.mul (kPose (st 0) 0) = PT.one.mul (kPose (DriftEx.st 0) 0)) ∧
    NormRate (fun τ => (o τ).1.eval.ang) (fun τ => (o τ).1.speed.ang) 0 ∧
    HasD3 (fun τ => (o τ).1.eval.lin) (-(o 0).1.speed.lin) 0 := by
  refine C77_multi_robot C77_formula 0 0 ⟨[0], 0⟩ ⟨[0], 0⟩ (X1 := PT.one) (X2 := PT.one) M3.isRot_one
    M3.isRot_one _ _ (evolves 0) rfl (DriftEx.evolves 0) rfl rfl rfl rfl rfl ?_
  have e : (kPose (DriftEx.st 0) 0).E = M3.one := by
    simp [kPose, DriftEx.st, DriftEx.pose, DriftEx.ang, M3.one]
  show LessThanHalfTurn (M3.one.mul (kPose (DriftEx.st 0) 0).E) _
  rw [e, M3.one_mul']
  exact half' le_rfl

theorem transform_update (τ : ℝ) : ∃ (e : V3 ℝ) (R : Mat ℝ), transformUpdate (transformErrorOf svaRotVel) mb
      (st τ) 0 ⟨[0], 0⟩ PT.one PT.one M3.one ⟨6, 1, fun _ _ => 7⟩ = .ok ⟨⟨e, 0⟩, ⟨⟨0, 0, v τ⟩, 0⟩, 0, R⟩ ∧
    R.rows = 6 ∧ (0 ≤ τ → e = ⟨0, 0, -q τ⟩) ∧
    ∀ z, ∀ a < 6, R.rowMul a z = (⟨⟨0, 0, z 0⟩, 0⟩ : MV ℝ).get a := by
  obtain ⟨R, h1, h2⟩ := transform_exact (transformErrorOf svaRotVel) 0 ⟨[0], 0⟩ PT.one PT.one M3.one
    ⟨6, 1, fun _ _ => 7⟩ ((evolves 0).moves τ) rfl rfl rfl _ rfl
  obtain ⟨o, h3, h4, -⟩ := C51_transform (transformErrorOf svaRotVel) 0 ⟨[0], 0⟩ PT.one PT.one M3.one
    ⟨6, 1, fun _ _ => 7⟩ ((evolves 0).moves τ) rfl rfl rfl
  have e := Out.ok.inj (h3.symm.trans h1)
  have hsc := Real.sin_sq_add_cos_sq (q τ)
  refine ⟨((PT.ofRot M3.one).mulM (transformErrorOf svaRotVel (PT.one.mul (kPose (st τ) 0)) PT.one)).ang, R,
    h1.trans ?_, by rw [e] at h4; exact h4, ?_, fun z a ha => ?_⟩
  · congr 2
    · ext <;> simp [transformErrorOf, transformVelocityOf, kPose, st, PT.mul, PT.mulM, PT.one, PT.ofRot, PT.inv,
        M3.one, M3.mul, M3.mulVec, V3.dot]
    · ext <;> simp [kPose, kVel, st, rotZ, PT.mul, PT.mulM, PT.one, PT.ofRot,
        M3.transpose, M3.one, M3.mul, M3.mulVec, V3.dot]
    · ext <;> simp [kPose, kVel, kAcc, st, rotZ, PT.mul, PT.mulM, PT.one, PT.ofRot,
        M3.transpose, M3.one, M3.mul, M3.mulVec, V3.dot, MV.cross]
  · intro ht
    rw [transformError_ang, M3.one_mul']
    show (M3.one.mul (rotZ (q τ))).transpose.mulVec
      (svaRotVel (M3.one.mul (M3.one.mul (rotZ (q τ))).transpose)) = _
    rw [M3.one_mul', M3.one_mul', rotZ_transpose, sva_rotZ (by rw [abs_neg]; exact q_lt ht)]
    ext <;> simp [rotZ, M3.mulVec, V3.dot]
  · rw [h2 z a ha]
    congr 1
    ext <;> simp [wSum, pathSum, kPose, kSub, st, rotZ, mb, jdof, jpos, PT.mul, PT.mulM, PT.ofRot, PT.one, PT.inv,
      M3.transpose, M3.one, M3.mul, M3.mulVec, V3.dot]

/-- The same loop around a `TransformTask`. -/
example : ∃ o : ℝ → Out6 ℝ, (∀ t, transformUpdate (transformErrorOf svaRotVel) mb (st t) 0 ⟨[0], 0⟩
      PT.one PT.one M3.one ⟨6, 1, fun _ _ => 7⟩ = .ok (o t)) ∧
    SetPointLoop 6 1 0 (fun t => (o t).hl) (fun t _ => acc t) ∧ (o 0).eval.ang = ⟨0, 0, 1⟩ ∧
    TurnsTo (fun t => (PT.one.mul (kPose (st t) 0)).E) M3.one 1 (fun t => (o t).eval.ang)
      fun t => (o t).speed.ang := by
  choose e R h1 hR he h2 using transform_update
  have e0 : e 0 = ⟨0, 0, 1⟩ := by rw [he 0 le_rfl]; simp [q]
  have L := MomEx.loop_of (n := 6) (hl := fun t => Out6.hl ⟨⟨e t, 0⟩, ⟨⟨0, 0, v t⟩, 0⟩, 0, R t⟩) (y := acc)
    (fun t => ⟨rfl, rfl, rfl, hR t⟩) (by
      intro t ht i hi
      have hi' : i < 6 := by
        have : i < (R t).rows := hi
        rwa [hR] at this
      have er : rowAt (R t) 0 (fun _ => acc t) i = (R t).rowMul i fun _ => acc t := by
        simp [rowAt, Mat.rowMul]
      show rowAt (R t) 0 (fun _ => acc t) i + MV.get 0 i
        = 1 * MV.get ⟨e t, 0⟩ i - 2 * Real.sqrt 1 * MV.get ⟨⟨0, 0, v t⟩, 0⟩ i
      rw [er, h2 t _ i hi', he t ht]
      interval_cases i <;> simp [MV.get, V3.get, q, v, acc]
      ring)
  refine ⟨_, h1, L, e0, ?_⟩
  refine (C78_transform (b0 := 0) (x := fun τ _ => v τ) (y := fun t _ => acc t) C77_formula 0 ⟨[0], 0⟩
    (X_0_t := PT.one) (X_b_p := PT.one) M3.isRot_one M3.isRot_one M3.isRot_one _ (fun t _ => evolves t) rfl
    rfl rfl h1 L one_pos (half' le_rfl) ?_).1
  show 1 * normSq (e 0) + normSq ⟨0, 0, v 0⟩ < 1 * Real.pi ^ 2
  rw [e0]
  exact start

theorem surface_update (τ : ℝ) : ∃ (e : V3 ℝ) (R : Mat ℝ), surfaceOriUpdate svaRotVel mb (st τ) 0
      ⟨[0], 0⟩ M3.one PT.one ⟨3, 1, fun _ _ => 7⟩ = .ok ⟨e, ⟨0, 0, v τ⟩, 0, R⟩ ∧ R.rows = 3 ∧
    (0 ≤ τ → e = ⟨0, 0, -q τ⟩) ∧ ∀ z, R.rowMul 0 z = 0 ∧ R.rowMul 1 z = 0 ∧ R.rowMul 2 z = z 0 := by
  obtain ⟨R, h1, h2⟩ := surfOri_exact svaRotVel 0 ⟨[0], 0⟩ M3.one PT.one ⟨3, 1, fun _ _ => 7⟩
    ((evolves 0).moves τ) rfl rfl rfl
  obtain ⟨o, h3, h4, -⟩ := C51_surface_orientation svaRotVel 0 ⟨[0], 0⟩ M3.one PT.one
    ⟨3, 1, fun _ _ => 7⟩ ((evolves 0).moves τ) rfl rfl rfl
  have e := Out.ok.inj (h3.symm.trans h1)
  have hsc := Real.sin_sq_add_cos_sq (q τ)
  refine ⟨svaRotVel ((M3.one.mul (kPose (st τ) 0).E.transpose).mul M3.one.transpose), R, h1.trans ?_,
    by rw [e] at h4; exact h4, fun ht => ?_, fun z => ⟨?_, ?_, ?_⟩⟩
  · congr 2
    · ext <;> simp [kVel, st, PT.mulM, PT.one, M3.one, M3.mulVec, V3.dot]
    · ext <;> simp [kVel, kAcc, st, PT.mulM, PT.one, M3.one, M3.mulVec, V3.dot, MV.cross]
  · show svaRotVel ((M3.one.mul (rotZ (q τ)).transpose).mul M3.one.transpose) = _
    rw [M3.one_mul', show (M3.one : M3 ℝ).transpose = M3.one from rfl, M3.mul_one', rotZ_transpose,
      sva_rotZ (by rw [abs_neg]; exact q_lt ht)]
  all_goals
    rw [h2 z _ (by norm_num)]
    simp [wSum, pathSum, kPose, kSub, st, rotZ, mb, jdof, jpos, PT.mul, PT.mulM, PT.one, PT.inv,
      M3.transpose, M3.one, M3.mul, M3.mulVec, V3.dot, V3.get]

/-- The same loop around a `SurfaceOrientationTask`. -/
example : ∃ o : ℝ → Out3 ℝ, (∀ t, surfaceOriUpdate svaRotVel mb (st t) 0 ⟨[0], 0⟩ M3.one PT.one
      ⟨3, 1, fun _ _ => 7⟩ = .ok (o t)) ∧
    SetPointLoop 3 1 0 (fun t => (o t).hl) (fun t _ => acc t) ∧ (o 0).eval = ⟨0, 0, 1⟩ ∧
    TurnsTo (fun t => M3.one.mul (kPose (st t) 0).E) M3.one 1 (fun t => (o t).eval)
      fun t => (o t).speed := by
  choose e R h1 hR he h2 using surface_update
  have e0 : e 0 = ⟨0, 0, 1⟩ := by rw [he 0 le_rfl]; simp [q]
  have L := loop3 hR he h2
  refine ⟨_, h1, L, e0, ?_⟩
  refine C78_surface_orientation (b0 := 0) (x := fun τ _ => v τ) (y := fun t _ => acc t) C77_formula 0
    ⟨[0], 0⟩ M3.isRot_one (X_b_s := PT.one) M3.isRot_one _ (fun t _ => evolves t) rfl rfl rfl h1 L one_pos
    (half' le_rfl) ?_
  show 1 * normSq (e 0) + normSq ⟨0, 0, v 0⟩ < 1 * Real.pi ^ 2
  rw [e0]
  exact start

end RotEx
end Verif
