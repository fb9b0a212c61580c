import Verif.Proofs.Drift
import Mathlib.Analysis.SpecialFunctions.Trigonometric.Deriv
import Mathlib.Analysis.Calculus.Deriv.Pow

/-!
# C58, C59: the derivatives the tasks report

C58: along every motion of the robot the time derivative of the reported speed is
`jac * alphaD + normalAcc`: the normal acceleration is the part of the acceleration of the task the
joint accelerations do not control.

C59: the time derivative of the reported error is minus the reported speed.

The motion is any differentiable motion of the joints (`Spec.Evolves`), over the reals.
-/

set_option autoImplicit false
set_option linter.unusedSectionVars false

namespace Verif

open Finset Spec

namespace Spec

/-- `d speed / dt = jac * xd + normalAcc` at time `t`, for results with three entries. -/
def SpeedDrift3 (o : ℝ → Out3 ℝ) (xd : ℕ → ℝ) (t : ℝ) : Prop :=
  ∀ a < 3, HasDerivAt (fun τ => (o τ).speed.get a)
    ((o t).jacMat.rowMul a xd + (o t).normalAcc.get a) t

end Spec

/-! ## Frames of the tasks -/

section
variable {mb : MultiBody ℝ} {st : ℝ → KState ℝ} {path : List ℕ} {x : ℝ → ℕ → ℝ} {xd : ℕ → ℝ} {t : ℝ}

/-- Velocity of a point of the body, in the orientation of the world. -/
theorem world_point (h : Evolves mb st path x xd t) {N : ℕ} (hN : path.getLast? = some N)
    (p : V3 ℝ) :
    HasD3 (fun τ => ((PT.ofTrans p).mul (kPose (st τ) N)).r)
      (((PT.ofRot (kPose (st t) N).E.transpose).mul (PT.ofTrans p)).mulM (kVel (st t) N)).lin t := by
  refine ((h.frame N (List.mem_of_getLast? hN)).origin p).congr_deriv ?_
  unfold PT.mulM PT.mul PT.ofRot PT.ofTrans
  dsimp only
  rw [M3.mul_one', M3.transpose_one, M3.mulVec_zero, add_zero]

/-- Acceleration of a point of the body, in the orientation of the world. -/
theorem world_point_acc (h : Evolves mb st path x xd t) {N : ℕ} (hN : path.getLast? = some N)
    (p : V3 ℝ) :
    HasDM (fun τ => ((PT.ofRot (kPose (st τ) N).E.transpose).mul (PT.ofTrans p)).mulM (kVel (st τ) N))
      ((PT.ofTrans ((PT.ofTrans p).mul (kPose (st t) N)).r).mulM (wSum mb (st t) path xd)
        + (((PT.ofRot (kPose (st t) N).E.transpose).mul (PT.ofTrans p)).mulM (kAcc (st t) N)
          + MV.cross ⟨(kPose (st t) N).E.transpose.mulVec (kVel (st t) N).ang, 0⟩
            (((PT.ofRot (kPose (st t) N).E.transpose).mul (PT.ofTrans p)).mulM (kVel (st t) N)))) t := by
  have hrig := fun τ => (h.moves τ).rigid N (List.mem_of_getLast? hN)
  have hm := (FrameMoves.fixed (PT.one : PT ℝ) t).mix M3.isRot_one (world_point h hN p)
  refine (frame_acc h hN (fun τ => world_frame (kPose (st τ) N) (hrig τ) p) hm
    M3.isRot_one).congr_deriv ?_
  generalize (PT.ofTrans ((PT.ofTrans p).mul (kPose (st t) N)).r).mulM (wSum mb (st t) path xd) = A
  have e : (((PT.ofRot (kPose (st t) N).E.transpose).mul (PT.ofTrans p)).mulM (kVel (st t) N)).ang
      = (kPose (st t) N).E.transpose.mulVec (kVel (st t) N).ang := by
    unfold PT.mulM PT.mul PT.ofRot PT.ofTrans
    dsimp only
    rw [M3.mul_one']
  rw [← e, add_sub_assoc]
  congr 1
  show _ - MV.cross ⟨0, M3.mulVec M3.one _⟩ _ = _
  rw [M3.one_mulVec]
  generalize ((PT.ofRot (kPose (st t) N).E.transpose).mul (PT.ofTrans p)).mulM (kVel (st t) N) = V
  ext <;> simp [MV.cross] <;> ring

/-- Acceleration in a frame carried by the body. -/
theorem body_acc (h : Evolves mb st path x xd t) {N : ℕ} (hN : path.getLast? = some N)
    {Y : PT ℝ} (hY : Y.Rigid) :
    HasDM (fun τ => Y.mulM (kVel (st τ) N))
      ((Y.mul (kPose (st t) N)).mulM (wSum mb (st t) path xd) + Y.mulM (kAcc (st t) N)) t := by
  refine (frame_acc h hN (Y := fun _ => Y) (fun τ => rfl)
    ((h.frame N (List.mem_of_getLast? hN)).carried hY)
    (hY.mul ((h.moves t).rigid N (List.mem_of_getLast? hN)))).congr_deriv ?_
  rw [MV.cross_self, sub_zero]

/-- The frame of a transform task: orientation of `C`, origin of the controlled frame. -/
theorem fixed_ori_frame {X : PT ℝ} (hX : X.Rigid) {P : PT ℝ} (hP : P.Rigid) {C : M3 ℝ} :
    ((PT.ofRot (C.mul (P.mul X).E.transpose)).mul P).mul X = ⟨C, (P.mul X).r⟩ := by
  rw [PT.mul_assoc']
  have hr := PT.Rigid.mul hP hX
  generalize P.mul X = Z at *
  unfold PT.mul PT.ofRot
  dsimp only
  rw [M3.mul_assoc', hr.1.transpose_mul_self, M3.mul_one', M3.mulVec_zero, add_zero]

/-- Origin of a frame carried by the body. -/
theorem carried_origin (h : Evolves mb st path x xd t) {N : ℕ} (hN : path.getLast? = some N)
    (Y : PT ℝ) :
    HasD3 (fun τ => (Y.mul (kPose (st τ) N)).r)
      ((kPose (st t) N).E.transpose.mulVec ((kVel (st t) N).lin - Y.r.cross (kVel (st t) N).ang)) t :=
  (h.frame N (List.mem_of_getLast? hN)).origin Y.r

end

/-! ## Tasks with three rows -/

section
variable {mb : MultiBody ℝ} {st : ℝ → KState ℝ} {x : ℝ → ℕ → ℝ} {xd : ℕ → ℝ} {t : ℝ}

/-- PositionTask. -/
theorem C58_position (s : PositionT ℝ) (h : Evolves mb st s.jac.path x xd t)
    (hb : s.jac.path.getLast? = some s.bodyIndex)
    (hr : s.out.jacMat.rows = 3) (hc : s.out.jacMat.cols = mb.nrDof) :
    ∃ s' : ℝ → PositionT ℝ, (∀ τ, s.update mb (st τ) = .ok (s' τ)) ∧
      SpeedDrift3 (fun τ => (s' τ).out) xd t := by
  choose R h1 h2 using fun τ => pos_exact s (h.moves τ) hb hr hc
  refine ⟨_, h1, fun a ha => ?_⟩
  have d := (world_point_acc h hb s.jac.point).2.get a
  refine d.congr_deriv ?_
  dsimp only
  rw [h2 t xd a ha, MV.add_lin]
  match a with
  | 0 => rfl
  | 1 => rfl
  | n + 2 => rfl

/-- LinVelocityTask: the error is a velocity error, its derivative is minus the acceleration. -/
theorem C58_lin_velocity (s : LinVelT ℝ) {b : ℕ} (h : Evolves mb st s.jac.path x xd t)
    (hb : s.jac.path.getLast? = some b)
    (hr : s.out.jacMat.rows = 3) (hc : s.out.jacMat.cols = mb.nrDof) :
    ∃ s' : ℝ → LinVelT ℝ, (∀ τ, s.update mb (st τ) = .ok (s' τ)) ∧
      ∀ a < 3, HasDerivAt (fun τ => (s' τ).out.eval.get a)
        (-((s' t).out.jacMat.rowMul a xd + (s' t).out.normalAcc.get a)) t := by
  choose R h1 h2 using fun τ => linvel_exact s (h.moves τ) hb hr hc
  refine ⟨_, h1, fun a ha => ?_⟩
  have d := ((HasD3.const s.vel t).sub (world_point_acc h hb s.jac.point).2).get a
  refine d.congr_deriv ?_
  dsimp only
  rw [h2 t xd a ha, MV.add_lin]
  match a with
  | 0 => simp [V3.get]
  | 1 => simp [V3.get]
  | n + 2 => simp [V3.get]

/-- OrientationTask. -/
theorem C58_orientation (rotErr : M3 ℝ → M3 ℝ → V3 ℝ) (b : ℕ) (J : Jac ℝ) (ori : M3 ℝ) (res : Mat ℝ)
    (h : Evolves mb st J.path x xd t) (hb : J.path.getLast? = some b)
    (hr : res.rows = 3) (hc : res.cols = mb.nrDof) :
    ∃ o : ℝ → Out3 ℝ, (∀ τ, orientationUpdate rotErr mb (st τ) b J ori res = .ok (o τ)) ∧
      SpeedDrift3 o xd t := by
  choose R h1 h2 using fun τ => ori_exact rotErr b J ori res (h.moves τ) hb hr hc
  refine ⟨_, h1, fun a ha => ?_⟩
  refine ((world_point_acc h hb J.point).1.get a).congr_deriv ?_
  dsimp only
  rw [h2 t xd a ha, MV.add_ang]
  match a with
  | 0 => rfl
  | 1 => rfl
  | n + 2 => rfl

/-- SurfaceOrientationTask. -/
theorem C58_surface_orientation (rotVel : M3 ℝ → V3 ℝ) (b : ℕ) (J : Jac ℝ) (ori : M3 ℝ)
    (X_b_s : PT ℝ) (hX : X_b_s.Rigid) (res : Mat ℝ)
    (h : Evolves mb st J.path x xd t) (hb : J.path.getLast? = some b)
    (hr : res.rows = 3) (hc : res.cols = mb.nrDof) :
    ∃ o : ℝ → Out3 ℝ, (∀ τ, surfaceOriUpdate rotVel mb (st τ) b J ori X_b_s res = .ok (o τ)) ∧
      SpeedDrift3 o xd t := by
  choose R h1 h2 using fun τ => surfOri_exact rotVel b J ori X_b_s res (h.moves τ) hb hr hc
  refine ⟨_, h1, fun a ha => ?_⟩
  refine ((body_acc h hb hX).1.get a).congr_deriv ?_
  dsimp only
  rw [h2 t xd a ha, MV.add_ang]
  match a with
  | 0 => rfl
  | 1 => rfl
  | n + 2 => rfl

/-- VectorOrientationTask. -/
theorem C58_vector_orientation (b : ℕ) (J : Jac ℝ) (bv target : V3 ℝ) (junk : ℕ → ℕ → ℝ)
    (h : Evolves mb st J.path x xd t) (hb : J.path.getLast? = some b) :
    ∃ o : ℝ → Out3 ℝ × V3 ℝ, (∀ τ, vectorOriUpdate mb (st τ) b J bv target junk = .ok (o τ)) ∧
      SpeedDrift3 (fun τ => (o τ).1) xd t := by
  choose R h1 h2 using fun τ => vecOri_exact b J bv target junk (h.moves τ) hb
  refine ⟨_, h1, fun a ha => ?_⟩
  have hw := (body_acc h hb (PT.rigid_ofTrans J.point)).1
  have d := (h.frame b (List.mem_of_getLast? hb)).transpose_mulVec (hw.cross (HasD3.const bv t))
  have e : ((PT.ofTrans J.point).mulM (kVel (st t) b)).ang = (kVel (st t) b).ang := by
    unfold PT.mulM PT.ofTrans
    dsimp only
    rw [M3.one_mulVec]
  refine (d.get a).congr_deriv ?_
  dsimp only
  rw [h2 t xd a ha, MV.add_ang, e]
  have key : ∀ (m : M3 ℝ) (p q : V3 ℝ) (a : ℕ), (m.mulVec (p + q)).get a
      = (m.mulVec p).get a + (m.mulVec q).get a := by
    intro m p q a
    rw [M3.mulVec_add]
    match a with
    | 0 => rfl
    | 1 => rfl
    | n + 2 => rfl
  rw [← key]
  congr 2
  ext <;> simp <;> ring

/-! ## Transform tasks -/

/-- TransformTask. -/
theorem C58_transform (transErr : PT ℝ → PT ℝ → MV ℝ) (b : ℕ) (J : Jac ℝ) (X_0_t X_b_p : PT ℝ)
    (E_0_c : M3 ℝ) (hX : X_b_p.Rigid) (hE : E_0_c.IsRot)
    (res : Mat ℝ) (h : Evolves mb st J.path x xd t) (hb : J.path.getLast? = some b)
    (hr : res.rows = 6) (hc : res.cols = mb.nrDof) :
    ∃ o : ℝ → Out6 ℝ,
      (∀ τ, transformUpdate transErr mb (st τ) b J X_0_t X_b_p E_0_c res = .ok (o τ)) ∧
      ∀ a < 6, HasDerivAt (fun τ => (o τ).speed.get a)
        ((o t).jacMat.rowMul a xd + (o t).normalAcc.get a) t := by
  choose R h1 h2 using fun τ => transform_exact transErr b J X_0_t X_b_p E_0_c res (h.moves τ) hb hr
    hc _ rfl
  refine ⟨_, h1, fun a ha => ?_⟩
  have hrig := fun τ => (h.moves τ).rigid b (List.mem_of_getLast? hb)
  have hm := (FrameMoves.fixed (⟨E_0_c, 0⟩ : PT ℝ) t).mix hE (carried_origin h hb X_b_p)
  have d := frame_acc h hb (X := fun τ => ⟨E_0_c, (X_b_p.mul (kPose (st τ) b)).r⟩)
    (fun τ => (fixed_ori_frame (hrig τ) hX (C := E_0_c)).symm) hm hE
  refine (d.get a).congr_deriv ?_
  dsimp only
  rw [h2 t xd a ha, fixed_ori_frame (hrig t) hX, ← MV.get_add, add_sub_assoc]
  congr 2
  rw [sub_eq_add_neg]
  congr 1
  have e : (((PT.ofRot (E_0_c.mul (X_b_p.mul (kPose (st t) b)).E.transpose)).mul X_b_p).mulM
      (kVel (st t) b)).lin = E_0_c.mulVec ((kPose (st t) b).E.transpose.mulVec
        ((kVel (st t) b).lin - X_b_p.r.cross (kVel (st t) b).ang)) := by
    unfold PT.mulM PT.mul PT.ofRot
    dsimp only
    rw [M3.transpose_mul, M3.mulVec_zero, add_zero, M3.mul_mulVec, M3.mul_mulVec, M3.mul_mulVec,
      hX.1.transpose_mulVec]
  rw [← e]
  generalize ((PT.ofRot (E_0_c.mul (X_b_p.mul (kPose (st t) b)).E.transpose)).mul X_b_p).mulM
    (kVel (st t) b) = V
  ext <;> simp [MV.cross] <;> ring


/-- Derivative of the position of a moving frame `T` seen from a moving frame `X`. -/
theorem rel_pos {T X : ℝ → PT ℝ} {U : MV ℝ} {p' : V3 ℝ} {t : ℝ} (hT : HasD3 (fun τ => (T τ).r) p' t)
    (hX : FrameMoves X U t) (hr : (X t).Rigid) :
    HasD3 (fun τ => ((T τ).mul (X τ).inv).r)
      ((X t).E.mulVec p' - U.lin + ((T t).mul (X t).inv).r.cross U.ang) t := by
  have e : ∀ τ, ((T τ).mul (X τ).inv).r = (X τ).E.mulVec ((T τ).r - (X τ).r) := by
    intro τ
    show -(X τ).E.mulVec (X τ).r + (X τ).E.transpose.transpose.mulVec (T τ).r = _
    rw [M3.mulVec_sub, show (X τ).E.transpose.transpose = (X τ).E from rfl]
    abel
  refine ((hX.mulVec (hT.sub hX.2)).congr_fun e).congr_deriv ?_
  rw [← e t, M3.mulVec_sub, hr.1.mulVec_transpose]
  ext <;> simp <;> ring

/-- Derivative of `V - err × (V.ang, 0)`, linear rows. -/
theorem err_speed_lin {V err : ℝ → MV ℝ} {V' : MV ℝ} {e' : V3 ℝ} {t : ℝ} (hV : HasDM V V' t)
    (he : HasD3 (fun τ => (err τ).lin) e' t) :
    HasD3 (fun τ => (V τ - (err τ).cross ⟨(V τ).ang, 0⟩).lin)
      (V'.lin - (e'.cross (V t).ang + (err t).lin.cross V'.ang)) t := by
  refine ((hV.2.sub (he.cross hV.1)).congr_fun fun τ => ?_)
  ext <;> simp [MV.cross]

/-- Same, angular rows. -/
theorem err_speed_ang {V err : ℝ → MV ℝ} {V' : MV ℝ} {e' : V3 ℝ} {t : ℝ} (hV : HasDM V V' t)
    (he : HasD3 (fun τ => (err τ).ang) e' t) :
    HasD3 (fun τ => (V τ - (err τ).cross ⟨(V τ).ang, 0⟩).ang)
      (V'.ang - (e'.cross (V t).ang + (err t).ang.cross V'.ang)) t := by
  refine ((hV.1.sub (he.cross hV.1)).congr_fun fun τ => ?_)
  ext <;> simp [MV.cross]

/-- Derivative of a row from the derivatives of its two parts. -/
theorem row_deriv {f : ℝ → MV ℝ} {f' : MV ℝ} {t : ℝ} (hl : HasD3 (fun τ => (f τ).lin) f'.lin t) {a : ℕ}
    (ha : 3 ≤ a) : HasDerivAt (fun τ => (f τ).get a) (f'.get a) t := by
  unfold MV.get
  simp only [if_neg (not_lt.mpr ha)]
  exact hl.get _

/-- SurfaceTransformTask.  `sva::transformVelocity` gives the translation as its linear part.  The
linear rows hold without further assumption; the angular rows hold whenever the angular part of the
error decreases at the reported speed. -/
theorem C58_surface_transform (transVel : PT ℝ → MV ℝ) (hv : ∀ X, (transVel X).lin = X.r)
    (b : ℕ) (J : Jac ℝ) (X_0_t X_b_p : PT ℝ) (hX : X_b_p.Rigid)
    (res : Mat ℝ) (h : Evolves mb st J.path x xd t) (hb : J.path.getLast? = some b)
    (hr : res.rows = 6) (hc : res.cols = mb.nrDof) :
    ∃ o : ℝ → Out6 ℝ,
      (∀ τ, surfaceUpdate transVel mb (st τ) b J X_0_t X_b_p res = .ok (o τ)) ∧
      (∀ a, 3 ≤ a → a < 6 → HasDerivAt (fun τ => (o τ).speed.get a)
        ((o t).jacMat.rowMul a xd + (o t).normalAcc.get a) t) ∧
      (HasD3 (fun τ => (o τ).eval.ang) (-(o t).speed.ang) t →
        ∀ a < 6, HasDerivAt (fun τ => (o τ).speed.get a)
          ((o t).jacMat.rowMul a xd + (o t).normalAcc.get a) t) := by
  choose R h1 h2 using fun τ => surface_exact transVel b J X_0_t X_b_p res (h.moves τ) hb hr
    hc _ _ _ rfl rfl rfl
  have hrig := (h.moves t).rigid b (List.mem_of_getLast? hb)
  have dV := body_acc h hb hX
  have de := (rel_pos (HasD3.const X_0_t.r t)
    ((h.frame b (List.mem_of_getLast? hb)).carried hX) (hX.mul hrig)).congr_fun
    (fun τ => hv (X_0_t.mul (X_b_p.mul (kPose (st τ) b)).inv))
  rw [M3.mulVec_zero, ← hv] at de
  have dl := err_speed_lin dV de
  refine ⟨_, h1, fun a ha ha' => ?_, fun hang a ha => ?_⟩
  · dsimp only
    rw [h2 t xd a ha', ← MV.get_add]
    refine row_deriv (dl.congr_deriv ?_) ha
    ext <;> simp [MV.cross] <;> ring
  · have da := err_speed_ang dV hang
    dsimp only at da ⊢
    rw [h2 t xd a ha, ← MV.get_add]
    refine HasDM.get ⟨da.congr_deriv ?_, dl.congr_deriv ?_⟩ a
    · ext <;> simp [MV.cross] <;> ring
    · ext <;> simp [MV.cross] <;> ring

/-- MultiRobotTransformTask: with the accelerations `xd1` and `xd2` of the two robots. -/
theorem C58_multi_robot {mb2 : MultiBody ℝ} {st2 : ℝ → KState ℝ} {x2 : ℝ → ℕ → ℝ} {xd2 : ℕ → ℝ}
    (transVel : PT ℝ → MV ℝ) (hv : ∀ X, (transVel X).lin = X.r)
    (b1 b2 : ℕ) (J1 J2 : Jac ℝ) (X1 X2 : PT ℝ) (hX1 : X1.Rigid) (hX2 : X2.Rigid)
    (res1 res2 : Mat ℝ) (h1 : Evolves mb st J1.path x xd t) (hb1 : J1.path.getLast? = some b1)
    (h2 : Evolves mb2 st2 J2.path x2 xd2 t) (hb2 : J2.path.getLast? = some b2)
    (hr1 : res1.rows = 6) (hc1 : res1.cols = mb.nrDof)
    (hr2 : res2.rows = 6) (hc2 : res2.cols = mb2.nrDof) :
    ∃ o : ℝ → Out6 ℝ × Mat ℝ,
      (∀ τ, multiTransformUpdate transVel mb mb2 (st τ) (st2 τ) b1 b2 J1 J2 X1 X2 res1 res2
        = .ok (o τ)) ∧
      (∀ a, 3 ≤ a → a < 6 → HasDerivAt (fun τ => (o τ).1.speed.get a)
        ((o t).1.jacMat.rowMul a xd + (o t).2.rowMul a xd2 + (o t).1.normalAcc.get a) t) ∧
      (HasD3 (fun τ => (o τ).1.eval.ang) (-(o t).1.speed.ang) t →
        ∀ a < 6, HasDerivAt (fun τ => (o τ).1.speed.get a)
          ((o t).1.jacMat.rowMul a xd + (o t).2.rowMul a xd2 + (o t).1.normalAcc.get a) t) := by
  choose R1 R2 g1 g2 g3 using fun τ => multi_exact transVel b1 b2 J1 J2 X1 X2 res1 res2 (h1.moves τ)
    hb1 (h2.moves τ) hb2 hr1 hc1 hr2 hc2 _ _ _ _ _ _ rfl rfl rfl rfl rfl rfl
  have hrig1 := fun τ => (h1.moves τ).rigid b1 (List.mem_of_getLast? hb1)
  have hrig2 := fun τ => (h2.moves τ).rigid b2 (List.mem_of_getLast? hb2)
  have hS1 := fun τ => hX1.mul (hrig1 τ)
  have dV1 := body_acc h1 hb1 hX1
  have hF1 := (h1.frame b1 (List.mem_of_getLast? hb1)).carried hX1
  -- the frame of the second surface turned as the first one
  have frame : ∀ τ, (⟨(X1.mul (kPose (st τ) b1)).E, (X2.mul (kPose (st2 τ) b2)).r⟩ : PT ℝ)
      = ((PT.ofRot ((X2.mul (kPose (st2 τ) b2)).mul (X1.mul (kPose (st τ) b1)).inv).E.transpose).mul
        X2).mul (kPose (st2 τ) b2) := by
    intro τ
    rw [PT.mul_assoc']
    have ho := (PT.Rigid.mul hX2 (hrig2 τ)).1
    generalize X2.mul (kPose (st2 τ) b2) = Z at *
    unfold PT.mul PT.ofRot PT.inv
    dsimp only
    rw [M3.transpose_mul, M3.mul_assoc', ho.transpose_mul_self, M3.mul_one', M3.mulVec_zero, add_zero]
    rfl
  have hm := hF1.mix (hS1 t) (carried_origin h2 hb2 X2)
  have dV2 := frame_acc h2 hb2 frame hm (hS1 t)
  have e2 : (((PT.ofRot ((X2.mul (kPose (st2 t) b2)).mul
      (X1.mul (kPose (st t) b1)).inv).E.transpose).mul X2).mulM (kVel (st2 t) b2)).lin
      = (X1.mul (kPose (st t) b1)).E.mulVec ((kPose (st2 t) b2).E.transpose.mulVec
        ((kVel (st2 t) b2).lin - X2.r.cross (kVel (st2 t) b2).ang)) := by
    unfold PT.mulM PT.mul PT.ofRot PT.inv
    dsimp only
    simp only [M3.transpose_mul, M3.mulVec_zero, add_zero, M3.mul_mulVec, hX2.1.transpose_mulVec]
    rfl
  have de := (rel_pos (carried_origin h2 hb2 X2) hF1 (hS1 t)).congr_fun
    (fun τ => hv ((X2.mul (kPose (st2 τ) b2)).mul (X1.mul (kPose (st τ) b1)).inv))
  rw [← hv ((X2.mul (kPose (st2 t) b2)).mul _)] at de
  rw [← e2] at dV2 de
  have dl := (err_speed_lin dV1 de).sub dV2.2
  refine ⟨_, g1, fun a ha ha' => ?_, fun hang a ha => ?_⟩
  · dsimp only
    rw [g2 t xd a ha', g3 t xd2 a ha', ← MV.get_neg, ← MV.get_add, ← MV.get_add, ← frame t]
    refine row_deriv (dl.congr_deriv ?_) ha
    ext <;> simp [MV.cross] <;> ring
  · have da := (err_speed_ang dV1 hang).sub dV2.1
    dsimp only at da ⊢
    rw [g2 t xd a ha, g3 t xd2 a ha, ← MV.get_neg, ← MV.get_add, ← MV.get_add, ← frame t]
    refine HasDM.get ⟨da.congr_deriv ?_, dl.congr_deriv ?_⟩ a
    · ext <;> simp [MV.cross] <;> ring
    · ext <;> simp [MV.cross] <;> ring

/-- GazeTask and PositionBasedVisServoTask: `L` is the interaction matrix along the motion; the
derivative the code uses for it is its time derivative. -/
theorem C58_visual (r : ℕ) (L : ℝ → ℕ → ℕ → ℝ) (Ldot : (ℕ → ℝ) → (ℕ → ℝ) → ℕ → ℕ → ℝ)
    (b : ℕ) (J : Jac ℝ) (X_b_s : PT ℝ) (hX : X_b_s.Rigid) (res : Mat ℝ)
    (h : Evolves mb st J.path x xd t) (hb : J.path.getLast? = some b)
    (hr : res.rows = r) (hc : res.cols = mb.nrDof) :
    ∃ (speed nacc : ℝ → Vec ℝ) (M : ℝ → Mat ℝ),
      (∀ τ, visualUpdate r (L τ) Ldot mb (st τ) b J X_b_s res = .ok (speed τ, nacc τ, M τ)) ∧
      ((∀ a < r, ∀ j < 6, HasDerivAt (fun τ => L τ a j)
          (Ldot (speed t).get (X_b_s.mulM (kVel (st t) b)).get a j) t) →
        ∀ a < r, HasDerivAt (fun τ => (speed τ).get a) ((M t).rowMul a xd + (nacc t).get a) t) := by
  choose R h1 h2 using fun τ => visual_exact r (L τ) Ldot b J X_b_s res (h.moves τ) hb hr hc _ rfl
  refine ⟨_, _, R, h1, fun hL a ha => ?_⟩
  have dV := body_acc h hb hX
  have d := HasDerivAt.fun_sum (u := range 6) fun j hj =>
    (hL a ha j (by simpa using hj)).mul (dV.get j)
  refine d.congr_deriv ?_
  dsimp only
  rw [h2 t xd a ha, ← Finset.sum_add_distrib, ← Finset.sum_add_distrib]
  refine Finset.sum_congr rfl fun j _ => ?_
  rw [MV.get_add]
  ring

/-! ## C59 -/

/-- PositionTask, when the error and the Jacobian use the same point. -/
theorem C59_position (s : PositionT ℝ) (hp : s.point = s.jac.point)
    (h : Evolves mb st s.jac.path x xd t)
    (hb : s.jac.path.getLast? = some s.bodyIndex)
    (hr : s.out.jacMat.rows = 3) (hc : s.out.jacMat.cols = mb.nrDof) :
    ∃ s' : ℝ → PositionT ℝ, (∀ τ, s.update mb (st τ) = .ok (s' τ)) ∧
      HasD3 (fun τ => (s' τ).out.eval) (-(s' t).out.speed) t := by
  choose R h1 h2 using fun τ => pos_exact s (h.moves τ) hb hr hc
  refine ⟨_, h1, ?_⟩
  have d := (HasD3.const s.pos t).sub (world_point h hb s.point)
  rw [zero_sub] at d
  rw [hp] at d
  dsimp only
  rw [hp]
  exact d

/-- VectorOrientationTask. -/
theorem C59_vector_orientation (b : ℕ) (J : Jac ℝ) (bv target : V3 ℝ) (junk : ℕ → ℕ → ℝ)
    (h : Evolves mb st J.path x xd t) (hb : J.path.getLast? = some b) :
    ∃ o : ℝ → Out3 ℝ × V3 ℝ, (∀ τ, vectorOriUpdate mb (st τ) b J bv target junk = .ok (o τ)) ∧
      HasD3 (fun τ => (o τ).1.eval) (-(o t).1.speed) t ∧
      HasD3 (fun τ => (o τ).2) (o t).1.speed t := by
  choose R h1 h2 using fun τ => vecOri_exact b J bv target junk (h.moves τ) hb
  have e : ((PT.ofTrans J.point).mulM (kVel (st t) b)).ang = (kVel (st t) b).ang := by
    unfold PT.mulM PT.ofTrans
    dsimp only
    rw [M3.one_mulVec]
  have d := (h.frame b (List.mem_of_getLast? hb)).transpose_mulVec (HasD3.const bv t)
  rw [zero_add, ← e] at d
  refine ⟨_, h1, ?_, d⟩
  have d' := (HasD3.const target t).sub d
  rwa [zero_sub] at d'

/-- TransformTask: position of the controlled frame.  `sva::transformError` gives the difference of the
translations as its linear part. -/
theorem C59_transform (transErr : PT ℝ → PT ℝ → MV ℝ) (hv : ∀ A B, A.Rigid → (transErr A B).lin = B.r - A.r)
    (b : ℕ) (J : Jac ℝ) (X_0_t X_b_p : PT ℝ) (E_0_c : M3 ℝ) (hX : X_b_p.Rigid)
    (res : Mat ℝ) (h : Evolves mb st J.path x xd t) (hb : J.path.getLast? = some b)
    (hr : res.rows = 6) (hc : res.cols = mb.nrDof) :
    ∃ o : ℝ → Out6 ℝ,
      (∀ τ, transformUpdate transErr mb (st τ) b J X_0_t X_b_p E_0_c res = .ok (o τ)) ∧
      HasD3 (fun τ => (o τ).eval.lin) (-(o t).speed.lin) t := by
  choose R h1 h2 using fun τ => transform_exact transErr b J X_0_t X_b_p E_0_c res (h.moves τ) hb hr
    hc _ rfl
  refine ⟨_, h1, ?_⟩
  have d := HasD3.mulVec_const E_0_c ((HasD3.const X_0_t.r t).sub (carried_origin h hb X_b_p))
  refine (d.congr_fun fun τ => ?_).congr_deriv ?_
  · show E_0_c.mulVec ((transErr _ _).lin - V3.cross 0 _) = _
    rw [hv _ _ (hX.mul ((h.moves τ).rigid b (List.mem_of_getLast? hb)))]
    congr 1
    ext <;> simp
  · rw [zero_sub, M3.mulVec_neg]
    congr 1
    unfold PT.mulM PT.mul PT.ofRot
    dsimp only
    rw [M3.transpose_mul, M3.mulVec_zero, add_zero, M3.mul_mulVec, M3.mul_mulVec, M3.mul_mulVec,
      hX.1.transpose_mulVec]

/-- SurfaceTransformTask: position of the target seen from the surface. -/
theorem C59_surface_transform (transVel : PT ℝ → MV ℝ) (hv : ∀ X, (transVel X).lin = X.r)
    (b : ℕ) (J : Jac ℝ) (X_0_t X_b_p : PT ℝ) (hX : X_b_p.Rigid)
    (res : Mat ℝ) (h : Evolves mb st J.path x xd t) (hb : J.path.getLast? = some b)
    (hr : res.rows = 6) (hc : res.cols = mb.nrDof) :
    ∃ o : ℝ → Out6 ℝ,
      (∀ τ, surfaceUpdate transVel mb (st τ) b J X_0_t X_b_p res = .ok (o τ)) ∧
      HasD3 (fun τ => (o τ).eval.lin) (-(o t).speed.lin) t := by
  choose R h1 h2 using fun τ => surface_exact transVel b J X_0_t X_b_p res (h.moves τ) hb hr
    hc _ _ _ rfl rfl rfl
  have hrig := (h.moves t).rigid b (List.mem_of_getLast? hb)
  have de := (rel_pos (HasD3.const X_0_t.r t)
    ((h.frame b (List.mem_of_getLast? hb)).carried hX) (hX.mul hrig)).congr_fun
    (fun τ => hv (X_0_t.mul (X_b_p.mul (kPose (st τ) b)).inv))
  rw [M3.mulVec_zero, ← hv] at de
  refine ⟨_, h1, de.congr_deriv ?_⟩
  ext <;> simp [MV.cross] <;> ring

/-- MultiRobotTransformTask: position of the second surface seen from the first one. -/
theorem C59_multi_robot {mb2 : MultiBody ℝ} {st2 : ℝ → KState ℝ} {x2 : ℝ → ℕ → ℝ} {xd2 : ℕ → ℝ}
    (transVel : PT ℝ → MV ℝ) (hv : ∀ X, (transVel X).lin = X.r)
    (b1 b2 : ℕ) (J1 J2 : Jac ℝ) (X1 X2 : PT ℝ) (hX1 : X1.Rigid) (hX2 : X2.Rigid)
    (res1 res2 : Mat ℝ) (h1 : Evolves mb st J1.path x xd t) (hb1 : J1.path.getLast? = some b1)
    (h2 : Evolves mb2 st2 J2.path x2 xd2 t) (hb2 : J2.path.getLast? = some b2)
    (hr1 : res1.rows = 6) (hc1 : res1.cols = mb.nrDof)
    (hr2 : res2.rows = 6) (hc2 : res2.cols = mb2.nrDof) :
    ∃ o : ℝ → Out6 ℝ × Mat ℝ,
      (∀ τ, multiTransformUpdate transVel mb mb2 (st τ) (st2 τ) b1 b2 J1 J2 X1 X2 res1 res2
        = .ok (o τ)) ∧
      HasD3 (fun τ => (o τ).1.eval.lin) (-(o t).1.speed.lin) t := by
  choose R1 R2 g1 g2 g3 using fun τ => multi_exact transVel b1 b2 J1 J2 X1 X2 res1 res2 (h1.moves τ)
    hb1 (h2.moves τ) hb2 hr1 hc1 hr2 hc2 _ _ _ _ _ _ rfl rfl rfl rfl rfl rfl
  have hrig1 := (h1.moves t).rigid b1 (List.mem_of_getLast? hb1)
  have hF1 := (h1.frame b1 (List.mem_of_getLast? hb1)).carried hX1
  have e2 : (((PT.ofRot ((X2.mul (kPose (st2 t) b2)).mul
      (X1.mul (kPose (st t) b1)).inv).E.transpose).mul X2).mulM (kVel (st2 t) b2)).lin
      = (X1.mul (kPose (st t) b1)).E.mulVec ((kPose (st2 t) b2).E.transpose.mulVec
        ((kVel (st2 t) b2).lin - X2.r.cross (kVel (st2 t) b2).ang)) := by
    unfold PT.mulM PT.mul PT.ofRot PT.inv
    dsimp only
    simp only [M3.transpose_mul, M3.mulVec_zero, add_zero, M3.mul_mulVec, hX2.1.transpose_mulVec]
    rfl
  have de := (rel_pos (carried_origin h2 hb2 X2) hF1 (hX1.mul hrig1)).congr_fun
    (fun τ => hv ((X2.mul (kPose (st2 τ) b2)).mul (X1.mul (kPose (st τ) b1)).inv))
  rw [← hv ((X2.mul (kPose (st2 t) b2)).mul _), ← e2] at de
  refine ⟨_, g1, de.congr_deriv ?_⟩
  ext <;> simp [MV.cross] <;> ring

end

/-! ## Example -/

namespace DriftEx

/-- One joint turning about `z` by the angle `τ + τ² / 2`: velocity `1 + τ`, acceleration `1`. -/
def mb : MultiBody ℝ := { joints := [⟨"a", 1, none⟩], nrBodies := 1, pred := [-1], succ := [0] }
noncomputable def ang (τ : ℝ) : ℝ := τ + τ ^ 2 / 2
noncomputable def pose (τ : ℝ) : PT ℝ :=
  ⟨⟨⟨Real.cos (ang τ), Real.sin (ang τ), 0⟩, ⟨-Real.sin (ang τ), Real.cos (ang τ), 0⟩, ⟨0, 0, 1⟩⟩, 0⟩
noncomputable def st (τ : ℝ) : KState ℝ :=
  ⟨[pose τ], [⟨⟨0, 0, 1 + τ⟩, 0⟩], [[⟨⟨0, 0, 1⟩, 0⟩]], [[1 + τ]], [0]⟩

theorem ang_deriv (t : ℝ) : HasDerivAt ang (1 + t) t := by
  refine ((hasDerivAt_id t).add ((hasDerivAt_pow 2 t).div_const 2)).congr_deriv ?_
  simp

theorem evolves (t : ℝ) : Evolves mb st [0] (fun τ _ => 1 + τ) (fun _ => 1) t := by
  have hc := (Real.hasDerivAt_cos (ang t)).comp t (ang_deriv t)
  have hs := (Real.hasDerivAt_sin (ang t)).comp t (ang_deriv t)
  refine ⟨fun τ => ⟨⟨by simp, by simp, by simp [mb], by simp [st], by simp [st], by simp [st], ?_⟩,
    ?_, ?_⟩, fun τ i _ d => rfl, fun c => ?_, ?_, ?_⟩
  · simp [st, mb, jdof]
  · intro i hi
    simp at hi
    subst hi
    have h2 := Real.sin_sq_add_cos_sq (ang τ)
    simp only [kPose, st, pose, PT.Rigid, M3.IsRot, M3.RowsOrtho, V3.dot, V3.cross, List.getD_cons_zero]
    refine ⟨⟨?_, ?_, ?_, ?_, ?_, ?_⟩, ?_⟩
    · nlinarith
    · nlinarith
    · ring
    · ring
    · ring
    · ring
    · ext <;> dsimp only
      · ring
      · ring
      · nlinarith
  · refine ⟨?_, trivial⟩
    ext <;> simp [kVel, kSub, st, mb, jdof, jpos]
  · exact ((hasDerivAt_const t (1 : ℝ)).add (hasDerivAt_id t)).congr_deriv (zero_add 1)
  · intro i hi
    simp at hi
    subst hi
    refine ⟨fun v => ⟨?_, ?_, ?_⟩, ?_⟩
    · refine (((hc.mul_const v.x).add (hs.mul_const v.y)).congr_deriv ?_).congr_of_eventuallyEq ?_
      · simp [kVel, kPose, st, pose, M3.mulVec, V3.dot]; ring
      · exact Filter.Eventually.of_forall fun τ => by simp [kPose, st, pose, M3.mulVec, V3.dot]
    · refine ((((hs.neg).mul_const v.x).add (hc.mul_const v.y)).congr_deriv ?_).congr_of_eventuallyEq ?_
      · simp [kVel, kPose, st, pose, M3.mulVec, V3.dot]; ring
      · exact Filter.Eventually.of_forall fun τ => by simp [kPose, st, pose, M3.mulVec, V3.dot]
    · refine ((hasDerivAt_const t v.z).congr_deriv ?_).congr_of_eventuallyEq ?_
      · simp [kVel, kPose, st, pose, M3.mulVec, V3.dot]
      · exact Filter.Eventually.of_forall fun τ => by simp [kPose, st, pose, M3.mulVec, V3.dot]
    · refine ((HasD3.const 0 t).congr_fun fun τ => rfl).congr_deriv ?_
      ext <;> simp [kVel, kPose, st, pose, M3.mulVec, V3.dot]
  · refine ⟨?_, trivial⟩
    ext <;> simp [kVel, kSub, kAcc, st, mb, jdof, jpos, MV.cross]

/-- A position task on the point `(1, 0, 0)` of the body. -/
noncomputable def task : PositionT ℝ :=
  PositionT.make 0 [0] 0 ⟨1, 0, 0⟩ ⟨0, 0, 0, ⟨3, 1, fun _ _ => 7⟩⟩

/-- The theorems apply; at time `0` the speed is `(0, 1, 0)` and the normal acceleration is the
centripetal acceleration `(-1, 0, 0)`, which no joint acceleration can produce. -/
example : ∃ s' : ℝ → PositionT ℝ, (∀ τ, task.update mb (st τ) = .ok (s' τ)) ∧
    SpeedDrift3 (fun τ => (s' τ).out) (fun _ => 1) 0 ∧
    HasD3 (fun τ => (s' τ).out.eval) (-(s' 0).out.speed) 0 ∧
    (s' 0).out.speed = ⟨0, 1, 0⟩ ∧ (s' 0).out.normalAcc = ⟨-1, 0, 0⟩ := by
  obtain ⟨s', h1, h2⟩ := C58_position task (evolves 0) rfl rfl rfl
  obtain ⟨s'', h1', h3⟩ := C59_position task rfl (evolves 0) rfl rfl rfl
  have e : s'' = s' := funext fun τ => Out.ok.inj ((h1' τ).symm.trans (h1 τ))
  subst e
  obtain ⟨R, k, -⟩ := pos_exact task ((evolves 0).moves 0) rfl rfl rfl
  have e2 := Out.ok.inj ((h1 0).symm.trans k)
  refine ⟨s'', h1, h2, h3, ?_, ?_⟩
  · rw [e2]
    ext <;> simp [task, PositionT.make, kVel, kPose, st, pose, ang, PT.mulM, PT.mul, PT.ofRot,
      PT.ofTrans, M3.mulVec, M3.mul, M3.one, M3.transpose, V3.dot]
  · rw [e2]
    ext <;> simp [task, PositionT.make, kVel, kPose, kAcc, st, pose, ang, PT.mulM, PT.mul, PT.ofRot,
      PT.ofTrans, M3.mulVec, M3.mul, M3.one, M3.transpose, V3.dot, MV.cross]

/-- The transform tasks on the same motion. -/
noncomputable example := C58_surface_transform (fun X => ⟨0, X.r⟩) (fun _ => rfl) 0 ⟨[0], 0⟩
  (PT.ofTrans ⟨1, 2, 3⟩) (PT.ofTrans ⟨1, 0, 0⟩) M3.isRot_one ⟨6, 1, fun _ _ => 7⟩ (evolves 0) rfl rfl rfl
noncomputable example := C58_multi_robot (fun X => ⟨0, X.r⟩) (fun _ => rfl) 0 0 ⟨[0], 0⟩ ⟨[0], 0⟩
  (PT.ofTrans ⟨1, 2, 3⟩) (PT.ofTrans ⟨1, 0, 0⟩) M3.isRot_one M3.isRot_one ⟨6, 1, fun _ _ => 7⟩
  ⟨6, 1, fun _ _ => 7⟩ (evolves 0) rfl (evolves 0) rfl rfl rfl rfl rfl

/-- After `bodyPoint((2, 0, 0))` the error still moves with the old point: the error decreases at
`(0, 1, 0)`, the reported speed is `(0, 2, 0)`. -/
theorem C59_body_point_counterexample :
    ∃ s' : ℝ → PositionT ℝ, (∀ τ, (task.setBodyPoint ⟨2, 0, 0⟩).update mb (st τ) = .ok (s' τ)) ∧
      HasD3 (fun τ => (s' τ).out.eval) ⟨0, -1, 0⟩ 0 ∧ (s' 0).out.speed = ⟨0, 2, 0⟩ := by
  choose R h1 h2 using fun τ => pos_exact (task.setBodyPoint ⟨2, 0, 0⟩) ((evolves 0).moves τ) rfl rfl rfl
  refine ⟨_, h1, ?_, ?_⟩
  · have d := (HasD3.const (0 : V3 ℝ) 0).sub (world_point (evolves 0) (N := 0) rfl ⟨1, 0, 0⟩)
    refine d.congr_deriv ?_
    ext <;> simp [kVel, kPose, st, pose, ang, PT.mulM, PT.mul, PT.ofRot,
      PT.ofTrans, M3.mulVec, M3.mul, M3.one, M3.transpose, V3.dot]
  · ext <;> simp [task, PositionT.make, PositionT.setBodyPoint, kVel, kPose, st, pose, ang, PT.mulM,
      PT.mul, PT.ofRot, PT.ofTrans, M3.mulVec, M3.mul, M3.one, M3.transpose, V3.dot]

end DriftEx

end Verif
