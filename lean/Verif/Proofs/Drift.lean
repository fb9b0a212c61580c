import Verif.Proofs.Deriv
import Verif.Props.Kine

/-!
# What the updates of the kinematic tasks compute

Helper lemmas for C58 and C59: the result of each update on one state, with the rows of the Jacobian
applied to arbitrary rates.
-/

set_option autoImplicit false
set_option linter.unusedSectionVars false

namespace Verif

open Finset Spec

namespace Spec.FrameMoves
variable {X : ℝ → PT ℝ} {U : MV ℝ} {t : ℝ}

/-- A frame that does not move. -/
theorem fixed (Y : PT ℝ) (t : ℝ) : FrameMoves (fun _ => Y) 0 t := by
  refine ⟨fun v => (HasD3.const _ t).congr_deriv ?_, (HasD3.const _ t).congr_deriv ?_⟩
  · ext <;> simp
  · ext <;> simp [M3.mulVec, V3.dot]

/-- A frame with the orientation of another one. -/
theorem mix (h : FrameMoves X U t) (hr : (X t).Rigid) {p : ℝ → V3 ℝ} {p' : V3 ℝ} (hp : HasD3 p p' t) :
    FrameMoves (fun τ => ⟨(X τ).E, p τ⟩) ⟨U.ang, (X t).E.mulVec p'⟩ t :=
  ⟨h.1, hp.congr_deriv (hr.1.transpose_mulVec _).symm⟩

/-- A frame carried by another one. -/
theorem carried (h : FrameMoves X U t) {Y : PT ℝ} (hY : Y.Rigid) :
    FrameMoves (fun τ => Y.mul (X τ)) (Y.mulM U) t := by
  refine ⟨fun v => ?_, (h.origin Y.r).congr_deriv ?_⟩
  · refine ((HasD3.mulVec_const Y.E (h.1 v)).congr_fun fun τ => M3.mul_mulVec _ _ _).congr_deriv ?_
    show _ = -((Y.E.mulVec U.ang).cross ((Y.E.mul (X t).E).mulVec v))
    rw [M3.mulVec_neg, M3.mul_mulVec, hY.cross_mulVec]
  · show _ = (Y.E.mul (X t).E).transpose.mulVec (Y.E.mulVec _)
    rw [M3.transpose_mul, M3.mul_mulVec, hY.1.transpose_mulVec]

end Spec.FrameMoves

section
variable {K : Type} [CommRing K]

theorem MV.cross_self (a : MV K) : a.cross a = 0 := by
  ext <;> simp [MV.cross] <;> ring

theorem MV.zero_cross (a : MV K) : (0 : MV K).cross a = 0 := by
  ext <;> simp [MV.cross]

/-- The pose of the point of the task. -/
theorem ofTrans_mul_r (p : V3 K) (X : PT K) :
    ((PT.ofTrans p).mul X).r = X.r + X.E.transpose.mulVec p := rfl

variable {mb : MultiBody K} {st : KState K}

theorem pos_exact {x : ℕ → K} (s : PositionT K)
    (h : Moves mb st s.jac.path x) (hb : s.jac.path.getLast? = some s.bodyIndex)
    (hr : s.out.jacMat.rows = 3) (hc : s.out.jacMat.cols = mb.nrDof) :
    ∃ R : Mat K, s.update mb st = .ok { s with
        out := ⟨s.pos - ((PT.ofTrans s.point).mul (kPose st s.bodyIndex)).r,
          (((PT.ofRot (kPose st s.bodyIndex).E.transpose).mul (PT.ofTrans s.jac.point)).mulM
            (kVel st s.bodyIndex)).lin,
          (((PT.ofRot (kPose st s.bodyIndex).E.transpose).mul (PT.ofTrans s.jac.point)).mulM
            (kAcc st s.bodyIndex)
        + MV.cross ⟨(kPose st s.bodyIndex).E.transpose.mulVec (kVel st s.bodyIndex).ang, 0⟩
          (((PT.ofRot (kPose st s.bodyIndex).E.transpose).mul (PT.ofTrans s.jac.point)).mulM
            (kVel st s.bodyIndex))).lin, R⟩ } ∧
      ∀ z, ∀ a < 3, R.rowMul a z = ((PT.ofTrans ((PT.ofTrans s.jac.point).mul
        (kPose st s.bodyIndex)).r).mulM (wSum mb st s.jac.path z)).lin.get a := by
  have hrig := h.rigid _ (List.mem_of_getLast? hb)
  obtain ⟨sh, R, b1, b2, b3, b4, b6, b5⟩ := linear_full h hb _ _
    (world_frame (kPose st s.bodyIndex) hrig s.jac.point) s.out.jacMat hr hc
  refine ⟨R, ?_, fun z a ha => ?_⟩
  · unfold PositionT.update
    rw [vecAt_getD PT.one (h.sized.pos _ (List.mem_of_getLast? hb)), Out.ok_bind,
      jac_vel h.sized hb, Out.ok_bind, jac_acc h.sized hb, Out.ok_bind, jac_world h.sized hb,
      Out.ok_bind, b1, Out.ok_bind, b2, Out.ok_bind]
    rfl
  · rw [full_gen h.sized.mem h.rigid _ R 3 (fun a v => v.get (3 + a)) (fun a => lin_get (3 + a)) b4 b6
      z a ha, MV.get_lin _ ha]

theorem linvel_exact {x : ℕ → K} (s : LinVelT K) {b : ℕ}
    (h : Moves mb st s.jac.path x) (hb : s.jac.path.getLast? = some b)
    (hr : s.out.jacMat.rows = 3) (hc : s.out.jacMat.cols = mb.nrDof) :
    ∃ R : Mat K, s.update mb st = .ok { s with
        out := { s.out with
          eval := s.vel - (((PT.ofRot (kPose st b).E.transpose).mul (PT.ofTrans s.jac.point)).mulM
            (kVel st b)).lin,
          normalAcc := (((PT.ofRot (kPose st b).E.transpose).mul (PT.ofTrans s.jac.point)).mulM
            (kAcc st b)
        + MV.cross ⟨(kPose st b).E.transpose.mulVec (kVel st b).ang, 0⟩
          (((PT.ofRot (kPose st b).E.transpose).mul (PT.ofTrans s.jac.point)).mulM
            (kVel st b))).lin,
          jacMat := R } } ∧
      ∀ z, ∀ a < 3, R.rowMul a z = ((PT.ofTrans ((PT.ofTrans s.jac.point).mul
        (kPose st b)).r).mulM (wSum mb st s.jac.path z)).lin.get a := by
  have hrig := h.rigid _ (List.mem_of_getLast? hb)
  obtain ⟨sh, R, b1, b2, b3, b4, b6, b5⟩ := linear_full h hb _ _
    (world_frame (kPose st b) hrig s.jac.point) s.out.jacMat hr hc
  refine ⟨R, ?_, fun z a ha => ?_⟩
  · unfold LinVelT.update
    rw [jac_vel h.sized hb, Out.ok_bind, jac_acc h.sized hb, Out.ok_bind, jac_world h.sized hb,
      Out.ok_bind, b1, Out.ok_bind, b2, Out.ok_bind]
    rfl
  · rw [full_gen h.sized.mem h.rigid _ R 3 (fun a v => v.get (3 + a)) (fun a => lin_get (3 + a)) b4 b6
      z a ha, MV.get_lin _ ha]

theorem ori_exact {x : ℕ → K}
    (rotErr : M3 K → M3 K → V3 K) (b : ℕ) (J : Jac K) (ori : M3 K) (res : Mat K)
    (h : Moves mb st J.path x) (hb : J.path.getLast? = some b)
    (hr : res.rows = 3) (hc : res.cols = mb.nrDof) :
    ∃ R : Mat K, orientationUpdate rotErr mb st b J ori res
      = .ok ⟨rotErr (kPose st b).E ori,
          (((PT.ofRot (kPose st b).E.transpose).mul (PT.ofTrans J.point)).mulM (kVel st b)).ang,
          (((PT.ofRot (kPose st b).E.transpose).mul (PT.ofTrans J.point)).mulM (kAcc st b)
        + MV.cross ⟨(kPose st b).E.transpose.mulVec (kVel st b).ang, 0⟩
          (((PT.ofRot (kPose st b).E.transpose).mul (PT.ofTrans J.point)).mulM (kVel st b))).ang,
          R⟩ ∧
      ∀ z, ∀ a < 3, R.rowMul a z = ((PT.ofTrans ((PT.ofTrans J.point).mul
        (kPose st b)).r).mulM (wSum mb st J.path z)).ang.get a := by
  have hrig := h.rigid _ (List.mem_of_getLast? hb)
  obtain ⟨sh, R, b1, b2, b3, b4, b6, b5⟩ := angular_full h hb _ _
    (world_frame (kPose st b) hrig J.point) res hr hc
  refine ⟨R, ?_, fun z a ha => ?_⟩
  · unfold orientationUpdate
    rw [vecAt_getD PT.one (h.sized.pos _ (List.mem_of_getLast? hb)), Out.ok_bind,
      jac_vel h.sized hb, Out.ok_bind, jac_acc h.sized hb, Out.ok_bind, jac_world h.sized hb,
      Out.ok_bind, b1, Out.ok_bind, b2, Out.ok_bind]
    rfl
  · rw [full_gen h.sized.mem h.rigid _ R 3 (fun a v => v.get a) lin_get b4 b6 z a ha, MV.get_ang _ ha]

theorem surfOri_exact {x : ℕ → K}
    (rotVel : M3 K → V3 K) (b : ℕ) (J : Jac K) (ori : M3 K) (X_b_s : PT K) (res : Mat K)
    (h : Moves mb st J.path x) (hb : J.path.getLast? = some b)
    (hr : res.rows = 3) (hc : res.cols = mb.nrDof) :
    ∃ R : Mat K, surfaceOriUpdate rotVel mb st b J ori X_b_s res
      = .ok ⟨rotVel ((ori.mul (kPose st b).E.transpose).mul X_b_s.E.transpose),
          (X_b_s.mulM (kVel st b)).ang, (X_b_s.mulM (kAcc st b)).ang, R⟩ ∧
      ∀ z, ∀ a < 3, R.rowMul a z
        = ((X_b_s.mul (kPose st b)).mulM (wSum mb st J.path z)).ang.get a := by
  obtain ⟨sh, R, b1, b2, b3, b4, b6, b5⟩ := angular_full h hb (X_b_s.mul (kPose st b)) X_b_s rfl
    res hr hc
  refine ⟨R, ?_, fun z a ha => ?_⟩
  · unfold surfaceOriUpdate
    rw [vecAt_getD PT.one (h.sized.pos _ (List.mem_of_getLast? hb)), Out.ok_bind,
      jac_velAt h.sized hb, Out.ok_bind, jac_accAt h.sized hb, Out.ok_bind, jac_at h.sized]
    simp only [Out.ok_bind]
    unfold kPose at b1
    rw [b1, Out.ok_bind, b2, Out.ok_bind, MV.zero_cross, add_zero]
    rfl
  · rw [full_gen h.sized.mem h.rigid _ R 3 (fun a v => v.get a) lin_get b4 b6 z a ha, MV.get_ang _ ha]

theorem transform_exact {x : ℕ → K}
    (transErr : PT K → PT K → MV K) (b : ℕ) (J : Jac K) (X_0_t X_b_p : PT K) (E_0_c : M3 K)
    (res : Mat K) (h : Moves mb st J.path x) (hb : J.path.getLast? = some b)
    (hr : res.rows = 6) (hc : res.cols = mb.nrDof) (Y : PT K)
    (hY : Y = (PT.ofRot (E_0_c.mul (X_b_p.mul (kPose st b)).E.transpose)).mul X_b_p) :
    ∃ R : Mat K, transformUpdate transErr mb st b J X_0_t X_b_p E_0_c res
      = .ok ⟨(PT.ofRot E_0_c).mulM (transErr (X_b_p.mul (kPose st b)) X_0_t),
          Y.mulM (kVel st b),
          Y.mulM (kAcc st b) + MV.cross ⟨(Y.mulM (kVel st b)).ang, 0⟩ (Y.mulM (kVel st b)), R⟩ ∧
      ∀ z, ∀ a < 6, R.rowMul a z = ((Y.mul (kPose st b)).mulM (wSum mb st J.path z)).get a := by
  subst hY
  obtain ⟨R, g1, g2, g3, g4⟩ := full_of_cols h.sized
    ((PT.ofRot (E_0_c.mul (X_b_p.mul (st.bodyPosW.getD b PT.one)).E.transpose)).mul
      (X_b_p.mul (st.bodyPosW.getD b PT.one)))
    ⟨6, pathDof mb J.path, fun a k => ((pathCols mb (kCol st
      ((PT.ofRot (E_0_c.mul (X_b_p.mul (st.bodyPosW.getD b PT.one)).E.transpose)).mul
        (X_b_p.mul (st.bodyPosW.getD b PT.one)))) J.path).getD k 0).get a⟩ res 6
    (fun a v => v.get a) rfl rfl (fun _ _ _ _ => rfl) hr.ge hc.symm
  refine ⟨R, ?_, fun z a ha => ?_⟩
  · unfold transformUpdate
    rw [vecAt_getD PT.one (h.sized.pos _ (List.mem_of_getLast? hb)), Out.ok_bind]
    dsimp only
    rw [jac_velAt h.sized hb, Out.ok_bind, jac_accAt h.sized hb, Out.ok_bind, jac_at h.sized,
      Out.ok_bind, g1, Out.ok_bind]
    rfl
  · rw [full_gen h.sized.mem h.rigid _ R 6 (fun a v => v.get a) lin_get (g3.trans hc) g4 z a ha,
      PT.mul_assoc']
    rfl

/-- The Jacobian corrected for the rotation of the error frame, applied to arbitrary rates. -/
theorem subCross_gen {path : List ℕ} (hs : KSized mb st path) (hrig : ∀ i ∈ path, (kPose st i).Rigid)
    (X : PT K) (err : MV K) (res : Mat K) (hr : res.rows = 6) (hc : res.cols = mb.nrDof) :
    ∃ M R, subCross err (⟨6, pathDof mb path, fun a k =>
        ((pathCols mb (kCol st X) path).getD k 0).get a⟩ : Mat K) (pathDof mb path) = .ok M ∧
      fullJacobian mb path M res = .ok R ∧
      ∀ z, ∀ a < 6, R.rowMul a z = (X.mulM (wSum mb st path z)
        - err.cross ⟨(X.mulM (wSum mb st path z)).ang, 0⟩).get a := by
  have e := subCross_ok err (⟨6, pathDof mb path, fun a k =>
    ((pathCols mb (kCol st X) path).getD k 0).get a⟩ : Mat K) rfl
  dsimp only at e
  obtain ⟨R, g1, g2, g3, g4⟩ := full_of_cols hs X ⟨6, pathDof mb path, fun a k =>
    if k < pathDof mb path then ((pathCols mb (kCol st X) path).getD k 0).get a
      - (err.cross ⟨⟨((pathCols mb (kCol st X) path).getD k 0).get 0,
          ((pathCols mb (kCol st X) path).getD k 0).get 1,
          ((pathCols mb (kCol st X) path).getD k 0).get 2⟩, 0⟩).get a
    else ((pathCols mb (kCol st X) path).getD k 0).get a⟩ res 6
    (fun a v => v.get a - (err.cross ⟨v.ang, 0⟩).get a) rfl rfl
    (fun a _ k hk => by
      dsimp only
      rw [if_pos hk]
      rfl) hr.ge hc.symm
  refine ⟨_, R, e, g1, fun z a ha => ?_⟩
  rw [full_gen hs.mem hrig X R 6
    (fun a v => v.get a - (err.cross ⟨v.ang, 0⟩).get a) (lin_subCross err) (g3.trans hc) g4 z a ha,
    MV.get_sub]

theorem surface_exact {x : ℕ → K}
    (transVel : PT K → MV K) (b : ℕ) (J : Jac K) (X_0_t X_b_p : PT K)
    (res : Mat K) (h : Moves mb st J.path x) (hb : J.path.getLast? = some b)
    (hr : res.rows = 6) (hc : res.cols = mb.nrDof) (err V A : MV K)
    (he : err = transVel (X_0_t.mul (X_b_p.mul (kPose st b)).inv))
    (hV : V = X_b_p.mulM (kVel st b)) (hA : A = X_b_p.mulM (kAcc st b)) :
    ∃ R : Mat K, surfaceUpdate transVel mb st b J X_0_t X_b_p res
      = .ok ⟨err, V - err.cross ⟨V.ang, 0⟩,
          A - err.cross ⟨A.ang, 0⟩ - (err.cross ⟨V.ang, 0⟩ - V).cross ⟨V.ang, 0⟩, R⟩ ∧
      ∀ z, ∀ a < 6, R.rowMul a z
        = ((X_b_p.mul (kPose st b)).mulM (wSum mb st J.path z)
          - err.cross ⟨((X_b_p.mul (kPose st b)).mulM (wSum mb st J.path z)).ang, 0⟩).get a := by
  subst he hV hA
  obtain ⟨M, R, e, g1, g2⟩ := subCross_gen h.sized h.rigid (X_b_p.mul (st.bodyPosW.getD b PT.one))
    (transVel (X_0_t.mul (X_b_p.mul (st.bodyPosW.getD b PT.one)).inv)) res hr hc
  refine ⟨R, ?_, g2⟩
  unfold surfaceUpdate
  rw [vecAt_getD PT.one (h.sized.pos _ (List.mem_of_getLast? hb)), Out.ok_bind]
  dsimp only
  rw [jac_velAt h.sized hb, Out.ok_bind, jac_accAt h.sized hb, Out.ok_bind, jac_at h.sized,
    Out.ok_bind, e, Out.ok_bind, g1, Out.ok_bind, Out.pure_eq, MV.zero_cross, add_zero]
  unfold kPose kAcc
  congr 2
  · abel
  · abel

theorem multi_exact {mb1 mb2 : MultiBody K} {st1 st2 : KState K} {x1 x2 : ℕ → K}
    (transVel : PT K → MV K) (b1 b2 : ℕ) (J1 J2 : Jac K) (X1 X2 : PT K)
    (res1 res2 : Mat K) (h1 : Moves mb1 st1 J1.path x1) (hb1 : J1.path.getLast? = some b1)
    (h2 : Moves mb2 st2 J2.path x2) (hb2 : J2.path.getLast? = some b2)
    (hr1 : res1.rows = 6) (hc1 : res1.cols = mb1.nrDof)
    (hr2 : res2.rows = 6) (hc2 : res2.cols = mb2.nrDof) (Y : PT K) (err V1 V2 A1 A2 : MV K)
    (hY : Y = (PT.ofRot ((X2.mul (kPose st2 b2)).mul (X1.mul (kPose st1 b1)).inv).E.transpose).mul X2)
    (he : err = transVel ((X2.mul (kPose st2 b2)).mul (X1.mul (kPose st1 b1)).inv))
    (hV1 : V1 = X1.mulM (kVel st1 b1)) (hA1 : A1 = X1.mulM (kAcc st1 b1))
    (hV2 : V2 = Y.mulM (kVel st2 b2)) (hA2 : A2 = Y.mulM (kAcc st2 b2)) :
    ∃ R1 R2 : Mat K, multiTransformUpdate transVel mb1 mb2 st1 st2 b1 b2 J1 J2 X1 X2 res1 res2
      = .ok (⟨err, V1 - err.cross ⟨V1.ang, 0⟩ - V2,
          A1 - err.cross ⟨A1.ang, 0⟩ - (err.cross ⟨V1.ang, 0⟩ + (V2 - V1)).cross ⟨V1.ang, 0⟩
            - (A2 + MV.cross ⟨(V2 - V1).ang, 0⟩ V2), R1⟩, R2) ∧
      (∀ z, ∀ a < 6, R1.rowMul a z
        = ((X1.mul (kPose st1 b1)).mulM (wSum mb1 st1 J1.path z)
          - err.cross ⟨((X1.mul (kPose st1 b1)).mulM (wSum mb1 st1 J1.path z)).ang, 0⟩).get a) ∧
      ∀ z, ∀ a < 6, R2.rowMul a z
        = -((Y.mul (kPose st2 b2)).mulM (wSum mb2 st2 J2.path z)).get a := by
  subst he hV1 hA1 hV2 hA2 hY
  obtain ⟨M, R, e, g1, g2⟩ := subCross_gen h1.sized h1.rigid (X1.mul (st1.bodyPosW.getD b1 PT.one))
    (transVel ((X2.mul (st2.bodyPosW.getD b2 PT.one)).mul (X1.mul (st1.bodyPosW.getD b1 PT.one)).inv))
    res1 hr1 hc1
  obtain ⟨R2, k1, k2, k3, k4⟩ := full_of_cols h2.sized
    ((PT.ofRot ((X2.mul (st2.bodyPosW.getD b2 PT.one)).mul
      (X1.mul (st1.bodyPosW.getD b1 PT.one)).inv).E.transpose).mul
        (X2.mul (st2.bodyPosW.getD b2 PT.one)))
    (Mat.neg ⟨6, pathDof mb2 J2.path, fun a k => ((pathCols mb2 (kCol st2
      ((PT.ofRot ((X2.mul (st2.bodyPosW.getD b2 PT.one)).mul
        (X1.mul (st1.bodyPosW.getD b1 PT.one)).inv).E.transpose).mul
        (X2.mul (st2.bodyPosW.getD b2 PT.one)))) J2.path).getD k 0).get a⟩) res2 6
    (fun a v => -v.get a) rfl rfl (fun _ _ _ _ => rfl) hr2.ge hc2.symm
  refine ⟨R, R2, ?_, g2, fun z a ha => ?_⟩
  · unfold multiTransformUpdate
    rw [vecAt_getD PT.one (h1.sized.pos _ (List.mem_of_getLast? hb1)), Out.ok_bind,
      vecAt_getD PT.one (h2.sized.pos _ (List.mem_of_getLast? hb2)), Out.ok_bind]
    dsimp only
    rw [jac_velAt h1.sized hb1, Out.ok_bind, jac_velAt h2.sized hb2, Out.ok_bind,
      jac_accAt h1.sized hb1, Out.ok_bind, jac_accAt h2.sized hb2, Out.ok_bind,
      jac_at h1.sized, Out.ok_bind, e, Out.ok_bind, jac_at h2.sized, Out.ok_bind, g1, Out.ok_bind, k1,
      Out.ok_bind, Out.pure_eq, MV.zero_cross, add_zero]
    unfold kPose kAcc
    congr 3
    · abel
    · abel
  · rw [full_gen h2.sized.mem h2.rigid _ R2 6 (fun a v => -v.get a) lin_neg_get (k3.trans hc2) k4 z a ha,
      PT.mul_assoc' (PT.ofRot _) X2]
    rfl

theorem vecOri_exact {x : ℕ → K}
    (b : ℕ) (J : Jac K) (bv target : V3 K) (junk : ℕ → ℕ → K)
    (h : Moves mb st J.path x) (hb : J.path.getLast? = some b) :
    ∃ R : Mat K, vectorOriUpdate mb st b J bv target junk
      = .ok (⟨target - (kPose st b).E.transpose.mulVec bv,
          (kPose st b).E.transpose.mulVec (((PT.ofTrans J.point).mulM (kVel st b)).ang.cross bv),
          (kPose st b).E.transpose.mulVec (((PT.ofTrans J.point).mulM (kVel st b)).ang.cross
              (((PT.ofTrans J.point).mulM (kVel st b)).ang.cross bv)
            + ((PT.ofTrans J.point).mulM (kAcc st b)).ang.cross bv), R⟩,
          (kPose st b).E.transpose.mulVec bv) ∧
      ∀ z, ∀ a < 3, R.rowMul a z = ((kPose st b).E.transpose.mulVec
        ((((PT.ofTrans J.point).mul (kPose st b)).mulM (wSum mb st J.path z)).ang.cross bv)).get a := by
  obtain ⟨sh, F, b1, b2, b3, b4, b6, b5⟩ := angular_full h hb
    ((PT.ofTrans J.point).mul (kPose st b)) (PT.ofTrans J.point) rfl ⟨3, mb.nrDof, junk⟩ rfl rfl
  refine Exists.intro _ ⟨by
    unfold vectorOriUpdate
    rw [vecAt_getD PT.one (h.sized.pos _ (List.mem_of_getLast? hb)), Out.ok_bind]
    dsimp only
    rw [jac_bodyJac h.sized hb, Out.ok_bind, b1, Out.ok_bind, b2, Out.ok_bind]
    unfold Jac.bodyVelocity Jac.bodyNormalAcc
    rw [jac_velAt h.sized hb, Out.ok_bind, jac_accAt h.sized hb, Out.ok_bind, MV.zero_cross, add_zero]
    rfl, fun z a ha => ?_⟩
  have g := full_gen h.sized.mem h.rigid _ F 3 (fun a v => v.get a) lin_get b4 b6 z
  have h0 := g 0 (by omega)
  have h1 := g 1 (by omega)
  have h2 := g 2 (by omega)
  rw [MV.get_ang _ (by omega)] at h0 h1 h2
  unfold Mat.rowMul at h0 h1 h2
  unfold Mat.rowMul M3.mulMat
  dsimp only
  rw [M3.mulVec_rows, h0, h1, h2]
  congr 1
  generalize (((PT.ofTrans J.point).mul (kPose st b)).mulM (wSum mb st J.path z)).ang = w
  rw [M3.mul_mulVec, M3.neg_mulVec, ← M3.mulVec_neg]
  congr 1
  ext <;> simp [M3.mulVec, V3.dot, V3.get, skewMatrix] <;> ring

theorem visual_exact {x : ℕ → K}
    (r : ℕ) (L : ℕ → ℕ → K) (Ldot : (ℕ → K) → (ℕ → K) → ℕ → ℕ → K)
    (b : ℕ) (J : Jac K) (X_b_s : PT K) (res : Mat K)
    (h : Moves mb st J.path x) (hb : J.path.getLast? = some b)
    (hr : res.rows = r) (hc : res.cols = mb.nrDof) (V : MV K) (hV : V = X_b_s.mulM (kVel st b)) :
    ∃ R : Mat K, visualUpdate r L Ldot mb st b J X_b_s res
      = .ok (⟨r, fun a => ∑ j ∈ range 6, L a j * V.get j⟩,
          ⟨r, fun a => ∑ j ∈ range 6, L a j * (X_b_s.mulM (kAcc st b)).get j
            + ∑ j ∈ range 6, Ldot (fun a => ∑ j ∈ range 6, L a j * V.get j) V.get a j * V.get j⟩, R) ∧
      ∀ z, ∀ a < r, R.rowMul a z = ∑ j ∈ range 6, L a j *
        ((X_b_s.mul (kPose st b)).mulM (wSum mb st J.path z)).get j := by
  subst hV
  obtain ⟨R, g1, g2, g3, g4⟩ := full_of_cols h.sized (X_b_s.mul (st.bodyPosW.getD b PT.one))
    (lMul r L ⟨6, pathDof mb J.path, fun a k => ((pathCols mb (kCol st
      (X_b_s.mul (st.bodyPosW.getD b PT.one))) J.path).getD (0 + k) 0).get (0 + a)⟩) res r
    (fun a v => ∑ j ∈ range 6, L a j * v.get j) rfl rfl
    (fun a _ k _ => by simp [lMul]) hr.ge hc.symm
  refine ⟨R, ?_, fun z a ha => ?_⟩
  · unfold visualUpdate
    rw [vecAt_getD PT.one (h.sized.pos _ (List.mem_of_getLast? hb)), Out.ok_bind]
    dsimp only
    rw [jac_velAt h.sized hb, Out.ok_bind, jac_accAt h.sized hb, Out.ok_bind, jac_at h.sized,
      Out.ok_bind, block_ok (by simp), Out.ok_bind, g1, Out.ok_bind, MV.zero_cross, add_zero]
    rfl
  · rw [full_gen h.sized.mem h.rigid _ R r (fun a v => ∑ j ∈ range 6, L a j * v.get j) (lin_lMul L)
      (g3.trans hc) g4 z a ha]
    rfl

end

end Verif
