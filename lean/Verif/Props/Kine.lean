import Verif.Proofs.Kine

/-!
# C51: the reported speed is the Jacobian applied to the joint velocities

The state of the robot is any result of forward kinematics and velocity (`Spec.Moves`): rigid poses,
each body moved by its predecessor and its own joint, for an arbitrary joint path, arbitrary motion
subspaces and an arbitrary velocity vector `x`.
-/

set_option autoImplicit false
set_option linter.unusedSectionVars false

namespace Verif

open Finset Spec

section
variable {K : Type} [CommRing K]

namespace Spec

/-- `speed = jac * x` for results with three entries. -/
def SpeedIsJac3 (mb : MultiBody K) (o : Out3 K) (x : ℕ → K) : Prop :=
  o.jacMat.rows = 3 ∧ o.jacMat.cols = mb.nrDof ∧ ∀ a < 3, o.jacMat.rowMul a x = o.speed.get a

/-- `speed = jac * x` for results with six entries. -/
def SpeedIsJac6 (mb : MultiBody K) (o : Out6 K) (x : ℕ → K) : Prop :=
  o.jacMat.rows = 6 ∧ o.jacMat.cols = mb.nrDof ∧ ∀ a < 6, o.jacMat.rowMul a x = o.speed.get a

end Spec

theorem MV.get_ang (m : MV K) {a : ℕ} (h : a < 3) : m.get a = m.ang.get a := by
  unfold MV.get
  rw [if_pos h]

theorem MV.get_lin (m : MV K) {a : ℕ} (h : a < 3) : m.get (3 + a) = m.lin.get a := by
  unfold MV.get
  rw [if_neg (by omega), Nat.add_sub_cancel_left]

/-- Angular rows at a frame carried by the body. -/
theorem angular_full {mb : MultiBody K} {st : KState K} {path : List ℕ} {x : ℕ → K}
    (h : Moves mb st path x) {N : ℕ} (hN : path.getLast? = some N) (X Y : PT K)
    (hX : X = Y.mul (kPose st N)) (res : Mat K) (hr : res.rows = 3) (hc : res.cols = mb.nrDof) :
    ∃ sh R, Mat.block (⟨6, pathDof mb path, fun a k =>
        ((pathCols mb (kCol st X) path).getD k 0).get a⟩ : Mat K) 0 0 3 (pathDof mb path) = .ok sh ∧
      fullJacobian mb path sh res = .ok R ∧ R.rows = 3 ∧ R.cols = mb.nrDof ∧
      (∀ a < 3, ∀ c < mb.nrDof, R.get a c
        = onDofs mb path (fun k => ((pathCols mb (kCol st X) path).getD k 0).get a) c) ∧
      ∀ a < 3, R.rowMul a x = (Y.mulM (kVel st N)).ang.get a := by
  obtain ⟨R, g1, g2, g3, g4⟩ := full_of_cols h.sized X ⟨3, pathDof mb path, fun a k =>
    ((pathCols mb (kCol st X) path).getD (0 + k) 0).get (0 + a)⟩ res 3 (fun a v => v.get a) rfl rfl
    (fun a _ k _ => by dsimp only; rw [Nat.zero_add, Nat.zero_add]) hr.ge hc.symm
  refine ⟨_, R, block_ok (by simp), g1, g2.trans hr, g3.trans hc, g4, fun a ha => ?_⟩
  rw [full_mul' h hN X Y hX R 3 (fun a v => v.get a) lin_get (g3.trans hc) g4 a ha,
    MV.get_ang _ ha]

/-- Linear rows. -/
theorem linear_full {mb : MultiBody K} {st : KState K} {path : List ℕ} {x : ℕ → K}
    (h : Moves mb st path x) {N : ℕ} (hN : path.getLast? = some N) (X Y : PT K)
    (hX : X = Y.mul (kPose st N)) (res : Mat K) (hr : res.rows = 3) (hc : res.cols = mb.nrDof) :
    ∃ sh R, Mat.block (⟨6, pathDof mb path, fun a k =>
        ((pathCols mb (kCol st X) path).getD k 0).get a⟩ : Mat K) 3 0 3 (pathDof mb path) = .ok sh ∧
      fullJacobian mb path sh res = .ok R ∧ R.rows = 3 ∧ R.cols = mb.nrDof ∧
      (∀ a < 3, ∀ c < mb.nrDof, R.get a c
        = onDofs mb path (fun k => ((pathCols mb (kCol st X) path).getD k 0).get (3 + a)) c) ∧
      ∀ a < 3, R.rowMul a x = (Y.mulM (kVel st N)).lin.get a := by
  obtain ⟨R, g1, g2, g3, g4⟩ := full_of_cols h.sized X ⟨3, pathDof mb path, fun a k =>
    ((pathCols mb (kCol st X) path).getD (0 + k) 0).get (3 + a)⟩ res 3 (fun a v => v.get (3 + a)) rfl
    rfl (fun a _ k _ => by dsimp only; rw [Nat.zero_add]) hr.ge hc.symm
  refine ⟨_, R, block_ok (by simp), g1, g2.trans hr, g3.trans hc, g4, fun a ha => ?_⟩
  rw [full_mul' h hN X Y hX R 3 (fun a v => v.get (3 + a)) (fun a => lin_get (3 + a))
    (g3.trans hc) g4 a ha, MV.get_lin _ ha]

/-! ## The tasks -/

/-- PositionTask. -/
theorem C51_position {mb : MultiBody K} {st : KState K} {x : ℕ → K} (s : PositionT K)
    (h : Moves mb st s.jac.path x) (hb : s.jac.path.getLast? = some s.bodyIndex)
    (hr : s.out.jacMat.rows = 3) (hc : s.out.jacMat.cols = mb.nrDof) :
    ∃ s', s.update mb st = .ok s' ∧ SpeedIsJac3 mb s'.out x := by
  have hrig := h.rigid _ (List.mem_of_getLast? hb)
  obtain ⟨sh, R, b1, b2, b3, b4, -, b5⟩ := linear_full h hb _ _
    (world_frame (kPose st s.bodyIndex) hrig s.jac.point) s.out.jacMat hr hc
  unfold PositionT.update
  rw [vecAt_getD PT.one (h.sized.pos _ (List.mem_of_getLast? hb)), Out.ok_bind,
    jac_vel h.sized hb, Out.ok_bind, jac_acc h.sized hb, Out.ok_bind, jac_world h.sized hb,
    Out.ok_bind, b1, Out.ok_bind, b2, Out.ok_bind]
  exact ⟨_, rfl, b3, b4, b5⟩

/-- OrientationTask. -/
theorem C51_orientation {mb : MultiBody K} {st : KState K} {x : ℕ → K}
    (rotErr : M3 K → M3 K → V3 K) (b : ℕ) (J : Jac K) (ori : M3 K) (res : Mat K)
    (h : Moves mb st J.path x) (hb : J.path.getLast? = some b)
    (hr : res.rows = 3) (hc : res.cols = mb.nrDof) :
    ∃ o, orientationUpdate rotErr mb st b J ori res = .ok o ∧ SpeedIsJac3 mb o x := by
  have hrig := h.rigid _ (List.mem_of_getLast? hb)
  obtain ⟨sh, R, b1, b2, b3, b4, -, b5⟩ := angular_full h hb _ _
    (world_frame (kPose st b) hrig J.point) res hr hc
  unfold orientationUpdate
  rw [vecAt_getD PT.one (h.sized.pos _ (List.mem_of_getLast? hb)), Out.ok_bind,
    jac_vel h.sized hb, Out.ok_bind, jac_acc h.sized hb, Out.ok_bind, jac_world h.sized hb,
    Out.ok_bind, b1, Out.ok_bind, b2, Out.ok_bind]
  exact ⟨_, rfl, b3, b4, b5⟩

/-- LinVelocityTask: the task is itself a velocity, its Jacobian applied to the joint velocities is the
velocity the error is taken of. -/
theorem C51_lin_velocity {mb : MultiBody K} {st : KState K} {x : ℕ → K} (s : LinVelT K) {b : ℕ}
    (h : Moves mb st s.jac.path x) (hb : s.jac.path.getLast? = some b)
    (hr : s.out.jacMat.rows = 3) (hc : s.out.jacMat.cols = mb.nrDof) :
    ∃ s', s.update mb st = .ok s' ∧ s'.out.jacMat.rows = 3 ∧ s'.out.jacMat.cols = mb.nrDof ∧
      ∀ a < 3, s'.out.jacMat.rowMul a x = (s.vel - s'.out.eval).get a := by
  have hrig := h.rigid _ (List.mem_of_getLast? hb)
  obtain ⟨sh, R, b1, b2, b3, b4, -, b5⟩ := linear_full h hb _ _
    (world_frame (kPose st b) hrig s.jac.point) s.out.jacMat hr hc
  unfold LinVelT.update
  rw [jac_vel h.sized hb, Out.ok_bind, jac_acc h.sized hb, Out.ok_bind, jac_world h.sized hb,
    Out.ok_bind, b1, Out.ok_bind, b2, Out.ok_bind]
  refine ⟨_, rfl, b3, b4, fun a ha => ?_⟩
  dsimp only
  rw [sub_sub_cancel, b5 a ha]

/-- SurfaceOrientationTask. -/
theorem C51_surface_orientation {mb : MultiBody K} {st : KState K} {x : ℕ → K}
    (rotVel : M3 K → V3 K) (b : ℕ) (J : Jac K) (ori : M3 K) (X_b_s : PT K) (res : Mat K)
    (h : Moves mb st J.path x) (hb : J.path.getLast? = some b)
    (hr : res.rows = 3) (hc : res.cols = mb.nrDof) :
    ∃ o, surfaceOriUpdate rotVel mb st b J ori X_b_s res = .ok o ∧ SpeedIsJac3 mb o x := by
  obtain ⟨sh, R, b1, b2, b3, b4, -, b5⟩ := angular_full h hb (X_b_s.mul (kPose st b)) X_b_s rfl
    res hr hc
  unfold surfaceOriUpdate
  rw [vecAt_getD PT.one (h.sized.pos _ (List.mem_of_getLast? hb)), Out.ok_bind,
    jac_velAt h.sized hb, Out.ok_bind, jac_accAt h.sized hb, Out.ok_bind, jac_at h.sized]
  simp only [Out.ok_bind]
  unfold kPose at b1
  rw [b1, Out.ok_bind, b2, Out.ok_bind]
  exact ⟨_, rfl, b3, b4, b5⟩

/-- TransformTask. -/
theorem C51_transform {mb : MultiBody K} {st : KState K} {x : ℕ → K}
    (transErr : PT K → PT K → MV K) (b : ℕ) (J : Jac K) (X_0_t X_b_p : PT K) (E_0_c : M3 K)
    (res : Mat K) (h : Moves mb st J.path x) (hb : J.path.getLast? = some b)
    (hr : res.rows = 6) (hc : res.cols = mb.nrDof) :
    ∃ o, transformUpdate transErr mb st b J X_0_t X_b_p E_0_c res = .ok o ∧
      SpeedIsJac6 mb o x := by
  unfold transformUpdate
  rw [vecAt_getD PT.one (h.sized.pos _ (List.mem_of_getLast? hb)), Out.ok_bind]
  dsimp only
  rw [jac_velAt h.sized hb, Out.ok_bind, jac_accAt h.sized hb, Out.ok_bind, jac_at h.sized,
    Out.ok_bind]
  generalize hEc : PT.ofRot (E_0_c.mul (X_b_p.mul (st.bodyPosW.getD b PT.one)).E.transpose) = Ec
  obtain ⟨R, g1, g2, g3, g4⟩ := full_of_cols h.sized (Ec.mul (X_b_p.mul (st.bodyPosW.getD b PT.one)))
    ⟨6, pathDof mb J.path, fun a k => ((pathCols mb (kCol st
      (Ec.mul (X_b_p.mul (st.bodyPosW.getD b PT.one)))) J.path).getD k 0).get a⟩ res 6
    (fun a v => v.get a) rfl rfl (fun _ _ _ _ => rfl) hr.ge hc.symm
  rw [g1, Out.ok_bind]
  exact ⟨_, rfl, g2.trans hr, g3.trans hc, full_mul' h hb _ (Ec.mul X_b_p)
    (PT.mul_assoc' _ _ _).symm R 6 (fun a v => v.get a) lin_get (g3.trans hc) g4⟩

/-- The Jacobian corrected for the rotation of the error frame. -/
theorem subCross_full {mb : MultiBody K} {st : KState K} {path : List ℕ} {x : ℕ → K}
    (h : Moves mb st path x) {N : ℕ} (hN : path.getLast? = some N) (X Y : PT K)
    (hX : X = Y.mul (kPose st N)) (err : MV K) (res : Mat K) (hr : res.rows = 6)
    (hc : res.cols = mb.nrDof) :
    ∃ M R, subCross err (⟨6, pathDof mb path, fun a k =>
        ((pathCols mb (kCol st X) path).getD k 0).get a⟩ : Mat K) (pathDof mb path) = .ok M ∧
      fullJacobian mb path M res = .ok R ∧ R.rows = 6 ∧ R.cols = mb.nrDof ∧
      ∀ a < 6, R.rowMul a x = (Y.mulM (kVel st N)).get a
        - (err.cross ⟨(Y.mulM (kVel st N)).ang, 0⟩).get a := by
  have e := subCross_ok err (⟨6, pathDof mb path, fun a k =>
    ((pathCols mb (kCol st X) path).getD k 0).get a⟩ : Mat K) rfl
  dsimp only at e
  obtain ⟨R, g1, g2, g3, g4⟩ := full_of_cols h.sized X ⟨6, pathDof mb path, fun a k =>
    if k < pathDof mb path then ((pathCols mb (kCol st X) path).getD k 0).get a
      - (err.cross ⟨⟨((pathCols mb (kCol st X) path).getD k 0).get 0,
          ((pathCols mb (kCol st X) path).getD k 0).get 1,
          ((pathCols mb (kCol st X) path).getD k 0).get 2⟩, 0⟩).get a
    else ((pathCols mb (kCol st X) path).getD k 0).get a⟩ res 6
    (fun a v => v.get a - (err.cross ⟨v.ang, 0⟩).get a) rfl rfl
    (fun a _ k hk => by
      dsimp only
      rw [if_pos hk]
      rfl) hr.ge hc.symm
  exact ⟨_, R, e, g1, g2.trans hr, g3.trans hc, full_mul' h hN X Y hX R 6
    (fun a v => v.get a - (err.cross ⟨v.ang, 0⟩).get a) (lin_subCross err) (g3.trans hc) g4⟩

/-- SurfaceTransformTask. -/
theorem C51_surface_transform {mb : MultiBody K} {st : KState K} {x : ℕ → K}
    (transVel : PT K → MV K) (b : ℕ) (J : Jac K) (X_0_t X_b_p : PT K)
    (res : Mat K) (h : Moves mb st J.path x) (hb : J.path.getLast? = some b)
    (hr : res.rows = 6) (hc : res.cols = mb.nrDof) :
    ∃ o, surfaceUpdate transVel mb st b J X_0_t X_b_p res = .ok o ∧ SpeedIsJac6 mb o x := by
  unfold surfaceUpdate
  rw [vecAt_getD PT.one (h.sized.pos _ (List.mem_of_getLast? hb)), Out.ok_bind]
  dsimp only
  rw [jac_velAt h.sized hb, Out.ok_bind, jac_accAt h.sized hb, Out.ok_bind, jac_at h.sized,
    Out.ok_bind]
  obtain ⟨M, R, e, g1, g2, g3, g4⟩ := subCross_full h hb (X_b_p.mul (st.bodyPosW.getD b PT.one))
    X_b_p rfl (transVel (X_0_t.mul (X_b_p.mul (st.bodyPosW.getD b PT.one)).inv)) res hr hc
  rw [e, Out.ok_bind, g1, Out.ok_bind]
  refine ⟨_, rfl, g2, g3, fun a ha => ?_⟩
  rw [g4 a ha]
  dsimp only
  rw [MV.get_sub, MV.get_sub, MV.get_zero]
  ring

/-- MultiRobotTransformTask: the speed is the sum of the two Jacobians applied to the velocities of
the two robots (which may be the same robot). -/
theorem C51_multi_robot {mb1 mb2 : MultiBody K} {st1 st2 : KState K} {x1 x2 : ℕ → K}
    (transVel : PT K → MV K) (b1 b2 : ℕ) (J1 J2 : Jac K) (X1 X2 : PT K)
    (res1 res2 : Mat K) (h1 : Moves mb1 st1 J1.path x1) (hb1 : J1.path.getLast? = some b1)
    (h2 : Moves mb2 st2 J2.path x2) (hb2 : J2.path.getLast? = some b2)
    (hr1 : res1.rows = 6) (hc1 : res1.cols = mb1.nrDof)
    (hr2 : res2.rows = 6) (hc2 : res2.cols = mb2.nrDof) :
    ∃ o R2, multiTransformUpdate transVel mb1 mb2 st1 st2 b1 b2 J1 J2 X1 X2 res1 res2
        = .ok (o, R2) ∧
      o.jacMat.rows = 6 ∧ o.jacMat.cols = mb1.nrDof ∧ R2.rows = 6 ∧ R2.cols = mb2.nrDof ∧
      ∀ a < 6, o.jacMat.rowMul a x1 + R2.rowMul a x2 = o.speed.get a := by
  unfold multiTransformUpdate
  rw [vecAt_getD PT.one (h1.sized.pos _ (List.mem_of_getLast? hb1)), Out.ok_bind,
    vecAt_getD PT.one (h2.sized.pos _ (List.mem_of_getLast? hb2)), Out.ok_bind]
  dsimp only
  rw [jac_velAt h1.sized hb1, Out.ok_bind, jac_velAt h2.sized hb2, Out.ok_bind,
    jac_accAt h1.sized hb1, Out.ok_bind, jac_accAt h2.sized hb2, Out.ok_bind,
    jac_at h1.sized, Out.ok_bind]
  generalize hS1 : X1.mul (st1.bodyPosW.getD b1 PT.one) = S1
  generalize hE : PT.ofRot ((X2.mul (st2.bodyPosW.getD b2 PT.one)).mul S1.inv).E.transpose = E21
  obtain ⟨M, R, e, g1, g2, g3, g4⟩ := subCross_full h1 hb1 S1 X1 hS1.symm
    (transVel ((X2.mul (st2.bodyPosW.getD b2 PT.one)).mul S1.inv)) res1 hr1 hc1
  rw [e, Out.ok_bind, jac_at h2.sized, Out.ok_bind, g1, Out.ok_bind]
  obtain ⟨R2, k1, k2, k3, k4⟩ := full_of_cols h2.sized
    (E21.mul (X2.mul (st2.bodyPosW.getD b2 PT.one)))
    (Mat.neg ⟨6, pathDof mb2 J2.path, fun a k => ((pathCols mb2 (kCol st2
      (E21.mul (X2.mul (st2.bodyPosW.getD b2 PT.one)))) J2.path).getD k 0).get a⟩) res2 6
    (fun a v => -v.get a) rfl rfl (fun _ _ _ _ => rfl) hr2.ge hc2.symm
  rw [k1, Out.ok_bind]
  refine ⟨_, _, rfl, g2, g3, k2.trans hr2, k3.trans hc2, fun a ha => ?_⟩
  rw [g4 a ha, full_mul' h2 hb2 _ (E21.mul X2) (PT.mul_assoc' _ _ _).symm R2 6
    (fun a v => -v.get a) lin_neg_get (k3.trans hc2) k4 a ha]
  dsimp only
  rw [MV.get_sub, MV.get_add, MV.get_sub, MV.get_zero]
  ring

theorem M3.mulVec_rows (m : M3 K) (n : ℕ) (f : ℕ → V3 K) (x : ℕ → K) (a : ℕ) :
    ∑ c ∈ range n, (m.mulVec (f c)).get a * x c
      = (m.mulVec ⟨∑ c ∈ range n, (f c).x * x c, ∑ c ∈ range n, (f c).y * x c,
          ∑ c ∈ range n, (f c).z * x c⟩).get a := by
  induction n with
  | zero =>
    simp only [Finset.sum_range_zero]
    unfold V3.get
    split <;> simp [M3.mulVec, V3.dot]
  | succ n ih =>
    simp only [Finset.sum_range_succ]
    rw [ih]
    unfold V3.get
    split <;> simp only [M3.mulVec, V3.dot] <;> ring

/-- VectorOrientationTask. -/
theorem C51_vector_orientation {mb : MultiBody K} {st : KState K} {x : ℕ → K}
    (b : ℕ) (J : Jac K) (bv target : V3 K) (junk : ℕ → ℕ → K)
    (h : Moves mb st J.path x) (hb : J.path.getLast? = some b) :
    ∃ o act, vectorOriUpdate mb st b J bv target junk = .ok (o, act) ∧ SpeedIsJac3 mb o x := by
  obtain ⟨sh, R, b1, b2, b3, b4, -, b5⟩ := angular_full h hb
    ((PT.ofTrans J.point).mul (kPose st b)) (PT.ofTrans J.point) rfl ⟨3, mb.nrDof, junk⟩ rfl rfl
  unfold vectorOriUpdate
  rw [vecAt_getD PT.one (h.sized.pos _ (List.mem_of_getLast? hb)), Out.ok_bind]
  dsimp only
  rw [jac_bodyJac h.sized hb, Out.ok_bind, b1, Out.ok_bind, b2, Out.ok_bind]
  unfold Jac.bodyVelocity Jac.bodyNormalAcc
  rw [jac_velAt h.sized hb, Out.ok_bind, jac_accAt h.sized hb, Out.ok_bind]
  refine ⟨_, _, rfl, rfl, b4, fun a _ => ?_⟩
  have h0 := b5 0 (by omega)
  have h1 := b5 1 (by omega)
  have h2 := b5 2 (by omega)
  unfold Mat.rowMul at h0 h1 h2
  unfold Mat.rowMul M3.mulMat
  dsimp only
  rw [M3.mulVec_rows, h0, h1, h2]
  congr 1
  generalize ((PT.ofTrans J.point).mulM (kVel st b)).ang = w
  rw [M3.mul_mulVec, M3.neg_mulVec, ← M3.mulVec_neg]
  congr 1
  ext <;> simp [M3.mulVec, V3.dot, V3.get, skewMatrix] <;> ring

/-- GazeTask and PositionBasedVisServoTask, for every interaction matrix. -/
theorem C51_visual {mb : MultiBody K} {st : KState K} {x : ℕ → K}
    (r : ℕ) (L : ℕ → ℕ → K) (Ldot : (ℕ → K) → (ℕ → K) → ℕ → ℕ → K)
    (b : ℕ) (J : Jac K) (X_b_s : PT K) (res : Mat K)
    (h : Moves mb st J.path x) (hb : J.path.getLast? = some b)
    (hr : res.rows = r) (hc : res.cols = mb.nrDof) :
    ∃ speed nacc M, visualUpdate r L Ldot mb st b J X_b_s res = .ok (speed, nacc, M) ∧
      M.rows = r ∧ M.cols = mb.nrDof ∧ speed.size = r ∧ ∀ a < r, M.rowMul a x = speed.get a := by
  unfold visualUpdate
  rw [vecAt_getD PT.one (h.sized.pos _ (List.mem_of_getLast? hb)), Out.ok_bind]
  dsimp only
  rw [jac_velAt h.sized hb, Out.ok_bind, jac_accAt h.sized hb, Out.ok_bind, jac_at h.sized,
    Out.ok_bind, block_ok (by simp), Out.ok_bind]
  obtain ⟨R, g1, g2, g3, g4⟩ := full_of_cols h.sized (X_b_s.mul (st.bodyPosW.getD b PT.one))
    (lMul r L ⟨6, pathDof mb J.path, fun a k => ((pathCols mb (kCol st
      (X_b_s.mul (st.bodyPosW.getD b PT.one))) J.path).getD (0 + k) 0).get (0 + a)⟩) res r
    (fun a v => ∑ j ∈ range 6, L a j * v.get j) rfl rfl
    (fun a _ k _ => by simp [lMul]) hr.ge hc.symm
  rw [g1, Out.ok_bind]
  exact ⟨_, _, _, rfl, g2.trans hr, g3.trans hc, rfl, full_mul' h hb _ X_b_s rfl R r
    (fun a v => ∑ j ∈ range 6, L a j * v.get j) (lin_lMul L) (g3.trans hc) g4⟩

end

/-! ## Example -/

namespace KineEx

/-- Two joints turning about `z`, the first turned by 90 degrees, the second one metre further. -/
def mb : MultiBody ℚ := { joints := [⟨"a", 1, none⟩, ⟨"b", 1, none⟩], nrBodies := 2,
                          pred := [-1, 0], succ := [0, 1] }
def rz : MV ℚ := ⟨⟨0, 0, 1⟩, 0⟩
def X0 : PT ℚ := ⟨⟨⟨0, 1, 0⟩, ⟨-1, 0, 0⟩, ⟨0, 0, 1⟩⟩, 0⟩
def P1 : PT ℚ := PT.ofTrans ⟨1, 0, 0⟩
def V0 : MV ℚ := ⟨⟨0, 0, 2⟩, 0⟩
def V1 : MV ℚ := ⟨⟨0, 0, 5⟩, ⟨0, 2, 0⟩⟩
def st : KState ℚ := ⟨[X0, P1.mul X0], [V0, V1], [[rz], [rz]], [[2], [3]], [0, 0]⟩
/-- Joint velocities 2 and 3. -/
def x : ℕ → ℚ := fun i => [2, 3].getD i 0

theorem moves : Moves mb st [0, 1] x := by
  refine ⟨⟨by simp, by simp, by simp [mb], by simp [st], by simp [st], by simp [st], ?_⟩, ?_, ?_⟩
  · simp [st, mb, jdof]
  · intro i hi
    simp at hi
    rcases hi with rfl | rfl <;>
      simp [kPose, st, X0, P1, PT.Rigid, M3.IsRot, M3.RowsOrtho, V3.dot, V3.cross, PT.mul,
        PT.ofTrans, M3.mul, M3.one, M3.transpose]
  · refine ⟨?_, ⟨P1, PT.rigid_ofTrans _, rfl, ?_⟩, trivial⟩
    · ext <;> simp [kVel, kSub, st, mb, jdof, jpos, x, rz, V0]
    · ext <;> simp [kVel, kSub, st, mb, jdof, jpos, x, rz, V0, V1, P1, PT.mulM, PT.ofTrans, M3.mulVec,
        M3.one, V3.dot] <;> norm_num

/-- The position task on the tip of the second link (at `(1, 0, 0)` of the second body): the theorem
applies, and the speed is `(-7, 0, 0)`: two metres above the first joint turning at 2, one metre above
the second turning at 3. -/
example : ∃ s', (PositionT.make 1 [0, 1] 0 ⟨1, 0, 0⟩ ⟨0, 0, 0, ⟨3, 2, fun _ _ => 7⟩⟩).update mb st
      = .ok s' ∧ SpeedIsJac3 mb s'.out x ∧ s'.out.speed = ⟨-7, 0, 0⟩ := by
  obtain ⟨s', h1, h2⟩ := C51_position
    (PositionT.make 1 [0, 1] 0 ⟨1, 0, 0⟩ ⟨0, 0, 0, ⟨3, 2, fun _ _ => 7⟩⟩) moves rfl rfl rfl
  refine ⟨s', h1, h2, ?_⟩
  have e : s'.out.speed = (((PT.ofRot (kPose st 1).E.transpose).mul
      (PT.ofTrans ⟨1, 0, 0⟩)).mulM (kVel st 1)).lin := by
    have h3 := h1
    simp only [PositionT.update, Out.bind_eq_ok] at h3
    obtain ⟨_, _, v, hv, _, _, _, _, _, _, _, _, h4⟩ := h3
    have hv' := jac_vel (J := (⟨[0, 1], ⟨1, 0, 0⟩⟩ : Jac ℚ)) moves.sized (N := 1) rfl
    have : v = _ := Out.ok.inj (hv.symm.trans hv')
    rw [Out.pure_eq] at h4
    rw [← Out.ok.inj h4, this]
  rw [e]
  ext <;> simp [kPose, kVel, st, X0, P1, V1, PT.mul, PT.ofTrans, PT.ofRot, PT.mulM, M3.mul, M3.one,
    M3.transpose, M3.mulVec, V3.dot, V3.cross] <;> norm_num

end KineEx

end Verif
