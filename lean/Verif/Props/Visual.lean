import Verif.Model.Visual
import Verif.Props.Momentum

/-!
# C65: visual servoing tasks

A camera carried by the robot looks at a point fixed in the world.  When `GazeTask` is told where the camera
sees the point, its error decreases at the speed it reports and the Jacobian gives that speed.  The
normal acceleration is right if the depth rate handed to RBDyn is right; it is computed from the image
speed and the depth only, and no function of these gives the depth rate of every point.

`PositionBasedVisServoTask` is told the transform between a fixed target and the sensor: on the translation
rows the error decreases at the reported speed, if RBDyn's pose Jacobian is the interaction matrix of the
translation; the normal acceleration has the derivative of that matrix with the wrong sign.
-/

set_option autoImplicit false
set_option linter.unusedSectionVars false

namespace Verif

open Finset Spec Filter Topology

namespace Spec

/-- Coordinates in the frame `X` of the point `P` of the world. -/
def seen (X : PT ℝ) (P : V3 ℝ) : V3 ℝ := X.E.mulVec (P - X.r)

/-- The camera frame. -/
def cameraAt (X_b_c : PT ℝ) (st : KState ℝ) (b : ℕ) : PT ℝ := X_b_c.mul (kPose st b)

end Spec

theorem V3.get_neg' (v : V3 ℝ) (a : ℕ) : (-v).get a = -v.get a := by
  match a with
  | 0 => rfl
  | 1 => rfl
  | n + 2 => rfl

theorem V3.get_add' (u v : V3 ℝ) (a : ℕ) : (u + v).get a = u.get a + v.get a := by
  match a with
  | 0 => rfl
  | 1 => rfl
  | n + 2 => rfl

/-- Rate of the coordinates of a fixed point. -/
theorem seen_deriv {X : ℝ → PT ℝ} {V : MV ℝ} {t : ℝ} (h : FrameMoves X V t) (hr : (X t).Rigid) (P : V3 ℝ) :
    HasD3 (fun τ => seen (X τ) P) (-(V.ang.cross (seen (X t) P)) - V.lin) t := by
  refine (h.mulVec ((HasD3.const P t).sub h.2)).congr_deriv ?_
  rw [zero_sub, M3.mulVec_neg, hr.1.mulVec_transpose]
  unfold seen
  abel

section
variable {mb : MultiBody ℝ} {st : ℝ → KState ℝ} {x : ℝ → ℕ → ℝ} {xd : ℕ → ℝ} {t : ℝ}

theorem camera_moves {b : ℕ} {path : List ℕ} (h : Evolves mb st path x xd t) (hb : path.getLast? = some b)
    {Y : PT ℝ} (hY : Y.Rigid) :
    FrameMoves (fun τ => cameraAt Y (st τ) b) (Y.mulM (kVel (st t) b)) t :=
  (h.frame b (List.mem_of_getLast? hb)).carried hY

/-- Rate of the projection of the point. -/
theorem proj_deriv {q : ℝ → V3 ℝ} {V : MV ℝ} (hq : HasD3 q (-(V.ang.cross (q t)) - V.lin) t)
    (hz : (q t).z ≠ 0) :
    HasDerivAt (fun τ => (q τ).x / (q τ).z)
      (∑ j ∈ range 6, imgL ((q t).x / (q t).z, (q t).y / (q t).z) (q t).z 0 j * V.get j) t ∧
    HasDerivAt (fun τ => (q τ).y / (q τ).z)
      (∑ j ∈ range 6, imgL ((q t).x / (q t).z, (q t).y / (q t).z) (q t).z 1 j * V.get j) t := by
  refine ⟨(hq.1.div hq.2.2 hz).congr_deriv ?_, (hq.2.1.div hq.2.2 hz).congr_deriv ?_⟩ <;>
  · simp [Finset.sum_range_succ, imgL, MV.get, V3.get]
    field_simp
    ring

/-- The task told, at every time, what the camera sees of the point `P` of the world. -/
noncomputable def gazeStep (D : (ℕ → ℝ) → ℝ → ℕ → ℝ) (mb : MultiBody ℝ) (st : KState ℝ) (s : GazeT ℝ)
    (P : V3 ℝ) (ref : ℝ × ℝ) : Out (GazeT ℝ) := do
  let s1 ← s.error3 (seen (cameraAt s.X_b_gaze st s.bodyIndex) P) ref
  s1.update D mb st

/-- What an update computes. -/
noncomputable def gazeResult (D : (ℕ → ℝ) → ℝ → ℕ → ℝ) (s : GazeT ℝ) (p ref : ℝ × ℝ) (Z : ℝ) (V n : MV ℝ) (R : Mat ℝ) :
    GazeT ℝ :=
  { s with
      point2d := p, depth := Z, ref := ref
      eval := (ref.1 - p.1, ref.2 - p.2)
      speed := ⟨2, fun a => ∑ j ∈ range 6, imgL p Z a j * V.get j⟩
      normalAcc := ⟨2, fun a => ∑ j ∈ range 6, imgL p Z a j * n.get j
        + ∑ j ∈ range 6, imgLdot p (fun a => ∑ j ∈ range 6, imgL p Z a j * V.get j) Z
            (∑ j ∈ range 6, D (fun a => ∑ j ∈ range 6, imgL p Z a j * V.get j) Z j * V.get j) a j
            * V.get j⟩
      jacMat := R }

/-- The rates of the joints give the velocity of the camera. -/
theorem camera_vel {mb : MultiBody ℝ} {st : KState ℝ} {path : List ℕ} {x : ℕ → ℝ} {b : ℕ}
    (h : Moves mb st path x) (hb : path.getLast? = some b) (Y : PT ℝ) :
    (cameraAt Y st b).mulM (wSum mb st path x) = Y.mulM (kVel st b) := by
  have hr := h.rigid b (List.mem_of_getLast? hb)
  unfold cameraAt wSum
  rw [PT.mul_mulM _ _ hr, ← moves_vel h hb, PT.mulM_inv _ hr]

theorem gaze_exact (D : (ℕ → ℝ) → ℝ → ℕ → ℝ) {mb : MultiBody ℝ} {st : KState ℝ} {x : ℕ → ℝ} (s : GazeT ℝ)
    (p ref : ℝ × ℝ) (Z : ℝ) (h : Moves mb st s.jac.path x) (hb : s.jac.path.getLast? = some s.bodyIndex)
    (hr : s.jacMat.rows = 2) (hc : s.jacMat.cols = mb.nrDof)
    (V n : MV ℝ) (hV : V = s.X_b_gaze.mulM (kVel st s.bodyIndex))
    (hn : n = s.X_b_gaze.mulM (kAcc st s.bodyIndex)) :
    ∃ R : Mat ℝ, (Z ≠ 0 → GazeT.update D mb st { s with point2d := p, depth := Z, ref := ref }
      = .ok (gazeResult D s p ref Z V n R)) ∧
      ∀ z, ∀ a < 2, R.rowMul a z = ∑ j ∈ range 6, imgL p Z a j *
        ((cameraAt s.X_b_gaze st s.bodyIndex).mulM (wSum mb st s.jac.path z)).get j := by
  obtain ⟨R, h1, h2⟩ := visual_exact 2 (imgL p Z)
    (fun u V => imgLdot p u Z (∑ j ∈ Finset.range 6, D u Z j * V j))
    s.bodyIndex s.jac s.X_b_gaze s.jacMat h hb hr hc V hV
  refine ⟨R, fun hz => ?_, h2⟩
  unfold GazeT.update imagePointJacobian
  dsimp only
  rw [if_neg hz, Out.ok_bind, h1, Out.ok_bind, hn]
  rfl

/-- Derivative of the interaction matrix along a motion of the point. -/
theorem imgL_deriv {px py Z : ℝ → ℝ} {u : ℕ → ℝ} {Zd : ℝ} (hx : HasDerivAt px (u 0) t)
    (hy : HasDerivAt py (u 1) t) (hZ : HasDerivAt Z Zd t) (hz : Z t ≠ 0) (a j : ℕ) (ha : a < 2) (hj : j < 6) :
    HasDerivAt (fun τ => imgL (px τ, py τ) (Z τ) a j) (imgLdot (px t, py t) u (Z t) Zd a j) t := by
  have hi : HasDerivAt (fun τ => -(1 / Z τ)) (Zd / Z t ^ 2) t := by
    refine (((hasDerivAt_const t (1 : ℝ)).div hZ hz).neg).congr_deriv ?_
    field_simp
    ring
  have h0 := hasDerivAt_const t (0 : ℝ)
  interval_cases a <;> interval_cases j
  · exact (hx.mul hy)
  · refine ((hasDerivAt_const t (1 : ℝ)).add (hx.pow 2)).neg.congr_deriv ?_
    simp [imgLdot]
  · exact hy
  · exact hi
  · exact h0
  · refine (hx.div hZ hz).congr_deriv ?_
    simp only [imgLdot]
    field_simp
  · refine ((hasDerivAt_const t (1 : ℝ)).add (hy.pow 2)).congr_deriv ?_
    simp [imgLdot]
  · exact (hx.mul hy).neg
  · exact hx.neg
  · exact h0
  · exact hi
  · refine (hy.div hZ hz).congr_deriv ?_
    simp only [imgLdot]
    field_simp

/-- How the depth rate enters. -/
theorem imgLdot_depth (p : ℝ × ℝ) (u : ℕ → ℝ) (Z d Zd : ℝ) (hz : Z ≠ 0) (V : MV ℝ) :
    (∑ j ∈ range 6, imgLdot p u Z Zd 0 j * V.get j = ∑ j ∈ range 6, imgLdot p u Z d 0 j * V.get j
      + (Zd - d) * (V.lin.x - p.1 * V.lin.z) / Z ^ 2) ∧
    (∑ j ∈ range 6, imgLdot p u Z Zd 1 j * V.get j = ∑ j ∈ range 6, imgLdot p u Z d 1 j * V.get j
      + (Zd - d) * (V.lin.y - p.2 * V.lin.z) / Z ^ 2) := by
  constructor <;>
  · simp [Finset.sum_range_succ, imgLdot, MV.get, V3.get]
    field_simp
    ring

/-- `GazeTask`, told by `error(point3d, ref)` what the camera sees of a point fixed in the world.  The error
is the reference minus the projection; its rate is minus the reported speed; the Jacobian gives the speed. -/
theorem C65_gaze (D : (ℕ → ℝ) → ℝ → ℕ → ℝ) (s : GazeT ℝ) (P : V3 ℝ) (ref : ℝ × ℝ)
    (hX : s.X_b_gaze.Rigid) (h : Evolves mb st s.jac.path x xd t)
    (hb : s.jac.path.getLast? = some s.bodyIndex)
    (hr : s.jacMat.rows = 2) (hc : s.jacMat.cols = mb.nrDof)
    (q : ℝ → V3 ℝ) (hq : ∀ τ, q τ = seen (cameraAt s.X_b_gaze (st τ) s.bodyIndex) P)
    (hz : (q t).z ≠ 0) :
    ∃ s' : ℝ → GazeT ℝ,
      (∀ τ, (q τ).z ≠ 0 → gazeStep D mb (st τ) s P ref = .ok (s' τ) ∧
        (s' τ).eval = (ref.1 - (q τ).x / (q τ).z, ref.2 - (q τ).y / (q τ).z) ∧
        ∀ a < 2, (s' τ).jacMat.rowMul a (x τ) = (s' τ).speed.get a) ∧
      HasDerivAt (fun τ => (s' τ).eval.1) (-(s' t).speed.get 0) t ∧
      HasDerivAt (fun τ => (s' τ).eval.2) (-(s' t).speed.get 1) t ∧
      (let V := s.X_b_gaze.mulM (kVel (st t) s.bodyIndex)
       let d := ∑ j ∈ range 6, D (s' t).speed.get (q t).z j * V.get j
       ∀ Zd, HasDerivAt (fun τ => (q τ).z) Zd t →
        HasDerivAt (fun τ => (s' τ).speed.get 0) ((s' t).jacMat.rowMul 0 xd + (s' t).normalAcc.get 0
          + (Zd - d) * (V.lin.x - (q t).x / (q t).z * V.lin.z) / (q t).z ^ 2) t ∧
        HasDerivAt (fun τ => (s' τ).speed.get 1) ((s' t).jacMat.rowMul 1 xd + (s' t).normalAcc.get 1
          + (Zd - d) * (V.lin.y - (q t).y / (q t).z * V.lin.z) / (q t).z ^ 2) t) := by
  choose R h1 h2 using fun τ => gaze_exact D s ((q τ).x / (q τ).z, (q τ).y / (q τ).z) ref (q τ).z
    (h.moves τ) hb hr hc _ _ rfl rfl
  have hm := camera_moves h hb hX
  have hrig := fun τ => hX.mul ((h.moves τ).rigid s.bodyIndex (List.mem_of_getLast? hb))
  have dq : HasD3 q (-((s.X_b_gaze.mulM (kVel (st t) s.bodyIndex)).ang.cross (q t))
      - (s.X_b_gaze.mulM (kVel (st t) s.bodyIndex)).lin) t := by
    have := seen_deriv hm (hrig t) P
    rw [← hq t] at this
    exact this.congr_fun hq
  obtain ⟨dx, dy⟩ := proj_deriv dq hz
  refine ⟨fun τ => gazeResult D s ((q τ).x / (q τ).z, (q τ).y / (q τ).z) ref (q τ).z
    (s.X_b_gaze.mulM (kVel (st τ) s.bodyIndex)) (s.X_b_gaze.mulM (kAcc (st τ) s.bodyIndex)) (R τ),
    fun τ hτ => ⟨?_, rfl, fun a ha => ?_⟩, ?_, ?_, ?_⟩
  · have := h1 τ hτ
    unfold gazeStep GazeT.error3 project fdiv
    rw [← hq τ, if_neg hτ, if_neg hτ]
    exact this
  · dsimp only [gazeResult]
    rw [h2 τ (x τ) a ha, camera_vel (h.moves τ) hb]
  · exact ((hasDerivAt_const t ref.1).sub dx).congr_deriv (zero_sub _)
  · exact ((hasDerivAt_const t ref.2).sub dy).congr_deriv (zero_sub _)
  · intro V d Zd hZ
    have dV := body_acc h hb hX
    have key : ∀ a < 2, HasDerivAt (fun τ => ∑ j ∈ range 6,
        imgL ((q τ).x / (q τ).z, (q τ).y / (q τ).z) (q τ).z a j *
          (s.X_b_gaze.mulM (kVel (st τ) s.bodyIndex)).get j)
        ((R t).rowMul a xd + (∑ j ∈ range 6, imgL ((q t).x / (q t).z, (q t).y / (q t).z) (q t).z a j
            * (s.X_b_gaze.mulM (kAcc (st t) s.bodyIndex)).get j
          + ∑ j ∈ range 6, imgLdot ((q t).x / (q t).z, (q t).y / (q t).z)
            (fun a => ∑ j ∈ range 6, imgL ((q t).x / (q t).z, (q t).y / (q t).z) (q t).z a j * V.get j)
            (q t).z Zd a j * V.get j)) t := by
      intro a ha
      refine (HasDerivAt.fun_sum (u := range 6) fun j hj =>
        (imgL_deriv (u := fun a => ∑ j ∈ range 6,
          imgL ((q t).x / (q t).z, (q t).y / (q t).z) (q t).z a j * V.get j) dx dy hZ hz a j ha
          (by simpa using hj)).mul (dV.get j)).congr_deriv ?_
      rw [h2 t xd a ha, ← Finset.sum_add_distrib, ← Finset.sum_add_distrib]
      refine Finset.sum_congr rfl fun j _ => ?_
      rw [MV.get_add]
      dsimp only [cameraAt]
      ring
    refine ⟨(key 0 (by norm_num)).congr_deriv ?_, (key 1 (by norm_num)).congr_deriv ?_⟩
    · rw [(imgLdot_depth _ _ _ d Zd hz V).1]
      dsimp only [gazeResult]
      simp only [← add_assoc]
      rfl
    · rw [(imgLdot_depth _ _ _ d Zd hz V).2]
      dsimp only [gazeResult]
      simp only [← add_assoc]
      rfl

/-- Where the normal acceleration is right: when RBDyn's row, applied to the velocity of the camera, is the
rate of the depth.  Full statement: without `hd`.  It does not hold, whatever RBDyn computes from the image
speed and the depth (`VisEx.C65_gaze_counterexample`). -/
theorem C65_gaze_drift_partial (D : (ℕ → ℝ) → ℝ → ℕ → ℝ) (s : GazeT ℝ) (P : V3 ℝ) (ref : ℝ × ℝ)
    (hX : s.X_b_gaze.Rigid) (h : Evolves mb st s.jac.path x xd t)
    (hb : s.jac.path.getLast? = some s.bodyIndex)
    (hr : s.jacMat.rows = 2) (hc : s.jacMat.cols = mb.nrDof)
    (q : ℝ → V3 ℝ) (hq : ∀ τ, q τ = seen (cameraAt s.X_b_gaze (st τ) s.bodyIndex) P)
    (hz : (q t).z ≠ 0)
    (hd : ∀ s1, gazeStep D mb (st t) s P ref = .ok s1 → HasDerivAt (fun τ => (q τ).z)
      (∑ j ∈ range 6, D s1.speed.get (q t).z j * (s.X_b_gaze.mulM (kVel (st t) s.bodyIndex)).get j) t) :
    ∃ s' : ℝ → GazeT ℝ, (∀ τ, (q τ).z ≠ 0 → gazeStep D mb (st τ) s P ref = .ok (s' τ)) ∧
      ∀ a < 2, HasDerivAt (fun τ => (s' τ).speed.get a)
        ((s' t).jacMat.rowMul a xd + (s' t).normalAcc.get a) t := by
  obtain ⟨s', h1, -, -, h2⟩ := C65_gaze D s P ref hX h hb hr hc q hq hz
  obtain ⟨k0, k1⟩ := h2 _ (hd _ (h1 t hz).1)
  refine ⟨s', fun τ hτ => (h1 τ hτ).1, fun a ha => ?_⟩
  interval_cases a
  · exact k0.congr_deriv (by rw [sub_self]; ring)
  · exact k1.congr_deriv (by rw [sub_self]; ring)

/-- `GazeTask`, told by `error(point2d, ref)`: the depth stays the estimate given before.  The rate of the
error is the reported speed plus a term that vanishes when the estimate is the depth. -/
theorem C65_gaze_estimate (D : (ℕ → ℝ) → ℝ → ℕ → ℝ) (s : GazeT ℝ) (P : V3 ℝ) (ref : ℝ × ℝ)
    (hX : s.X_b_gaze.Rigid) (h : Evolves mb st s.jac.path x xd t)
    (hb : s.jac.path.getLast? = some s.bodyIndex)
    (hr : s.jacMat.rows = 2) (hc : s.jacMat.cols = mb.nrDof)
    (q : ℝ → V3 ℝ) (hq : ∀ τ, q τ = seen (cameraAt s.X_b_gaze (st τ) s.bodyIndex) P)
    (hz : (q t).z ≠ 0) (h0 : s.depth ≠ 0) :
    ∃ s' : ℝ → GazeT ℝ,
      (∀ τ, (s.error2 ((q τ).x / (q τ).z, (q τ).y / (q τ).z) ref).update D mb (st τ) = .ok (s' τ)) ∧
      (∀ τ, (s' τ).depth = s.depth) ∧
      (let V := s.X_b_gaze.mulM (kVel (st t) s.bodyIndex)
       HasDerivAt (fun τ => (s' τ).eval.1) (-(s' t).speed.get 0
        + (1 / (q t).z - 1 / s.depth) * (V.lin.x - (q t).x / (q t).z * V.lin.z)) t ∧
       HasDerivAt (fun τ => (s' τ).eval.2) (-(s' t).speed.get 1
        + (1 / (q t).z - 1 / s.depth) * (V.lin.y - (q t).y / (q t).z * V.lin.z)) t) := by
  choose R h1 h2 using fun τ => gaze_exact D s ((q τ).x / (q τ).z, (q τ).y / (q τ).z) ref s.depth
    (h.moves τ) hb hr hc _ _ rfl rfl
  have hm := camera_moves h hb hX
  have hrig := fun τ => hX.mul ((h.moves τ).rigid s.bodyIndex (List.mem_of_getLast? hb))
  have dq : HasD3 q (-((s.X_b_gaze.mulM (kVel (st t) s.bodyIndex)).ang.cross (q t))
      - (s.X_b_gaze.mulM (kVel (st t) s.bodyIndex)).lin) t := by
    have := seen_deriv hm (hrig t) P
    rw [← hq t] at this
    exact this.congr_fun hq
  obtain ⟨dx, dy⟩ := proj_deriv dq hz
  refine ⟨_, fun τ => h1 τ h0, fun τ => rfl, ?_⟩
  intro V
  refine ⟨((hasDerivAt_const t ref.1).sub dx).congr_deriv ?_,
    ((hasDerivAt_const t ref.2).sub dy).congr_deriv ?_⟩ <;>
  · simp [gazeResult, Finset.sum_range_succ, imgL, MV.get, V3.get, V]
    ring

/-- A point in the plane of the camera centre has no image. -/
theorem C65_gaze_no_depth (D : (ℕ → ℝ) → ℝ → ℕ → ℝ) {mb : MultiBody ℝ} {st : KState ℝ} (s : GazeT ℝ)
    (p : V3 ℝ) (ref : ℝ × ℝ) :
    (p.z = 0 → s.error3 p ref = .ub) ∧ (s.depth = 0 → s.update D mb st = .ub) := by
  refine ⟨fun h => ?_, fun h => ?_⟩
  · simp [GazeT.error3, project, fdiv, h]
  · simp [GazeT.update, imagePointJacobian, h]

/-! ## PositionBasedVisServoTask -/

namespace Spec

/-- The last three rows of `L` are the interaction matrix of the translation, for the rotation `E` from the
target to the sensor: zero for rotations, `Eᵀ` for translations. -/
def TranslationRows (L : ℕ → ℕ → ℝ) (E : M3 ℝ) : Prop :=
  ∀ a < 3, ∀ V : MV ℝ, ∑ j ∈ range 6, L (3 + a) j * V.get j = (E.transpose.mulVec V.lin).get a

/-- Transform from the fixed target to the sensor. -/
def targetToSensor (X_0_s X_0_t : PT ℝ) : PT ℝ := X_0_s.mul X_0_t.inv

end Spec

/-- The task told at every time the transform from the fixed target to the sensor. -/
def pbvsStep (aa : M3 ℝ → V3 ℝ) (L : M3 ℝ → ℕ → ℕ → ℝ) (mb : MultiBody ℝ) (st : KState ℝ) (s : PbvsT ℝ)
    (T : PT ℝ) : Out (PbvsT ℝ) :=
  (s.error (targetToSensor (cameraAt s.X_b_s st s.bodyIndex) T)).update aa L mb st

theorem pbvsLdot_mul (E : M3 ℝ) (V : MV ℝ) (a : ℕ) (ha : a < 3) :
    ∑ j ∈ range 6, pbvsLdot E ⟨V.get 0, V.get 1, V.get 2⟩ (3 + a) j * V.get j
      = -(E.transpose.mulVec (V.ang.cross V.lin)).get a := by
  interval_cases a <;>
  · simp [Finset.sum_range_succ, pbvsLdot, M3.entry, MV.get, V3.get, skewMatrix, M3.mul, M3.transpose,
      M3.mulVec, V3.dot]
    ring

/-- The translation part of `PositionBasedVisServoTask`: the error is minus the position of the sensor in
the target frame, its rate is minus the reported speed; the derivative of the speed is
`jac * alphaD + normalAcc` plus twice the Coriolis term `Eᵀ (ω × v)`. -/
theorem C65_pbvs (aa : M3 ℝ → V3 ℝ) (L : M3 ℝ → ℕ → ℕ → ℝ) (s : PbvsT ℝ) (T : PT ℝ)
    (hX : s.X_b_s.Rigid) (h : Evolves mb st s.jac.path x xd t)
    (hb : s.jac.path.getLast? = some s.bodyIndex)
    (hr : s.jacMat.rows = 6) (hc : s.jacMat.cols = mb.nrDof)
    (hL : ∀ E, TranslationRows (L E) E) :
    ∃ s' : ℝ → PbvsT ℝ, (∀ τ, pbvsStep aa L mb (st τ) s T = .ok (s' τ) ∧
        (s' τ).eval.lin = -T.E.mulVec ((cameraAt s.X_b_s (st τ) s.bodyIndex).r - T.r) ∧
        ∀ a < 6, (s' τ).jacMat.rowMul a (x τ) = (s' τ).speed.get a) ∧
      ∀ a < 3, HasDerivAt (fun τ => (s' τ).eval.lin.get a) (-(s' t).speed.get (3 + a)) t ∧
        (let V := s.X_b_s.mulM (kVel (st t) s.bodyIndex)
         let E := (targetToSensor (cameraAt s.X_b_s (st t) s.bodyIndex) T).E
         HasDerivAt (fun τ => (s' τ).speed.get (3 + a)) ((s' t).jacMat.rowMul (3 + a) xd
          + (s' t).normalAcc.get (3 + a) + 2 * (E.transpose.mulVec (V.ang.cross V.lin)).get a) t) := by
  choose R h1 h2 using fun τ => visual_exact 6
    (L (targetToSensor (cameraAt s.X_b_s (st τ) s.bodyIndex) T).E)
    (fun _ V => pbvsLdot (targetToSensor (cameraAt s.X_b_s (st τ) s.bodyIndex) T).E ⟨V 0, V 1, V 2⟩)
    s.bodyIndex s.jac s.X_b_s s.jacMat (h.moves τ) hb hr hc _ rfl
  have hm := camera_moves h hb hX
  have hu : ∀ τ, ∃ s', pbvsStep aa L mb (st τ) s T = .ok s' ∧
      s'.eval.lin = -(targetToSensor (cameraAt s.X_b_s (st τ) s.bodyIndex) T).r ∧
      s'.speed.get = (fun a => ∑ j ∈ range 6,
        L (targetToSensor (cameraAt s.X_b_s (st τ) s.bodyIndex) T).E a j
          * (s.X_b_s.mulM (kVel (st τ) s.bodyIndex)).get j) ∧
      s'.normalAcc.get = (fun a => ∑ j ∈ range 6,
        L (targetToSensor (cameraAt s.X_b_s (st τ) s.bodyIndex) T).E a j
          * (s.X_b_s.mulM (kAcc (st τ) s.bodyIndex)).get j + ∑ j ∈ range 6,
        pbvsLdot (targetToSensor (cameraAt s.X_b_s (st τ) s.bodyIndex) T).E
          ⟨(s.X_b_s.mulM (kVel (st τ) s.bodyIndex)).get 0, (s.X_b_s.mulM (kVel (st τ) s.bodyIndex)).get 1,
            (s.X_b_s.mulM (kVel (st τ) s.bodyIndex)).get 2⟩ a j
          * (s.X_b_s.mulM (kVel (st τ) s.bodyIndex)).get j) ∧
      s'.jacMat = R τ := by
    intro τ
    have k := h1 τ
    unfold pbvsStep PbvsT.update PbvsT.error
    dsimp only at k ⊢
    rw [k]
    exact ⟨_, rfl, rfl, rfl, rfl, rfl⟩
  choose s' u1 u2 u3 u4 u5 using hu
  have er : ∀ τ, (targetToSensor (cameraAt s.X_b_s (st τ) s.bodyIndex) T).r
      = T.E.mulVec ((cameraAt s.X_b_s (st τ) s.bodyIndex).r - T.r) := by
    intro τ
    unfold targetToSensor PT.mul PT.inv
    dsimp only
    rw [M3.transpose_transpose, M3.mulVec_sub]
    abel
  have eE : ∀ τ v, (targetToSensor (cameraAt s.X_b_s (st τ) s.bodyIndex) T).E.transpose.mulVec v
      = T.E.mulVec ((cameraAt s.X_b_s (st τ) s.bodyIndex).E.transpose.mulVec v) := by
    intro τ v
    unfold targetToSensor PT.mul PT.inv
    dsimp only
    rw [← M3.mul_mulVec, M3.transpose_mul, M3.transpose_transpose]
  refine ⟨s', fun τ => ⟨u1 τ, by rw [u2, er], fun a ha => ?_⟩, fun a ha => ⟨?_, ?_⟩⟩
  · rw [u5, u3, h2 τ (x τ) a ha]
    have := camera_vel (h.moves τ) hb s.X_b_s
    unfold cameraAt at this
    rw [this]
  · have d := (HasD3.mulVec_const T.E (hm.2.sub (HasD3.const T.r t))).neg.get a
    rw [sub_zero] at d
    have e : (fun τ => (s' τ).eval.lin.get a)
        = fun τ => (-T.E.mulVec ((cameraAt s.X_b_s (st τ) s.bodyIndex).r - T.r)).get a := by
      funext τ
      rw [u2, er]
    rw [e, u3]
    refine d.congr_deriv ?_
    beta_reduce
    rw [hL _ a ha, eE, V3.get_neg']
  · intro V E
    have e : (fun τ => (s' τ).speed.get (3 + a)) = fun τ => (T.E.mulVec
        ((cameraAt s.X_b_s (st τ) s.bodyIndex).E.transpose.mulVec
          (s.X_b_s.mulM (kVel (st τ) s.bodyIndex)).lin)).get a := by
      funext τ
      rw [u3]
      beta_reduce
      rw [hL _ a ha, eE]
    have d := (HasD3.mulVec_const T.E (hm.transpose_mulVec (body_acc h hb hX).2)).get a
    rw [e, u5, u4]
    refine d.congr_deriv ?_
    beta_reduce
    rw [h2 t xd (3 + a) (by omega), pbvsLdot_mul _ _ a ha, hL _ a ha, hL _ a ha, ← eE]
    show (E.transpose.mulVec _).get a = (E.transpose.mulVec _).get a + ((E.transpose.mulVec _).get a
      + -(E.transpose.mulVec (V.ang.cross V.lin)).get a) + _
    rw [M3.mulVec_add, MV.add_lin, M3.mulVec_add, V3.get_add', V3.get_add']
    ring

/-- Where the normal acceleration of the translation rows is right.  Full statement: without `hw`; see
`VisEx.C65_pbvs_counterexample`. -/
theorem C65_pbvs_drift_partial (aa : M3 ℝ → V3 ℝ) (L : M3 ℝ → ℕ → ℕ → ℝ) (s : PbvsT ℝ) (T : PT ℝ)
    (hX : s.X_b_s.Rigid) (h : Evolves mb st s.jac.path x xd t)
    (hb : s.jac.path.getLast? = some s.bodyIndex)
    (hr : s.jacMat.rows = 6) (hc : s.jacMat.cols = mb.nrDof)
    (hL : ∀ E, TranslationRows (L E) E)
    (hw : (s.X_b_s.mulM (kVel (st t) s.bodyIndex)).ang.cross
      (s.X_b_s.mulM (kVel (st t) s.bodyIndex)).lin = 0) :
    ∃ s' : ℝ → PbvsT ℝ, (∀ τ, pbvsStep aa L mb (st τ) s T = .ok (s' τ)) ∧
      ∀ a < 3, HasDerivAt (fun τ => (s' τ).speed.get (3 + a))
        ((s' t).jacMat.rowMul (3 + a) xd + (s' t).normalAcc.get (3 + a)) t := by
  obtain ⟨s', h1, h2⟩ := C65_pbvs aa L s T hX h hb hr hc hL
  refine ⟨s', fun τ => (h1 τ).1, fun a ha => ((h2 a ha).2).congr_deriv ?_⟩
  rw [hw, M3.mulVec_zero]
  interval_cases a <;> simp [V3.get]

end

/-! ## Examples -/

namespace VisEx

/-- One cylindrical joint along `x`: it turns by the angle `τ` and moves by `τ`. -/
def mb : MultiBody ℝ := { joints := [⟨"c", 2, none⟩], nrBodies := 1, pred := [-1], succ := [0] }
noncomputable def pose (τ : ℝ) : PT ℝ :=
  ⟨⟨⟨1, 0, 0⟩, ⟨0, Real.cos τ, Real.sin τ⟩, ⟨0, -Real.sin τ, Real.cos τ⟩⟩, ⟨τ, 0, 0⟩⟩
noncomputable def st (τ : ℝ) : KState ℝ :=
  ⟨[pose τ], [⟨⟨1, 0, 0⟩, ⟨1, 0, 0⟩⟩], [[⟨⟨1, 0, 0⟩, 0⟩, ⟨0, ⟨1, 0, 0⟩⟩]], [[1, 1]], [0]⟩

theorem evolves (t : ℝ) : Evolves mb st [0] (fun _ _ => 1) (fun _ => 0) t := by
  have hc := Real.hasDerivAt_cos t
  have hs := Real.hasDerivAt_sin t
  refine ⟨fun τ => ⟨⟨by simp, by simp, by simp [mb], by simp [st], by simp [st], by simp [st], ?_⟩,
    ?_, ?_⟩, fun τ i _ d => rfl, fun c => hasDerivAt_const _ _, ?_, ?_⟩
  · simp [st, mb, jdof]
  · intro i hi
    simp at hi
    subst hi
    have h2 := Real.sin_sq_add_cos_sq τ
    simp only [kPose, st, pose, PT.Rigid, M3.IsRot, M3.RowsOrtho, V3.dot, V3.cross, List.getD_cons_zero]
    refine ⟨⟨?_, ?_, ?_, ?_, ?_, ?_⟩, ?_⟩
    · ring
    · nlinarith
    · nlinarith
    · ring
    · ring
    · ring
    · ext <;> dsimp only
      · nlinarith
      · ring
      · ring
  · refine ⟨?_, trivial⟩
    ext <;> simp [kVel, kSub, st, mb, jdof, jpos, Finset.sum_range_succ]
  · intro i hi
    simp at hi
    subst hi
    refine ⟨fun v => ⟨?_, ?_, ?_⟩, ⟨?_, ?_, ?_⟩⟩
    · refine ((hasDerivAt_const t v.x).congr_deriv ?_).congr_of_eventuallyEq ?_
      · simp [kVel, kPose, st, pose, M3.mulVec, V3.dot]
      · exact Filter.Eventually.of_forall fun τ => by simp [kPose, st, pose, M3.mulVec, V3.dot]
    · refine (((hc.mul_const v.y).add (hs.mul_const v.z)).congr_deriv ?_).congr_of_eventuallyEq ?_
      · simp [kVel, kPose, st, pose, M3.mulVec, V3.dot]
      · exact Filter.Eventually.of_forall fun τ => by simp [kPose, st, pose, M3.mulVec, V3.dot]
    · refine ((((hs.neg).mul_const v.y).add (hc.mul_const v.z)).congr_deriv ?_).congr_of_eventuallyEq ?_
      · simp [kVel, kPose, st, pose, M3.mulVec, V3.dot]; ring
      · exact Filter.Eventually.of_forall fun τ => by simp [kPose, st, pose, M3.mulVec, V3.dot]
    · exact (hasDerivAt_id t).congr_deriv (by simp [kVel, kPose, st, pose, M3.mulVec, M3.transpose, V3.dot])
    · exact (hasDerivAt_const t 0).congr_deriv
        (by simp [kVel, kPose, st, pose, M3.mulVec, M3.transpose, V3.dot])
    · exact (hasDerivAt_const t 0).congr_deriv
        (by simp [kVel, kPose, st, pose, M3.mulVec, M3.transpose, V3.dot])
  · refine ⟨?_, trivial⟩
    ext <;> simp [kVel, kSub, kAcc, st, mb, jdof, jpos, MV.cross, Finset.sum_range_succ]

/-- The camera is the body. -/
noncomputable def task : GazeT ℝ := GazeT.make2 mb 0 [0] (0, 0) 1 PT.one (0, 0) (fun _ _ => 7)

theorem rigid_one : (PT.one : PT ℝ).Rigid := M3.isRot_one

/-- The point `(0, y, 1)` as the camera sees it. -/
theorem seen_at (y τ : ℝ) : seen (cameraAt task.X_b_gaze (st τ) task.bodyIndex) ⟨0, y, 1⟩
    = ⟨-τ, Real.cos τ * y + Real.sin τ, -(Real.sin τ * y) + Real.cos τ⟩ := by
  have e : cameraAt task.X_b_gaze (st τ) task.bodyIndex = pose τ := by
    show (PT.one : PT ℝ).mul (pose τ) = pose τ
    unfold PT.mul PT.one
    dsimp only
    rw [M3.one_mul', M3.mulVec_zero, add_zero]
  rw [e]
  ext <;> simp [seen, pose, M3.mulVec, V3.dot]

theorem vel_at (t : ℝ) : task.X_b_gaze.mulM (kVel (st t) task.bodyIndex) = ⟨⟨1, 0, 0⟩, ⟨1, 0, 0⟩⟩ := by
  ext <;> simp [task, GazeT.make2, kVel, st, PT.mulM, PT.one, M3.one, M3.mulVec, V3.dot]

/-- The image speed of the points `(0, 1)` and `(0, -1)` of the image at depth `1`. -/
def imgSpeed : ℕ → ℝ
  | 0 => -1
  | 1 => 2
  | _ => 0

/-- Two points, at `(0, 1)` and `(0, -1)` in the image with the same depth, move with the same speed in
the image while their depths change at opposite rates. -/
theorem speed_depth (D : (ℕ → ℝ) → ℝ → ℕ → ℝ) (y : ℝ) (hy : y ^ 2 = 1) :
    ∃ s' : ℝ → GazeT ℝ,
      (∀ τ, (seen (cameraAt task.X_b_gaze (st τ) task.bodyIndex) ⟨0, y, 1⟩).z ≠ 0 →
        gazeStep D mb (st τ) task ⟨0, y, 1⟩ (0, 0) = .ok (s' τ)) ∧
      (s' 0).speed.get = imgSpeed ∧
      HasDerivAt (fun τ => (s' τ).speed.get 0) ((s' 0).jacMat.rowMul 0 (fun _ => 0)
        + (s' 0).normalAcc.get 0 + (-y - (D imgSpeed 1 0 + D imgSpeed 1 3))) 0 := by
  have q0 := seen_at y 0
  rw [Real.cos_zero, Real.sin_zero] at q0
  have hz : (seen (cameraAt task.X_b_gaze (st 0) task.bodyIndex) ⟨0, y, 1⟩).z ≠ 0 := by
    rw [q0]; norm_num
  obtain ⟨s', h1, -, -, h2⟩ := C65_gaze D task ⟨0, y, 1⟩ (0, 0) rigid_one (evolves 0) rfl rfl rfl
    _ (fun τ => rfl) hz
  obtain ⟨R, g1, -⟩ := gaze_exact D task (0, y) (0, 0) 1 ((evolves 0).moves 0) rfl rfl rfl _ _ rfl rfl
  have e : s' 0 = gazeResult D task (0, y) (0, 0) 1
      (task.X_b_gaze.mulM (kVel (st 0) task.bodyIndex)) (task.X_b_gaze.mulM (kAcc (st 0) task.bodyIndex)) R := by
    refine Out.ok.inj ((h1 0 hz).1.symm.trans ?_)
    rw [← g1 one_ne_zero]
    unfold gazeStep GazeT.error3 project fdiv
    rw [q0]
    simp
  have hs : (s' 0).speed.get = imgSpeed := by
    rw [e]
    funext a
    match a with
    | 0 => simp [gazeResult, vel_at, Finset.sum_range_succ, imgL, MV.get, V3.get, imgSpeed]
    | 1 =>
      simp [gazeResult, vel_at, Finset.sum_range_succ, imgL, MV.get, V3.get, imgSpeed, hy]
      norm_num
    | n + 2 => simp [gazeResult, imgL, imgSpeed]
  refine ⟨s', fun τ hτ => (h1 τ hτ).1, hs, ?_⟩
  have dz : HasDerivAt (fun τ => (seen (cameraAt task.X_b_gaze (st τ) task.bodyIndex) ⟨0, y, 1⟩).z)
      (-y) 0 := by
    have := ((Real.hasDerivAt_sin 0).mul_const y).neg.add (Real.hasDerivAt_cos 0)
    refine (this.congr_deriv ?_).congr_of_eventuallyEq (Filter.Eventually.of_forall fun τ => ?_)
    · simp
    · dsimp only
      rw [seen_at]
      rfl
  refine (h2 _ dz).1.congr_deriv ?_
  rw [hs, vel_at, q0]
  simp [Finset.sum_range_succ, MV.get, V3.get]

/-- Whatever RBDyn computes from the image speed and the depth, there is a motion of the camera and a point
whose image speed does not have the derivative the task reports. -/
theorem C65_gaze_counterexample (D : (ℕ → ℝ) → ℝ → ℕ → ℝ) :
    ∃ (P : V3 ℝ) (s' : ℝ → GazeT ℝ), Evolves mb st task.jac.path (fun _ _ => 1) (fun _ => 0) 0 ∧
      (seen (cameraAt task.X_b_gaze (st 0) task.bodyIndex) P).z = 1 ∧
      (∀ τ, (seen (cameraAt task.X_b_gaze (st τ) task.bodyIndex) P).z ≠ 0 →
        gazeStep D mb (st τ) task P (0, 0) = .ok (s' τ)) ∧
      ¬ ∀ a < 2, HasDerivAt (fun τ => (s' τ).speed.get a)
        ((s' 0).jacMat.rowMul a (fun _ => 0) + (s' 0).normalAcc.get a) 0 := by
  have hz : ∀ y, (seen (cameraAt task.X_b_gaze (st 0) task.bodyIndex) ⟨0, y, 1⟩).z = 1 := by
    intro y
    rw [seen_at]
    simp
  have key : ∀ y, y ^ 2 = 1 → D imgSpeed 1 0 + D imgSpeed 1 3 ≠ -y →
      ∃ (P : V3 ℝ) (s' : ℝ → GazeT ℝ), Evolves mb st task.jac.path (fun _ _ => 1) (fun _ => 0) 0 ∧
      (seen (cameraAt task.X_b_gaze (st 0) task.bodyIndex) P).z = 1 ∧
      (∀ τ, (seen (cameraAt task.X_b_gaze (st τ) task.bodyIndex) P).z ≠ 0 →
        gazeStep D mb (st τ) task P (0, 0) = .ok (s' τ)) ∧
      ¬ ∀ a < 2, HasDerivAt (fun τ => (s' τ).speed.get a)
        ((s' 0).jacMat.rowMul a (fun _ => 0) + (s' 0).normalAcc.get a) 0 := by
    intro y hy hne
    obtain ⟨s', h1, -, h2⟩ := speed_depth D y hy
    refine ⟨⟨0, y, 1⟩, s', evolves 0, hz y, h1, fun hall => hne ?_⟩
    have := (hall 0 (by norm_num)).unique h2
    linarith
  by_cases hd : D imgSpeed 1 0 + D imgSpeed 1 3 = -1
  · exact key (-1) (by norm_num) (by rw [hd]; norm_num)
  · exact key 1 (by norm_num) hd

/-- The theorem on the error applies to these motions: seen at `(0, 1)`, the point moves in the image with
`(-1, 2)`. -/
example (D : (ℕ → ℝ) → ℝ → ℕ → ℝ) : ∃ s' : ℝ → GazeT ℝ,
    HasDerivAt (fun τ => (s' τ).eval.1) 1 0 ∧ HasDerivAt (fun τ => (s' τ).eval.2) (-2) 0 ∧
    (s' 0).eval = (0, -1) := by
  have q0 := seen_at 1 0
  rw [Real.cos_zero, Real.sin_zero] at q0
  have hz : (seen (cameraAt task.X_b_gaze (st 0) task.bodyIndex) ⟨0, 1, 1⟩).z ≠ 0 := by
    rw [q0]; norm_num
  obtain ⟨s', h1, k1, k2, -⟩ := C65_gaze D task ⟨0, 1, 1⟩ (0, 0) rigid_one (evolves 0) rfl rfl rfl
    _ (fun τ => rfl) hz
  obtain ⟨s'', h1', hs, -⟩ := speed_depth D 1 (by norm_num)
  have e : s' 0 = s'' 0 := Out.ok.inj ((h1 0 hz).1.symm.trans (h1' 0 hz))
  rw [e, hs] at k1 k2
  refine ⟨s', k1.congr_deriv (by simp [imgSpeed]), k2.congr_deriv (by simp [imgSpeed]), ?_⟩
  rw [(h1 0 hz).2.1, q0]
  simp

/-- The theorem on a wrong depth estimate applies: at depth `1` with the estimate `2` the error moves by
`1 / 2` faster than the task says. -/
example (D : (ℕ → ℝ) → ℝ → ℕ → ℝ) : ∃ s' : ℝ → GazeT ℝ,
    HasDerivAt (fun τ => (s' τ).eval.1) (-(s' 0).speed.get 0 + 1 / 2) 0 := by
  have q0 := seen_at 1 0
  rw [Real.cos_zero, Real.sin_zero] at q0
  have hz : (seen (cameraAt task.X_b_gaze (st 0) task.bodyIndex) ⟨0, 1, 1⟩).z ≠ 0 := by
    rw [q0]; norm_num
  obtain ⟨s', -, -, h, -⟩ := C65_gaze_estimate D { task with depth := 2 } ⟨0, 1, 1⟩ (0, 0) rigid_one
    (evolves 0) rfl rfl rfl _ (fun τ => rfl) hz two_ne_zero
  refine ⟨s', h.congr_deriv ?_⟩
  dsimp only
  rw [vel_at, q0]
  norm_num

/-- With the true depth rate the drift theorem applies: here the function is told the rate. -/
example : ∃ s' : ℝ → GazeT ℝ, ∀ a < 2, HasDerivAt (fun τ => (s' τ).speed.get a)
    ((s' 0).jacMat.rowMul a (fun _ => 0) + (s' 0).normalAcc.get a) 0 := by
  have q0 := seen_at 1 0
  rw [Real.cos_zero, Real.sin_zero] at q0
  have hz : (seen (cameraAt task.X_b_gaze (st 0) task.bodyIndex) ⟨0, 1, 1⟩).z ≠ 0 := by
    rw [q0]; norm_num
  obtain ⟨s', -, h⟩ := C65_gaze_drift_partial (fun _ _ j => if j = 0 then -1 else 0) task ⟨0, 1, 1⟩ (0, 0)
    rigid_one (evolves 0) rfl rfl rfl _ (fun τ => rfl) hz (fun s1 _ => by
      have := ((Real.hasDerivAt_sin 0).mul_const 1).neg.add (Real.hasDerivAt_cos 0)
      refine (this.congr_deriv ?_).congr_of_eventuallyEq (Filter.Eventually.of_forall fun τ => ?_)
      · rw [vel_at]
        simp [Finset.sum_range_succ, MV.get, V3.get]
      · dsimp only
        rw [seen_at]
        rfl)
  exact ⟨s', h⟩

/-- A pose Jacobian with the right translation rows. -/
def poseJac (E : M3 ℝ) (a j : ℕ) : ℝ := if 3 ≤ a ∧ 3 ≤ j then E.transpose.entry (a - 3) (j - 3) else 0

theorem poseJac_rows (E : M3 ℝ) : TranslationRows (poseJac E) E := by
  intro a ha V
  interval_cases a <;>
  · simp [Finset.sum_range_succ, poseJac, M3.entry, MV.get, V3.get, M3.transpose, M3.mulVec, V3.dot]

/-- A sensor at `(1, 0, 0)` of the body that turns about `z`. -/
noncomputable def pbvs : PbvsT ℝ :=
  PbvsT.make DriftEx.mb 0 [0] PT.one (PT.ofTrans ⟨1, 0, 0⟩) (fun _ _ => 7)

theorem rigid_trans (p : V3 ℝ) : (PT.ofTrans p : PT ℝ).Rigid := M3.isRot_one

/-- For every pose Jacobian that gives the right speed of the translation, the reported normal acceleration
of a sensor on a turning body is wrong: the centripetal acceleration has the wrong sign. -/
theorem C65_pbvs_counterexample (aa : M3 ℝ → V3 ℝ) (L : M3 ℝ → ℕ → ℕ → ℝ)
    (hL : ∀ E, TranslationRows (L E) E) :
    ∃ s' : ℝ → PbvsT ℝ, (∀ τ, pbvsStep aa L DriftEx.mb (DriftEx.st τ) pbvs PT.one = .ok (s' τ)) ∧
      ¬ ∀ a < 3, HasDerivAt (fun τ => (s' τ).speed.get (3 + a))
        ((s' 0).jacMat.rowMul (3 + a) (fun _ => 1) + (s' 0).normalAcc.get (3 + a)) 0 := by
  obtain ⟨s', h1, h2⟩ := C65_pbvs aa L pbvs PT.one (rigid_trans _) (DriftEx.evolves 0) rfl rfl rfl hL
  refine ⟨s', fun τ => (h1 τ).1, fun hall => ?_⟩
  have e := (hall 0 (by norm_num)).unique (h2 0 (by norm_num)).2
  rw [left_eq_add] at e
  revert e
  simp [targetToSensor, cameraAt, pbvs, PbvsT.make, PT.mul, PT.inv, PT.ofTrans, PT.one, M3.mul, M3.one,
    M3.transpose, M3.mulVec, V3.dot, V3.cross, V3.get, kPose, kVel, DriftEx.st, DriftEx.pose, DriftEx.ang, PT.mulM]

/-- The theorem on the translation error applies to that sensor. -/
example : ∃ s' : ℝ → PbvsT ℝ, ∀ a < 3,
    HasDerivAt (fun τ => (s' τ).eval.lin.get a) (-(s' 0).speed.get (3 + a)) 0 := by
  obtain ⟨s', -, h⟩ := C65_pbvs (fun _ => 0) poseJac pbvs PT.one (rigid_trans _) (DriftEx.evolves 0)
    rfl rfl rfl poseJac_rows
  exact ⟨s', fun a ha => (h a ha).1⟩

/-- The drift theorem applies to a sensor on the axis. -/
example : ∃ s' : ℝ → PbvsT ℝ, ∀ a < 3, HasDerivAt (fun τ => (s' τ).speed.get (3 + a))
    ((s' 0).jacMat.rowMul (3 + a) (fun _ => 1) + (s' 0).normalAcc.get (3 + a)) 0 := by
  obtain ⟨s', -, h⟩ := C65_pbvs_drift_partial (fun _ => 0) poseJac
    (PbvsT.make DriftEx.mb 0 [0] PT.one PT.one (fun _ _ => 7)) PT.one rigid_one (DriftEx.evolves 0)
    rfl rfl rfl poseJac_rows (by
      ext <;> simp [PbvsT.make, kVel, DriftEx.st, PT.mulM, PT.one, M3.one, M3.mulVec, V3.dot, V3.cross])
  exact ⟨s', h⟩

end VisEx
end Verif
