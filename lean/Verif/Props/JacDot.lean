import Verif.Proofs.JacDot
import Verif.Props.Kine
import Verif.Props.Drift
import Verif.Props.CoM
import Verif.Props.Momentum

/-!
# C79: `jacDot()` is the time derivative of `jac()`

Along every differentiable motion of the robot, `updateDot` writes the time derivative of the matrix
`update` writes, so that `jacDot() * alpha` is the drift `normalAcc()` reports.  What RBDyn's
`jacobianDot`, `bodyJacobianDot` and `matrixDot` return is assumed to be the derivative of what
`jacobian`, `bodyJacobian` and `matrix` return (`Spec.MatDeriv`); what is proved is that the tasks take
the right rows, put them in the right columns, and differentiate the Jacobian `update` uses.

`SurfaceOrientationTask` differentiates the Jacobian in the frame of the body while `update` gives it in
the frame of the surface: the result is right only for surfaces oriented as their body.
-/

set_option autoImplicit false
set_option linter.unusedSectionVars false

namespace Verif

open Finset Spec

section
variable {mb : MultiBody ℝ} {st : ℝ → KState ℝ} {x : ℝ → ℕ → ℝ} {xd : ℕ → ℝ} {t : ℝ}

theorem jac_size {J : Jac ℝ} {st : KState ℝ} (h : KSized mb st J.path) {b : ℕ}
    (hb : J.path.getLast? = some b) {S : Mat ℝ} (hS : J.jacobian mb st = .ok S) :
    S.rows = 6 ∧ S.cols = pathDof mb J.path := by
  rw [jac_world h hb] at hS
  cases hS
  exact ⟨rfl, rfl⟩

theorem massSum_pos {bs : List (BodyM ℝ)} (h : massSum bs ≠ 0) : 0 < bs.length := by
  cases bs with
  | nil => exact absurd (by simp [massSum]) h
  | cons b l => simp

/-- PositionTask. -/
theorem C79_position (s : PositionT ℝ) (h : Evolves mb st s.jac.path x xd t)
    (hb : s.jac.path.getLast? = some s.bodyIndex)
    (hr : s.out.jacMat.rows = 3) (hc : s.out.jacMat.cols = mb.nrDof)
    {S : ℝ → Mat ℝ} (hS : ∀ τ, s.jac.jacobian mb (st τ) = .ok (S τ)) {D : Mat ℝ} (hD : MatDeriv S D t)
    {res : Mat ℝ} (hr' : res.rows = 3) (hc' : res.cols = mb.nrDof) :
    ∃ (s' : ℝ → PositionT ℝ) (R : Mat ℝ), (∀ τ, s.update mb (st τ) = .ok (s' τ)) ∧
      positionUpdateDot mb s.jac D res = .ok R ∧ MatDeriv (fun τ => (s' τ).out.jacMat) R t ∧
      ∀ a < 3, R.rowMul a (x t) = (s' t).out.normalAcc.get a := by
  obtain ⟨s', u, d⟩ := C58_position s h hb hr hc
  have e : ∀ τ, ∃ sh, (S τ).block 3 0 3 (pathDof mb s.jac.path) = .ok sh ∧
      fullJacobian mb s.jac.path sh s.out.jacMat = .ok (s' τ).out.jacMat := by
    intro τ
    have := u τ
    unfold PositionT.update at this
    simp only [Out.bind_eq_ok, hS τ] at this
    obtain ⟨X, -, v, -, n, -, q, q1, sh, q2, M, q3, q4⟩ := this
    cases q1
    have q5 := congrArg (fun s : PositionT ℝ => s.out.jacMat) (Out.ok.inj q4)
    dsimp only at q5
    exact ⟨sh, q2, by rw [q3, q5]⟩
  choose sh e1 e2 using e
  obtain ⟨R, r1, r2, r3, r4⟩ := full_deriv (h.moves t).sized.mem (h.moves t).sized.nodup
    (fun τ => jac_size (h.moves τ).sized hb (hS τ)) (by norm_num) hD hr hc hr' hc' e1 e2
  refine ⟨s', R, u, r1, r4, fun a ha => ?_⟩
  have k : ∀ τ, SpeedIsJac3 mb (s' τ).out (x τ) := by
    intro τ
    obtain ⟨q, q1, q2⟩ := C51_position s (h.moves τ) hb hr hc
    rw [u τ] at q1
    cases q1
    exact q2
  exact jacDot_alpha r4 (fun τ => (k τ).2.1) h.acc (by omega) (fun τ => (k τ).2.2 a ha) (d a ha)

/-- OrientationTask. -/
theorem C79_orientation (rotErr : M3 ℝ → M3 ℝ → V3 ℝ) (b : ℕ) (J : Jac ℝ) (ori : M3 ℝ) (res₀ : Mat ℝ)
    (h : Evolves mb st J.path x xd t) (hb : J.path.getLast? = some b)
    (hr : res₀.rows = 3) (hc : res₀.cols = mb.nrDof)
    {S : ℝ → Mat ℝ} (hS : ∀ τ, J.jacobian mb (st τ) = .ok (S τ)) {D : Mat ℝ} (hD : MatDeriv S D t)
    {res : Mat ℝ} (hr' : res.rows = 3) (hc' : res.cols = mb.nrDof) :
    ∃ (o : ℝ → Out3 ℝ) (R : Mat ℝ), (∀ τ, orientationUpdate rotErr mb (st τ) b J ori res₀ = .ok (o τ)) ∧
      orientationUpdateDot mb J D res = .ok R ∧ MatDeriv (fun τ => (o τ).jacMat) R t ∧
      ∀ a < 3, R.rowMul a (x t) = (o t).normalAcc.get a := by
  obtain ⟨s', u, d⟩ := C58_orientation rotErr b J ori res₀ h hb hr hc
  have e : ∀ τ, ∃ sh, (S τ).block 0 0 3 (pathDof mb J.path) = .ok sh ∧
      fullJacobian mb J.path sh res₀ = .ok (s' τ).jacMat := by
    intro τ
    have := u τ
    unfold orientationUpdate at this
    simp only [Out.bind_eq_ok, hS τ] at this
    obtain ⟨X, -, v, -, n, -, q, q1, sh, q2, M, q3, q4⟩ := this
    cases q1
    have q5 := congrArg Out3.jacMat (Out.ok.inj q4)
    dsimp only at q5
    exact ⟨sh, q2, by rw [q3, q5]⟩
  choose sh e1 e2 using e
  obtain ⟨R, r1, r2, r3, r4⟩ := full_deriv (h.moves t).sized.mem (h.moves t).sized.nodup
    (fun τ => jac_size (h.moves τ).sized hb (hS τ)) (by norm_num) hD hr hc hr' hc' e1 e2
  refine ⟨s', R, u, r1, r4, fun a ha => ?_⟩
  have k : ∀ τ, SpeedIsJac3 mb (s' τ) (x τ) := by
    intro τ
    obtain ⟨q, q1, q2⟩ := C51_orientation rotErr b J ori res₀ (h.moves τ) hb hr hc
    rw [u τ] at q1
    cases q1
    exact q2
  exact jacDot_alpha r4 (fun τ => (k τ).2.1) h.acc (by omega) (fun τ => (k τ).2.2 a ha) (d a ha)

/-- LinVelocityTask. -/
theorem C79_lin_velocity (s : LinVelT ℝ) {b : ℕ} (h : Evolves mb st s.jac.path x xd t)
    (hb : s.jac.path.getLast? = some b)
    (hr : s.out.jacMat.rows = 3) (hc : s.out.jacMat.cols = mb.nrDof)
    {S : ℝ → Mat ℝ} (hS : ∀ τ, s.jac.jacobian mb (st τ) = .ok (S τ)) {D : Mat ℝ} (hD : MatDeriv S D t)
    {res : Mat ℝ} (hr' : res.rows = 3) (hc' : res.cols = mb.nrDof) :
    ∃ (s' : ℝ → LinVelT ℝ) (R : Mat ℝ), (∀ τ, s.update mb (st τ) = .ok (s' τ)) ∧
      linVelUpdateDot mb s.jac D res = .ok R ∧ MatDeriv (fun τ => (s' τ).out.jacMat) R t ∧
      ∀ a < 3, R.rowMul a (x t) = (s' t).out.normalAcc.get a := by
  obtain ⟨s', u, d⟩ := C58_lin_velocity s h hb hr hc
  have e : ∀ τ, ∃ sh, (S τ).block 3 0 3 (pathDof mb s.jac.path) = .ok sh ∧
      fullJacobian mb s.jac.path sh s.out.jacMat = .ok (s' τ).out.jacMat := by
    intro τ
    have := u τ
    unfold LinVelT.update at this
    simp only [Out.bind_eq_ok, hS τ] at this
    obtain ⟨v, -, n, -, q, q1, sh, q2, M, q3, q4⟩ := this
    cases q1
    have q5 := congrArg (fun s : LinVelT ℝ => s.out.jacMat) (Out.ok.inj q4)
    dsimp only at q5
    exact ⟨sh, q2, by rw [q3, q5]⟩
  choose sh e1 e2 using e
  obtain ⟨R, r1, r2, r3, r4⟩ := full_deriv (h.moves t).sized.mem (h.moves t).sized.nodup
    (fun τ => jac_size (h.moves τ).sized hb (hS τ)) (by norm_num) hD hr hc hr' hc' e1 e2
  refine ⟨s', R, u, r1, r4, fun a ha => ?_⟩
  have k : ∀ τ, (s' τ).out.jacMat.cols = mb.nrDof ∧
      ∀ a < 3, (s' τ).out.jacMat.rowMul a (x τ) = (s.vel - (s' τ).out.eval).get a := by
    intro τ
    obtain ⟨q, q1, q2⟩ := C51_lin_velocity s (h.moves τ) hb hr hc
    rw [u τ] at q1
    cases q1
    exact q2.2
  have d' : HasDerivAt (fun τ => (s.vel - (s' τ).out.eval).get a)
      ((s' t).out.jacMat.rowMul a xd + (s' t).out.normalAcc.get a) t := by
    have := (hasDerivAt_const t (s.vel.get a)).sub (d a ha)
    refine (this.congr_deriv (by ring)).congr_of_eventuallyEq (Filter.Eventually.of_forall fun τ => ?_)
    match a with
    | 0 => rfl
    | 1 => rfl
    | n + 2 => rfl
  exact jacDot_alpha r4 (fun τ => (k τ).1) h.acc (by omega) (fun τ => (k τ).2 a ha) d'

/-- CoMTask. -/
theorem C79_com {w : List ℝ} {bs : List (BodyM ℝ)} {com : V3 ℝ} {s : CoMT ℝ} (Rn : CoMRun w bs com s)
    (h : BodiesEvolve bs mb st x xd t) (hm : MassOK bs) (hM : massSum bs ≠ 0)
    {S : ℝ → Mat ℝ} (hS : ∀ τ, s.jac.jacobian mb (st τ) = .ok (S τ)) {D : Mat ℝ} (hD : MatDeriv S D t)
    (res : Mat ℝ) :
    ∃ (s' : ℝ → CoMT ℝ) (R : Mat ℝ), (∀ τ, s.update bs mb (st τ) = .ok (s' τ)) ∧
      comUpdateDot D res = .ok R ∧ MatDeriv (fun τ => (s' τ).out.jacMat) R t ∧
      ∀ a < 3, R.rowMul a (x t) = (s' t).out.normalAcc.get a := by
  have hx := (h 0 (massSum_pos hM)).2.acc
  obtain ⟨s', u, d⟩ := C61_drift Rn h hm hM
  have k : ∀ τ, (s' τ).out.jacMat = S τ ∧ (S τ).rows = 3 ∧ (S τ).cols = mb.nrDof ∧
      ∀ a < 3, (S τ).rowMul a (x τ) = (s' τ).out.speed.get a := by
    intro τ
    obtain ⟨q, q1, -, -, q2, q3, q4⟩ := C61_speed_is_jac Rn (h.moves τ) hm hM
    rw [u τ] at q1
    cases q1
    have e : (s' τ).out.jacMat = S τ := by
      have := u τ
      unfold CoMT.update CoMT.updateAt at this
      simp only [Out.bind_eq_ok, hS τ] at this
      obtain ⟨c, -, v, -, n, -, q, q1, q5⟩ := this
      cases q1
      exact (congrArg (fun s : CoMT ℝ => s.out.jacMat) (Out.ok.inj q5)).symm
    rw [e] at q2 q3 q4
    exact ⟨e, q2, q3, q4⟩
  have hf : (fun τ => (s' τ).out.jacMat) = S := funext fun τ => (k τ).1
  refine ⟨s', D, u, rfl, by rw [hf]; exact hD, fun a ha => ?_⟩
  have d' := d a ha
  dsimp only at d'
  rw [(k t).1] at d'
  exact jacDot_alpha hD (fun τ => (k τ).2.2.1) hx (by rw [hD.1, (k t).2.1]; exact ha)
    (fun τ => (k τ).2.2.2 a ha) d'

/-- MomentumTask. -/
theorem C79_momentum {bs : List (BodyI ℝ)} (h : BodiesEvolve (bs.map BodyI.b) mb st x xd t)
    (hM : massSum (bs.map BodyI.b) ≠ 0) (s : MomentumT ℝ)
    {S : ℝ → Mat ℝ} (hS : ∀ τ c, computeCoM (bs.map BodyI.b) (st τ) = .ok c →
      momentumMatrix bs mb (st τ) c = .ok (S τ)) {D : Mat ℝ} (hD : MatDeriv S D t) (res : Mat ℝ) :
    ∃ (s' : ℝ → MomentumT ℝ) (R : Mat ℝ), (∀ τ, s.update bs mb (st τ) = .ok (s' τ)) ∧
      momentumUpdateDot D res = .ok R ∧ MatDeriv (fun τ => (s' τ).jacMat) R t ∧
      ∀ a < 6, R.rowMul a (x t) = (s' t).normalAcc.get a := by
  have hx := (h 0 (massSum_pos hM)).2.acc
  obtain ⟨s', u, d⟩ := C64_drift h hM s
  have k : ∀ τ, (s' τ).jacMat = S τ ∧ (S τ).rows = 6 ∧ (S τ).cols = mb.nrDof ∧
      ∀ a < 6, (S τ).rowMul a (x τ) = s.momentum.get a - (s' τ).eval.get a := by
    intro τ
    obtain ⟨q, q1, -, -, q2, q3, q4⟩ := C64_jacobian (h.moves τ) hM s
    rw [u τ] at q1
    cases q1
    have e : (s' τ).jacMat = S τ := by
      have := u τ
      unfold MomentumT.update at this
      simp only [Out.bind_eq_ok] at this
      obtain ⟨c, c1, v, -, n, -, m, -, M, q1, q5⟩ := this
      rw [hS τ c c1] at q1
      cases q1
      exact (congrArg MomentumT.jacMat (Out.ok.inj q5)).symm
    rw [e] at q2 q3 q4
    exact ⟨e, q2, q3, q4⟩
  have hf : (fun τ => (s' τ).jacMat) = S := funext fun τ => (k τ).1
  refine ⟨s', D, u, rfl, by rw [hf]; exact hD, fun a ha => ?_⟩
  have d' := (hasDerivAt_const t (s.momentum.get a)).sub (d a ha)
  rw [(k t).1] at d'
  exact jacDot_alpha hD (fun τ => (k τ).2.2.1) hx (by rw [hD.1, (k t).2.1]; exact ha)
    (fun τ => (k τ).2.2.2 a ha) (d'.congr_deriv (by ring))

/-! ## Surfaces -/

/-- Angular part of the columns in the frame of the surface: those in the frame of the body, turned. -/
theorem surf_cols (mb : MultiBody ℝ) (st : KState ℝ) (X_b_s X : PT ℝ) (p : V3 ℝ) (path : List ℕ) (k : ℕ) :
    ((pathCols mb (kCol st (X_b_s.mul X)) path).getD k 0).ang
      = X_b_s.E.mulVec ((pathCols mb (kCol st ((PT.ofTrans p).mul X)) path).getD k 0).ang := by
  have e : ∀ i d, (kCol st (X_b_s.mul X) i d).ang
      = X_b_s.E.mulVec (kCol st ((PT.ofTrans p).mul X) i d).ang := by
    intro i d
    unfold kCol PT.mulM PT.mul PT.ofTrans
    dsimp only
    rw [M3.one_mul', M3.mul_assoc', M3.mul_mulVec]
  have key : ∀ g : ℕ → ℕ → MV ℝ, ((pathCols mb g path).getD k 0).ang
      = ((path.flatMap fun i => (List.range (jdof mb i)).map fun d => (g i d).ang)).getD k 0 := by
    intro g
    have : (path.flatMap fun i => (List.range (jdof mb i)).map fun d => (g i d).ang)
        = (pathCols mb g path).map MV.ang := by
      unfold pathCols
      simp [List.map_flatMap, Function.comp_def]
    rw [this, List.getD_eq_getElem?_getD, List.getD_eq_getElem?_getD, List.getElem?_map]
    cases (pathCols mb g path)[k]? <;> rfl
  have key2 : ∀ g : ℕ → ℕ → V3 ℝ, X_b_s.E.mulVec
      ((path.flatMap fun i => (List.range (jdof mb i)).map fun d => g i d).getD k 0)
      = ((path.flatMap fun i => (List.range (jdof mb i)).map fun d => X_b_s.E.mulVec (g i d))).getD k 0 := by
    intro g
    have : (path.flatMap fun i => (List.range (jdof mb i)).map fun d => X_b_s.E.mulVec (g i d))
        = (path.flatMap fun i => (List.range (jdof mb i)).map fun d => g i d).map X_b_s.E.mulVec := by
      simp [List.map_flatMap, Function.comp_def]
    rw [this, List.getD_eq_getElem?_getD, List.getD_eq_getElem?_getD, List.getElem?_map]
    cases (path.flatMap fun i => (List.range (jdof mb i)).map fun d => g i d)[k]? with
    | none => exact M3.mulVec_zero _
    | some v => rfl
  rw [key, key, key2]
  simp only [e]

namespace Spec

/-- Column of a matrix with three rows. -/
def col3 (M : Mat ℝ) (c : ℕ) : V3 ℝ := ⟨M.get 0 c, M.get 1 c, M.get 2 c⟩

end Spec

/-- SurfaceOrientationTask: turning every column of `jacDot()` by the orientation of the surface gives
the time derivative of the corresponding column of `jac()`. -/
theorem C79_surface_orientation (rotVel : M3 ℝ → V3 ℝ) (b : ℕ) (J : Jac ℝ) (ori : M3 ℝ) (X_b_s : PT ℝ)
    (res₀ : Mat ℝ) (h : Evolves mb st J.path x xd t) (hb : J.path.getLast? = some b)
    (hr : res₀.rows = 3) (hc : res₀.cols = mb.nrDof)
    {S : ℝ → Mat ℝ} (hS : ∀ τ, J.bodyJacobian mb (st τ) = .ok (S τ)) {D : Mat ℝ} (hD : MatDeriv S D t)
    {res : Mat ℝ} (hr' : res.rows = 3) (hc' : res.cols = mb.nrDof) :
    ∃ (o : ℝ → Out3 ℝ) (R : Mat ℝ),
      (∀ τ, surfaceOriUpdate rotVel mb (st τ) b J ori X_b_s res₀ = .ok (o τ)) ∧
      surfaceOriUpdateDot mb J D res = .ok R ∧ R.rows = 3 ∧ R.cols = mb.nrDof ∧
      ∀ c < mb.nrDof, HasD3 (fun τ => col3 (o τ).jacMat c) (X_b_s.E.mulVec (col3 R c)) t := by
  have e : ∀ τ, ∃ o, surfaceOriUpdate rotVel mb (st τ) b J ori X_b_s res₀ = .ok o ∧
      ∀ a < 3, ∀ c < mb.nrDof, o.jacMat.get a c = onDofs mb J.path (fun k =>
        (X_b_s.E.mulVec ⟨(S τ).get 0 k, (S τ).get 1 k, (S τ).get 2 k⟩).get a) c := by
    intro τ
    have hm := h.moves τ
    obtain ⟨sh, R, b1, b2, b3, b4, b6, b5⟩ := angular_full hm hb (X_b_s.mul (kPose (st τ) b)) X_b_s rfl
      res₀ hr hc
    have q : ∃ v w n, surfaceOriUpdate rotVel mb (st τ) b J ori X_b_s res₀ = .ok ⟨v, w, n, R⟩ := by
      unfold surfaceOriUpdate
      rw [vecAt_getD PT.one (hm.sized.pos _ (List.mem_of_getLast? hb)), Out.ok_bind,
        jac_velAt hm.sized hb, Out.ok_bind, jac_accAt hm.sized hb, Out.ok_bind, jac_at hm.sized]
      simp only [Out.ok_bind]
      unfold kPose at b1
      rw [b1, Out.ok_bind, b2, Out.ok_bind]
      exact ⟨_, _, _, rfl⟩
    obtain ⟨v, w, n, q⟩ := q
    refine ⟨_, q, fun a ha c hc => ?_⟩
    · have hS' := hS τ
      rw [jac_bodyJac hm.sized hb] at hS'
      have hS'' := (Out.ok.inj hS').symm
      dsimp only
      rw [b6 a ha c hc]
      congr 1
      funext k
      rw [hS'']
      dsimp only
      rw [MV.get_ang _ ha, surf_cols mb (st τ) X_b_s (kPose (st τ) b) J.point]
      rfl
  choose o u g using e
  have hsz : ∀ τ, (S τ).rows = 6 ∧ (S τ).cols = pathDof mb J.path := by
    intro τ
    have hS' := hS τ
    rw [jac_bodyJac (h.moves τ).sized hb] at hS'
    rw [← Out.ok.inj hS']
    exact ⟨rfl, rfl⟩
  obtain ⟨d1, d2, d3⟩ := hD
  rw [(hsz t).1] at d1
  rw [(hsz t).2] at d2
  obtain ⟨R, k1, k2, k3, k4⟩ := fullJacobian_ok mb J.path
    ⟨3, pathDof mb J.path, fun a b => D.get (0 + a) (0 + b)⟩ res (h.moves t).sized.mem
    (h.moves t).sized.nodup le_rfl (by rw [hr']) (by rw [hc'])
  have key : ∀ a < 3, ∀ c < mb.nrDof, HasDerivAt (fun τ => (o τ).jacMat.get a c)
      ((X_b_s.E.mulVec (col3 R c)).get a) t := by
    intro a ha c hc
    have := onDofs_deriv mb J.path
      (f := fun τ k => (X_b_s.E.mulVec ⟨(S τ).get 0 k, (S τ).get 1 k, (S τ).get 2 k⟩).get a)
      (f' := fun k => (X_b_s.E.mulVec ⟨D.get 0 k, D.get 1 k, D.get 2 k⟩).get a) (t := t)
      (fun k hk => by
        have q : HasD3 (fun τ => (⟨(S τ).get 0 k, (S τ).get 1 k, (S τ).get 2 k⟩ : V3 ℝ))
            ⟨D.get 0 k, D.get 1 k, D.get 2 k⟩ t :=
          ⟨d3 0 (by omega) k (by omega), d3 1 (by omega) k (by omega), d3 2 (by omega) k (by omega)⟩
        exact (HasD3.mulVec_const X_b_s.E q).get a) c
    refine (this.congr_deriv ?_).congr_of_eventuallyEq (Filter.Eventually.of_forall fun τ => g τ a ha c hc)
    unfold col3
    rw [k4 0 (by norm_num) c hc, k4 1 (by norm_num) c hc, k4 2 (by norm_num) c hc]
    simp only [Nat.zero_add]
    match a, ha with
    | 0, _ => exact onDofs_lin3 ..
    | 1, _ => exact onDofs_lin3 ..
    | 2, _ => exact onDofs_lin3 ..
  refine ⟨o, R, u, ?_, k2.trans hr', k3.trans hc', fun c hc => ⟨key 0 (by norm_num) c hc,
    key 1 (by norm_num) c hc, key 2 (by norm_num) c hc⟩⟩
  unfold surfaceOriUpdateDot
  rw [block_ok ⟨by rw [d1]; norm_num, by rw [d2]; simp⟩, Out.ok_bind, k1]

/-- For a surface oriented as its body `jacDot()` is the time derivative of `jac()`. -/
theorem C79_surface_orientation_partial (rotVel : M3 ℝ → V3 ℝ) (b : ℕ) (J : Jac ℝ) (ori : M3 ℝ)
    (X_b_s : PT ℝ) (hE : X_b_s.E = M3.one)
    (res₀ : Mat ℝ) (h : Evolves mb st J.path x xd t) (hb : J.path.getLast? = some b)
    (hr : res₀.rows = 3) (hc : res₀.cols = mb.nrDof)
    {S : ℝ → Mat ℝ} (hS : ∀ τ, J.bodyJacobian mb (st τ) = .ok (S τ)) {D : Mat ℝ} (hD : MatDeriv S D t)
    {res : Mat ℝ} (hr' : res.rows = 3) (hc' : res.cols = mb.nrDof) :
    ∃ (o : ℝ → Out3 ℝ) (R : Mat ℝ),
      (∀ τ, surfaceOriUpdate rotVel mb (st τ) b J ori X_b_s res₀ = .ok (o τ)) ∧
      surfaceOriUpdateDot mb J D res = .ok R ∧ MatDeriv (fun τ => (o τ).jacMat) R t ∧
      ∀ a < 3, R.rowMul a (x t) = (o t).normalAcc.get a := by
  obtain ⟨o, R, u, r1, r2, r3, r4⟩ := C79_surface_orientation rotVel b J ori X_b_s res₀ h hb hr hc hS hD
    hr' hc'
  have k : ∀ τ, SpeedIsJac3 mb (o τ) (x τ) := by
    intro τ
    obtain ⟨q, q1, q2⟩ := C51_surface_orientation rotVel b J ori X_b_s res₀ (h.moves τ) hb hr hc
    rw [u τ] at q1
    cases q1
    exact q2
  have hR : MatDeriv (fun τ => (o τ).jacMat) R t := by
    refine ⟨r2.trans (k t).1.symm, r3.trans (k t).2.1.symm, fun a ha c hc => ?_⟩
    have := r4 c (by omega)
    rw [hE, M3.one_mulVec] at this
    match a, ha with
    | 0, _ => exact this.1
    | 1, _ => exact this.2.1
    | 2, _ => exact this.2.2
    | n + 3, ha => omega
  obtain ⟨o', u', d⟩ := C58_surface_orientation rotVel b J ori X_b_s
    (by unfold PT.Rigid; rw [hE]; exact M3.isRot_one) res₀ h hb hr hc
  have : o' = o := funext fun τ => Out.ok.inj ((u' τ).symm.trans (u τ))
  subst this
  exact ⟨o', R, u, r1, hR, fun a ha => jacDot_alpha hR (fun τ => (k τ).2.1) h.acc (by omega)
    (fun τ => (k τ).2.2 a ha) (d a ha)⟩

end

/-! ## Examples -/

namespace JacDotEx

open DriftEx (ang pose ang_deriv)

/-- Column of the Jacobian of the rotating body at its point `(1, 0, 0)`: axis of the joint and
velocity of the point. -/
theorem col_ex (τ : ℝ) : (pathCols DriftEx.mb (kCol (DriftEx.st τ) (PT.ofTrans ((PT.ofTrans ⟨1, 0, 0⟩).mul
    (kPose (DriftEx.st τ) 0)).r)) [0]).getD 0 0
    = ⟨⟨0, 0, 1⟩, ⟨-Real.sin (ang τ), Real.cos (ang τ), 0⟩⟩ := by
  ext <;> simp [pathCols, jdof, DriftEx.mb, kCol, kPose, kSub, DriftEx.st, pose, PT.inv, PT.mul, PT.mulM,
    PT.ofTrans, M3.mulVec, M3.mul, M3.one, M3.transpose, V3.dot]
  · linear_combination -Real.sin (ang τ) * Real.sin_sq_add_cos_sq (ang τ)
  · linear_combination Real.cos (ang τ) * Real.sin_sq_add_cos_sq (ang τ)

theorem sin_deriv : HasDerivAt (fun τ => Real.sin (ang τ)) 1 0 :=
  ((Real.hasDerivAt_sin (ang 0)).comp 0 (ang_deriv 0)).congr_deriv (by simp [ang])

theorem cos_deriv : HasDerivAt (fun τ => Real.cos (ang τ)) 0 0 :=
  ((Real.hasDerivAt_cos (ang 0)).comp 0 (ang_deriv 0)).congr_deriv (by simp [ang])

/-- Its derivative at time `0`. -/
def D : Mat ℝ := ⟨6, 1, fun a _ => if a = 3 then -1 else 0⟩

theorem D_deriv : MatDeriv (fun τ => ⟨6, pathDof DriftEx.mb [0], fun a k =>
      ((pathCols DriftEx.mb (kCol (DriftEx.st τ) (PT.ofTrans ((PT.ofTrans ⟨1, 0, 0⟩).mul
        (kPose (DriftEx.st τ) 0)).r)) [0]).getD k 0).get a⟩) D 0 := by
  refine ⟨rfl, rfl, fun a ha c hc => ?_⟩
  have : c = 0 := by simp [D] at hc; exact hc
  subst this
  dsimp only
  simp only [col_ex]
  match a, ha with
  | 0, _ => simpa [MV.get, V3.get, D] using hasDerivAt_const (0 : ℝ) (0 : ℝ)
  | 1, _ => simpa [MV.get, V3.get, D] using hasDerivAt_const (0 : ℝ) (0 : ℝ)
  | 2, _ => simpa [MV.get, V3.get, D] using hasDerivAt_const (0 : ℝ) (1 : ℝ)
  | 3, _ => exact sin_deriv.neg
  | 4, _ => exact cos_deriv
  | 5, _ => simpa [MV.get, V3.get, D] using hasDerivAt_const (0 : ℝ) (0 : ℝ)

/-- The position task on the point `(1, 0, 0)` of a rotating body: the theorem applies, and at time `0`
`jacDot() * alpha` is the centripetal acceleration `(-1, 0, 0)`. -/
example : ∃ (s' : ℝ → PositionT ℝ) (R : Mat ℝ),
    (∀ τ, DriftEx.task.update DriftEx.mb (DriftEx.st τ) = .ok (s' τ)) ∧
    positionUpdateDot DriftEx.mb DriftEx.task.jac D ⟨3, 1, fun _ _ => 7⟩ = .ok R ∧
    MatDeriv (fun τ => (s' τ).out.jacMat) R 0 ∧ R.get 0 0 = -1 ∧
    ∀ a < 3, R.rowMul a (fun _ => 1 + 0) = (s' 0).out.normalAcc.get a := by
  obtain ⟨s', R, h1, h2, h3, h4⟩ := C79_position DriftEx.task (DriftEx.evolves 0) rfl rfl rfl
    (fun τ => jac_world ((DriftEx.evolves 0).moves τ).sized rfl) D_deriv (res := ⟨3, 1, fun _ _ => 7⟩) rfl rfl
  refine ⟨s', R, h1, h2, h3, ?_, h4⟩
  simp [positionUpdateDot, D, DriftEx.task, PositionT.make, DriftEx.mb, pathDof, Mat.block, fullJacobian,
    Mat.setBlock, Mat.zero, MultiBody.nrDof, forEach, vecAt, MultiBody.jointPosInDof] at h2
  rw [← h2]
  simp

/-- The orientation and velocity tasks on the same motion. -/
noncomputable example := C79_orientation (fun _ _ => 0) 0 ⟨[0], ⟨1, 0, 0⟩⟩ M3.one ⟨3, 1, fun _ _ => 7⟩
  (DriftEx.evolves 0) rfl rfl rfl (fun τ => jac_world ((DriftEx.evolves 0).moves τ).sized rfl) D_deriv
  (res := ⟨3, 1, fun _ _ => 7⟩) rfl rfl
noncomputable example := C79_lin_velocity
  (LinVelT.make 0 [0] 0 ⟨1, 0, 0⟩ ⟨0, 0, 0, ⟨3, 1, fun _ _ => 7⟩⟩)
  (DriftEx.evolves 0) rfl rfl rfl (fun τ => jac_world ((DriftEx.evolves 0).moves τ).sized rfl) D_deriv
  (res := ⟨3, 1, fun _ _ => 7⟩) rfl rfl

/-- A body of mass 2 with its centre of mass at `(1, 0, 0)`, carried by the rotating joint. -/
def bs : List (BodyM ℝ) := [⟨2, ⟨2, 0, 0⟩, [0]⟩]

theorem bodies (t : ℝ) : BodiesEvolve bs DriftEx.mb DriftEx.st (fun τ _ => 1 + τ) (fun _ => 1) t := by
  intro i hi
  have : i = 0 := by simpa [bs] using hi
  subst this
  exact ⟨rfl, DriftEx.evolves t⟩

theorem hasMass : massSum bs ≠ 0 := by simp [massSum, bodyAt, bs]

theorem massOK : MassOK bs := by
  intro i hi
  have : i = 0 := by simpa [bs] using hi
  subst this
  simp [bs, bodyAt]

example : ∃ s, CoMRun [1] bs (0 : V3 ℝ) s := by
  obtain ⟨s, hs⟩ := (C61_rejected (bs := bs) 0 [1] 0 ⟨0, 0, 0, Mat.zero 3 1⟩).2.1 rfl hasMass
  exact ⟨s, .make _ _ hs⟩

/-- The centre of mass: `jacDot() * alpha` is the centripetal acceleration. -/
example (s : CoMT ℝ) (Rn : CoMRun [1] bs 0 s) : ∃ (s' : ℝ → CoMT ℝ) (R : Mat ℝ),
    (∀ τ, s.update bs DriftEx.mb (DriftEx.st τ) = .ok (s' τ)) ∧
    comUpdateDot ⟨3, 1, fun a _ => if a = 0 then -1 else 0⟩ (Mat.zero 3 1) = .ok R ∧
    MatDeriv (fun τ => (s' τ).out.jacMat) R 0 ∧
    ∀ a < 3, R.rowMul a (fun _ => 1 + 0) = (s' 0).out.normalAcc.get a := by
  choose M h1 h2 h3 h4 using fun τ => com_exact Rn ((bodies 0).moves τ) massOK hasMass
  have hS : ∀ τ, s.jac.jacobian DriftEx.mb (DriftEx.st τ) = .ok (M τ) := by
    intro τ
    have := h1 τ
    unfold CoMT.update CoMT.updateAt at this
    simp only [Out.bind_eq_ok] at this
    obtain ⟨c, -, v, -, n, -, q, q1, q5⟩ := this
    rw [q1]
    exact congrArg Out.ok (congrArg (fun s : CoMT ℝ => s.out.jacMat) (Out.ok.inj q5))
  have hg : ∀ τ, ∀ a < 3, (M τ).get a 0
      = (⟨-Real.sin (ang τ), Real.cos (ang τ), 0⟩ : V3 ℝ).get a := by
    intro τ a ha
    have e : (M τ).get a 0 = (M τ).rowMul a fun _ => 1 := by
      unfold Mat.rowMul
      rw [h3 τ]
      simp [DriftEx.mb, MultiBody.nrDof]
    rw [e, h4 τ _ a ha]
    congr 1
    have hl : bs.length = 1 := rfl
    ext <;> simp [hl, comCoef, comJacc, comPt, comPos, massSum, bs, bodyAt, wSum, pathSum, jdof, jpos, DriftEx.mb, kPose,
      kSub, DriftEx.st, pose, PT.inv, PT.mul, PT.mulM, PT.ofTrans, M3.mulVec, M3.mul, M3.one, M3.transpose,
      V3.dot]
  refine C79_com Rn (bodies 0) massOK hasMass hS ⟨(h2 0).symm, ?_, fun a ha c hc => ?_⟩ (Mat.zero 3 1)
  · rw [h3 0]
    simp [DriftEx.mb, MultiBody.nrDof]
  · have : c = 0 := by simpa using hc
    subst this
    have ha : a < 3 := ha
    simp only [fun τ => hg τ a ha]
    match a, ha with
    | 0, _ => exact sin_deriv.neg
    | 1, _ => exact cos_deriv
    | 2, _ => exact hasDerivAt_const _ _

/-- Two particles on the rotating body: the derivative of the momentum matrix at time `0`. -/
example : ∃ (s' : ℝ → MomentumT ℝ) (R : Mat ℝ),
    (∀ τ, MomEx.task.update MomEx.bs DriftEx.mb (DriftEx.st τ) = .ok (s' τ)) ∧
    momentumUpdateDot ⟨6, 1, fun a _ => if a = 3 ∨ a = 4 then -1 else 0⟩ (Mat.zero 6 1) = .ok R ∧
    MatDeriv (fun τ => (s' τ).jacMat) R 0 ∧
    ∀ a < 6, R.rowMul a (fun _ => 1 + 0) = (s' 0).normalAcc.get a := by
  choose M h1 h2 h3 h4 using fun τ => momentum_exact ((MomEx.evolves 0).moves τ) MomEx.hasMass MomEx.task
  have hS : ∀ τ c, computeCoM (MomEx.bs.map BodyI.b) (DriftEx.st τ) = .ok c →
      momentumMatrix MomEx.bs DriftEx.mb (DriftEx.st τ) c = .ok (M τ) := by
    intro τ c hc
    have := h1 τ
    unfold MomentumT.update at this
    simp only [Out.bind_eq_ok] at this
    obtain ⟨c', c1, v, -, n, -, m, -, q, q1, q5⟩ := this
    rw [hc] at c1
    cases c1
    rw [q1]
    exact congrArg Out.ok (congrArg MomentumT.jacMat (Out.ok.inj q5))
  have hg : ∀ τ, ∀ a < 6, (M τ).get a 0 = (⟨⟨0, 0, 1⟩, ⟨-(Real.sin (ang τ) + Real.cos (ang τ)),
      Real.cos (ang τ) - Real.sin (ang τ), 0⟩⟩ : FV ℝ).get a := by
    intro τ a ha
    have e : (M τ).get a 0 = (M τ).rowMul a fun _ => 1 := by
      unfold Mat.rowMul
      rw [h3 τ]
      simp [DriftEx.mb, MultiBody.nrDof]
    rw [e, h4 τ _ a ha]
    congr 1
    have hl : MomEx.bs.length = 1 := rfl
    ext <;> simp [hl, bodyMom, momCom, massSum, bodyAt, MomEx.bs, inertiaAt, BodyI.mul, kPose, kSub, DriftEx.st,
      pose, wSum, pathSum, DriftEx.mb, jdof, jpos, atCom, PT.transMul, PT.mul, PT.mulM, PT.inv, PT.ofTrans,
      M3.mul, M3.one, M3.mulVec, M3.transpose, V3.dot]
    · linear_combination -Real.sin_sq_add_cos_sq (ang τ)
    · ring
  refine C79_momentum (MomEx.evolves 0) MomEx.hasMass MomEx.task hS ⟨(h2 0).symm, ?_, fun a ha c hc => ?_⟩
    (Mat.zero 6 1)
  · rw [h3 0]
    simp [DriftEx.mb, MultiBody.nrDof]
  · have : c = 0 := by simpa using hc
    subst this
    have ha : a < 6 := ha
    simp only [fun τ => hg τ a ha]
    match a, ha with
    | 0, _ => exact hasDerivAt_const _ _
    | 1, _ => exact hasDerivAt_const _ _
    | 2, _ => exact hasDerivAt_const _ _
    | 3, _ => exact (sin_deriv.add cos_deriv).neg.congr_deriv (by norm_num)
    | 4, _ => exact (cos_deriv.sub sin_deriv).congr_deriv (by norm_num)
    | 5, _ => exact hasDerivAt_const _ _

/-- Two joints about `x` and `z`; the first is at rest, the second turns as above. -/
def mb2 : MultiBody ℝ :=
  { joints := [⟨"a", 1, none⟩, ⟨"b", 1, none⟩], nrBodies := 2, pred := [-1, 0], succ := [0, 1] }
noncomputable def st2 (τ : ℝ) : KState ℝ :=
  ⟨[PT.one, pose τ], [0, ⟨⟨0, 0, 1 + τ⟩, 0⟩], [[⟨⟨1, 0, 0⟩, 0⟩], [⟨⟨0, 0, 1⟩, 0⟩]], [[0], [1 + τ]], [0, 0]⟩
noncomputable def x2 (τ : ℝ) (c : ℕ) : ℝ := if c = 1 then 1 + τ else 0
def xd2 (c : ℕ) : ℝ := if c = 1 then 1 else 0

theorem evolves2 (t : ℝ) : Evolves mb2 st2 [0, 1] x2 xd2 t := by
  have e := DriftEx.evolves t
  have hrig : ∀ τ, ∀ i ∈ [0, 1], (kPose (st2 τ) i).Rigid := by
    intro τ i hi
    simp at hi
    rcases hi with rfl | rfl
    · exact M3.isRot_one
    · exact (e.moves τ).rigid 0 (by simp)
  refine ⟨fun τ => ⟨⟨by simp, by simp, by simp [mb2], by simp [st2], by simp [st2], by simp [st2], ?_⟩,
    hrig τ, ?_⟩, fun τ i _ d => rfl, fun c => ?_, ?_, ?_⟩
  · simp [st2, mb2, jdof]
  · refine ⟨?_, ⟨pose τ, hrig τ 1 (by simp), ?_, ?_⟩, trivial⟩
    · ext <;> simp [kVel, kSub, st2, mb2, jdof, jpos, x2]
    · ext <;> simp [kPose, st2, pose, PT.mul, PT.one, M3.mul, M3.one, M3.mulVec, M3.transpose, V3.dot]
    · ext <;> simp [kVel, kSub, st2, mb2, jdof, jpos, x2, PT.mulM, pose, M3.mulVec, V3.dot]
  · unfold x2 xd2
    split
    · exact ((hasDerivAt_const t (1 : ℝ)).add (hasDerivAt_id t)).congr_deriv (zero_add 1)
    · exact hasDerivAt_const t 0
  · intro i hi
    simp at hi
    rcases hi with rfl | rfl
    · exact FrameMoves.fixed PT.one t
    · exact e.frame 0 (by simp)
  · refine ⟨?_, ⟨pose t, hrig t 1 (by simp), ?_, ?_⟩, trivial⟩
    · ext <;> simp [kVel, kSub, kAcc, st2, mb2, jdof, jpos, MV.cross]
    · ext <;> simp [kPose, st2, pose, PT.mul, PT.one, M3.mul, M3.one, M3.mulVec, M3.transpose, V3.dot]
    · ext <;> simp [kVel, kSub, kAcc, st2, mb2, jdof, jpos, MV.cross, x2, PT.mulM, pose, M3.mulVec, V3.dot]

/-- A surface turned by a quarter about `z`. -/
def X_b_s : PT ℝ := ⟨⟨⟨0, 1, 0⟩, ⟨-1, 0, 0⟩, ⟨0, 0, 1⟩⟩, 0⟩

/-- Derivative at time `0` of the Jacobian in the frame of the body. -/
def D2 : Mat ℝ := ⟨6, 2, fun a c => if a = 1 ∧ c = 0 then -1 else 0⟩

theorem col2_ex (τ : ℝ) (c : ℕ) (hc : c < 2) : (pathCols mb2 (kCol (st2 τ) ((PT.ofTrans 0).mul
    (kPose (st2 τ) 1))) [0, 1]).getD c 0
    = if c = 0 then ⟨⟨Real.cos (ang τ), -Real.sin (ang τ), 0⟩, 0⟩ else ⟨⟨0, 0, 1⟩, 0⟩ := by
  match c, hc with
  | 0, _ =>
    ext <;> simp [pathCols, jdof, mb2, kCol, kPose, kSub, st2, pose, PT.inv, PT.mul, PT.mulM, PT.one,
      PT.ofTrans, M3.mulVec, M3.mul, M3.one, M3.transpose, V3.dot]
  | 1, _ =>
    ext <;> simp [pathCols, jdof, mb2, kCol, kPose, kSub, st2, pose, PT.inv, PT.mul, PT.mulM, PT.one,
      PT.ofTrans, M3.mulVec, M3.mul, M3.one, M3.transpose, V3.dot]

theorem D2_deriv : MatDeriv (fun τ => ⟨6, pathDof mb2 [0, 1], fun a k =>
    ((pathCols mb2 (kCol (st2 τ) ((PT.ofTrans 0).mul (kPose (st2 τ) 1))) [0, 1]).getD k 0).get a⟩) D2 0 := by
  refine ⟨rfl, rfl, fun a ha c hc => ?_⟩
  have hc : c < 2 := hc
  dsimp only
  simp only [fun τ => col2_ex τ c hc]
  match c, hc, a, ha with
  | 0, _, 0, _ => exact cos_deriv
  | 0, _, 1, _ => exact sin_deriv.neg
  | 0, _, 2, _ => exact hasDerivAt_const _ _
  | 0, _, 3, _ => exact hasDerivAt_const _ _
  | 0, _, 4, _ => exact hasDerivAt_const _ _
  | 0, _, 5, _ => exact hasDerivAt_const _ _
  | 1, _, 0, _ => exact hasDerivAt_const _ _
  | 1, _, 1, _ => exact hasDerivAt_const _ _
  | 1, _, 2, _ => exact hasDerivAt_const _ _
  | 1, _, 3, _ => exact hasDerivAt_const _ _
  | 1, _, 4, _ => exact hasDerivAt_const _ _
  | 1, _, 5, _ => exact hasDerivAt_const _ _

/-- For this surface the first column of `jac()` has the derivative `(-1, 0, 0)`; `jacDot()` has the column
`(0, -1, 0)`: it is not the derivative. -/
theorem C79_surface_orientation_counterexample (rotVel : M3 ℝ → V3 ℝ) (ori : M3 ℝ) :
    ∃ (o : ℝ → Out3 ℝ) (R : Mat ℝ),
      (∀ τ, surfaceOriUpdate rotVel mb2 (st2 τ) 1 ⟨[0, 1], 0⟩ ori X_b_s ⟨3, 2, fun _ _ => 7⟩ = .ok (o τ)) ∧
      surfaceOriUpdateDot mb2 ⟨[0, 1], 0⟩ D2 ⟨3, 2, fun _ _ => 7⟩ = .ok R ∧
      HasD3 (fun τ => col3 (o τ).jacMat 0) ⟨-1, 0, 0⟩ 0 ∧ col3 R 0 = ⟨0, -1, 0⟩ ∧
      ¬ MatDeriv (fun τ => (o τ).jacMat) R 0 := by
  obtain ⟨o, R, h1, h2, h3, h4, h5⟩ := C79_surface_orientation rotVel 1 ⟨[0, 1], 0⟩ ori X_b_s
    ⟨3, 2, fun _ _ => 7⟩ (evolves2 0) rfl rfl rfl (fun τ => jac_bodyJac ((evolves2 0).moves τ).sized rfl)
    D2_deriv (res := ⟨3, 2, fun _ _ => 7⟩) rfl rfl
  have hR : col3 R 0 = ⟨0, -1, 0⟩ := by
    have h2' := h2
    simp [surfaceOriUpdateDot, D2, mb2, pathDof, Mat.block, fullJacobian,
      Mat.setBlock, Mat.zero, MultiBody.nrDof, forEach, vecAt, MultiBody.jointPosInDof] at h2'
    rw [← h2']
    simp [col3]
  have hd := h5 0 (by simp [mb2, MultiBody.nrDof])
  rw [hR] at hd
  have hd' : HasD3 (fun τ => col3 (o τ).jacMat 0) ⟨-1, 0, 0⟩ 0 :=
    hd.congr_deriv (by ext <;> simp [X_b_s, M3.mulVec, V3.dot])
  refine ⟨o, R, h1, h2, hd', hR, fun hm => ?_⟩
  have := hd'.1.unique (hm.2.2 0 (by rw [h3]; norm_num) 0 (by rw [h4]; simp [mb2, MultiBody.nrDof]))
  have e : R.get 0 0 = 0 := congrArg V3.x hR
  rw [e] at this
  norm_num at this

/-- The surface of the same motion oriented as its body. -/
noncomputable example := C79_surface_orientation_partial (fun _ => 0) 1 ⟨[0, 1], 0⟩ M3.one
  (PT.ofTrans ⟨1, 2, 3⟩) rfl ⟨3, 2, fun _ _ => 7⟩ (evolves2 0) rfl rfl rfl
  (fun τ => jac_bodyJac ((evolves2 0).moves τ).sized rfl) D2_deriv (res := ⟨3, 2, fun _ _ => 7⟩) rfl rfl

end JacDotEx

end Verif
