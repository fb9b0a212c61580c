import Verif.Proofs.SetPoint
import Mathlib.Analysis.SpecialFunctions.Sqrt

/-!
# C43, C44: set-point tasks
-/

set_option autoImplicit false
set_option linter.unusedSectionVars false

namespace Verif

open Finset Spec

namespace Spec

variable {K : Type}

/-- What a history of calls leaves set on any of these tasks: the weight of each dimension and the
first variable of the robot. -/
structure CommonSet (K : Type) where
  W : Vec K
  b : ℕ

/-- The weights a task starts with: the given ones, or all ones. -/
def initW [One K] (dim : ℕ) (dw : Option (Vec K)) : Vec K :=
  match dw with
  | some w => w
  | none => ⟨dim, fun _ => 1⟩

/-- The settings of a `SetPointTask` after a history of calls: the last values given. -/
structure SetPointSet (K : Type) extends CommonSet K where
  k : K

/-- Effect of a call on the settings; `rI` is the task's robot. -/
def SetPointSet.apply (rI : ℕ) (s : SetPointSet K) : SetPointOp K → SetPointSet K
  | .dimWeight w => { s with
      W := w }
  | .stiffness k => { s with
      k := k }
  | .updateNrVars d => { s with
      b := d.alphaDBegin.getD rI 0 }
  | .update _ => s

/-- The settings of a `TrackingTask`. -/
structure TrackingSet (K : Type) extends CommonSet K where
  gp : K
  gv : K
  ep : Vec K
  ev : Vec K
  acc : Vec K

/-- Effect of a call on the settings. -/
def TrackingSet.apply (rI : ℕ) (s : TrackingSet K) : TrackingOp K → TrackingSet K
  | .dimWeight w => { s with
      W := w }
  | .setGains gp gv => { s with
      gp := gp, gv := gv }
  | .errorPos e => { s with
      ep := e }
  | .errorVel e => { s with
      ev := e }
  | .refAccel a => { s with
      acc := a }
  | .updateNrVars d => { s with
      b := d.alphaDBegin.getD rI 0 }
  | .update _ => s

/-- The settings of a `TrajectoryTask`: one gain per dimension. -/
structure TrajectorySet (K : Type) extends CommonSet K where
  k : ℕ → K
  d : ℕ → K
  vel : Vec K
  acc : Vec K

/-- Effect of a call on the settings. -/
def TrajectorySet.apply (rI : ℕ) (s : TrajectorySet K) : TrajectoryOp K → TrajectorySet K
  | .dimWeight w => { s with
      W := w }
  | .setGains k d => { s with
      k := fun _ => k, d := fun _ => d }
  | .setGainsV k d => { s with
      k := k.get, d := d.get }
  | .stiffness k => { s with
      k := fun _ => k }
  | .stiffnessV k => { s with
      k := k.get }
  | .damping d => { s with
      d := fun _ => d }
  | .dampingV d => { s with
      d := d.get }
  | .refVel v => { s with
      vel := v }
  | .refAccel a => { s with
      acc := a }
  | .updateNrVars d => { s with
      b := d.alphaDBegin.getD rI 0 }
  | .update _ => s

/-- The settings of a `PIDTask`; `e` is the error given since the last update, if any. -/
structure PidSet (K : Type) extends CommonSet K where
  P : K
  I : K
  D : K
  e : Option (Vec K)
  eD : Vec K
  eI : Vec K

/-- Effect of a call on the settings. -/
def PidSet.apply (rI : ℕ) (s : PidSet K) : PidOp K → PidSet K
  | .dimWeight w => { s with
      W := w }
  | .P p => { s with
      P := p }
  | .I i => { s with
      I := i }
  | .D d => { s with
      D := d }
  | .error e => { s with
      e := some e }
  | .errorD e => { s with
      eD := e }
  | .errorI e => { s with
      eI := e }
  | .updateNrVars d => { s with
      b := d.alphaDBegin.getD rI 0 }
  | .update _ => { s with
      e := none }

/-- `std::sqrt` on exact numbers: defined exactly on the nonnegative ones. -/
def SqrtOK [Field K] [LinearOrder K] (sqrt : K → Out K) : Prop :=
  (∀ k, 0 ≤ k → ∃ r, sqrt k = .ok r) ∧ ∀ k r, sqrt k = .ok r → 0 ≤ r ∧ r * r = k

end Spec

section
variable {K : Type} [CommRing K]

theorem spcommon_make_ok {mbs : List (MultiBody K)} {rI dim : ℕ} {dw : Option (Vec K)} {w : K}
    {junk : ℕ → ℕ → K} {c : SPCommon K} (h : SPCommon.make mbs rI dim dw w junk = .ok c) :
    c.weight = w ∧ c.dimWeight = initW dim dw ∧ c.robotIndex = rI ∧ c.alphaDBegin = 0 := by
  unfold SPCommon.make at h
  obtain ⟨mb, _, h⟩ := Out.bind_eq_ok.1 h
  simp only [Out.pure_eq, Out.ok.injEq] at h
  subst h
  refine ⟨rfl, ?_, rfl, rfl⟩
  cases dw <;> rfl

theorem spcommon_updateNrVars_ok {d : SolverData K} {s c : SPCommon K}
    (h : s.updateNrVars d = .ok c) :
    c = { s with
      alphaDBegin := d.alphaDBegin.getD s.robotIndex 0 } := by
  unfold SPCommon.updateNrVars at h
  obtain ⟨b, hb, h⟩ := Out.bind_eq_ok.1 h
  simp only [Out.pure_eq, Out.ok.injEq] at h
  rw [vecAt_eq_ok] at hb
  subst h
  simp [List.getD, hb]

end

section
variable {K : Type} [Field K] [LinearOrder K] [IsStrictOrderedRing K]

/-! ## C43 -/

/-- The state of a `SetPointTask` agrees with the settings given. -/
theorem setPoint_view {sqrt : K → Out K} (hs : SqrtOK sqrt) {w : K} {rI : ℕ} {ops : List (SetPointOp K)}
    {s0 s : SetPoint K} {v : SetPointSet K}
    (h0 : s0.c.weight = w ∧ s0.c.robotIndex = rI ∧ s0.c.dimWeight = v.W ∧ s0.c.alphaDBegin = v.b ∧
      s0.stiffness = v.k ∧ 0 ≤ s0.stiffnessSqrt ∧ s0.stiffnessSqrt * s0.stiffnessSqrt = 4 * v.k)
    (h : forEach ops (SetPoint.step sqrt) s0 = .ok s) :
    s.c.weight = w ∧ s.c.robotIndex = rI ∧ s.c.dimWeight = (ops.foldl (·.apply rI) v).W ∧
      s.c.alphaDBegin = (ops.foldl (·.apply rI) v).b ∧ s.stiffness = (ops.foldl (·.apply rI) v).k ∧
      0 ≤ s.stiffnessSqrt ∧
      s.stiffnessSqrt * s.stiffnessSqrt = 4 * (ops.foldl (·.apply rI) v).k := by
  induction ops generalizing s0 v with
  | nil =>
    simp only [forEach, Out.ok.injEq] at h
    subst h
    exact h0
  | cons o t ih =>
    simp only [forEach, Out.bind_eq_ok] at h
    obtain ⟨s1, h1, h2⟩ := h
    obtain ⟨a1, a2, a3, a4, a5, a6, a7⟩ := h0
    refine ih (v := v.apply rI o) ?_ h2
    cases o with
    | dimWeight x =>
      simp only [SetPoint.step, Out.ok.injEq] at h1
      subst h1
      exact ⟨a1, a2, rfl, a4, a5, a6, a7⟩
    | stiffness k =>
      simp only [SetPoint.step, SetPoint.setStiffness, Out.bind_eq_ok, Out.pure_eq,
        Out.ok.injEq] at h1
      obtain ⟨r, hr, rfl⟩ := h1
      obtain ⟨b1, b2⟩ := hs.2 k r hr
      exact ⟨a1, a2, a3, a4, rfl, by positivity,
        by simp only [SetPointSet.apply]; rw [← b2]; ring⟩
    | updateNrVars d =>
      simp only [SetPoint.step, Out.bind_eq_ok, Out.pure_eq, Out.ok.injEq] at h1
      obtain ⟨c, hc, rfl⟩ := h1
      rw [spcommon_updateNrVars_ok hc]
      exact ⟨a1, a2, a3, by simp [SetPointSet.apply, a2], a5, a6, a7⟩
    | update hl =>
      simp only [SetPoint.step] at h1
      obtain ⟨_, rfl⟩ := setPoint_update_eq_ok.1 h1
      exact ⟨a1, a2, a3, a4, a5, a6, a7⟩

/-- **C43** (`SetPointTask`).  After any history of calls, an `update` makes the task's objective the
weighted least-squares distance between the task acceleration and `k * eval - d * speed`, for the
last stiffness `k` given and the critical damping `d = 2 sqrt k`, on the variables of the robot;
with nonnegative weights it is convex. -/
theorem C43_setpoint {sqrt : K → Out K} (hs : SqrtOK sqrt) {mbs : List (MultiBody K)} {rI dim : ℕ}
    {k0 w : K} {dw : Option (Vec K)} {junk : ℕ → ℕ → K} {s0 s s' : SetPoint K}
    {ops : List (SetPointOp K)} {hl : HL K}
    (hm : SetPoint.make sqrt mbs rI dim k0 dw w junk = .ok s0)
    (hr : forEach ops (SetPoint.step sqrt) s0 = .ok s)
    (hu : s.update hl = .ok s') :
    let v := ops.foldl (·.apply rI) (⟨⟨initW dim dw, 0⟩, k0⟩ : SetPointSet K)
    (∃ d, 0 ≤ d ∧ d * d = 4 * v.k ∧
      IsLsq s'.c.task w v.W.get hl.jac hl.normalAcc.get
        (fun i => v.k * hl.eval.get i - d * hl.speed.get i) v.b) ∧
    (0 ≤ w → (∀ i < hl.jac.rows, 0 ≤ v.W.get i) → TaskConvex s'.c.task) := by
  intro v
  obtain ⟨c, hc, hm⟩ := Out.bind_eq_ok.1 hm
  obtain ⟨r, hr0, hm⟩ := Out.bind_eq_ok.1 hm
  simp only [Out.pure_eq, Out.ok.injEq] at hm
  obtain ⟨c1, c2, c3, c4⟩ := spcommon_make_ok hc
  obtain ⟨b1, b2⟩ := hs.2 _ _ hr0
  obtain ⟨a1, _, a3, a4, a5, a6, a7⟩ := setPoint_view hs (w := w) (rI := rI)
    (v := ⟨⟨initW dim dw, 0⟩, k0⟩)
    (by subst hm; exact ⟨c1, c3, c2, c4, rfl, by positivity, by simp only; rw [← b2]; ring⟩) hr
  obtain ⟨_, rfl⟩ := setPoint_update_eq_ok.1 hu
  constructor
  · refine ⟨s.stiffnessSqrt, a6, a7, ?_⟩
    have := isLsq_mk s.c.dimWeight hl.jac hl.normalAcc.get
      (fun i => s.stiffness * hl.eval.get i - s.stiffnessSqrt * hl.speed.get i) s.c.weight
      s.c.alphaDBegin
    rw [a1, a4, a5] at this
    rw [← a3]
    simp only [SPCommon.task, a1, a4, a5]
    exact this
  · intro hw hW
    rw [← a3] at hW
    exact lsqQ_convex s.c.dimWeight hl.jac _ _ _ (a1 ▸ hw) hW

/-- The update is defined when the sizes agree (otherwise Eigen's size assertions fail). -/
theorem C43_setpoint_defined {s : SetPoint K} {hl : HL K} :
    (∃ s', s.update hl = .ok s') ↔
      hl.eval.size = hl.speed.size ∧ hl.eval.size = hl.normalAcc.size ∧
        s.c.dimWeight.size = hl.eval.size ∧ hl.jac.rows = hl.eval.size :=
  ⟨fun ⟨_, h⟩ => (setPoint_update_eq_ok.1 h).1, fun h => ⟨_, setPoint_update_eq_ok.2 ⟨h, rfl⟩⟩⟩

theorem tracking_view {w : K} {rI : ℕ} {ops : List (TrackingOp K)}
    {s0 s : Tracking K} {v : TrackingSet K}
    (h0 : s0.c.weight = w ∧ s0.c.robotIndex = rI ∧
      (⟨⟨s0.c.dimWeight, s0.c.alphaDBegin⟩, s0.gainPos, s0.gainVel, s0.errorPos, s0.errorVel,
        s0.refAccel⟩ : TrackingSet K) = v)
    (h : forEach ops Tracking.step s0 = .ok s) :
    s.c.weight = w ∧ s.c.robotIndex = rI ∧
      (⟨⟨s.c.dimWeight, s.c.alphaDBegin⟩, s.gainPos, s.gainVel, s.errorPos, s.errorVel,
        s.refAccel⟩ : TrackingSet K) = ops.foldl (·.apply rI) v := by
  induction ops generalizing s0 v with
  | nil =>
    simp only [forEach, Out.ok.injEq] at h
    subst h
    exact h0
  | cons o t ih =>
    simp only [forEach, Out.bind_eq_ok] at h
    obtain ⟨s1, h1, h2⟩ := h
    obtain ⟨a1, a2, rfl⟩ := h0
    refine ih (v := TrackingSet.apply rI _ o) ?_ h2
    cases o with
    | updateNrVars d =>
      simp only [Tracking.step, Out.bind_eq_ok, Out.pure_eq, Out.ok.injEq] at h1
      obtain ⟨c, hc, rfl⟩ := h1
      rw [spcommon_updateNrVars_ok hc]
      exact ⟨a1, a2, by simp [TrackingSet.apply, a2]⟩
    | update hl =>
      simp only [Tracking.step] at h1
      obtain ⟨_, rfl⟩ := tracking_update_eq_ok.1 h1
      exact ⟨a1, a2, rfl⟩
    | _ =>
      simp only [Tracking.step, Out.ok.injEq] at h1
      subst h1
      exact ⟨a1, a2, rfl⟩

/-- **C43** (`TrackingTask`).  The target is `gainPos * errorPos + gainVel * errorVel + refAccel`,
for the last values given. -/
theorem C43_tracking {mbs : List (MultiBody K)} {rI dim : ℕ}
    {gp0 gv0 w : K} {dw : Option (Vec K)} {junk : ℕ → ℕ → K} {s0 s s' : Tracking K}
    {ops : List (TrackingOp K)} {hl : HL K}
    (hm : Tracking.make mbs rI dim gp0 gv0 dw w junk = .ok s0)
    (hr : forEach ops Tracking.step s0 = .ok s)
    (hu : s.update hl = .ok s') :
    let z : Vec K := ⟨dim, fun _ => 0⟩
    let v := ops.foldl (·.apply rI) (⟨⟨initW dim dw, 0⟩, gp0, gv0, z, z, z⟩ : TrackingSet K)
    IsLsq s'.c.task w v.W.get hl.jac hl.normalAcc.get
      (fun i => v.gp * v.ep.get i + v.gv * v.ev.get i + v.acc.get i) v.b ∧
    (0 ≤ w → (∀ i < hl.jac.rows, 0 ≤ v.W.get i) → TaskConvex s'.c.task) := by
  intro z v
  obtain ⟨c, hc, hm⟩ := Out.bind_eq_ok.1 hm
  simp only [Out.pure_eq, Out.ok.injEq] at hm
  obtain ⟨c1, c2, c3, c4⟩ := spcommon_make_ok hc
  obtain ⟨a1, _, a3⟩ := tracking_view (w := w) (rI := rI)
    (v := ⟨⟨initW dim dw, 0⟩, gp0, gv0, z, z, z⟩)
    (by subst hm; exact ⟨c1, c3, by rw [c2, c4]; rfl⟩) hr
  have hv : v = _ := a3.symm
  obtain ⟨_, rfl⟩ := tracking_update_eq_ok.1 hu
  rw [hv]
  constructor
  · have := isLsq_mk s.c.dimWeight hl.jac hl.normalAcc.get
      (fun i => s.gainPos * s.errorPos.get i + s.gainVel * s.errorVel.get i + s.refAccel.get i)
      s.c.weight s.c.alphaDBegin
    rw [a1] at this
    simp only [SPCommon.task, a1]
    exact this
  · intro hw hW
    exact lsqQ_convex s.c.dimWeight hl.jac _ _ _ (a1 ▸ hw) hW

theorem trajectory_view {w : K} {rI dim : ℕ} {ops : List (TrajectoryOp K)}
    {s0 s : Trajectory K} {v : TrajectorySet K}
    (h0 : s0.c.weight = w ∧ s0.c.robotIndex = rI ∧
      (⟨⟨s0.c.dimWeight, s0.c.alphaDBegin⟩, s0.stiffness.get, s0.damping.get, s0.refVel,
        s0.refAccel⟩ : TrajectorySet K) = v)
    (h : forEach ops (Trajectory.step dim) s0 = .ok s) :
    s.c.weight = w ∧ s.c.robotIndex = rI ∧
      (⟨⟨s.c.dimWeight, s.c.alphaDBegin⟩, s.stiffness.get, s.damping.get, s.refVel,
        s.refAccel⟩ : TrajectorySet K) = ops.foldl (·.apply rI) v := by
  induction ops generalizing s0 v with
  | nil =>
    simp only [forEach, Out.ok.injEq] at h
    subst h
    exact h0
  | cons o t ih =>
    simp only [forEach, Out.bind_eq_ok] at h
    obtain ⟨s1, h1, h2⟩ := h
    obtain ⟨a1, a2, rfl⟩ := h0
    refine ih (v := TrajectorySet.apply rI _ o) ?_ h2
    cases o with
    | updateNrVars d =>
      simp only [Trajectory.step, Out.bind_eq_ok, Out.pure_eq, Out.ok.injEq] at h1
      obtain ⟨c, hc, rfl⟩ := h1
      rw [spcommon_updateNrVars_ok hc]
      exact ⟨a1, a2, by simp [TrajectorySet.apply, a2]⟩
    | update hl =>
      simp only [Trajectory.step] at h1
      obtain ⟨_, rfl⟩ := trajectory_update_eq_ok.1 h1
      exact ⟨a1, a2, rfl⟩
    | setGainsV k d =>
      simp only [Trajectory.step, Trajectory.setGainsV] at h1
      split at h1
      · simp only [Out.ok.injEq] at h1
        subst h1
        exact ⟨a1, a2, rfl⟩
      · cases h1
    | stiffnessV k =>
      simp only [Trajectory.step, Trajectory.setStiffnessV] at h1
      split at h1
      · simp only [Out.ok.injEq] at h1
        subst h1
        exact ⟨a1, a2, rfl⟩
      · cases h1
    | dampingV k =>
      simp only [Trajectory.step, Trajectory.setDampingV] at h1
      split at h1
      · simp only [Out.ok.injEq] at h1
        subst h1
        exact ⟨a1, a2, rfl⟩
      · cases h1
    | _ =>
      simp only [Trajectory.step, Out.ok.injEq] at h1
      subst h1
      exact ⟨a1, a2, by
        simp [TrajectorySet.apply, Trajectory.setGains, Trajectory.setStiffness,
          Trajectory.setDamping, Vec.const, SPCommon.setDimWeight]⟩

/-- **C43** (`TrajectoryTask`).  The target is
`stiffness * eval + damping * (refVel - speed) + refAccel`, with one gain per dimension, for the
last values given. -/
theorem C43_trajectory {mbs : List (MultiBody K)} {rI dim : ℕ}
    {gp0 gv0 w : K} {dw : Option (Vec K)} {junk : ℕ → ℕ → K} {s0 s s' : Trajectory K}
    {ops : List (TrajectoryOp K)} {hl : HL K}
    (hm : Trajectory.make mbs rI dim gp0 gv0 dw w junk = .ok s0)
    (hr : forEach ops (Trajectory.step dim) s0 = .ok s)
    (hu : s.update hl = .ok s') :
    let z : Vec K := ⟨dim, fun _ => 0⟩
    let v := ops.foldl (·.apply rI)
      (⟨⟨initW dim dw, 0⟩, fun _ => gp0, fun _ => gv0, z, z⟩ : TrajectorySet K)
    IsLsq s'.c.task w v.W.get hl.jac hl.normalAcc.get
      (fun i => v.k i * hl.eval.get i + v.d i * (v.vel.get i - hl.speed.get i) + v.acc.get i) v.b ∧
    (0 ≤ w → (∀ i < hl.jac.rows, 0 ≤ v.W.get i) → TaskConvex s'.c.task) := by
  intro z v
  obtain ⟨c, hc, hm⟩ := Out.bind_eq_ok.1 hm
  simp only [Out.pure_eq, Out.ok.injEq] at hm
  obtain ⟨c1, c2, c3, c4⟩ := spcommon_make_ok hc
  obtain ⟨a1, _, a3⟩ := trajectory_view (w := w) (rI := rI)
    (v := ⟨⟨initW dim dw, 0⟩, fun _ => gp0, fun _ => gv0, z, z⟩)
    (by subst hm; exact ⟨c1, c3, by rw [c2, c4]; simp [Vec.const, z]⟩) hr
  have hv : v = _ := a3.symm
  obtain ⟨_, rfl⟩ := trajectory_update_eq_ok.1 hu
  rw [hv]
  constructor
  · have := isLsq_mk s.c.dimWeight hl.jac hl.normalAcc.get
      (fun i => s.stiffness.get i * hl.eval.get i
        + s.damping.get i * (s.refVel.get i - hl.speed.get i) + s.refAccel.get i)
      s.c.weight s.c.alphaDBegin
    rw [a1] at this
    simp only [SPCommon.task, a1]
    exact this
  · intro hw hW
    exact lsqQ_convex s.c.dimWeight hl.jac _ _ _ (a1 ▸ hw) hW

theorem pid_view {w : K} {rI : ℕ} {ops : List (PidOp K)}
    {s0 s : Pid K} {v : PidSet K}
    (h0 : s0.c.weight = w ∧ s0.c.robotIndex = rI ∧
      (⟨⟨s0.c.dimWeight, s0.c.alphaDBegin⟩, s0.P, s0.I, s0.D, v.e, s0.errorD,
        s0.errorI⟩ : PidSet K) = v ∧ ∀ e, v.e = some e → s0.error = e)
    (h : forEach ops Pid.step s0 = .ok s) :
    s.c.weight = w ∧ s.c.robotIndex = rI ∧
      (⟨⟨s.c.dimWeight, s.c.alphaDBegin⟩, s.P, s.I, s.D, (ops.foldl (·.apply rI) v).e, s.errorD,
        s.errorI⟩ : PidSet K) = ops.foldl (·.apply rI) v ∧
      ∀ e, (ops.foldl (·.apply rI) v).e = some e → s.error = e := by
  induction ops generalizing s0 v with
  | nil =>
    simp only [forEach, Out.ok.injEq] at h
    subst h
    exact h0
  | cons o t ih =>
    simp only [forEach, Out.bind_eq_ok] at h
    obtain ⟨s1, h1, h2⟩ := h
    obtain ⟨a1, a2, a3, a4⟩ := h0
    refine ih (v := v.apply rI o) ?_ h2
    obtain ⟨⟨vW, vb⟩, vP, vI, vD, ve, veD, veI⟩ := v
    simp only [PidSet.mk.injEq, CommonSet.mk.injEq] at a3
    obtain ⟨⟨rfl, rfl⟩, rfl, rfl, rfl, _, rfl, rfl⟩ := a3
    cases o with
    | updateNrVars d =>
      simp only [Pid.step, Out.bind_eq_ok, Out.pure_eq, Out.ok.injEq] at h1
      obtain ⟨c, hc, rfl⟩ := h1
      rw [spcommon_updateNrVars_ok hc]
      exact ⟨a1, a2, by simp [PidSet.apply, a2], a4⟩
    | update hl =>
      simp only [Pid.step] at h1
      obtain ⟨_, rfl⟩ := pid_update_eq_ok.1 h1
      exact ⟨a1, a2, rfl, fun e he => by simp [PidSet.apply] at he⟩
    | error e =>
      simp only [Pid.step, Out.ok.injEq] at h1
      subst h1
      exact ⟨a1, a2, rfl, fun e' he => by
        simp only [PidSet.apply, Option.some.injEq] at he; exact he⟩
    | _ =>
      simp only [Pid.step, Out.ok.injEq] at h1
      subst h1
      exact ⟨a1, a2, rfl, a4⟩

/-- **C43** (`PIDTask`).  When an error has been given since the last update (the constructor gives
zero), the target is `P * error - D * errorD - I * errorI`.  The hypothesis is needed: see
`C44_pid_counterexample`. -/
theorem C43_pid {mbs : List (MultiBody K)} {rI dim : ℕ}
    {P0 I0 D0 w : K} {dw : Option (Vec K)} {junk : ℕ → ℕ → K} {s0 s s' : Pid K}
    {ops : List (PidOp K)} {hl : HL K} {e : Vec K}
    (hm : Pid.make mbs rI dim P0 I0 D0 dw w junk = .ok s0)
    (hr : forEach ops Pid.step s0 = .ok s)
    (hu : s.update hl = .ok s') :
    let z : Vec K := ⟨dim, fun _ => 0⟩
    let v := ops.foldl (·.apply rI) (⟨⟨initW dim dw, 0⟩, P0, I0, D0, some z, z, z⟩ : PidSet K)
    v.e = some e →
    IsLsq s'.c.task w v.W.get hl.jac hl.normalAcc.get
      (fun i => v.P * e.get i - v.D * v.eD.get i - v.I * v.eI.get i) v.b ∧
    (0 ≤ w → (∀ i < hl.jac.rows, 0 ≤ v.W.get i) → TaskConvex s'.c.task) := by
  intro z v he
  obtain ⟨c, hc, hm⟩ := Out.bind_eq_ok.1 hm
  simp only [Out.pure_eq, Out.ok.injEq] at hm
  obtain ⟨c1, c2, c3, c4⟩ := spcommon_make_ok hc
  obtain ⟨a1, _, a3, a4⟩ := pid_view (w := w) (rI := rI)
    (v := ⟨⟨initW dim dw, 0⟩, P0, I0, D0, some z, z, z⟩)
    (by subst hm; exact ⟨c1, c3, by rw [c2, c4]; rfl, by
      intro e he; simp only [Option.some.injEq] at he; subst he; rfl⟩) hr
  have he' : s.error = e := a4 e he
  have hv : v = _ := a3.symm
  obtain ⟨_, rfl⟩ := pid_update_eq_ok.1 hu
  rw [hv]
  constructor
  · have := isLsq_mk s.c.dimWeight hl.jac hl.normalAcc.get
      (fun i => s.P * s.error.get i - s.D * s.errorD.get i - s.I * s.errorI.get i)
      s.c.weight s.c.alphaDBegin
    rw [a1] at this
    simp only [SPCommon.task, a1, ← he']
    exact this
  · intro hw hW
    exact lsqQ_convex s.c.dimWeight hl.jac _ _ _ (a1 ▸ hw) hW

/-- **C43** (minimisers).  An objective of this form with nonnegative weights is minimised by every
`x` whose task acceleration is the target. -/
theorem C43_minimiser {t : TaskQC K} {w : K} {W : ℕ → K} {J : Mat K} {nA tgt : ℕ → K} {b : ℕ}
    (h : IsLsq t w W J nA tgt b) (hw : 0 ≤ w) (hW : ∀ i < J.rows, 0 ≤ W i) {x : ℕ → K}
    (hx : ∀ i < J.rows, rowAt J b x i + nA i = tgt i) (y : ℕ → K) : t.obj x ≤ t.obj y := by
  obtain ⟨_, _, _, _, _, c, hc⟩ := h
  rw [hc x, hc y]
  have h1 : lsq W J nA tgt b x = 0 := by
    unfold lsq
    rw [Finset.sum_eq_zero fun i hi => ?_, zero_div]
    rw [hx i (Finset.mem_range.1 hi)]; ring
  have h2 : 0 ≤ lsq W J nA tgt b y := by
    unfold lsq
    refine div_nonneg (Finset.sum_nonneg fun i hi => ?_) (by norm_num)
    exact mul_nonneg (hW i (Finset.mem_range.1 hi)) (sq_nonneg _)
  rw [h1]
  have := mul_nonneg hw h2
  linarith

/-- **C43** (uniqueness of the task acceleration).  With positive weights, every minimiser has the
target as task acceleration as soon as some `x` does. -/
theorem C43_minimiser_unique {t : TaskQC K} {w : K} {W : ℕ → K} {J : Mat K} {nA tgt : ℕ → K} {b : ℕ}
    (h : IsLsq t w W J nA tgt b) (hw : 0 < w) (hW : ∀ i < J.rows, 0 < W i) {x y : ℕ → K}
    (hx : ∀ i < J.rows, rowAt J b x i + nA i = tgt i) (hy : t.obj y ≤ t.obj x) :
    ∀ i < J.rows, rowAt J b y i + nA i = tgt i := by
  obtain ⟨_, _, _, _, _, c, hc⟩ := h
  rw [hc x, hc y] at hy
  have h1 : lsq W J nA tgt b x = 0 := by
    unfold lsq
    rw [Finset.sum_eq_zero fun i hi => ?_, zero_div]
    rw [hx i (Finset.mem_range.1 hi)]; ring
  rw [h1] at hy
  have h2 : lsq W J nA tgt b y ≤ 0 := by
    by_contra hlt
    have := mul_pos hw (not_le.1 hlt)
    linarith
  unfold lsq at h2
  have hnn : ∀ i ∈ range J.rows, 0 ≤ W i * (rowAt J b y i + nA i - tgt i) ^ 2 := fun i hi =>
    mul_nonneg (hW i (Finset.mem_range.1 hi)).le (sq_nonneg _)
  have h3 : ∑ i ∈ range J.rows, W i * (rowAt J b y i + nA i - tgt i) ^ 2 = 0 :=
    le_antisymm (by linarith) (Finset.sum_nonneg hnn)
  intro i hi
  have h4 := (Finset.sum_eq_zero_iff_of_nonneg hnn).1 h3 i (Finset.mem_range.2 hi)
  have h5 : rowAt J b y i + nA i - tgt i = 0 := by
    rcases mul_eq_zero.1 h4 with h | h
    · exact absurd h (hW i hi).ne'
    · exact pow_eq_zero_iff (two_ne_zero) |>.1 h
  linarith

end

/-! ## C44 -/

section
variable {K : Type} [CommRing K]

theorem Out.bind_congr_right {α β : Type} (x : Out α) {f g : α → Out β} (h : ∀ a, f a = g a) :
    (x >>= f) = (x >>= g) := by
  cases x with
  | ok a => exact h a
  | ub => rfl
  | throws e => rfl

/-- The part of `computeQC` that reads the task: only `dimWeight_`. -/
def qcOf (hl : HL K) (W error : Vec K) : Out (Vec K × Mat K × Vec K) := do
  let error ← error.subV hl.normalAcc
  let preC ← W.diagMul error
  let C ← hl.jac.negTrMulVec preC
  let preQ ← Mat.diagMul W hl.jac
  let Q ← hl.jac.trMul preQ
  pure (error, Q, C)

theorem computeQC_eq (hl : HL K) (e : Vec K) (s : SPCommon K) :
    s.computeQC hl e = (qcOf hl s.dimWeight e >>= fun r => .ok (r.1, { s with
      Q := r.2.1, C := r.2.2 })) := by
  unfold SPCommon.computeQC qcOf
  cases e.subV hl.normalAcc with
  | ok a =>
    simp only [Out.ok_bind]
    cases s.dimWeight.diagMul a with
    | ok b =>
      simp only [Out.ok_bind]
      cases hl.jac.negTrMulVec b with
      | ok c =>
        simp only [Out.ok_bind]
        cases Mat.diagMul s.dimWeight hl.jac with
        | ok d =>
          simp only [Out.ok_bind]
          cases hl.jac.trMul d <;> rfl
        | _ => rfl
      | _ => rfl
    | _ => rfl
  | _ => rfl

/-- **C44** (`SetPointTask`).  Whatever the task was updated with before, an update gives what it
would have given on the task before those updates. -/
theorem C44_setpoint {hls : List (HL K)} {s s1 : SetPoint K} (hl : HL K)
    (h : forEach hls (fun hl s => s.update hl) s = .ok s1) : s1.update hl = s.update hl := by
  induction hls generalizing s with
  | nil =>
    simp only [forEach, Out.ok.injEq] at h
    rw [h]
  | cons a t ih =>
    simp only [forEach, Out.bind_eq_ok] at h
    obtain ⟨s2, h2, h⟩ := h
    rw [ih h]
    obtain ⟨_, rfl⟩ := setPoint_update_eq_ok.1 h2
    unfold SetPoint.update
    dsimp only
    refine Out.bind_congr_right _ fun e => ?_
    simp only [computeQC_eq]
    cases qcOf hl s.c.dimWeight e <;> rfl

/-- **C44** (`TrackingTask`). -/
theorem C44_tracking {hls : List (HL K)} {s s1 : Tracking K} (hl : HL K)
    (h : forEach hls (fun hl s => s.update hl) s = .ok s1) : s1.update hl = s.update hl := by
  induction hls generalizing s with
  | nil =>
    simp only [forEach, Out.ok.injEq] at h
    rw [h]
  | cons a t ih =>
    simp only [forEach, Out.bind_eq_ok] at h
    obtain ⟨s2, h2, h⟩ := h
    rw [ih h]
    obtain ⟨_, rfl⟩ := tracking_update_eq_ok.1 h2
    unfold Tracking.update
    dsimp only
    refine Out.bind_congr_right _ fun e => ?_
    refine Out.bind_congr_right _ fun e => ?_
    simp only [computeQC_eq]
    cases qcOf hl s.c.dimWeight e <;> rfl

/-- **C44** (`TrajectoryTask`). -/
theorem C44_trajectory {hls : List (HL K)} {s s1 : Trajectory K} (hl : HL K)
    (h : forEach hls (fun hl s => s.update hl) s = .ok s1) : s1.update hl = s.update hl := by
  induction hls generalizing s with
  | nil =>
    simp only [forEach, Out.ok.injEq] at h
    rw [h]
  | cons a t ih =>
    simp only [forEach, Out.bind_eq_ok] at h
    obtain ⟨s2, h2, h⟩ := h
    rw [ih h]
    obtain ⟨_, rfl⟩ := trajectory_update_eq_ok.1 h2
    unfold Trajectory.update
    dsimp only
    refine Out.bind_congr_right _ fun e => ?_
    refine Out.bind_congr_right _ fun e => ?_
    refine Out.bind_congr_right _ fun e => ?_
    refine Out.bind_congr_right _ fun e => ?_
    refine Out.bind_congr_right _ fun e => ?_
    simp only [computeQC_eq]
    cases qcOf hl s.c.dimWeight e <;> rfl

/-- **C44** (`PIDTask`, partial).  After `error(e)`, an update does not depend on the previous
updates.  Missing: the same without a new `error(e)`, which is false
(`C44_pid_counterexample`). -/
theorem C44_pid_partial {hls : List (HL K)} {s s1 : Pid K} (hl : HL K) (e : Vec K)
    (h : forEach hls (fun hl s => s.update hl) s = .ok s1) :
    (s1.step (.error e) >>= fun s => s.update hl) = (s.step (.error e) >>= fun s => s.update hl) := by
  induction hls generalizing s with
  | nil =>
    simp only [forEach, Out.ok.injEq] at h
    rw [h]
  | cons a t ih =>
    simp only [forEach, Out.bind_eq_ok] at h
    obtain ⟨s2, h2, h⟩ := h
    rw [ih h]
    obtain ⟨_, rfl⟩ := pid_update_eq_ok.1 h2
    simp only [Pid.step, Out.ok_bind]
    unfold Pid.update
    dsimp only
    refine Out.bind_congr_right _ fun e => ?_
    refine Out.bind_congr_right _ fun e => ?_
    simp only [computeQC_eq]

/-- What a repeated update of a `PIDTask` does: the target of the second update is computed from the
target of the first minus the normal acceleration, instead of from the error. -/
theorem C44_pid_drift {hl hl' : HL K} {s s1 s2 : Pid K} (h1 : s.update hl = .ok s1)
    (h2 : s1.update hl' = .ok s2) :
    s2.c.C = lsqC s.c.dimWeight hl'.jac (fun i =>
      (s.P * (s.P * s.error.get i - s.D * s.errorD.get i - s.I * s.errorI.get i
          - hl.normalAcc.get i)
        - s.D * s.errorD.get i - s.I * s.errorI.get i) - hl'.normalAcc.get i) := by
  obtain ⟨_, rfl⟩ := pid_update_eq_ok.1 h1
  obtain ⟨_, rfl⟩ := pid_update_eq_ok.1 h2
  rfl

end

namespace SetPointEx

/-- A one-joint robot. -/
def mb : MultiBody ℚ := ⟨[⟨"j0", 1, none⟩], 1, [-1], [0]⟩

/-- A one-dimensional high-level task: Jacobian 2, error 3, speed 1, normal acceleration 1/2. -/
def hl : HL ℚ := ⟨Mat.ofRows 1 [[2]], Vec.ofList [3], Vec.ofList [1], Vec.ofList [1/2]⟩

/-- The exact square root of the reals meets the hypothesis on `std::sqrt`. -/
example : SqrtOK (fun k : ℝ => if 0 ≤ k then .ok (Real.sqrt k) else .ub) := by
  constructor
  · intro k hk
    exact ⟨_, if_pos hk⟩
  · intro k r h
    by_cases hk : 0 ≤ k
    · simp only [if_pos hk, Out.ok.injEq] at h
      subst h
      exact ⟨Real.sqrt_nonneg k, Real.mul_self_sqrt hk⟩
    · simp only [if_neg hk] at h
      cases h

/-- Square roots of 1 and 4. -/
def sq (k : ℚ) : Out ℚ := if k = 4 then .ok 2 else if k = 1 then .ok 1 else .ub

/-- A `SetPointTask` created with stiffness 1, then set to stiffness 4 and weight 5: the target is
`4 * 3 - 4 * 1`. -/
example : ∃ s0 s s', SetPoint.make sq [mb] 0 1 1 none 10 (fun _ _ => 7) = .ok s0 ∧
    forEach [.stiffness 4, .dimWeight (Vec.ofList [5]), .update hl] (SetPoint.step sq) s0 = .ok s ∧
    s.update hl = .ok s' ∧ s'.c.Q.get 0 0 = 20 ∧ s'.c.C.get 0 = -10 * (4 * 3 - 4 * 1 - 1/2) := by
  refine ⟨_, _, _, rfl, rfl, rfl, ?_, ?_⟩
  · norm_num [hl, SPCommon.setDimWeight, Vec.ofList, Mat.ofRows]
  · norm_num [hl, SPCommon.setDimWeight, Vec.ofList, Mat.ofRows, Vec.scale]

/-- A `TrackingTask`. -/
example : ∃ s0 s s', Tracking.make [mb] 0 1 2 3 none 10 (fun _ _ => 7) = .ok s0 ∧
    forEach [.errorPos (Vec.ofList [5]), .update hl, .errorVel (Vec.ofList [1])] Tracking.step s0
      = .ok s ∧
    s.update hl = .ok s' ∧ s'.c.Q.get 0 0 = 4 ∧ s'.c.C.get 0 = -2 * (2 * 5 + 3 * 1 - 1/2) := by
  refine ⟨_, _, _, rfl, rfl, rfl, ?_, ?_⟩
  · norm_num [hl, Vec.const, Vec.ofList, Mat.ofRows]
  · norm_num [hl, Vec.const, Vec.ofList, Mat.ofRows, Vec.scale]

/-- A `TrajectoryTask`. -/
example : ∃ s0 s s', Trajectory.make [mb] 0 1 2 3 none 10 (fun _ _ => 7) = .ok s0 ∧
    forEach [.refVel (Vec.ofList [5]), .update hl, .stiffness 7] (Trajectory.step 1) s0 = .ok s ∧
    s.update hl = .ok s' ∧ s'.c.Q.get 0 0 = 4 ∧ s'.c.C.get 0 = -2 * (7 * 3 + 3 * (5 - 1) - 1/2) := by
  refine ⟨_, _, _, rfl, rfl, rfl, ?_, ?_⟩
  · norm_num [hl, Vec.const, Vec.ofList, Mat.ofRows, Trajectory.setStiffness]
  · norm_num [hl, Vec.const, Vec.ofList, Mat.ofRows, Trajectory.setStiffness]

/-- A `PIDTask` whose error has just been given. -/
example : ∃ s0 s s', Pid.make [mb] 0 1 2 3 4 none 10 (fun _ _ => 7) = .ok s0 ∧
    forEach [.update hl, .error (Vec.ofList [5]), .errorD (Vec.ofList [6])] Pid.step s0 = .ok s ∧
    s.update hl = .ok s' ∧ s'.c.C.get 0 = -2 * (2 * 5 - 4 * 6 - 1/2) ∧
    ([PidOp.update hl, .error (Vec.ofList [5]), .errorD (Vec.ofList [6])].foldl (·.apply 0)
      (⟨⟨initW 1 none, 0⟩, 2, 3, 4, some ⟨1, fun _ => 0⟩, ⟨1, fun _ => 0⟩, ⟨1, fun _ => 0⟩⟩ :
        PidSet ℚ)).e = some (Vec.ofList [5]) := by
  refine ⟨_, _, _, rfl, rfl, rfl, ?_, rfl⟩
  norm_num [hl, Vec.const, Vec.ofList, Mat.ofRows, Vec.scale]

end SetPointEx

/-- **C44 is false for `PIDTask`**: with the same inputs and the same error, the second of two
updates gives another objective (`P = 2`, error 1: the target is 2, then 4). -/
theorem C44_pid_counterexample :
    ∃ (s s1 s2 : Pid ℚ) (hl : HL ℚ), s.update hl = .ok s1 ∧ s1.update hl = .ok s2 ∧
      s1.c.task.obj (fun _ => 1) ≠ s2.c.task.obj (fun _ => 1) := by
  refine ⟨⟨⟨1, Vec.ofList [1], 0, 0, Mat.ofRows 1 [[0]], Vec.ofList [0], Vec.ofList [0]⟩,
    2, 0, 0, Vec.ofList [1], Vec.ofList [0], Vec.ofList [0]⟩, _, _,
    ⟨Mat.ofRows 1 [[1]], Vec.ofList [0], Vec.ofList [0], Vec.ofList [0]⟩, rfl, rfl, ?_⟩
  norm_num [TaskQC.obj, SPCommon.task, Vec.ofList, Mat.ofRows, Vec.scale]

end Verif
