import Verif.Props.SetPoint

/-!
# C43: which calls of the set-point tasks are defined

With vectors of the dimension of the task every history of calls is defined; a `TrajectoryTask`
rejects gain vectors of any other size.
-/

set_option autoImplicit false
set_option linter.unusedSectionVars false

namespace Verif

open Spec

namespace Spec
variable {K : Type}

/-- The wrapped task gives results of dimension `dim`. -/
def HL.Fits (dim : ℕ) (hl : HL K) : Prop :=
  hl.eval.size = dim ∧ hl.speed.size = dim ∧ hl.normalAcc.size = dim ∧ hl.jac.rows = dim

/-- The weights given to the constructor, if any, have the dimension of the task. -/
def WeightsFit (dim : ℕ) (dw : Option (Vec K)) : Prop := ∀ w, dw = some w → w.size = dim

/-- Arguments of the dimension of the task, for robot `rI`. -/
def SetPointFits [LE K] [Zero K] (rI dim : ℕ) : SetPointOp K → Prop
  | .dimWeight w => w.size = dim
  | .stiffness k => 0 ≤ k
  | .updateNrVars d => rI < d.alphaDBegin.length
  | .update hl => HL.Fits dim hl

/-- Arguments of the dimension of the task, for robot `rI`. -/
def TrackingFits (rI dim : ℕ) : TrackingOp K → Prop
  | .dimWeight w => w.size = dim
  | .setGains _ _ => True
  | .errorPos e => e.size = dim
  | .errorVel e => e.size = dim
  | .refAccel a => a.size = dim
  | .updateNrVars d => rI < d.alphaDBegin.length
  | .update hl => HL.Fits dim hl

/-- Arguments of the dimension of the task, for robot `rI`. -/
def TrajectoryFits (rI dim : ℕ) : TrajectoryOp K → Prop
  | .dimWeight w => w.size = dim
  | .setGains _ _ => True
  | .setGainsV k d => k.size = dim ∧ d.size = dim
  | .stiffness _ => True
  | .stiffnessV k => k.size = dim
  | .damping _ => True
  | .dampingV d => d.size = dim
  | .refVel v => v.size = dim
  | .refAccel a => a.size = dim
  | .updateNrVars d => rI < d.alphaDBegin.length
  | .update hl => HL.Fits dim hl

/-- Arguments of the dimension of the task, for robot `rI`. -/
def PidFits (rI dim : ℕ) : PidOp K → Prop
  | .dimWeight w => w.size = dim
  | .P _ => True
  | .I _ => True
  | .D _ => True
  | .error e => e.size = dim
  | .errorD e => e.size = dim
  | .errorI e => e.size = dim
  | .updateNrVars d => rI < d.alphaDBegin.length
  | .update hl => HL.Fits dim hl

end Spec

theorem forEach_runs {σ ο : Type} {step : ο → σ → Out σ} {P : σ → Prop} {F : ο → Prop}
    (h : ∀ o s, F o → P s → ∃ s', step o s = .ok s' ∧ P s') :
    ∀ (ops : List ο) (s : σ), (∀ o ∈ ops, F o) → P s → ∃ s', forEach ops step s = .ok s' ∧ P s'
  | [], s, _, hs => ⟨s, rfl, hs⟩
  | o :: l, s, hF, hs => by
    obtain ⟨s1, e1, h1⟩ := h o s (hF o (List.mem_cons_self ..)) hs
    obtain ⟨s2, e2, h2⟩ := forEach_runs h l s1 (fun o ho => hF o (List.mem_cons_of_mem _ ho)) h1
    refine ⟨s2, ?_, h2⟩
    rw [forEach, e1, Out.ok_bind, e2]

section
variable {K : Type} [Field K] [LinearOrder K] [IsStrictOrderedRing K]

/-- Sizes of the common part. -/
structure SPCommon.Sized (rI dim : ℕ) (c : SPCommon K) : Prop where
  w : c.dimWeight.size = dim
  r : c.robotIndex = rI

theorem spcommon_make_sized {mbs : List (MultiBody K)} {rI dim : ℕ} {dw : Option (Vec K)} {w : K}
    {junk : ℕ → ℕ → K} (hr : rI < mbs.length) (hw : WeightsFit dim dw) :
    ∃ c, SPCommon.make mbs rI dim dw w junk = .ok c ∧ c.Sized rI dim := by
  unfold SPCommon.make
  rw [vecAt_eq_ok.2 (List.getElem?_eq_getElem hr)]
  refine ⟨_, rfl, ?_, rfl⟩
  cases dw with
  | none => rfl
  | some v => exact hw v rfl

theorem spcommon_nrVars_sized {c : SPCommon K} {rI dim : ℕ} {d : SolverData K} (h : c.Sized rI dim)
    (hd : rI < d.alphaDBegin.length) : ∃ c', c.updateNrVars d = .ok c' ∧ c'.Sized rI dim := by
  unfold SPCommon.updateNrVars
  rw [h.r, vecAt_eq_ok.2 (List.getElem?_eq_getElem hd)]
  exact ⟨_, rfl, h.w, rfl⟩

/-- `SetPointTask`: every history of calls with arguments of the right size, followed by an update, is
defined. -/
theorem C43_setpoint_runs {sqrt : K → Out K} (hs : SqrtOK sqrt) {mbs : List (MultiBody K)} {rI dim : ℕ}
    {k w : K} {dw : Option (Vec K)} {junk : ℕ → ℕ → K} (hr : rI < mbs.length) (hw : WeightsFit dim dw)
    (hk : 0 ≤ k) {ops : List (SetPointOp K)} (ho : ∀ o ∈ ops, SetPointFits rI dim o) {hl : HL K}
    (hh : HL.Fits dim hl) :
    ∃ s0 s s', SetPoint.make sqrt mbs rI dim k dw w junk = .ok s0 ∧
      forEach ops (SetPoint.step sqrt) s0 = .ok s ∧ s.update hl = .ok s' := by
  obtain ⟨c, e, hc⟩ := spcommon_make_sized (w := w) (junk := junk) hr hw
  obtain ⟨r, hr'⟩ := hs.1 k hk
  have upd : ∀ (s : SetPoint K) hl, HL.Fits dim hl → s.c.Sized rI dim →
      ∃ s', s.update hl = .ok s' ∧ s'.c.Sized rI dim := by
    intro s hl ⟨h1, h2, h3, h4⟩ h
    exact ⟨_, setPoint_update_eq_ok.2 ⟨⟨by rw [h1, h2], by rw [h1, h3], by rw [h1, h.w], by rw [h1, h4]⟩,
      rfl⟩, h.w, h.r⟩
  obtain ⟨s, e2, h2⟩ := forEach_runs (step := SetPoint.step sqrt) (P := fun s => s.c.Sized rI dim)
    (F := SetPointFits rI dim) (fun o s hF h => by
      cases o with
      | dimWeight w => exact ⟨_, rfl, hF, h.r⟩
      | stiffness k =>
        obtain ⟨r, hr⟩ := hs.1 k hF
        refine ⟨{ s with stiffness := k, stiffnessSqrt := 2 * r }, ?_, h.w, h.r⟩
        simp only [SetPoint.step, SetPoint.setStiffness]
        rw [hr]
        rfl
      | updateNrVars d =>
        obtain ⟨c', e, h'⟩ := spcommon_nrVars_sized h hF
        refine ⟨{ s with c := c' }, ?_, h'⟩
        simp only [SetPoint.step]
        rw [e]
        rfl
      | update hl => exact upd s hl hF h) ops ⟨c, k, 2 * r⟩ ho hc
  obtain ⟨s', e3, -⟩ := upd s hl hh h2
  refine ⟨_, s, s', ?_, e2, e3⟩
  unfold SetPoint.make
  rw [e, Out.ok_bind, hr']
  rfl

/-- `TrackingTask`. -/
theorem C43_tracking_runs {mbs : List (MultiBody K)} {rI dim : ℕ}
    {gp gv w : K} {dw : Option (Vec K)} {junk : ℕ → ℕ → K} (hr : rI < mbs.length) (hw : WeightsFit dim dw)
    {ops : List (TrackingOp K)} (ho : ∀ o ∈ ops, TrackingFits rI dim o) {hl : HL K}
    (hh : HL.Fits dim hl) :
    ∃ s0 s s', Tracking.make mbs rI dim gp gv dw w junk = .ok s0 ∧
      forEach ops Tracking.step s0 = .ok s ∧ s.update hl = .ok s' := by
  obtain ⟨c, e, hc⟩ := spcommon_make_sized (w := w) (junk := junk) hr hw
  let P := fun s : Tracking K => s.c.Sized rI dim ∧ s.errorPos.size = dim ∧ s.errorVel.size = dim ∧
    s.refAccel.size = dim
  have upd : ∀ (s : Tracking K) hl, HL.Fits dim hl → P s → ∃ s', s.update hl = .ok s' ∧ P s' := by
    intro s hl ⟨h1, h2, h3, h4⟩ ⟨h, a, b, c⟩
    exact ⟨_, tracking_update_eq_ok.2 ⟨⟨by rw [a, b], by rw [a, c], by rw [a, h3], by rw [a, h.w],
      by rw [a, h4]⟩, rfl⟩, ⟨h.w, h.r⟩, a, b, c⟩
  have hm : ∃ s0, Tracking.make mbs rI dim gp gv dw w junk = .ok s0 ∧ P s0 := by
    unfold Tracking.make
    rw [e]
    exact ⟨_, rfl, hc, rfl, rfl, rfl⟩
  obtain ⟨s0, e1, h1⟩ := hm
  obtain ⟨s, e2, h2⟩ := forEach_runs (step := Tracking.step) (P := P)
    (F := TrackingFits rI dim) (fun o s hF ⟨h, a, b, c⟩ => by
      cases o with
      | dimWeight w => exact ⟨_, rfl, ⟨hF, h.r⟩, a, b, c⟩
      | setGains p v => exact ⟨_, rfl, h, a, b, c⟩
      | errorPos v => exact ⟨_, rfl, h, hF, b, c⟩
      | errorVel v => exact ⟨_, rfl, h, a, hF, c⟩
      | refAccel v => exact ⟨_, rfl, h, a, b, hF⟩
      | updateNrVars d =>
        obtain ⟨c', e, h'⟩ := spcommon_nrVars_sized h hF
        refine ⟨{ s with c := c' }, ?_, h', a, b, c⟩
        simp only [Tracking.step]
        rw [e]
        rfl
      | update hl => exact upd s hl hF ⟨h, a, b, c⟩) ops s0 ho h1
  obtain ⟨s', e3, -⟩ := upd s hl hh h2
  exact ⟨s0, s, s', e1, e2, e3⟩

/-- `PIDTask`. -/
theorem C43_pid_runs {mbs : List (MultiBody K)} {rI dim : ℕ}
    {p i d w : K} {dw : Option (Vec K)} {junk : ℕ → ℕ → K} (hr : rI < mbs.length) (hw : WeightsFit dim dw)
    {ops : List (PidOp K)} (ho : ∀ o ∈ ops, PidFits rI dim o) {hl : HL K}
    (hh : HL.Fits dim hl) :
    ∃ s0 s s', Pid.make mbs rI dim p i d dw w junk = .ok s0 ∧
      forEach ops Pid.step s0 = .ok s ∧ s.update hl = .ok s' := by
  obtain ⟨c, e, hc⟩ := spcommon_make_sized (w := w) (junk := junk) hr hw
  let P := fun s : Pid K => s.c.Sized rI dim ∧ s.error.size = dim ∧ s.errorD.size = dim ∧
    s.errorI.size = dim
  have upd : ∀ (s : Pid K) hl, HL.Fits dim hl → P s → ∃ s', s.update hl = .ok s' ∧ P s' := by
    intro s hl ⟨h1, h2, h3, h4⟩ ⟨h, a, b, c⟩
    exact ⟨_, pid_update_eq_ok.2 ⟨⟨by rw [a, b], by rw [a, c], by rw [a, h3], by rw [a, h.w],
      by rw [a, h4]⟩, rfl⟩, ⟨h.w, h.r⟩, a, b, c⟩
  have hm : ∃ s0, Pid.make mbs rI dim p i d dw w junk = .ok s0 ∧ P s0 := by
    unfold Pid.make
    rw [e]
    exact ⟨_, rfl, hc, rfl, rfl, rfl⟩
  obtain ⟨s0, e1, h1⟩ := hm
  obtain ⟨s, e2, h2⟩ := forEach_runs (step := Pid.step) (P := P)
    (F := PidFits rI dim) (fun o s hF ⟨h, a, b, c⟩ => by
      cases o with
      | dimWeight w => exact ⟨_, rfl, ⟨hF, h.r⟩, a, b, c⟩
      | P v => exact ⟨_, rfl, h, a, b, c⟩
      | I v => exact ⟨_, rfl, h, a, b, c⟩
      | D v => exact ⟨_, rfl, h, a, b, c⟩
      | error v => exact ⟨_, rfl, h, hF, b, c⟩
      | errorD v => exact ⟨_, rfl, h, a, hF, c⟩
      | errorI v => exact ⟨_, rfl, h, a, b, hF⟩
      | updateNrVars d =>
        obtain ⟨c', e, h'⟩ := spcommon_nrVars_sized h hF
        refine ⟨{ s with c := c' }, ?_, h', a, b, c⟩
        simp only [Pid.step]
        rw [e]
        rfl
      | update hl => exact upd s hl hF ⟨h, a, b, c⟩) ops s0 ho h1
  obtain ⟨s', e3, -⟩ := upd s hl hh h2
  exact ⟨s0, s, s', e1, e2, e3⟩

/-- The gains of a `TrajectoryTask` have the dimension of the task after every history of calls. -/
theorem trajectory_gain_sizes {mbs : List (MultiBody K)} {rI dim : ℕ}
    {gp gv w : K} {dw : Option (Vec K)} {junk : ℕ → ℕ → K} {s0 s : Trajectory K}
    {ops : List (TrajectoryOp K)} (hm : Trajectory.make mbs rI dim gp gv dw w junk = .ok s0)
    (hr : forEach ops (Trajectory.step dim) s0 = .ok s) :
    s.stiffness.size = dim ∧ s.damping.size = dim := by
  have h0 : s0.stiffness.size = dim ∧ s0.damping.size = dim := by
    obtain ⟨c, -, hm⟩ := Out.bind_eq_ok.1 hm
    cases hm
    exact ⟨rfl, rfl⟩
  clear hm
  induction ops generalizing s0 with
  | nil => cases hr; exact h0
  | cons o l ih =>
    obtain ⟨s1, h1, h2⟩ := Out.bind_eq_ok.1 hr
    refine ih h2 ?_
    obtain ⟨a, b⟩ := h0
    cases o with
    | dimWeight w => cases h1; exact ⟨a, b⟩
    | setGains k d => cases h1; exact ⟨rfl, rfl⟩
    | setGainsV k d =>
      simp only [Trajectory.step, Trajectory.setGainsV] at h1
      split at h1
      · rename_i h; cases h1; exact ⟨h.1.trans a, h.2.trans b⟩
      · cases h1
    | stiffness k => cases h1; exact ⟨rfl, b⟩
    | stiffnessV k =>
      simp only [Trajectory.step, Trajectory.setStiffnessV] at h1
      split at h1
      · rename_i h; cases h1; exact ⟨h.trans a, b⟩
      · cases h1
    | damping k => cases h1; exact ⟨a, rfl⟩
    | dampingV k =>
      simp only [Trajectory.step, Trajectory.setDampingV] at h1
      split at h1
      · rename_i h; cases h1; exact ⟨a, h.trans b⟩
      · cases h1
    | refVel v => cases h1; exact ⟨a, b⟩
    | refAccel v => cases h1; exact ⟨a, b⟩
    | updateNrVars d =>
      obtain ⟨c, -, h1⟩ := Out.bind_eq_ok.1 h1
      cases h1
      exact ⟨a, b⟩
    | update hl =>
      obtain ⟨-, rfl⟩ := trajectory_update_eq_ok.1 h1
      exact ⟨a, b⟩

/-- After any history of calls a `TrajectoryTask` rejects gain vectors that do not have the dimension of
the task, and only those. -/
theorem C43_trajectory_rejects {mbs : List (MultiBody K)} {rI dim : ℕ}
    {gp gv w : K} {dw : Option (Vec K)} {junk : ℕ → ℕ → K} {s0 s : Trajectory K}
    {ops : List (TrajectoryOp K)} (hm : Trajectory.make mbs rI dim gp gv dw w junk = .ok s0)
    (hr : forEach ops (Trajectory.step dim) s0 = .ok s) (k d : Vec K) :
    (Trajectory.step dim (.setGainsV k d) s = .ub ↔ ¬(k.size = dim ∧ d.size = dim)) ∧
    (Trajectory.step dim (.stiffnessV k) s = .ub ↔ k.size ≠ dim) ∧
    (Trajectory.step dim (.dampingV d) s = .ub ↔ d.size ≠ dim) := by
  obtain ⟨a, b⟩ := trajectory_gain_sizes hm hr
  simp only [Trajectory.step, Trajectory.setGainsV, Trajectory.setStiffnessV, Trajectory.setDampingV, a, b]
  refine ⟨?_, ?_, ?_⟩ <;> split <;> rename_i h <;> simp [h]

/-- `TrajectoryTask`. -/
theorem C43_trajectory_runs {mbs : List (MultiBody K)} {rI dim : ℕ}
    {gp gv w : K} {dw : Option (Vec K)} {junk : ℕ → ℕ → K} (hr : rI < mbs.length) (hw : WeightsFit dim dw)
    {ops : List (TrajectoryOp K)} (ho : ∀ o ∈ ops, TrajectoryFits rI dim o) {hl : HL K}
    (hh : HL.Fits dim hl) :
    ∃ s0 s s', Trajectory.make mbs rI dim gp gv dw w junk = .ok s0 ∧
      forEach ops (Trajectory.step dim) s0 = .ok s ∧ s.update hl = .ok s' := by
  obtain ⟨c, e, hc⟩ := spcommon_make_sized (w := w) (junk := junk) hr hw
  let P := fun s : Trajectory K => s.c.Sized rI dim ∧ s.stiffness.size = dim ∧ s.damping.size = dim ∧
    s.refVel.size = dim ∧ s.refAccel.size = dim
  have upd : ∀ (s : Trajectory K) hl, HL.Fits dim hl → P s → ∃ s', s.update hl = .ok s' ∧ P s' := by
    intro s hl ⟨h1, h2, h3, h4⟩ ⟨h, a, b, c, d⟩
    exact ⟨_, trajectory_update_eq_ok.2 ⟨⟨by rw [a, h1], by rw [c, h2], by rw [b, c], by rw [h1, c],
      by rw [h1, d], by rw [h1, h3], by rw [h1, h.w], by rw [h1, h4]⟩, rfl⟩, ⟨h.w, h.r⟩, a, b, c, d⟩
  have hm : ∃ s0, Trajectory.make mbs rI dim gp gv dw w junk = .ok s0 ∧ P s0 := by
    unfold Trajectory.make
    rw [e]
    exact ⟨_, rfl, hc, rfl, rfl, rfl, rfl⟩
  obtain ⟨s0, e1, h1⟩ := hm
  obtain ⟨s, e2, h2⟩ := forEach_runs (step := Trajectory.step dim) (P := P)
    (F := TrajectoryFits rI dim) (fun o s hF ⟨h, a, b, c, d⟩ => by
      cases o with
      | dimWeight w => exact ⟨_, rfl, ⟨hF, h.r⟩, a, b, c, d⟩
      | setGains k v => exact ⟨_, rfl, h, rfl, rfl, c, d⟩
      | setGainsV k v =>
        refine ⟨{ s with stiffness := k, damping := v }, ?_, h, hF.1, hF.2, c, d⟩
        simp only [Trajectory.step, Trajectory.setGainsV]
        rw [if_pos ⟨by rw [a]; exact hF.1, by rw [b]; exact hF.2⟩]
      | stiffness k => exact ⟨_, rfl, h, rfl, b, c, d⟩
      | stiffnessV k =>
        refine ⟨{ s with stiffness := k }, ?_, h, hF, b, c, d⟩
        simp only [Trajectory.step, Trajectory.setStiffnessV]
        rw [if_pos (by rw [a]; exact hF)]
      | damping k => exact ⟨_, rfl, h, a, rfl, c, d⟩
      | dampingV k =>
        refine ⟨{ s with damping := k }, ?_, h, a, hF, c, d⟩
        simp only [Trajectory.step, Trajectory.setDampingV]
        rw [if_pos (by rw [b]; exact hF)]
      | refVel v => exact ⟨_, rfl, h, a, b, hF, d⟩
      | refAccel v => exact ⟨_, rfl, h, a, b, c, hF⟩
      | updateNrVars v =>
        obtain ⟨c', e, h'⟩ := spcommon_nrVars_sized h hF
        refine ⟨{ s with c := c' }, ?_, h', a, b, c, d⟩
        simp only [Trajectory.step]
        rw [e]
        rfl
      | update hl => exact upd s hl hF ⟨h, a, b, c, d⟩) ops s0 ho h1
  obtain ⟨s', e3, -⟩ := upd s hl hh h2
  exact ⟨s0, s, s', e1, e2, e3⟩

end

/-- Gain vectors of two different sizes, after other calls. -/
example : ∃ s0 s : Trajectory ℚ, Trajectory.make [⟨[⟨"a", 1, none⟩], 1, [-1], [0]⟩] 0 2 1 1 none 1 (fun _ _ => 7) = .ok s0 ∧
    forEach [.setGainsV (Vec.ofList [1, 2]) (Vec.ofList [3, 4]), .damping 5] (Trajectory.step 2) s0 = .ok s ∧
    Trajectory.step 2 (.setGainsV (Vec.ofList [1, 2]) (Vec.ofList [3])) s = .ub := by
  refine ⟨_, _, rfl, rfl, ?_⟩
  exact (C43_trajectory_rejects (rI := 0) (mbs := [⟨[⟨"a", 1, none⟩], 1, [-1], [0]⟩]) (gp := 1) (gv := 1) (w := 1)
    (dw := none) (junk := fun _ _ => 7)
    (ops := [.setGainsV (Vec.ofList [1, 2]) (Vec.ofList [3, 4]), .damping 5]) rfl rfl _ _).1.2
    (by simp [Vec.ofList])

/-- Calls with arguments of the right size. -/
example : ∀ o ∈ [TrajectoryOp.setGainsV (Vec.ofList [(1 : ℚ), 2]) (Vec.ofList [3, 4]), .damping 5,
    .refVel (Vec.ofList [1, 1])], TrajectoryFits 0 2 o := by
  simp [TrajectoryFits, Vec.ofList]

example : HL.Fits 2 (⟨⟨2, 3, fun _ _ => 1⟩, Vec.ofList [1, 2], Vec.ofList [3, 4], Vec.ofList [0, 0]⟩ : HL ℚ) :=
  ⟨rfl, rfl, rfl, rfl⟩

example : ∀ o ∈ [SetPointOp.stiffness (2 : ℚ), .dimWeight (Vec.ofList [1, 3])], SetPointFits 0 2 o := by
  simp [SetPointFits, Vec.ofList]

example : ∀ o ∈ [TrackingOp.setGains (2 : ℚ) 3, .errorPos (Vec.ofList [1, 3])], TrackingFits 0 2 o := by
  simp [TrackingFits, Vec.ofList]

example : ∀ o ∈ [PidOp.P (2 : ℚ), .error (Vec.ofList [1, 3])], PidFits 0 2 o := by
  simp [PidFits, Vec.ofList]

end Verif
