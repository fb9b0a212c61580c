import Verif.Model.Torque
import Verif.Props.Motion
import Verif.Proofs.Posture

/-!
# C48: the torque task penalises the joint torques
-/

set_option autoImplicit false
set_option linter.unusedSectionVars false

namespace Verif

open Finset Spec

namespace Spec

variable {K : Type} [Field K] [LinearOrder K]

/-- Weight of dof `c` for each way of building the task: one; the given weight; one exactly for the
dofs of the joints on the way to the body, the root joint excepted. -/
def TorqueWeights (rk : RobotKin K) (k : TorqueSel K) (W : ℕ → K) : Prop :=
  match k with
  | .all => ∀ c < rk.mb.nrDof, W c = 1
  | .vec v => ∀ c < rk.mb.nrDof, W c = v.get c
  | .body name => ∃ path, rk.path name = .ok path ∧ ∀ c < rk.mb.nrDof,
      ((∃ i ∈ path, i ≠ 0 ∧ jpos rk.mb i ≤ c ∧ c < jpos rk.mb i + jdof rk.mb i) → W c = 1) ∧
      ((¬ ∃ i ∈ path, i ≠ 0 ∧ jpos rk.mb i ≤ c ∧ c < jpos rk.mb i + jdof rk.mb i) → W c = 0)

/-- Executions of a torque task: construction, then `updateNrVars` and `update` in any order and
number; index: data of the last `updateNrVars`. -/
inductive TorqueRun [IsStrictOrderedRing K] (rk : RobotKin K) (r : ℕ) (p : TorqueParams K)
    (k : TorqueSel K) (w : K) : Option (SolverData K) → TorqueT K → Prop
  | make (junk : ℕ → Ext K) (junkQ : ℕ → ℕ → K) (s : TorqueT K) :
      TorqueT.make rk r junk junkQ p.lT p.uT p.lTD p.uTD p.dt k w = .ok s →
      TorqueRun rk r p k w none s
  | nrVars {od : Option (SolverData K)} {s : TorqueT K} (d : SolverData K) (s' : TorqueT K) :
      TorqueRun rk r p k w od s → s.updateNrVars rk d = .ok s' → TorqueRun rk r p k w (some d) s'
  | update {od : Option (SolverData K)} {s : TorqueT K} (env : MotionEnv K) (s' : TorqueT K) :
      TorqueRun rk r p k w od s → EnvOK rk env → s.update rk.mb env = .ok s' →
      TorqueRun rk r p k w od s'

end Spec

section
variable {K : Type} [Field K] [LinearOrder K] [IsStrictOrderedRing K]

theorem selLoop_ok {mb : MultiBody K} {path : List ℕ} {s s' : Vec K}
    (h : forEach path (TorqueT.selStep mb) s = .ok s') :
    s'.size = s.size ∧ ∀ c,
      ((∃ i ∈ path, i ≠ 0 ∧ jpos mb i ≤ c ∧ c < jpos mb i + jdof mb i) → s'.get c = 1) ∧
      ((¬ ∃ i ∈ path, i ≠ 0 ∧ jpos mb i ≤ c ∧ c < jpos mb i + jdof mb i) →
        s'.get c = s.get c) := by
  induction path generalizing s with
  | nil =>
    simp only [forEach, Out.ok.injEq] at h
    subst h
    exact ⟨rfl, fun c => ⟨fun ⟨i, hi, _⟩ => by simp at hi, fun _ => rfl⟩⟩
  | cons i t ih =>
    simp only [forEach] at h
    obtain ⟨s1, h1, h2⟩ := Out.bind_eq_ok.1 h
    obtain ⟨a1, a2⟩ := ih h2
    have hs1 : s1.size = s.size ∧ ∀ c, s1.get c =
        if i ≠ 0 ∧ jpos mb i ≤ c ∧ c < jpos mb i + jdof mb i then 1 else s.get c := by
      unfold TorqueT.selStep at h1
      split at h1
      · rename_i hi
        obtain ⟨p, hp, h1⟩ := Out.bind_eq_ok.1 h1
        obtain ⟨j, hj, h1⟩ := Out.bind_eq_ok.1 h1
        obtain rfl := jointPosInDof_eq hp
        have := joint_ok hj
        obtain ⟨_, rfl⟩ := vecSetSegment_eq_ok h1
        refine ⟨rfl, fun c => ?_⟩
        dsimp only
        rw [this]
        by_cases hc : jpos mb i ≤ c ∧ c < jpos mb i + jdof mb i
        · rw [if_pos hc, if_pos ⟨hi, hc⟩]
        · rw [if_neg hc, if_neg (fun hh => hc hh.2)]
      · rename_i hi
        simp only [Out.pure_eq, Out.ok.injEq] at h1
        subst h1
        exact ⟨rfl, fun c => by rw [if_neg (fun hh => hi hh.1)]⟩
    refine ⟨a1.trans hs1.1, fun c => ⟨?_, ?_⟩⟩
    · rintro ⟨i', hi', hc⟩
      by_cases ht : ∃ i ∈ t, i ≠ 0 ∧ jpos mb i ≤ c ∧ c < jpos mb i + jdof mb i
      · exact (a2 c).1 ht
      · rw [(a2 c).2 ht, hs1.2 c]
        rcases List.mem_cons.1 hi' with rfl | hi'
        · rw [if_pos hc]
        · exact absurd ⟨i', hi', hc⟩ ht
    · intro hn
      have ht : ¬ ∃ i ∈ t, i ≠ 0 ∧ jpos mb i ≤ c ∧ c < jpos mb i + jdof mb i :=
        fun ⟨i', hi', hc⟩ => hn ⟨i', List.mem_cons_of_mem _ hi', hc⟩
      rw [(a2 c).2 ht, hs1.2 c, if_neg (fun hc => hn ⟨i, by simp, hc⟩)]

/-- Size of the selection vector. -/
def selSize (rk : RobotKin K) : TorqueSel K → ℕ
  | .vec v => v.size
  | _ => rk.mb.nrDof

theorem makeSel_ok {rk : RobotKin K} {k : TorqueSel K} {sel : Vec K}
    (h : TorqueT.makeSel rk k = .ok sel) :
    TorqueWeights rk k sel.get ∧
      sel.size = selSize rk k := by
  cases k with
  | all =>
    simp only [TorqueT.makeSel, Out.ok.injEq] at h
    subst h
    exact ⟨fun _ _ => rfl, rfl⟩
  | vec v =>
    simp only [TorqueT.makeSel, Out.ok.injEq] at h
    subst h
    exact ⟨fun _ _ => rfl, rfl⟩
  | body name =>
    simp only [TorqueT.makeSel] at h
    obtain ⟨path, hp, h⟩ := Out.bind_eq_ok.1 h
    obtain ⟨a1, a2⟩ := selLoop_ok h
    exact ⟨⟨path, hp, fun c _ => ⟨(a2 c).1, (a2 c).2⟩⟩, a1⟩

theorem torqueRun_inv {rk : RobotKin K} {r : ℕ} {p : TorqueParams K} {k : TorqueSel K} {w : K}
    {od : Option (SolverData K)} {s : TorqueT K} (R : TorqueRun rk r p k w od s) :
    s.weight = w ∧ TorqueWeights rk k s.sel.get ∧
      s.sel.size = selSize rk k ∧ ∃ n, MotionRun rk r p [] od n (fun _ => 0) s.mc := by
  induction R with
  | make junk junkQ s h =>
    unfold TorqueT.make at h
    obtain ⟨mc, h1, h⟩ := Out.bind_eq_ok.1 h
    obtain ⟨sel, h2, h⟩ := Out.bind_eq_ok.1 h
    simp only [Out.pure_eq, Out.ok.injEq] at h
    subst h
    exact ⟨rfl, (makeSel_ok h2).1, (makeSel_ok h2).2, 0, .make junk mc h1⟩
  | nrVars d s' _ h ih =>
    obtain ⟨a1, a2, a3, n, a4⟩ := ih
    unfold TorqueT.updateNrVars at h
    obtain ⟨c, h1, h⟩ := Out.bind_eq_ok.1 h
    obtain ⟨_, _, h⟩ := Out.bind_eq_ok.1 h
    simp only [Out.pure_eq, Out.ok.injEq] at h
    subst h
    exact ⟨a1, a2, a3, n, .nrVars d c a4 h1⟩
  | update env s' _ E h ih =>
    obtain ⟨a1, a2, a3, n, a4⟩ := ih
    unfold TorqueT.update at h
    obtain ⟨mc, h1, h⟩ := Out.bind_eq_ok.1 h
    dsimp only at h
    split at h
    · cases h
    · simp only [Out.pure_eq, Out.ok.injEq] at h
      subst h
      rw [update_eq_spring] at h1
      exact ⟨a1, a2, a3, n + 1, .update env mc a4 E h1⟩

/-- General form, with the sides of the contacts that the motion constraint keeps. -/
theorem torque_objective {rk : RobotKin K} {r : ℕ} {p : TorqueParams K} {k : TorqueSel K} {w : K}
    (hk : ∀ v, k = .vec v → v.size = rk.mb.nrDof) {d : SolverData K} {s : TorqueT K}
    (R : TorqueRun rk r p k w (some d) s) {mbs : List (MultiBody K)} (S : Setting rk r mbs d)
    (env : MotionEnv K) (E : EnvOK rk env) :
    ∃ s', s.update rk.mb env = .ok s' ∧
      (s'.task.begin' = (0, 0) ∧ s'.task.weight = w ∧ s'.task.Q.rows = d.nrVars ∧
        s'.task.Q.cols = d.nrVars ∧ s'.task.C.size = d.nrVars) ∧
      (∃ W, TorqueWeights rk k W ∧ ∃ const, ∀ x : ℕ → K, s'.task.obj x
        = w * (∑ i ∈ range rk.mb.nrDof,
            W i * invDyn rk env (aBegin mbs r) (lastSides r d) x i ^ 2) / 2 - const) ∧
      ∀ x : Vec K, x.size = d.nrVars → ∃ aD lam c, alphaDVec d x = .ok aD ∧
        lambdaVec d x = .ok lam ∧ s'.mc.common.computeTorque aD lam = .ok c ∧
        c.curTorque.size = rk.mb.nrDof ∧ ∀ a < rk.mb.nrDof,
          c.curTorque.get a = invDyn rk env (aBegin mbs r) (lastSides r d) x.get a := by
  obtain ⟨a1, a2, a3, n, a4⟩ := torqueRun_inv R
  obtain ⟨s1, mc, _, h2, h3, h4, h5, _⟩ := update_lines a4 S env E (by simp)
  have hsel : s.sel.size = rk.mb.nrDof := by
    rw [a3]
    cases k with
    | vec v => exact hk v rfl
    | all => rfl
    | body name => rfl
  have hfd : mc.common.fdC = env.C := h3.C
  have hC : env.C.size = rk.mb.nrDof := E.2.2
  have hrow : ∀ a < rk.mb.nrDof, ∀ x : ℕ → K, mc.common.A.rowMul a x =
      invDyn rk env (aBegin mbs r) (lastSides r d) x a - env.C.get a := h3.row
  refine ⟨{ s with
    mc := mc,
    Q := ⟨mc.common.A.cols, mc.common.A.cols, fun j k => ∑ i ∈ range mc.common.A.rows,
      mc.common.A.get i j * (s.sel.get i * mc.common.A.get i k)⟩,
    C := ⟨mc.common.A.cols, fun j => ∑ i ∈ range mc.common.A.rows,
      mc.common.fdC.get i * s.sel.get i * mc.common.A.get i j⟩ }, ?_,
    ⟨rfl, a1, h5, h5, h5⟩, ⟨s.sel.get, a2, ?_⟩, fun x hx => torque_after S E h3 x hx⟩
  · unfold TorqueT.update
    rw [update_eq_spring, h2, Out.ok_bind]
    dsimp only
    rw [if_neg (by rw [hsel, h4, hfd, hC]; simp)]
    rfl
  · refine ⟨s.weight * ((∑ i ∈ range mc.common.A.rows, s.sel.get i * (0 - env.C.get i) ^ 2) / 2),
      fun x => ?_⟩
    have := lsq_expand s.sel mc.common.A env.C.get (fun _ => 0) s.weight 0 x
    have hT : (⟨lsqQ s.sel mc.common.A, lsqC s.sel mc.common.A (fun i => 0 - env.C.get i), (0, 0),
        s.weight⟩ : TaskQC K) = TorqueT.task { s with
          mc := mc,
          Q := ⟨mc.common.A.cols, mc.common.A.cols, fun j k => ∑ i ∈ range mc.common.A.rows,
            mc.common.A.get i j * (s.sel.get i * mc.common.A.get i k)⟩,
          C := ⟨mc.common.A.cols, fun j => ∑ i ∈ range mc.common.A.rows,
            mc.common.fdC.get i * s.sel.get i * mc.common.A.get i j⟩ } := by
      unfold TorqueT.task lsqQ lsqC
      dsimp only
      congr 2
      funext j
      refine Finset.sum_congr rfl fun i _ => ?_
      rw [hfd]
      ring
    rw [← hT, this, ← a1]
    congr 1
    unfold lsq
    rw [h4, mul_div_assoc]
    congr 2
    refine Finset.sum_congr rfl fun i hi => ?_
    have : rowAt mc.common.A 0 x i = mc.common.A.rowMul i x := by
      unfold rowAt Mat.rowMul
      simp only [Nat.zero_add]
    rw [this, hrow i (mem_range.1 hi) x]
    ring

/-- After every execution, for every layout without contact between two bodies of the robot,
`update` succeeds and the objective is half the weighted sum of the squares of the inverse dynamics
torques, up to a constant; these torques are what a `MotionConstr` of the robot reports for the same
`x` (`C25_torque_limits` says the same of any `MotionConstr`). -/
theorem C48_torque_objective {rk : RobotKin K} {r : ℕ} {p : TorqueParams K} {k : TorqueSel K} {w : K}
    (hk : ∀ v, k = .vec v → v.size = rk.mb.nrDof) {d : SolverData K} {s : TorqueT K}
    (R : TorqueRun rk r p k w (some d) s) {mbs : List (MultiBody K)} (S : Setting rk r mbs d)
    (N : NoSelf r d) (env : MotionEnv K) (E : EnvOK rk env) :
    ∃ s', s.update rk.mb env = .ok s' ∧
      (s'.task.begin' = (0, 0) ∧ s'.task.weight = w ∧ s'.task.Q.rows = d.nrVars ∧
        s'.task.Q.cols = d.nrVars ∧ s'.task.C.size = d.nrVars) ∧
      (∃ W, TorqueWeights rk k W ∧ ∃ const, ∀ x : ℕ → K, s'.task.obj x
        = w * (∑ i ∈ range rk.mb.nrDof,
            W i * invDyn rk env (aBegin mbs r) (sides r d) x i ^ 2) / 2 - const) ∧
      ∀ x : Vec K, x.size = d.nrVars → ∃ aD lam c, alphaDVec d x = .ok aD ∧
        lambdaVec d x = .ok lam ∧ s'.mc.common.computeTorque aD lam = .ok c ∧
        ∀ a < rk.mb.nrDof,
          c.curTorque.get a = invDyn rk env (aBegin mbs r) (sides r d) x.get a := by
  rw [← lastSides_eq_sides N]
  obtain ⟨s', h1, h2, h3, h4⟩ := torque_objective hk R S env E
  refine ⟨s', h1, h2, h3, fun x hx => ?_⟩
  obtain ⟨aD, lam, c, e1, e2, e3, _, e4⟩ := h4 x hx
  exact ⟨aD, lam, c, e1, e2, e3, e4⟩

/-- With contacts between two bodies of the robot: the torques are still those `MotionConstr` reports
(which are not the inverse dynamics torques then, see `C28_counterexample`). -/
theorem C48_reported_torque {rk : RobotKin K} {r : ℕ} {p : TorqueParams K} {k : TorqueSel K} {w : K}
    (hk : ∀ v, k = .vec v → v.size = rk.mb.nrDof) {d : SolverData K} {s : TorqueT K}
    (R : TorqueRun rk r p k w (some d) s) {mbs : List (MultiBody K)} (S : Setting rk r mbs d)
    (env : MotionEnv K) (E : EnvOK rk env)
    {p' : TorqueParams K} {n : ℕ} {last : ℕ → K} {m m' : MotionConstr K}
    (R' : MotionRun rk r p' [] (some d) n last m) (h' : m.update rk.mb env = .ok m') :
    ∃ s' W const, s.update rk.mb env = .ok s' ∧ TorqueWeights rk k W ∧
      ∀ x : Vec K, x.size = d.nrVars → ∃ aD lam c, alphaDVec d x = .ok aD ∧
        lambdaVec d x = .ok lam ∧ m'.common.computeTorque aD lam = .ok c ∧
        s'.task.obj x.get = w * (∑ i ∈ range rk.mb.nrDof, W i * c.curTorque.get i ^ 2) / 2
          - const := by
  obtain ⟨s', h1, _, ⟨W, h3, const, h4⟩, _⟩ := torque_objective hk R S env E
  refine ⟨s', W, const, h1, h3, fun x hx => ?_⟩
  obtain ⟨s1, mc, _, g2, g3, _, _, _⟩ := update_lines R' S env E (by simp)
  rw [← update_eq_spring, h'] at g2
  obtain rfl := Out.ok.inj g2
  obtain ⟨aD, lam, c, e1, e2, e3, _, e4⟩ := torque_after S E g3 x hx
  refine ⟨aD, lam, c, e1, e2, e3, ?_⟩
  rw [h4]
  congr 3
  exact Finset.sum_congr rfl fun i hi => by rw [e4 i (mem_range.1 hi)]

/-- A weight vector of the wrong size is undefined behaviour at the first update. -/
theorem C48_wrong_size_ub {rk : RobotKin K} {r : ℕ} {p : TorqueParams K} {v : Vec K} {w : K}
    (hv : v.size ≠ rk.mb.nrDof) {d : SolverData K} {s : TorqueT K}
    (R : TorqueRun rk r p (.vec v) w (some d) s)
    {mbs : List (MultiBody K)} (S : Setting rk r mbs d)
    (env : MotionEnv K) (E : EnvOK rk env) : s.update rk.mb env = .ub := by
  obtain ⟨_, _, hs, n, a4⟩ := torqueRun_inv R
  obtain ⟨s1, mc, _, h2, h3, h4, h5, _⟩ := update_lines a4 S env E (by simp)
  unfold TorqueT.update
  rw [update_eq_spring, h2, Out.ok_bind]
  dsimp only
  rw [if_pos (Or.inl (by rw [hs, h4]; exact hv))]

end

/-- The hypotheses are met: one robot with a contact with the ground, mass 1, bias 0: the objective of
`x = (a, λ)` is `(a - λ)² / 2`, all dofs selected, weight 3. -/
example : ∃ (d : SolverData ℚ) (s : TorqueT ℚ), Setting exRk 0 [exMb] d ∧ NoSelf 0 d ∧
    TorqueRun exRk 0 exParams .all 3 (some d) s ∧ EnvOK exRk exEnv ∧
    ∃ s', s.update exMb exEnv = .ok s' ∧ ∃ const, ∀ x, s'.task.obj x = 3 * (x 0 - x 1) ^ 2 / 2 - const := by
  obtain ⟨d, S, h1, h2, h3⟩ := exSetting 1
  obtain ⟨s0, hs0⟩ : ∃ s, TorqueT.make exRk 0 (fun _ => .negInf) (fun _ _ => 0) exParams.lT
      exParams.uT exParams.lTD exParams.uTD exParams.dt .all 3 = .ok s := ⟨_, rfl⟩
  have R0 : TorqueRun exRk 0 exParams .all 3 none s0 := .make _ _ _ hs0
  obtain ⟨_, _, _, n, a4⟩ := torqueRun_inv R0
  obtain ⟨c, hc⟩ := run_nrVars_ok a4 S
  have hN : NoSelf 0 d := by
    intro c hc
    rw [h1, List.mem_singleton] at hc
    subst hc
    simp [BiContact.ofUni, exCont]
  have hA := (setting_data S).hB
  have hri : s0.robotIndex = 0 := by
    have : s0 = _ := (Out.ok.inj hs0).symm
    rw [this]
  obtain ⟨s1, hs1⟩ : ∃ s1, s0.updateNrVars exRk d = .ok s1 := by
    unfold TorqueT.updateNrVars
    rw [hc, Out.ok_bind, hri, vecAt_eq_ok.2 hA]
    exact ⟨_, rfl⟩
  have R1 := TorqueRun.nrVars d s1 R0 hs1
  refine ⟨d, s1, S, hN, R1, ⟨rfl, rfl, rfl⟩, ?_⟩
  obtain ⟨s', e1, _, ⟨W, e3, const, e4⟩, _⟩ := C48_torque_objective (by simp) R1 S hN exEnv ⟨rfl, rfl, rfl⟩
  refine ⟨s', e1, const, fun x => ?_⟩
  rw [e4 x]
  have : W 0 = 1 := e3 0 (by simp [exRk, exMb, MultiBody.nrDof])
  unfold sides
  rw [h1, h2]
  simp [this, invDyn, sidesOf, BiContact.ofUni, exCont, contactTorque, pointCol, pathOf, exRk, exEnv,
    exMb, onDofs, jpos, jdof, Side.force, combo, before, V3.dot, MultiBody.nrDof, aBegin, Out.val?]

end Verif
