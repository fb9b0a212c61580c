import Verif.Proofs.Motion
import Verif.Proofs.Assembly
import Verif.Props.Layout

/-!
# Executions of `MotionConstr` and `MotionSpringConstr`
-/

set_option autoImplicit false
set_option linter.unusedSectionVars false

namespace Verif

open Finset Spec

/-! ## Executions of the motion constraint -/

namespace Spec
variable {K : Type}

/-- The limits handed to the constructor: torque bounds, torque derivative bounds, time step. -/
structure TorqueParams (K : Type) where
  lT : List (List (Ext K))
  uT : List (List (Ext K))
  lTD : List (List (Ext K))
  uTD : List (List (Ext K))
  dt : K

/-- The lines of a two-sided constraint hold at `x` (for `n` variables). -/
def SatGen [Field K] [LinearOrder K] [IsStrictOrderedRing K] (n : ℕ) (g : GenC K) (x : ℕ → K) : Prop :=
  ∀ i < g.nrGen, (g.L.get i).LowerOK (lineVal n g.A i x) ∧ (g.U.get i).UpperOK (lineVal n g.A i x)

/-- Executions of a `MotionConstr` (no spring) or `MotionSpringConstr`: construction, then
`updateNrVars`, `update` and `computeTorque` in any order and number.  Indices: data of the last
`updateNrVars`, number of updates, last torque computed (zero before the first). -/
inductive MotionRun [Field K] [LinearOrder K] [IsStrictOrderedRing K] (rk : RobotKin K) (r : ℕ) (p : TorqueParams K)
    (sp : List (SpringData K)) : Option (SolverData K) → ℕ → (ℕ → K) → MotionConstr K → Prop
  | make (junk : ℕ → Ext K) (s : MotionConstr K) :
      MotionConstr.make rk.mb r junk p.lT p.uT p.lTD p.uTD p.dt = .ok s →
      MotionRun rk r p sp none 0 (fun _ => 0) s
  | nrVars {od : Option (SolverData K)} {k : ℕ} {last : ℕ → K} {s : MotionConstr K}
      (d : SolverData K) (c : MotionCommon K) : MotionRun rk r p sp od k last s →
      s.common.updateNrVars rk d = .ok c → MotionRun rk r p sp (some d) k last { s with common := c }
  | update {od : Option (SolverData K)} {k : ℕ} {last : ℕ → K} {s : MotionConstr K}
      (env : MotionEnv K) (s' : MotionConstr K) : MotionRun rk r p sp od k last s →
      EnvOK rk env → s.updateSpring rk.mb env sp = .ok s' → MotionRun rk r p sp od (k + 1) last s'
  | torque {od : Option (SolverData K)} {k : ℕ} {last : ℕ → K} {s : MotionConstr K}
      (aD lam : Vec K) (c : MotionCommon K) : MotionRun rk r p sp od k last s →
      s.common.computeTorque aD lam = .ok c →
      MotionRun rk r p sp od k c.curTorque.get { s with common := c }

/-- Everything the constraint relies on from the data of the last `updateNrVars`: the data is the
layout of robots `mbs` (robot `r` being the constrained one) and contacts, whose points all have
cones, and which name bodies the robot has. -/
def Setting [Field K] [LinearOrder K] [IsStrictOrderedRing K] (rk : RobotKin K) (r : ℕ) (mbs : List (MultiBody K)) (d : SolverData K) :
    Prop :=
  mbs[r]? = some rk.mb ∧
  (∃ old uni bi deps, GoodInput mbs bi ∧ layout old mbs uni bi = .ok (d, deps)) ∧
  (∀ c ∈ d.allCont, ContactShaped c) ∧ BodiesOK rk (sides r d)

/-- First acceleration variable of robot `r`. -/
def aBegin (mbs : List (MultiBody K)) (r : ℕ) : ℕ := ((mbs.take r).map MultiBody.nrDof).sum

/-- No contact links two bodies of robot `r`. -/
def NoSelf (r : ℕ) (d : SolverData K) : Prop :=
  ∀ c ∈ d.allCont, ¬ ((r : ℤ) = c.id.r1Index ∧ (r : ℤ) = c.id.r2Index)

end Spec

section Motion
variable {K : Type} [Field K] [LinearOrder K] [IsStrictOrderedRing K]

theorem setting_data {rk : RobotKin K} {r : ℕ} {mbs : List (MultiBody K)} {d : SolverData K}
    (S : Setting rk r mbs d) : DataOK d r rk.mb (aBegin mbs r) := by
  obtain ⟨h1, ⟨old, uni, bi, deps, g, e⟩, _, _⟩ := S
  obtain ⟨d', deps', e', L⟩ := layout_ok old mbs uni bi g.1 g.2
  rw [e] at e'
  cases e'
  exact L.dataOK h1

theorem update_eq_spring (mb : MultiBody K) (env : MotionEnv K) (s : MotionConstr K) :
    s.update mb env = s.updateSpring mb env [] := by
  unfold MotionConstr.update MotionConstr.updateSpring
  simp [forEach]

/-- What every execution maintains. -/
structure RunInv (rk : RobotKin K) (r : ℕ) (p : TorqueParams K) (sp : List (SpringData K))
    (od : Option (SolverData K)) (k : ℕ) (last : ℕ → K) (s : MotionConstr K) : Prop where
  robot : s.common.robotIndex = r
  n : s.common.nrDof = rk.mb.nrDof
  curSize : s.common.curTorque.size = rk.mb.nrDof
  cur : s.common.curTorque.get = last
  iter : s.updateIter = k
  sL : s.torqueL.size = rk.mb.nrDof
  sU : s.torqueU.size = rk.mb.nrDof
  sDL : s.torqueDtL.size = rk.mb.nrDof
  sDU : s.torqueDtU.size = rk.mb.nrDof
  tL : ∀ (a : ℕ) (e : Ext K), p.lT.flatten[a]? = some e → (∀ sj ∈ sp, sj.posInDof ≠ a) →
    s.torqueL.get a = e
  tU : ∀ (a : ℕ) (e : Ext K), p.uT.flatten[a]? = some e → (∀ sj ∈ sp, sj.posInDof ≠ a) →
    s.torqueU.get a = e
  tDL : ∀ a, s.torqueDtL.get a = ((p.lTD.flatten[a]?).getD .negInf).mulPos p.dt
  tDU : ∀ a, s.torqueDtU.get a = ((p.uTD.flatten[a]?).getD .posInf).mulPos p.dt
  ready : ∀ d, od = some d → ∀ mbs, Setting rk r mbs d → MReady rk d r (aBegin mbs r) s.common

theorem springLoop {env : MotionEnv K} (sp : List (SpringData K)) {s s' : MotionConstr K}
    (h : forEach sp (springStep env) s = .ok s') :
    s'.common = s.common ∧ s'.torqueDtL = s.torqueDtL ∧ s'.torqueDtU = s.torqueDtU ∧
    s'.updateIter = s.updateIter ∧ s'.torqueL.size = s.torqueL.size ∧
    s'.torqueU.size = s.torqueU.size ∧
    (∀ a, (∀ sj ∈ sp, sj.posInDof ≠ a) →
      s'.torqueL.get a = s.torqueL.get a ∧ s'.torqueU.get a = s.torqueU.get a) ∧
    ((sp.map SpringData.posInDof).Nodup → ∀ sj ∈ sp, ∀ q a, nested env.q sj.index 0 = .ok q →
      nested env.alpha sj.index 0 = .ok a →
      s'.torqueL.get sj.posInDof = .fin (-(q * sj.K' + a * sj.C + sj.O)) ∧
      s'.torqueU.get sj.posInDof = .fin (-(q * sj.K' + a * sj.C + sj.O))) := by
  induction sp generalizing s with
  | nil =>
    simp only [forEach, Out.ok.injEq] at h
    subst h
    exact ⟨rfl, rfl, rfl, rfl, rfl, rfl, fun _ _ => ⟨rfl, rfl⟩, fun _ sj h => by simp at h⟩
  | cons sj t ih =>
    simp only [forEach, Out.bind_eq_ok] at h
    obtain ⟨s1, h1, h2⟩ := h
    simp only [springStep, Out.bind_eq_ok, Out.pure_eq, Out.ok.injEq] at h1
    obtain ⟨q, hq, a, ha, tL, htL, tU, htU, rfl⟩ := h1
    have uL : sj.posInDof < s.torqueL.size ∧ tL = ⟨s.torqueL.size, fun j =>
        if j = sj.posInDof then .fin (-(q * sj.K' + a * sj.C + sj.O)) else s.torqueL.get j⟩ := by
      unfold Vec.set at htL; split at htL
      · exact ⟨by assumption, (Out.ok.inj htL).symm⟩
      · cases htL
    have uU : sj.posInDof < s.torqueU.size ∧ tU = ⟨s.torqueU.size, fun j =>
        if j = sj.posInDof then .fin (-(q * sj.K' + a * sj.C + sj.O)) else s.torqueU.get j⟩ := by
      unfold Vec.set at htU; split at htU
      · exact ⟨by assumption, (Out.ok.inj htU).symm⟩
      · cases htU
    obtain ⟨c1, c2, c3, c4, c5, c6, c7, c8⟩ := ih h2
    rw [uL.2] at c5 c7
    rw [uU.2] at c6 c7
    refine ⟨c1, c2, c3, c4, c5, c6, ?_, ?_⟩
    · intro b hb
      have h1 := c7 b (fun sj hs => hb sj (by simp [hs]))
      have h2 : b ≠ sj.posInDof := fun e => hb sj (by simp) e.symm
      dsimp only at h1
      rwa [if_neg h2, if_neg h2] at h1
    · intro hn sj' hsj' q' a' hq' ha'
      rw [List.map_cons, List.nodup_cons] at hn
      rcases List.mem_cons.mp hsj' with rfl | hsj'
      · rw [hq] at hq'; rw [ha] at ha'
        cases hq'; cases ha'
        have h1 := c7 sj'.posInDof (fun sj hs e => hn.1 (List.mem_map.mpr ⟨sj, hs, e⟩))
        dsimp only at h1
        rwa [if_pos rfl, if_pos rfl] at h1
      · exact c8 hn.2 sj' hsj' q' a' hq' ha'

theorem springLoop_ok (env : MotionEnv K) (sp : List (SpringData K)) (s : MotionConstr K)
    (h : ∀ sj ∈ sp, (sj.posInDof < s.torqueL.size ∧ sj.posInDof < s.torqueU.size) ∧
      (∃ q, nested env.q sj.index 0 = .ok q) ∧ (∃ a, nested env.alpha sj.index 0 = .ok a)) :
    ∃ s', forEach sp (springStep env) s = .ok s' := by
  induction sp generalizing s with
  | nil => exact ⟨s, rfl⟩
  | cons sj t ih =>
    obtain ⟨⟨h1, h2⟩, ⟨q, hq⟩, ⟨a, ha⟩⟩ := h sj (by simp)
    simp only [forEach, springStep, hq, ha, Out.ok_bind, Vec.set, if_pos h1, if_pos h2, Out.pure_eq]
    exact ih _ (fun sj hs => h sj (by simp [hs]))

/-- The lines written at the end of `update`. -/
theorem addTorque_ok (n : ℕ) (C : Vec K) (s : MotionConstr K) (hC : C.size = n)
    (hL : s.common.AL = ⟨C.size, fun i => .fin (-C.get i)⟩)
    (hU : s.common.AU = ⟨C.size, fun i => .fin (-C.get i)⟩)
    (h1 : s.torqueL.size = n) (h2 : s.torqueU.size = n) (h3 : s.torqueDtL.size = n)
    (h4 : s.torqueDtU.size = n) (h5 : s.common.curTorque.size = n) :
    ∃ s', s.addTorque = .ok s' ∧
      s'.common = { s.common with AL := s'.common.AL, AU := s'.common.AU } ∧
      s'.torqueL = s.torqueL ∧ s'.torqueU = s.torqueU ∧ s'.torqueDtL = s.torqueDtL ∧
      s'.torqueDtU = s.torqueDtU ∧ s'.updateIter = s.updateIter + 1 ∧
      ∀ i < n, ∀ t t' : K,
        ((s'.common.AL.get i).LowerOK (t - C.get i) ∧ (s'.common.AU.get i).UpperOK (t' - C.get i) ↔
          (s.torqueL.get i).LowerOK t ∧ (s.torqueU.get i).UpperOK t' ∧
          (0 < s.updateIter → (s.torqueDtL.get i).LowerOK (t - s.common.curTorque.get i) ∧
            (s.torqueDtU.get i).UpperOK (t' - s.common.curTorque.get i))) := by
  unfold MotionConstr.addTorque
  by_cases hi : 0 < s.updateIter
  · rw [if_pos hi]
    simp only [addVec, h3, h4, h5, if_true, Out.ok_bind, cwiseMax, cwiseMin, h1, h2, addHead, hL, hU,
      hC, le_refl]
    refine ⟨_, rfl, rfl, rfl, rfl, rfl, rfl, rfl, fun i hin t t' => ?_⟩
    simp only [hin, if_true, hi, true_implies]
    rw [Ext.lowerOK_addFin, Ext.upperOK_addFin, Ext.lowerOK_max, Ext.upperOK_min,
      Ext.lowerOK_addFin, Ext.upperOK_addFin]
    have e : t - C.get i - -C.get i = t := by ring
    have e' : t' - C.get i - -C.get i = t' := by ring
    rw [e, e']
    tauto
  · rw [if_neg hi]
    simp only [addHead, hL, hU, h1, h2, hC, le_refl, if_true, Out.ok_bind]
    refine ⟨_, rfl, rfl, rfl, rfl, rfl, rfl, rfl, fun i hin t t' => ?_⟩
    simp only [hin, if_true, hi, false_implies, and_true]
    rw [Ext.lowerOK_addFin, Ext.upperOK_addFin]
    have e : t - C.get i - -C.get i = t := by ring
    have e' : t' - C.get i - -C.get i = t' := by ring
    rw [e, e']

theorem ready_congr {rk : RobotKin K} {d : SolverData K} {r aB : ℕ} {c : MotionCommon K}
    {AL AU : Vec (Ext K)} (R : MReady rk d r aB c) :
    MReady rk d r aB { c with AL := AL, AU := AU } :=
  ⟨R.robot, R.n, R.hB, R.lB, R.scr, R.cont, R.rows, R.cols, R.cur, R.zero⟩

theorem computeMatrix_keeps {mb : MultiBody K} {env : MotionEnv K} {s s' : MotionCommon K}
    (h : s.computeMatrix mb env = .ok s') :
    s'.robotIndex = s.robotIndex ∧ s'.nrDof = s.nrDof ∧ s'.curTorque = s.curTorque ∧
    s'.AL = ⟨env.C.size, fun i => .fin (-env.C.get i)⟩ ∧
    s'.AU = ⟨env.C.size, fun i => .fin (-env.C.get i)⟩ := by
  unfold MotionCommon.computeMatrix at h
  split at h
  · cases h
  · simp only [Out.bind_eq_ok, Out.pure_eq, Out.ok.injEq] at h
    obtain ⟨_, _, _, _, rfl⟩ := h
    exact ⟨rfl, rfl, rfl, rfl, rfl⟩

theorem make_inv {rk : RobotKin K} {r : ℕ} {p : TorqueParams K} {sp : List (SpringData K)}
    {junk : ℕ → Ext K} {s : MotionConstr K}
    (h : MotionConstr.make rk.mb r junk p.lT p.uT p.lTD p.uTD p.dt = .ok s) :
    RunInv rk r p sp none 0 (fun _ => 0) s := by
  unfold MotionConstr.make paramToVector at h
  simp only [Out.bind_eq_ok, Out.pure_eq, Out.ok.injEq] at h
  obtain ⟨tL, h1, tU, h2, dL, h3, dU, h4, rfl⟩ := h
  split at h1 <;> cases h1
  split at h2 <;> cases h2
  split at h3 <;> cases h3
  split at h4 <;> cases h4
  refine ⟨rfl, rfl, rfl, rfl, rfl, rfl, rfl, rfl, rfl, ?_, ?_, ?_, ?_, ?_⟩
  · intro a e he _; simp [he]
  · intro a e he _; simp [he]
  · intro a; simp [Vec.const]
  · intro a; simp [Vec.const]
  · intro d hd; cases hd

theorem runInv {rk : RobotKin K} {r : ℕ} {p : TorqueParams K} {sp : List (SpringData K)}
    {od : Option (SolverData K)} {k : ℕ} {last : ℕ → K} {s : MotionConstr K}
    (R : MotionRun rk r p sp od k last s) : RunInv rk r p sp od k last s := by
  induction R with
  | make junk s h => exact make_inv h
  | @nrVars od k last s d c _ h I =>
    have hc : c.robotIndex = s.common.robotIndex ∧ c.nrDof = s.common.nrDof ∧
        c.curTorque = s.common.curTorque := by
      unfold MotionCommon.updateNrVars at h
      simp only [Out.bind_eq_ok, Out.pure_eq, Out.ok.injEq] at h
      obtain ⟨_, _, _, _, rfl⟩ := h
      exact ⟨rfl, rfl, rfl⟩
    refine ⟨hc.1.trans I.robot, hc.2.1.trans I.n, (congrArg Vec.size hc.2.2).trans I.curSize,
      (congrArg Vec.get hc.2.2).trans I.cur, I.iter, I.sL, I.sU, I.sDL, I.sDU, I.tL, I.tU, I.tDL,
      I.tDU, ?_⟩
    rintro d' hd mbs S
    cases hd
    obtain ⟨s', e, R, _⟩ := updateNrVars_ready rk d r (aBegin mbs r) s.common (setting_data S)
      S.2.2.2 I.robot I.n I.curSize
    rw [h] at e
    cases e
    exact R
  | @update od k last s env s' _ E h I =>
    unfold MotionConstr.updateSpring at h
    simp only [Out.bind_eq_ok] at h
    obtain ⟨c, hc, s1, h1, h2⟩ := h
    have hk := computeMatrix_keeps hc
    obtain ⟨g1, g2, g3, g4, g5, g6, g7, _⟩ := springLoop sp h1
    dsimp only at g1 g2 g3 g4 g5 g6 g7
    obtain ⟨s2, e2, f1, f2, f3, f4, f5, f6, _⟩ := addTorque_ok rk.mb.nrDof env.C s1 E.2.2
      (by rw [g1]; exact hk.2.2.2.1) (by rw [g1]; exact hk.2.2.2.2) (g5.trans I.sL) (g6.trans I.sU)
      (by rw [g2]; exact I.sDL) (by rw [g3]; exact I.sDU) (by rw [g1, hk.2.2.1]; exact I.curSize)
    rw [h2] at e2
    cases e2
    refine ⟨?_, ?_, ?_, ?_, ?_, ?_, ?_, ?_, ?_, ?_, ?_, ?_, ?_, ?_⟩
    · rw [f1, g1]; exact hk.1.trans I.robot
    · rw [f1, g1]; exact hk.2.1.trans I.n
    · rw [f1, g1]; exact (congrArg Vec.size hk.2.2.1).trans I.curSize
    · rw [f1, g1]; exact (congrArg Vec.get hk.2.2.1).trans I.cur
    · rw [f6, g4, I.iter]
    · rw [f2, g5, I.sL]
    · rw [f3, g6, I.sU]
    · rw [f4, g2, I.sDL]
    · rw [f5, g3, I.sDU]
    · intro a e he ha; rw [f2, (g7 a ha).1]; exact I.tL a e he ha
    · intro a e he ha; rw [f3, (g7 a ha).2]; exact I.tU a e he ha
    · intro a; rw [f4, g2]; exact I.tDL a
    · intro a; rw [f5, g3]; exact I.tDU a
    · intro d hd mbs S
      obtain ⟨c', e, Cm⟩ := computeMatrix_ok rk env d r (aBegin mbs r) s.common (setting_data S)
        S.2.2.2 S.2.2.1 E (I.ready d hd mbs S)
      rw [hc] at e
      cases e
      rw [f1, g1]
      exact ready_congr Cm.ready
  | @torque od k last s aD lam c _ h I =>
    have hh : s.common.fdH.rows = s.common.nrDof ∧
        ∃ t, c = { s.common with curTorque := t } ∧ t.size = s.common.fdH.rows := by
      unfold MotionCommon.computeTorque at h
      simp only [Out.bind_eq_ok] at h
      obtain ⟨_, _, h⟩ := h
      split at h
      · cases h
      · rename_i hn
        split at h
        · cases h
        · simp only [Out.pure_eq, Out.ok.injEq] at h
          exact ⟨by omega, _, h.symm, rfl⟩
    obtain ⟨h1, t, rfl, ht⟩ := hh
    refine ⟨I.robot, I.n, by dsimp only; rw [ht, h1, I.n], rfl, I.iter, I.sL, I.sU, I.sDL, I.sDU,
      I.tL, I.tU, I.tDL, I.tDU, ?_⟩
    intro d hd mbs S
    have R := I.ready d hd mbs S
    exact ⟨R.robot, R.n, R.hB, R.lB, R.scr, R.cont, R.rows, R.cols,
      by dsimp only; rw [ht, h1, I.n], R.zero⟩

/-- The lines after an update, for any execution: absolute limits, spring equalities and, from the
second update on, rate limits, all on the inverse dynamics torque; each line with a tolerance. -/
theorem update_lines_tol {rk : RobotKin K} {r : ℕ} {p : TorqueParams K} {sp : List (SpringData K)}
    {d : SolverData K} {k : ℕ} {last : ℕ → K} {s : MotionConstr K}
    (R : MotionRun rk r p sp (some d) k last s) {mbs : List (MultiBody K)} (S : Setting rk r mbs d)
    (env : MotionEnv K) (E : EnvOK rk env)
    (hsp : ∀ sj ∈ sp, sj.posInDof < rk.mb.nrDof ∧
      (∃ q, nested env.q sj.index 0 = .ok q) ∧ (∃ a, nested env.alpha sj.index 0 = .ok a)) :
    ∃ s1 s', forEach sp (springStep env) s = .ok s1 ∧ s.updateSpring rk.mb env sp = .ok s' ∧
      Computed rk env d r (aBegin mbs r) s.common
        { s'.common with
          AL := ⟨env.C.size, fun i => .fin (-env.C.get i)⟩,
          AU := ⟨env.C.size, fun i => .fin (-env.C.get i)⟩ } ∧
      s'.common.A.rows = rk.mb.nrDof ∧ s'.common.A.cols = d.nrVars ∧
      ∀ (x : ℕ → K) (e : K), (∀ i < rk.mb.nrDof, (s'.common.gen.L.get i).LowerOK (lineVal d.nrVars s'.common.gen.A i x + e) ∧
          (s'.common.gen.U.get i).UpperOK (lineVal d.nrVars s'.common.gen.A i x - e)) ↔ ∀ i < rk.mb.nrDof,
        (s1.torqueL.get i).LowerOK (invDyn rk env (aBegin mbs r) (lastSides r d) x i + e) ∧
        (s1.torqueU.get i).UpperOK (invDyn rk env (aBegin mbs r) (lastSides r d) x i - e) ∧
        (0 < k →
          (((p.lTD.flatten[i]?).getD .negInf).mulPos p.dt).LowerOK
            (invDyn rk env (aBegin mbs r) (lastSides r d) x i + e - last i) ∧
          (((p.uTD.flatten[i]?).getD .posInf).mulPos p.dt).UpperOK
            (invDyn rk env (aBegin mbs r) (lastSides r d) x i - e - last i)) := by
  have I := runInv R
  obtain ⟨c, hc, Cm⟩ := computeMatrix_ok rk env d r (aBegin mbs r) s.common (setting_data S)
    S.2.2.2 S.2.2.1 E (I.ready d rfl mbs S)
  obtain ⟨s1', h1'⟩ := springLoop_ok env sp { s with common := c } (fun sj hs => by
    obtain ⟨a, b⟩ := hsp sj hs
    exact ⟨⟨by dsimp only; rw [I.sL]; exact a, by dsimp only; rw [I.sU]; exact a⟩, b⟩)
  obtain ⟨s1, h1⟩ := springLoop_ok env sp s (fun sj hs => by
    obtain ⟨a, b⟩ := hsp sj hs
    exact ⟨⟨by rw [I.sL]; exact a, by rw [I.sU]; exact a⟩, b⟩)
  obtain ⟨g1, g2, g3, g4, g5, g6, g7, _⟩ := springLoop sp h1'
  have hsame : s1'.torqueL = s1.torqueL ∧ s1'.torqueU = s1.torqueU := by
    have : ∀ (sp : List (SpringData K)) (s s' t t' : MotionConstr K), s.torqueL = t.torqueL →
        s.torqueU = t.torqueU → forEach sp (springStep env) s = .ok s' →
        forEach sp (springStep env) t = .ok t' → s'.torqueL = t'.torqueL ∧ s'.torqueU = t'.torqueU := by
      intro sp
      induction sp with
      | nil =>
        intro s s' t t' e1 e2 h h'
        simp only [forEach, Out.ok.injEq] at h h'
        subst h; subst h'; exact ⟨e1, e2⟩
      | cons sj l ih =>
        intro s s' t t' e1 e2 h h'
        simp only [forEach, Out.bind_eq_ok] at h h'
        obtain ⟨u, hu, h⟩ := h
        obtain ⟨v, hv, h'⟩ := h'
        refine ih u s' v t' ?_ ?_ h h'
        · simp only [springStep, Out.bind_eq_ok, Out.pure_eq, Out.ok.injEq] at hu hv
          obtain ⟨q, hq, a, ha, tL, htL, tU, htU, rfl⟩ := hu
          obtain ⟨q', hq', a', ha', tL', htL', tU', htU', rfl⟩ := hv
          rw [hq] at hq'; cases hq'
          rw [ha] at ha'; cases ha'
          dsimp only
          rw [e1, htL'] at htL
          exact (Out.ok.inj htL).symm
        · simp only [springStep, Out.bind_eq_ok, Out.pure_eq, Out.ok.injEq] at hu hv
          obtain ⟨q, hq, a, ha, tL, htL, tU, htU, rfl⟩ := hu
          obtain ⟨q', hq', a', ha', tL', htL', tU', htU', rfl⟩ := hv
          rw [hq] at hq'; cases hq'
          rw [ha] at ha'; cases ha'
          dsimp only
          rw [e2, htU'] at htU
          exact (Out.ok.inj htU).symm
    exact this sp { s with common := c } s1' s s1 rfl rfl h1' h1
  dsimp only at g1 g2 g3 g4 g5 g6 g7
  obtain ⟨s2, e2, f1, f2, f3, f4, f5, f6, f7⟩ := addTorque_ok rk.mb.nrDof env.C s1' E.2.2
    (by rw [g1]; exact Cm.AL) (by rw [g1]; exact Cm.AU) (g5.trans I.sL) (g6.trans I.sU)
    (by rw [g2]; exact I.sDL) (by rw [g3]; exact I.sDU) (by rw [g1, Cm.cur]; exact I.curSize)
  have hA : s2.common.A = c.A := by rw [f1, g1]
  have hup : s.updateSpring rk.mb env sp = .ok s2 := by
    unfold MotionConstr.updateSpring
    rw [hc, Out.ok_bind, h1', Out.ok_bind, e2]
  have hr : s2.common.A.rows = rk.mb.nrDof := by rw [hA]; exact Cm.ready.rows
  have hcols : s2.common.A.cols = d.nrVars := by rw [hA]; exact Cm.ready.cols
  refine ⟨s1, s2, h1, hup, ?_, hr, hcols, ?_⟩
  · have : { s2.common with
        AL := ⟨env.C.size, fun i => .fin (-env.C.get i)⟩,
        AU := ⟨env.C.size, fun i => .fin (-env.C.get i)⟩ } = c := by
      rw [f1, g1]
      obtain ⟨⟩ := c
      have h1 := Cm.AL
      have h2 := Cm.AU
      dsimp only at h1 h2
      subst h1; subst h2
      rfl
    rw [this]
    exact Cm
  · intro x e
    unfold MotionCommon.gen
    dsimp only
    refine forall_congr' fun i => forall_congr' fun hi => ?_
    have hv : lineVal d.nrVars s2.common.A i x
        = invDyn rk env (aBegin mbs r) (lastSides r d) x i - env.C.get i := by
      rw [← Cm.row i hi x, hA]
      unfold lineVal Mat.rowMul
      rw [Cm.ready.cols]
    have e3 : ∀ t c : K, t - c + e = t + e - c := fun t c => by ring
    have e4 : ∀ t c : K, t - c - e = t - e - c := fun t c => by ring
    rw [hv, e3, e4, f7 i hi, hsame.1, hsame.2, g1, g2, g3, g4, Cm.cur, I.iter, I.cur, I.tDL, I.tDU]

/-- The lines after an update, for any execution: absolute limits, spring equalities and, from the
second update on, rate limits, all on the inverse dynamics torque. -/
theorem update_lines {rk : RobotKin K} {r : ℕ} {p : TorqueParams K} {sp : List (SpringData K)}
    {d : SolverData K} {k : ℕ} {last : ℕ → K} {s : MotionConstr K}
    (R : MotionRun rk r p sp (some d) k last s) {mbs : List (MultiBody K)} (S : Setting rk r mbs d)
    (env : MotionEnv K) (E : EnvOK rk env)
    (hsp : ∀ sj ∈ sp, sj.posInDof < rk.mb.nrDof ∧
      (∃ q, nested env.q sj.index 0 = .ok q) ∧ (∃ a, nested env.alpha sj.index 0 = .ok a)) :
    ∃ s1 s', forEach sp (springStep env) s = .ok s1 ∧ s.updateSpring rk.mb env sp = .ok s' ∧
      Computed rk env d r (aBegin mbs r) s.common
        { s'.common with
          AL := ⟨env.C.size, fun i => .fin (-env.C.get i)⟩,
          AU := ⟨env.C.size, fun i => .fin (-env.C.get i)⟩ } ∧
      s'.common.A.rows = rk.mb.nrDof ∧ s'.common.A.cols = d.nrVars ∧
      ∀ x : ℕ → K, SatGen d.nrVars s'.common.gen x ↔ ∀ i < rk.mb.nrDof,
        (s1.torqueL.get i).LowerOK (invDyn rk env (aBegin mbs r) (lastSides r d) x i) ∧
        (s1.torqueU.get i).UpperOK (invDyn rk env (aBegin mbs r) (lastSides r d) x i) ∧
        (0 < k →
          (((p.lTD.flatten[i]?).getD .negInf).mulPos p.dt).LowerOK
            (invDyn rk env (aBegin mbs r) (lastSides r d) x i - last i) ∧
          (((p.uTD.flatten[i]?).getD .posInf).mulPos p.dt).UpperOK
            (invDyn rk env (aBegin mbs r) (lastSides r d) x i - last i)) := by
  obtain ⟨s1, s', h1, h2, h3, h4, h5, h6⟩ := update_lines_tol R S env E hsp
  refine ⟨s1, s', h1, h2, h3, h4, h5, fun x => ?_⟩
  have h7 := h6 x 0
  simp only [add_zero, sub_zero] at h7
  unfold SatGen
  rw [show s'.common.gen.nrGen = rk.mb.nrDof from h4]
  exact h7

theorem lastSides_eq_sides {r : ℕ} {d : SolverData K} (h : NoSelf r d) : lastSides r d = sides r d := by
  have : ∀ l : List (BiContact K × ℕ), (∀ cb ∈ l, cb.1 ∈ d.allCont) →
      (l.flatMap fun cb => lastSideOf r cb.1 cb.2) = l.flatMap fun cb => sidesOf r cb.1 cb.2 := by
    intro l hl
    induction l with
    | nil => rfl
    | cons cb t ih =>
      rw [List.flatMap_cons, List.flatMap_cons, ih (fun q hq => hl q (by simp [hq]))]
      congr 1
      have := h cb.1 (hl cb (by simp))
      unfold lastSideOf sidesOf
      by_cases h1 : (r : ℤ) = cb.1.id.r1Index <;> by_cases h2 : (r : ℤ) = cb.1.id.r2Index
      · exact absurd ⟨h1, h2⟩ this
      · simp only [if_pos h1, if_neg h2]; simp
      · simp only [if_neg h1, if_pos h2]; simp
      · simp only [if_neg h1, if_neg h2]; simp
  exact this _ (fun cb hcb => by
    obtain ⟨k, hk⟩ := List.mem_iff_getElem?.mp hcb
    rw [List.getElem?_zip_eq_some] at hk
    exact List.mem_of_getElem? hk.1)

/-! ### Construction -/

theorem make_ok (rk : RobotKin K) (r : ℕ) (p : TorqueParams K) (junk : ℕ → Ext K)
    (h1 : p.lT.flatten.length ≤ rk.mb.nrDof) (h2 : p.uT.flatten.length ≤ rk.mb.nrDof)
    (h3 : p.lTD.flatten.length ≤ rk.mb.nrDof) (h4 : p.uTD.flatten.length ≤ rk.mb.nrDof) :
    ∃ s, MotionConstr.make rk.mb r junk p.lT p.uT p.lTD p.uTD p.dt = .ok s := by
  unfold MotionConstr.make paramToVector
  have h3' : p.lTD.flatten.length ≤ (Vec.const rk.mb.nrDof (Ext.negInf : Ext K)).size := h3
  have h4' : p.uTD.flatten.length ≤ (Vec.const rk.mb.nrDof (Ext.posInf : Ext K)).size := h4
  simp only [if_pos h1, if_pos h2, if_pos h3', if_pos h4', Out.ok_bind]
  exact ⟨_, rfl⟩

theorem run_nrVars_ok {rk : RobotKin K} {r : ℕ} {p : TorqueParams K} {sp : List (SpringData K)}
    {od : Option (SolverData K)} {k : ℕ} {last : ℕ → K} {s : MotionConstr K}
    (R : MotionRun rk r p sp od k last s) {mbs : List (MultiBody K)} {d : SolverData K}
    (S : Setting rk r mbs d) : ∃ c, s.common.updateNrVars rk d = .ok c := by
  have I := runInv R
  obtain ⟨c, e, _⟩ := updateNrVars_ready rk d r (aBegin mbs r) s.common (setting_data S)
    S.2.2.2 I.robot I.n I.curSize
  exact ⟨c, e⟩

/-! ### `torque(mbs, mbcs)` -/

theorem torqueInner_ok (cur : Vec K) (l : List K) (p : ℕ) (h : p + l.length ≤ cur.size) :
    torqueInner cur l p = .ok ((List.range l.length).map fun k => cur.get (p + k), p + l.length) := by
  induction l generalizing p with
  | nil => rfl
  | cons a t ih =>
    simp only [List.length_cons] at h
    unfold torqueInner
    have e : cur.at' p = .ok (cur.get p) := by unfold Vec.at'; rw [if_pos (by omega)]
    rw [e, Out.ok_bind, ih (p + 1) (by omega), Out.ok_bind]
    simp only [Out.pure_eq, List.length_cons, List.range_succ_eq_map, List.map_cons, List.map_map]
    have e1 : p + 1 + t.length = p + (t.length + 1) := by omega
    have e2 : List.map (fun k => cur.get (p + 1 + k)) (List.range t.length)
        = List.map ((fun k => cur.get (p + k)) ∘ Nat.succ) (List.range t.length) := by
      refine List.map_congr_left fun k _ => ?_
      simp only [Function.comp]
      congr 1
      omega
    rw [e1, e2]
    rfl

theorem torqueOuter_ok (cur : Vec K) (l : List (List K)) (p : ℕ)
    (h : p + (l.map List.length).sum ≤ cur.size) :
    ∃ l', torqueOuter cur l p = .ok l' ∧ l'.length = l.length ∧
      ∀ (i : ℕ) (li : List K), l[i]? = some li → l'[i]? = some ((List.range li.length).map fun k =>
        cur.get (p + ((l.take i).map List.length).sum + k)) := by
  induction l generalizing p with
  | nil => exact ⟨[], rfl, rfl, by simp⟩
  | cons a t ih =>
    simp only [List.map_cons, List.sum_cons] at h
    unfold torqueOuter
    rw [torqueInner_ok cur a p (by omega), Out.ok_bind]
    obtain ⟨l', e, h1, h2⟩ := ih (p + a.length) (by omega)
    dsimp only
    rw [e, Out.ok_bind]
    refine ⟨_, rfl, by simp [h1], ?_⟩
    intro i li hi
    cases i with
    | zero =>
      simp only [List.getElem?_cons_zero, Option.some.injEq] at hi
      subst hi
      simp
    | succ i =>
      simp only [List.getElem?_cons_succ] at hi
      simp only [List.getElem?_cons_succ, h2 i li hi, List.take_succ_cons, List.map_cons,
        List.sum_cons]
      congr 2
      funext k
      congr 1
      omega

theorem torque_ok (mb : MultiBody K) (c : MotionCommon K) (hc : c.curTorque.size = mb.nrDof)
    (hj : mb.joints ≠ []) (jt : List (List K)) (hlen : jt.map List.length = mb.joints.map Joint.dof) :
    ∃ jt', c.torque mb jt = .ok jt' ∧ jt'.length = jt.length ∧ jt'[0]? = jt[0]? ∧
      ∀ i, 1 ≤ i → i < mb.joints.length → jt'[i]? = some ((List.range (jdof mb i)).map fun k =>
        c.curTorque.get (jpos mb i + k)) := by
  obtain ⟨j0, js, hjs⟩ := List.exists_cons_of_ne_nil hj
  obtain ⟨t0, t, rfl⟩ : ∃ t0 t, jt = t0 :: t := by
    cases jt with
    | nil => rw [hjs] at hlen; simp at hlen
    | cons a b => exact ⟨a, b, rfl⟩
  rw [hjs] at hlen
  simp only [List.map_cons, List.cons.injEq] at hlen
  unfold MotionCommon.torque
  rw [hjs]
  have e : vecAt (j0 :: js) 0 = .ok j0 := vecAt_eq_ok.mpr rfl
  rw [e, Out.ok_bind]
  obtain ⟨l', e', h1, h2⟩ := torqueOuter_ok c.curTorque t j0.dof (by
    rw [hc]; unfold MultiBody.nrDof; rw [hjs, List.map_cons, List.sum_cons, hlen.2])
  dsimp only
  rw [e', Out.ok_bind]
  refine ⟨_, rfl, by simp [h1], by simp, ?_⟩
  intro i hi hil
  obtain ⟨m, rfl⟩ : ∃ m, i = m + 1 := ⟨i - 1, by omega⟩
  simp only [List.length_cons, Nat.add_lt_add_iff_right] at hil
  have hm : m < t.length := by have := congrArg List.length hlen.2; simp at this; omega
  rw [List.getElem?_cons_succ, h2 m t[m] (List.getElem?_eq_getElem hm)]
  have a1 : t[m].length = jdof mb (m + 1) := by
    unfold jdof
    rw [hjs, List.getElem?_cons_succ]
    have := congrArg (fun l => l[m]?) hlen.2
    simp only [List.getElem?_map, List.getElem?_eq_getElem hm, Option.map_some] at this
    rw [← this]
    rfl
  have a2 : j0.dof + ((t.take m).map List.length).sum = jpos mb (m + 1) := by
    unfold jpos
    rw [hjs, List.take_succ_cons, List.map_cons, List.sum_cons, List.map_take, hlen.2,
      List.map_take]
  rw [a1, a2]

/-! ### Torque after an update -/

theorem torque_after {rk : RobotKin K} {r : ℕ} {d : SolverData K} {mbs : List (MultiBody K)}
    (S : Setting rk r mbs d) {env : MotionEnv K} (E : EnvOK rk env) {c0 c : MotionCommon K}
    (Cm : Computed rk env d r (aBegin mbs r) c0
      { c with
        AL := ⟨env.C.size, fun i => .fin (-env.C.get i)⟩,
        AU := ⟨env.C.size, fun i => .fin (-env.C.get i)⟩ }) (x : Vec K) (hx : x.size = d.nrVars) :
    ∃ aD lam c', alphaDVec d x = .ok aD ∧ lambdaVec d x = .ok lam ∧
      c.computeTorque aD lam = .ok c' ∧ c'.curTorque.size = rk.mb.nrDof ∧
      ∀ a < rk.mb.nrDof, c'.curTorque.get a = invDyn rk env (aBegin mbs r) (lastSides r d) x.get a := by
  have D := setting_data S
  have hN := D.hN
  have e1 : alphaDVec d x = .ok ⟨d.totalAlphaD, fun i => x.get (0 + i)⟩ := by
    unfold alphaDVec Vec.segment; rw [if_pos (by omega)]
  have e2 : lambdaVec d x = .ok ⟨d.totalLambda, fun i => x.get (d.totalAlphaD + i)⟩ := by
    unfold lambdaVec Vec.segment SolverData.lambdaBegin0; rw [if_pos (by omega)]
  obtain ⟨s2, h1, h2, _, _, _, h6⟩ := computeTorque_ok rk env d r (aBegin mbs r) c0 _ D S.2.2.1 E Cm
    x _ _ hx e1 e2
  have : ∃ c', c.computeTorque ⟨d.totalAlphaD, fun i => x.get (0 + i)⟩
      ⟨d.totalLambda, fun i => x.get (d.totalAlphaD + i)⟩ = .ok c' ∧ c'.curTorque = s2.curTorque := by
    unfold MotionCommon.computeTorque at h1 ⊢
    simp only [Out.bind_eq_ok] at h1 ⊢
    obtain ⟨a, ha, h1⟩ := h1
    split at h1
    · cases h1
    · rename_i g1
      split at h1
      · cases h1
      · rename_i g2
        refine ⟨{ c with
            curTorque := ⟨c.fdH.rows, fun i => c.fdH.rowMul i a.get + c.fdC.get i +
              ∑ k ∈ range d.totalLambda, c.A.get i (c.lambdaBegin + k) * x.get (d.totalAlphaD + k)⟩ },
          ⟨a, ha, ?_⟩, ?_⟩
        · rw [if_neg g1, if_neg g2]; rfl
        · obtain rfl := Out.ok.inj h1; rfl
  obtain ⟨c', h7, h8⟩ := this
  exact ⟨_, _, c', e1, e2, h7, by rw [h8]; exact h2.cur, fun a ha => by rw [h8]; exact h6 a ha⟩

theorem mulPos_lowerOK {dt : K} (h : 0 < dt) (e : Ext K) (v : K) :
    (e.mulPos dt).LowerOK v ↔ e.LowerOK (v / dt) := by
  cases e with
  | negInf => simp [Ext.mulPos, Ext.LowerOK]
  | fin a => simp only [Ext.mulPos, Ext.LowerOK]; rw [le_div_iff₀ h, mul_comm]
  | posInf => simp [Ext.mulPos, Ext.LowerOK]

theorem mulPos_upperOK {dt : K} (h : 0 < dt) (e : Ext K) (v : K) :
    (e.mulPos dt).UpperOK v ↔ e.UpperOK (v / dt) := by
  cases e with
  | negInf => simp [Ext.mulPos, Ext.UpperOK]
  | fin a => simp only [Ext.mulPos, Ext.UpperOK]; rw [div_le_iff₀ h, mul_comm]
  | posInf => simp [Ext.mulPos, Ext.UpperOK]

/-! ### Springs -/

theorem springsMake_ok (mb : MultiBody K) (l : List (SpringJoint K)) :
    ∀ acc sp, forEach l (fun sj acc => do
      let i ← mb.jointIndexByName sj.jointName
      let p ← mb.jointPosInDof i
      pure (acc ++ [⟨i, p, sj.K', sj.C, sj.O⟩])) acc = .ok sp →
    ∃ sp', sp = acc ++ sp' ∧ List.Forall₂ (fun (sj : SpringJoint K) (sd : SpringData K) =>
      mb.jointIndexByName sj.jointName = .ok sd.index ∧ sd.posInDof = jpos mb sd.index ∧
      sd.index < mb.joints.length ∧ sd.K' = sj.K' ∧ sd.C = sj.C ∧ sd.O = sj.O) l sp' := by
  induction l with
  | nil =>
    intro acc sp h
    simp only [forEach, Out.ok.injEq] at h
    exact ⟨[], by simp [h], .nil⟩
  | cons sj t ih =>
    intro acc sp h
    simp only [forEach, Out.bind_eq_ok, Out.pure_eq, Out.ok.injEq] at h
    obtain ⟨_, ⟨i, hi, p, hp, rfl⟩, h⟩ := h
    obtain ⟨sp', rfl, hf⟩ := ih _ _ h
    refine ⟨⟨i, p, sj.K', sj.C, sj.O⟩ :: sp', by simp, .cons ⟨hi, ?_, ?_, rfl, rfl, rfl⟩ hf⟩
    · unfold MultiBody.jointPosInDof at hp
      split at hp
      · exact (Out.ok.inj hp).symm
      · cases hp
    · unfold MultiBody.jointPosInDof at hp
      split at hp
      · assumption
      · cases hp

theorem jointIndexByName_inj {mb : MultiBody K} {a b : String} {i : ℕ}
    (h1 : mb.jointIndexByName a = .ok i) (h2 : mb.jointIndexByName b = .ok i) : a = b := by
  have : ∀ {n : String}, mb.jointIndexByName n = .ok i → ∃ j, mb.joints[i]? = some j ∧ j.name = n := by
    intro n h
    unfold MultiBody.jointIndexByName at h
    split at h
    · rename_i m hm
      cases h
      rw [List.findIdx?_eq_some_iff_getElem] at hm
      obtain ⟨hl, hn, _⟩ := hm
      exact ⟨_, List.getElem?_eq_getElem hl, by simpa using hn⟩
    · cases h
  obtain ⟨j, e, rfl⟩ := this h1
  obtain ⟨j', e', rfl⟩ := this h2
  rw [e] at e'
  cases e'
  rfl

theorem jpos_inj {mb : MultiBody K} {i j : ℕ} (hi : i < mb.joints.length) (hj : j < mb.joints.length)
    (di : 0 < jdof mb i) (dj : 0 < jdof mb j) (h : jpos mb i = jpos mb j) : i = j := by
  rcases Nat.lt_trichotomy i j with hl | rfl | hl
  · have := jpos_le_of_lt mb hl; omega
  · rfl
  · have := jpos_le_of_lt mb hl; omega

/-! ### Self contacts -/

/-- The torque of the code differs from inverse dynamics by the first sides of the self contacts. -/
theorem invDyn_last (rk : RobotKin K) (env : MotionEnv K) (aB r : ℕ) (d : SolverData K) (x : ℕ → K)
    (a : ℕ) :
    invDyn rk env aB (lastSides r d) x a = invDyn rk env aB (sides r d) x a
      + (((d.allCont.zip d.lambdaBegin).filter fun cb =>
          decide ((r : ℤ) = cb.1.id.r1Index ∧ (r : ℤ) = cb.1.id.r2Index)).map fun cb =>
            contactTorque rk env ⟨cb.1.id.r1BodyName, cb.2, cb.1.r1Points, cb.1.r1Cones⟩ x a).sum := by
  have : ∀ l : List (BiContact K × ℕ),
      ((l.flatMap fun cb => sidesOf r cb.1 cb.2).map fun s => contactTorque rk env s x a).sum
      = ((l.flatMap fun cb => lastSideOf r cb.1 cb.2).map fun s => contactTorque rk env s x a).sum
      + ((l.filter fun cb =>
          decide ((r : ℤ) = cb.1.id.r1Index ∧ (r : ℤ) = cb.1.id.r2Index)).map fun cb =>
            contactTorque rk env ⟨cb.1.id.r1BodyName, cb.2, cb.1.r1Points, cb.1.r1Cones⟩ x a).sum := by
    intro l
    induction l with
    | nil => simp
    | cons cb t ih =>
      rw [List.flatMap_cons, List.flatMap_cons, List.map_append, List.map_append, List.sum_append,
        List.sum_append, ih, List.filter_cons]
      unfold lastSideOf sidesOf
      by_cases h1 : (r : ℤ) = cb.1.id.r1Index <;> by_cases h2 : (r : ℤ) = cb.1.id.r2Index
      · have h3 : decide ((r : ℤ) = cb.1.id.r1Index ∧ (r : ℤ) = cb.1.id.r2Index) = true :=
          decide_eq_true ⟨h1, h2⟩
        simp only [if_pos h1, if_pos h2, if_pos h3]; simp; ring
      · have h3 : ¬ decide ((r : ℤ) = cb.1.id.r1Index ∧ (r : ℤ) = cb.1.id.r2Index) = true := by
          rw [decide_eq_true_eq]; exact fun h => h2 h.2
        simp only [if_pos h1, if_neg h2, if_neg h3]; simp
        ring
      · have h3 : ¬ decide ((r : ℤ) = cb.1.id.r1Index ∧ (r : ℤ) = cb.1.id.r2Index) = true := by
          rw [decide_eq_true_eq]; exact fun h => h1 h.1
        simp only [if_neg h1, if_pos h2, if_neg h3]; simp
        ring
      · have h3 : ¬ decide ((r : ℤ) = cb.1.id.r1Index ∧ (r : ℤ) = cb.1.id.r2Index) = true := by
          rw [decide_eq_true_eq]; exact fun h => h1 h.1
        simp only [if_neg h1, if_neg h2, if_neg h3]; simp
  unfold invDyn lastSides sides
  rw [this]
  ring

end Motion

end Verif
