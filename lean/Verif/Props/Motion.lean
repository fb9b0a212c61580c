import Verif.Proofs.MotionPoly

/-!
# C24–C28: contact weights, torque limits, torque rate, springs, self contacts
-/

set_option autoImplicit false
set_option linter.unusedSectionVars false

namespace Verif

open Finset Spec

/-! ## C24: contact weights are nonnegative -/

section C24
variable {K : Type} [Field K] [LinearOrder K] [IsStrictOrderedRing K]

theorem positiveLambda_ok (d : SolverData K) (s : PositiveLambda K)
    (hl : d.lambdaBegin.length = d.allCont.length)
    (hc : ∀ c ∈ d.allCont, c.r1Points.length ≤ c.r1Cones.length) :
    s.updateNrVars d = .ok ⟨d.lambdaBegin0, Vec.const d.totalLambda (.fin 0),
      Vec.const d.totalLambda .posInf,
      (d.allCont.zip d.lambdaBegin).map fun cb => (cb.1.id, cb.2, cb.1.nL)⟩ := by
  unfold PositiveLambda.updateNrVars
  obtain ⟨l, e, hl'⟩ := forRange_inv (n := d.allCont.length) (s := [])
    (f := fun i (l : List (ContactId × ℕ × ℕ)) => do
      let c ← vecAt d.allCont i
      let b ← vecAt d.lambdaBegin i
      let n ← c.nrLambda
      pure (l ++ [(c.id, b, n)]))
    (fun i l => l = ((d.allCont.zip d.lambdaBegin).take i).map
      fun cb => (cb.1.id, cb.2, cb.1.nL)) (by simp)
    (by
      rintro i hi l rfl
      have h1 : d.allCont[i]? = some d.allCont[i] := List.getElem?_eq_getElem hi
      have h2 : d.lambdaBegin[i]? = some (d.lambdaBegin[i]'(by omega)) := List.getElem?_eq_getElem _
      have hz : (d.allCont.zip d.lambdaBegin)[i]?
          = some (d.allCont[i], d.lambdaBegin[i]'(by omega)) := by
        rw [List.getElem?_zip_eq_some]; exact ⟨h1, h2⟩
      rw [vecAt_eq_ok.mpr h1, vecAt_eq_ok.mpr h2]
      simp only [Out.ok_bind]
      rw [BiContact.nrLambda_ok _ (hc _ (List.getElem_mem hi))]
      refine ⟨_, rfl, ?_⟩
      rw [List.take_add_one, hz]
      simp)
  rw [e, hl', List.take_of_length_le (by simp [hl])]
  rfl

/-- **C24.** With the layout of any robots and contacts, the bounds hold exactly when every contact
weight of the decision vector, unilateral or bilateral, is nonnegative; the accelerations are not
constrained. -/
theorem C24_weights_nonneg (old : SolverData K) (mbs : List (MultiBody K))
    (uni : List (UniContact K)) (bi : List (BiContact K)) (h : GoodInput mbs bi)
    (s : PositiveLambda K) :
    ∃ d deps s', layout old mbs uni bi = .ok (d, deps) ∧ s.updateNrVars d = .ok s' ∧
      (∀ x : ℕ → K, SatBound s'.bound x ↔
        ∀ i, (mbs.map MultiBody.nrDof).sum ≤ i → i < d.nrVars → 0 ≤ x i) ∧
      -- the description of a line names the contact that owns the weight
      (∀ (k : ℕ) (c : BiContact K) (b n : ℕ), d.allCont[k]? = some c → d.lambdaBegin[k]? = some b →
        d.lambda[k]? = some n → ∀ i, b ≤ i → i < b + n →
        s'.descBound ((i : ℤ) - (mbs.map MultiBody.nrDof).sum) = some c.id) ∧
      (∀ line : ℤ, line < 0 ∨ (d.totalLambda : ℤ) ≤ line → s'.descBound line = none) := by
  obtain ⟨d, deps, e, S⟩ := layout_ok old mbs uni bi h.1 h.2
  have hmap : d.allCont.map BiContact.nL = uni.map UniContact.nL ++ bi.map BiContact.nL := by
    rw [S.allCont, List.map_append, List.map_map]
    congr 1
    exact List.map_congr_left fun c _ => BiContact.nL_ofUni c
  have hL : d.lambdaBegin = starts d.totalAlphaD (d.allCont.map BiContact.nL) := by
    rw [S.lambdaBegin, hmap]
  have hT : d.totalLambda = (d.allCont.map BiContact.nL).sum := by
    rw [S.totalLambda, S.nrUniLambda, S.nrBiLambda, hmap, List.sum_append]
  have hc : ∀ c ∈ d.allCont, c.r1Points.length ≤ c.r1Cones.length := by
    intro c hc
    rw [S.allCont] at hc
    rcases List.mem_append.mp hc with hc | hc
    · obtain ⟨u, _, rfl⟩ := List.mem_map.mp hc
      simp [BiContact.ofUni]
    · exact h.2 c hc
  refine ⟨d, deps, _, e, positiveLambda_ok d s (by rw [hL]; simp) hc, ?_, ?_, ?_⟩
  · intro x
    have hN := S.nrVars
    have hA := S.totalAlphaD
    unfold SatBound PositiveLambda.bound
    simp only [Vec.const, SolverData.lambdaBegin0, Int.toNat_natCast, Ext.lowerOK_fin,
      Ext.upperOK_posInf, implies_true, and_true]
    constructor
    · intro hx i h1 h2
      have := hx (i - d.totalAlphaD) (by omega)
      rwa [Nat.add_sub_cancel' (by omega)] at this
    · intro hx i hi
      exact hx _ (by omega) (by omega)
  · intro k c b n hk hb hn i h1 h2
    rw [← S.totalAlphaD]
    have hkl : k < d.allCont.length := by
      by_contra hh; rw [List.getElem?_eq_none (not_lt.mp hh)] at hk; cases hk
    have hb' : b = d.totalAlphaD + ((d.allCont.map BiContact.nL).take k).sum := by
      rw [hL, List.getElem?_eq_getElem (by simpa using hkl), getElem_starts] at hb
      exact (Option.some.inj hb).symm
    have hn' : n = c.nL := by
      rw [S.lambda, ← hmap] at hn
      simp [hk] at hn
      exact hn.symm
    unfold PositiveLambda.descBound
    have key : ((d.allCont.zip d.lambdaBegin).map fun cb => (cb.1.id, cb.2, cb.1.nL)).find?
        (fun cd => decide ((i : ℤ) - d.totalAlphaD ≥ (cd.2.1 : ℤ) - d.lambdaBegin0 ∧
          (i : ℤ) - d.totalAlphaD < (cd.2.1 : ℤ) - d.lambdaBegin0 + cd.2.2))
        = some (c.id, b, c.nL) := by
      rw [List.find?_eq_some_iff_getElem]
      refine ⟨?_, k, by simp [hL, hkl], ?_, ?_⟩
      · rw [decide_eq_true_eq]
        dsimp only [SolverData.lambdaBegin0]
        omega
      · have hz : (d.allCont.zip d.lambdaBegin)[k]? = some (c, b) := by
          rw [List.getElem?_zip_eq_some]; exact ⟨hk, hb⟩
        have := congrArg (Option.map fun cb : BiContact K × ℕ => (cb.1.id, cb.2, cb.1.nL)) hz
        rw [← List.getElem?_map] at this
        exact (List.getElem?_eq_some_iff.mp this).2
      · intro j hj
        simp only [List.getElem_map, List.getElem_zip, SolverData.lambdaBegin0, Bool.not_eq_true',
          decide_eq_false_iff_not]
        intro hcon
        have hjl : j < d.allCont.length := by omega
        have hbj : d.lambdaBegin[j]'(by rw [hL]; simpa using hjl)
            = d.totalAlphaD + ((d.allCont.map BiContact.nL).take j).sum := by
          simp only [hL]; rw [getElem_starts]
        have := take_succ_sum_le (d.allCont.map BiContact.nL) j k d.allCont[j].nL hj
          (by simp [hjl])
        omega
    have hfun : (fun cd : ContactId × ℕ × ℕ =>
        let b' := (cd.2.1 : ℤ) - (d.lambdaBegin0 : ℤ)
        decide ((i : ℤ) - d.totalAlphaD ≥ b' ∧ (i : ℤ) - d.totalAlphaD < b' + cd.2.2))
        = (fun cd => decide ((i : ℤ) - d.totalAlphaD ≥ (cd.2.1 : ℤ) - d.lambdaBegin0 ∧
          (i : ℤ) - d.totalAlphaD < (cd.2.1 : ℤ) - d.lambdaBegin0 + cd.2.2)) := rfl
    dsimp only
    rw [key]
    rfl
  · intro line hline
    unfold PositiveLambda.descBound
    rw [Option.map_eq_none_iff, List.find?_eq_none]
    intro cd hcd
    obtain ⟨cb, hcb, rfl⟩ := List.mem_map.mp hcd
    obtain ⟨k, hk⟩ := List.mem_iff_getElem?.mp hcb
    rw [List.getElem?_zip_eq_some] at hk
    have hkl : k < d.allCont.length := by
      by_contra hh; rw [List.getElem?_eq_none (not_lt.mp hh)] at hk; cases hk.1
    have hb' : cb.2 = d.totalAlphaD + ((d.allCont.map BiContact.nL).take k).sum := by
      have hb := hk.2
      rw [hL, List.getElem?_eq_getElem (by simpa using hkl), getElem_starts] at hb
      exact (Option.some.inj hb).symm
    have := take_succ_sum_le (d.allCont.map BiContact.nL) k d.allCont.length cb.1.nL hkl
      (by simp [hk.1])
    rw [List.take_of_length_le (i := d.allCont.length) (by simp)] at this
    dsimp only [SolverData.lambdaBegin0]
    rw [decide_eq_true_eq]
    omega

/-- Non-vacuity: one 1-dof robot, a contact with two weights: the bounds reject a negative weight
and accept a negative acceleration. -/
example : ∃ (d : SolverData ℚ) (s' : PositiveLambda ℚ),
    PositiveLambda.init.updateNrVars d = .ok s' ∧ d.nrVars = 3 ∧
    SatBound s'.bound (fun i => if i = 0 then -5 else 1) ∧
    ¬ SatBound s'.bound (fun i => if i = 2 then -1 else 0) := by
  refine ⟨⟨[1], [0], [2], [1], 1, 2, 2, 0, 3, [], [], [⟨ContactId.default, [⟨0, 0, 0⟩], [], [⟨[⟨1, 0, 0⟩, ⟨0, 1, 0⟩]⟩], [], ⟨M3.one, 0⟩, ⟨M3.one, 0⟩⟩], [], []⟩, _, rfl, rfl, ?_, ?_⟩
  · simp [SatBound, PositiveLambda.bound, Vec.const, SolverData.lambdaBegin0]
  · simp [SatBound, PositiveLambda.bound, Vec.const, SolverData.lambdaBegin0]
    exact ⟨1, by norm_num, by norm_num⟩

end C24

/-! ## C25: torque limits -/

namespace Spec
variable {K : Type} [Field K] [LinearOrder K]

/-- Lower torque limit of dof `a`. -/
def TorqueParams.lower (p : TorqueParams K) (a : ℕ) : Ext K := (p.lT.flatten[a]?).getD .negInf

/-- Upper torque limit of dof `a`. -/
def TorqueParams.upper (p : TorqueParams K) (a : ℕ) : Ext K := (p.uT.flatten[a]?).getD .posInf

/-- Torque `t` is within the absolute limits of dof `a`. -/
def TorqueParams.InLimits (p : TorqueParams K) (a : ℕ) (t : K) : Prop :=
  (p.lower a).LowerOK t ∧ (p.upper a).UpperOK t

/-- The rate of change from `t` to `t'` over one step is within the derivative limits of dof `a`
(none given: no limit). -/
def TorqueParams.RateOK (p : TorqueParams K) (a : ℕ) (t t' : K) : Prop :=
  ((p.lTD.flatten[a]?).getD .negInf).LowerOK ((t' - t) / p.dt) ∧
  ((p.uTD.flatten[a]?).getD .posInf).UpperOK ((t' - t) / p.dt)

/-- Torque limits given for each dof. -/
def TorqueParams.Full (p : TorqueParams K) (n : ℕ) : Prop :=
  p.lT.flatten.length = n ∧ p.uT.flatten.length = n

end Spec

section C25
variable {K : Type} [Field K] [LinearOrder K] [IsStrictOrderedRing K]

/-- Lines for a `MotionConstr` (no spring), any execution. -/
theorem motion_lines {rk : RobotKin K} {r : ℕ} {p : TorqueParams K} (hp : p.Full rk.mb.nrDof)
    (hdt : 0 < p.dt) {d : SolverData K} {k : ℕ} {last : ℕ → K} {s : MotionConstr K}
    (R : MotionRun rk r p [] (some d) k last s) {mbs : List (MultiBody K)} (S : Setting rk r mbs d)
    (env : MotionEnv K) (E : EnvOK rk env) :
    ∃ s', s.update rk.mb env = .ok s' ∧ s'.common.gen.nrGen = rk.mb.nrDof ∧
      s'.common.gen.A.cols = d.nrVars ∧
      (∀ x : ℕ → K, SatGen d.nrVars s'.common.gen x ↔ ∀ i < rk.mb.nrDof,
        p.InLimits i (invDyn rk env (aBegin mbs r) (lastSides r d) x i) ∧
        (0 < k → p.RateOK i (last i) (invDyn rk env (aBegin mbs r) (lastSides r d) x i))) ∧
      ∀ x : Vec K, x.size = d.nrVars → ∃ aD lam c, alphaDVec d x = .ok aD ∧
        lambdaVec d x = .ok lam ∧ s'.common.computeTorque aD lam = .ok c ∧
        c.curTorque.size = rk.mb.nrDof ∧ ∀ a < rk.mb.nrDof,
          c.curTorque.get a = invDyn rk env (aBegin mbs r) (lastSides r d) x.get a := by
  have I := runInv R
  obtain ⟨s1, s', h1, h2, h3, h4, h5, h6⟩ := update_lines R S env E (by simp)
  refine ⟨s', by rw [update_eq_spring]; exact h2, h4, h5, ?_, fun x hx => torque_after S E h3 x hx⟩
  intro x
  simp only [forEach, Out.ok.injEq] at h1
  subst h1
  rw [h6 x]
  refine forall_congr' fun i => forall_congr' fun hi => ?_
  have a1 : s.torqueL.get i = p.lower i := by
    have : i < p.lT.flatten.length := by rw [hp.1]; exact hi
    rw [I.tL i _ (List.getElem?_eq_getElem this) (by simp)]
    unfold TorqueParams.lower
    rw [List.getElem?_eq_getElem this]; rfl
  have a2 : s.torqueU.get i = p.upper i := by
    have : i < p.uT.flatten.length := by rw [hp.2]; exact hi
    rw [I.tU i _ (List.getElem?_eq_getElem this) (by simp)]
    unfold TorqueParams.upper
    rw [List.getElem?_eq_getElem this]; rfl
  rw [a1, a2, mulPos_lowerOK hdt, mulPos_upperOK hdt]
  unfold TorqueParams.InLimits TorqueParams.RateOK
  tauto

/-- **C25.** After any execution of the constraint for robot `r` whose last `updateNrVars` was made
with the layout `d` of the current robots and contacts (no contact linking two bodies of robot `r`),
`update` succeeds; its lines hold for `x` exactly when the inverse dynamics torques
`H α̇ + C - Σ Jᵀ F` (contact forces at the contact points, from the cone generators and the weights)
are within the torque limits; `computeTorque(alphaDVec, lambdaVec)` returns these very torques; and
`torque(mbs, mbcs)` stores them per joint, the root joint (joint 0) excepted. -/
theorem C25_torque_limits {rk : RobotKin K} {r : ℕ} {p : TorqueParams K} (hp : p.Full rk.mb.nrDof)
    (hdt : 0 < p.dt) (hL : p.lTD.flatten = []) (hU : p.uTD.flatten = []) (hj : rk.mb.joints ≠ [])
    {d : SolverData K} {k : ℕ} {last : ℕ → K} {s : MotionConstr K}
    (R : MotionRun rk r p [] (some d) k last s) {mbs : List (MultiBody K)} (S : Setting rk r mbs d)
    (N : NoSelf r d) (env : MotionEnv K) (E : EnvOK rk env) :
    ∃ s', s.update rk.mb env = .ok s' ∧ s'.common.gen.nrGen = rk.mb.nrDof ∧
      s'.common.gen.A.cols = d.nrVars ∧
      ∀ x : Vec K, x.size = d.nrVars → ∃ aD lam c, alphaDVec d x = .ok aD ∧
        lambdaVec d x = .ok lam ∧ s'.common.computeTorque aD lam = .ok c ∧
        (∀ a < rk.mb.nrDof,
          c.curTorque.get a = invDyn rk env (aBegin mbs r) (sides r d) x.get a) ∧
        (SatGen d.nrVars s'.common.gen x.get ↔
          ∀ a < rk.mb.nrDof, p.InLimits a (c.curTorque.get a)) ∧
        ∀ jt : List (List K), jt.map List.length = rk.mb.joints.map Joint.dof →
          ∃ jt', c.torque rk.mb jt = .ok jt' ∧ jt'.length = jt.length ∧ jt'[0]? = jt[0]? ∧
            ∀ i, 1 ≤ i → i < rk.mb.joints.length →
              jt'[i]? = some ((List.range (jdof rk.mb i)).map fun m =>
                c.curTorque.get (jpos rk.mb i + m)) := by
  obtain ⟨s', h1, h2, h3, h4, h5⟩ := motion_lines hp hdt R S env E
  refine ⟨s', h1, h2, h3, fun x hx => ?_⟩
  obtain ⟨aD, lam, c, g1, g2, g3, g4, g5⟩ := h5 x hx
  rw [lastSides_eq_sides N] at h4 g5
  refine ⟨aD, lam, c, g1, g2, g3, g5, ?_, fun jt hjt => torque_ok rk.mb c g4 hj jt hjt⟩
  rw [h4 x.get]
  refine forall_congr' fun i => forall_congr' fun hi => ?_
  rw [g5 i hi]
  constructor
  · exact fun h => h.1
  · exact fun h => ⟨h, fun _ => by simp [TorqueParams.RateOK, hL, hU, Ext.LowerOK, Ext.UpperOK]⟩

/-- **C25** (the executions exist): construction succeeds when no more limits than dofs are given,
and `updateNrVars` succeeds after any execution. -/
theorem C25_setup {rk : RobotKin K} {r : ℕ} {p : TorqueParams K}
    (h1 : p.lT.flatten.length ≤ rk.mb.nrDof) (h2 : p.uT.flatten.length ≤ rk.mb.nrDof)
    (h3 : p.lTD.flatten.length ≤ rk.mb.nrDof) (h4 : p.uTD.flatten.length ≤ rk.mb.nrDof)
    (junk : ℕ → Ext K) (sp : List (SpringData K)) :
    (∃ s, MotionConstr.make rk.mb r junk p.lT p.uT p.lTD p.uTD p.dt = .ok s ∧
      MotionRun rk r p sp none 0 (fun _ => 0) s) ∧
    ∀ (od : Option (SolverData K)) (k : ℕ) (last : ℕ → K) (s : MotionConstr K),
      MotionRun rk r p sp od k last s → ∀ (mbs : List (MultiBody K)) (d : SolverData K),
      Setting rk r mbs d → ∃ c, s.common.updateNrVars rk d = .ok c ∧
        MotionRun rk r p sp (some d) k last { s with common := c } := by
  constructor
  · obtain ⟨s, e⟩ := make_ok rk r p junk h1 h2 h3 h4
    exact ⟨s, e, .make junk s e⟩
  · intro od k last s R mbs d S
    obtain ⟨c, e⟩ := run_nrVars_ok R S
    exact ⟨c, e, .nrVars d c R e⟩

/-- More limits than dofs: out-of-range write in the constructor. -/
theorem C25_too_many_limits {rk : RobotKin K} {r : ℕ} {p : TorqueParams K} (junk : ℕ → Ext K)
    (h1 : rk.mb.nrDof < p.lT.flatten.length) :
    MotionConstr.make rk.mb r junk p.lT p.uT p.lTD p.uTD p.dt = .ub := by
  unfold MotionConstr.make paramToVector
  simp only [if_neg (not_le.mpr h1)]
  rfl

end C25

/-! ## C26: torque rate limits -/

section C26
variable {K : Type} [Field K] [LinearOrder K] [IsStrictOrderedRing K]

/-- **C26** (one step).  With derivative limits: on the first update (`k = 0`) only the absolute
limits apply; on every later one the lines hold exactly when the torque is within the absolute limits
and its change from the last computed torque `last`, divided by `dt`, is within the derivative
limits.  (`last` is zero when `computeTorque` was never called.) -/
theorem C26_rate_lines {rk : RobotKin K} {r : ℕ} {p : TorqueParams K} (hp : p.Full rk.mb.nrDof)
    (hdt : 0 < p.dt) {d : SolverData K} {k : ℕ} {last : ℕ → K} {s : MotionConstr K}
    (R : MotionRun rk r p [] (some d) k last s) {mbs : List (MultiBody K)} (S : Setting rk r mbs d)
    (N : NoSelf r d) (env : MotionEnv K) (E : EnvOK rk env) :
    ∃ s', s.update rk.mb env = .ok s' ∧ ∀ x : ℕ → K, SatGen d.nrVars s'.common.gen x ↔
      ∀ i < rk.mb.nrDof, p.InLimits i (invDyn rk env (aBegin mbs r) (sides r d) x i) ∧
        (0 < k → p.RateOK i (last i) (invDyn rk env (aBegin mbs r) (sides r d) x i)) := by
  obtain ⟨s', h1, _, _, h4, _⟩ := motion_lines hp hdt R S env E
  rw [lastSides_eq_sides N] at h4
  exact ⟨s', h1, h4⟩

namespace Spec

/-- Control cycles of a `MotionConstr`: `update`, a solution `x` of its lines, `computeTorque` on that
solution; contacts and robots may change between cycles (`updateNrVars`).  The list holds the torques
computed so far, oldest first. -/
inductive Cycles (rk : RobotKin K) (r : ℕ) (p : TorqueParams K) :
    Option (SolverData K × List (MultiBody K)) → List (ℕ → K) → MotionConstr K → Prop
  | start (junk : ℕ → Ext K) (s : MotionConstr K) :
      MotionConstr.make rk.mb r junk p.lT p.uT p.lTD p.uTD p.dt = .ok s → Cycles rk r p none [] s
  | nrVars {o : Option (SolverData K × List (MultiBody K))} {ts : List (ℕ → K)}
      {s : MotionConstr K} (d : SolverData K) (mbs : List (MultiBody K)) (c : MotionCommon K) :
      Cycles rk r p o ts s → Setting rk r mbs d → s.common.updateNrVars rk d = .ok c →
      Cycles rk r p (some (d, mbs)) ts { s with common := c }
  | cycle {d : SolverData K} {mbs : List (MultiBody K)} {ts : List (ℕ → K)} {s : MotionConstr K}
      (env : MotionEnv K) (s' : MotionConstr K) (x aD lam : Vec K) (c : MotionCommon K) :
      Cycles rk r p (some (d, mbs)) ts s → EnvOK rk env → s.update rk.mb env = .ok s' →
      x.size = d.nrVars → SatGen d.nrVars s'.common.gen x.get → alphaDVec d x = .ok aD →
      lambdaVec d x = .ok lam → s'.common.computeTorque aD lam = .ok c →
      Cycles rk r p (some (d, mbs)) (ts ++ [c.curTorque.get]) { s' with common := c }

end Spec

theorem cycles_run {rk : RobotKin K} {r : ℕ} {p : TorqueParams K}
    {o : Option (SolverData K × List (MultiBody K))} {ts : List (ℕ → K)} {s : MotionConstr K}
    (C : Cycles rk r p o ts s) :
    MotionRun rk r p [] (o.map Prod.fst) ts.length ((ts.getLast?).getD fun _ => 0) s ∧
    (∀ d mbs, o = some (d, mbs) → Setting rk r mbs d) := by
  induction C with
  | start junk s h => exact ⟨.make junk s h, fun _ _ h => by cases h⟩
  | nrVars d mbs c _ S h ih =>
    exact ⟨.nrVars d c ih.1 h, fun _ _ e => by cases e; exact S⟩
  | cycle env s' x aD lam c _ E h hx hs ha hl hc ih =>
    rw [update_eq_spring] at h
    refine ⟨?_, ih.2⟩
    have := MotionRun.torque aD lam c (MotionRun.update env s' ih.1 E h) hc
    simpa using this

/-- **C26** (executions).  Along any sequence of control cycles, of any length, with contacts changing
in between, every computed torque is within the absolute limits, and from one cycle to the next the
torque of each dof changes at a rate within the derivative limits. -/
theorem C26_rate_execution {rk : RobotKin K} {r : ℕ} {p : TorqueParams K} (hp : p.Full rk.mb.nrDof)
    (hdt : 0 < p.dt) {o : Option (SolverData K × List (MultiBody K))} {ts : List (ℕ → K)}
    {s : MotionConstr K} (C : Cycles rk r p o ts s) :
    (∀ (i : ℕ) (t : ℕ → K), ts[i]? = some t → ∀ a < rk.mb.nrDof, p.InLimits a (t a)) ∧
    (∀ (i : ℕ) (t t' : ℕ → K), ts[i]? = some t → ts[i + 1]? = some t' →
      ∀ a < rk.mb.nrDof, p.RateOK a (t a) (t' a)) := by
  induction C with
  | start junk s h => simp
  | nrVars d mbs c _ S h ih => exact ih
  | @cycle d mbs ts s env s' x aD lam c C E h hx hs ha hl hc ih =>
    obtain ⟨R, hS⟩ := cycles_run C
    have S := hS d mbs rfl
    obtain ⟨s2, h1, _, _, h4, h5⟩ := motion_lines hp hdt R S env E
    rw [h] at h1
    cases h1
    obtain ⟨aD', lam', c', g1, g2, g3, g4, g5⟩ := h5 x hx
    rw [ha] at g1; cases g1
    rw [hl] at g2; cases g2
    rw [hc] at g3; cases g3
    have key : ∀ a < rk.mb.nrDof, p.InLimits a (c.curTorque.get a) ∧
        (0 < ts.length → p.RateOK a (((ts.getLast?).getD fun _ => 0) a) (c.curTorque.get a)) := by
      intro a ha
      rw [g5 a ha]
      exact (h4 x.get).mp hs a ha
    constructor
    · intro i t ht a ha
      rcases Nat.lt_or_ge i ts.length with hi | hi
      · rw [List.getElem?_append_left hi] at ht
        exact ih.1 i t ht a ha
      · rw [List.getElem?_append_right hi] at ht
        have : i - ts.length = 0 := by
          by_contra hne
          rw [List.getElem?_eq_none (by simp; omega)] at ht
          cases ht
        rw [this] at ht
        simp only [List.getElem?_cons_zero, Option.some.injEq] at ht
        subst ht
        exact (key a ha).1
    · intro i t t' ht ht' a ha
      rcases Nat.lt_or_ge (i + 1) ts.length with hi | hi
      · rw [List.getElem?_append_left (by omega)] at ht
        rw [List.getElem?_append_left hi] at ht'
        exact ih.2 i t t' ht ht' a ha
      · rw [List.getElem?_append_right hi] at ht'
        have h0 : i + 1 - ts.length = 0 := by
          by_contra hne
          rw [List.getElem?_eq_none (by simp; omega)] at ht'
          cases ht'
        rw [h0] at ht'
        simp only [List.getElem?_cons_zero, Option.some.injEq] at ht'
        subst ht'
        have hl' : ts.length = i + 1 := by omega
        rw [List.getElem?_append_left (by omega)] at ht
        have : ts.getLast? = some t := by
          rw [List.getLast?_eq_getElem?, hl']; exact ht
        have := (key a ha).2 (by omega)
        rw [‹ts.getLast? = some t›] at this
        exact this

end C26

/-! ## C27: springs and polynomial limits -/

section C27
variable {K : Type} [Field K] [LinearOrder K] [IsStrictOrderedRing K]

/-- **C27** (springs).  For a `MotionSpringConstr` with springs `l` (distinct joints, each with at
least one dof): the lines hold exactly when the torque of (the first dof of) each spring joint equals
`-(K q + C α + O)`, the torque of every other dof is within its limits, and, from the second update
on, the rate of every torque is within the derivative limits. -/
theorem C27_springs {rk : RobotKin K} {r : ℕ} {p : TorqueParams K} (hp : p.Full rk.mb.nrDof)
    (hdt : 0 < p.dt) {l : List (SpringJoint K)} {sp : List (SpringData K)}
    (hsp : springsMake rk.mb l = .ok sp) (hn : (l.map SpringJoint.jointName).Nodup)
    {d : SolverData K} {k : ℕ} {last : ℕ → K} {s : MotionConstr K}
    (R : MotionRun rk r p sp (some d) k last s) {mbs : List (MultiBody K)} (S : Setting rk r mbs d)
    (N : NoSelf r d) (env : MotionEnv K) (E : EnvOK rk env)
    (hd : ∀ sj ∈ l, ∀ i, rk.mb.jointIndexByName sj.jointName = .ok i → 0 < jdof rk.mb i ∧
      (∃ q, nested env.q i 0 = .ok q) ∧ ∃ a, nested env.alpha i 0 = .ok a) :
    ∃ s', s.updateSpring rk.mb env sp = .ok s' ∧ ∀ x : ℕ → K, SatGen d.nrVars s'.common.gen x ↔
      (∀ sj ∈ l, ∀ i q a, rk.mb.jointIndexByName sj.jointName = .ok i →
        nested env.q i 0 = .ok q → nested env.alpha i 0 = .ok a →
        invDyn rk env (aBegin mbs r) (sides r d) x (jpos rk.mb i)
          = -(sj.K' * q + sj.C * a + sj.O)) ∧
      ∀ a < rk.mb.nrDof,
        ((∀ sj ∈ l, ∀ i, rk.mb.jointIndexByName sj.jointName = .ok i → jpos rk.mb i ≠ a) →
          p.InLimits a (invDyn rk env (aBegin mbs r) (sides r d) x a)) ∧
        (0 < k → p.RateOK a (last a) (invDyn rk env (aBegin mbs r) (sides r d) x a)) := by
  obtain ⟨sp', e, hf⟩ := springsMake_ok rk.mb l [] sp hsp
  obtain rfl : sp = sp' := by simpa using e
  have I := runInv R
  have toSp : ∀ sd ∈ sp, ∃ sj ∈ l, rk.mb.jointIndexByName sj.jointName = .ok sd.index ∧
      sd.posInDof = jpos rk.mb sd.index ∧ sd.index < rk.mb.joints.length ∧ sd.K' = sj.K' ∧
      sd.C = sj.C ∧ sd.O = sj.O := by
    intro sd hsd
    clear e R I hsp hn hd
    induction hf with
    | nil => simp at hsd
    | cons h _ ih =>
      rcases List.mem_cons.mp hsd with rfl | hsd
      · exact ⟨_, by simp, h⟩
      · obtain ⟨sj, h1, h2⟩ := ih hsd
        exact ⟨sj, by simp [h1], h2⟩
  have ofSp : ∀ sj ∈ l, ∃ sd ∈ sp, rk.mb.jointIndexByName sj.jointName = .ok sd.index ∧
      sd.posInDof = jpos rk.mb sd.index ∧ sd.index < rk.mb.joints.length ∧ sd.K' = sj.K' ∧
      sd.C = sj.C ∧ sd.O = sj.O := by
    intro sj hsj
    clear e R I hsp hn hd toSp
    induction hf with
    | nil => simp at hsj
    | cons h _ ih =>
      rcases List.mem_cons.mp hsj with rfl | hsj
      · exact ⟨_, by simp, h⟩
      · obtain ⟨sd, h1, h2⟩ := ih hsj
        exact ⟨sd, by simp [h1], h2⟩
  have hnd : (sp.map SpringData.posInDof).Nodup := by
    clear e R I hsp toSp ofSp
    induction hf with
    | nil => simp
    | @cons sj sd t t' h hf' ih =>
      rw [List.map_cons, List.nodup_cons] at hn ⊢
      refine ⟨fun hmem => ?_, ih hn.2 (fun sj hsj => hd sj (by simp [hsj]))⟩
      obtain ⟨sd2, hsd2, e⟩ := List.mem_map.mp hmem
      have : ∃ sj2 ∈ t, rk.mb.jointIndexByName sj2.jointName = .ok sd2.index ∧
          sd2.posInDof = jpos rk.mb sd2.index ∧ sd2.index < rk.mb.joints.length := by
        clear ih hn hd hmem e
        induction hf' with
        | nil => simp at hsd2
        | cons h _ ih =>
          rcases List.mem_cons.mp hsd2 with rfl | hsd2
          · exact ⟨_, by simp, h.1, h.2.1, h.2.2.1⟩
          · obtain ⟨sj, h1, h2⟩ := ih hsd2
            exact ⟨sj, by simp [h1], h2⟩
      obtain ⟨sj2, hm2, g1, g2, g3⟩ := this
      have e' : sd2.index = sd.index := by
        refine jpos_inj g3 h.2.2.1 (hd sj2 (by simp [hm2]) _ g1).1 (hd sj (by simp) _ h.1).1 ?_
        rw [← g2, ← h.2.1, e]
      rw [e'] at g1
      exact hn.1 (List.mem_map.mpr ⟨sj2, hm2, jointIndexByName_inj g1 h.1⟩)
  obtain ⟨s1, s', h1, h2, h3, h4, h5, h6⟩ := update_lines R S env E (by
    intro sd hsd
    obtain ⟨sj, hsj, g1, g2, g3, _⟩ := toSp sd hsd
    have := hd sj hsj _ g1
    have hfit := jpos_fit rk.mb g3
    exact ⟨by omega, this.2⟩)
  rw [lastSides_eq_sides N] at h6
  obtain ⟨_, _, _, _, _, _, f7, f8⟩ := springLoop sp h1
  have f8 := f8 hnd
  refine ⟨s', h2, fun x => ?_⟩
  rw [h6 x]
  have lim : ∀ a < rk.mb.nrDof, (∀ sd ∈ sp, sd.posInDof ≠ a) →
      s1.torqueL.get a = p.lower a ∧ s1.torqueU.get a = p.upper a := by
    intro a ha hne
    obtain ⟨e1, e2⟩ := f7 a hne
    have l1 : a < p.lT.flatten.length := by rw [hp.1]; exact ha
    have l2 : a < p.uT.flatten.length := by rw [hp.2]; exact ha
    unfold TorqueParams.lower TorqueParams.upper
    rw [e1, e2, I.tL a _ (List.getElem?_eq_getElem l1) hne,
      I.tU a _ (List.getElem?_eq_getElem l2) hne, List.getElem?_eq_getElem l1,
      List.getElem?_eq_getElem l2]
    exact ⟨rfl, rfl⟩
  constructor
  · intro h
    constructor
    · intro sj hsj i q a hi hq ha
      obtain ⟨sd, hsd, g1, g2, g3, g4, g5, g6⟩ := ofSp sj hsj
      rw [hi] at g1
      obtain rfl : i = sd.index := Out.ok.inj g1
      have hfit := jpos_fit rk.mb g3
      have hdof := (hd sj hsj _ hi).1
      obtain ⟨b1, b2, _⟩ := h (jpos rk.mb sd.index) (by omega)
      obtain ⟨e1, e2⟩ := f8 sd hsd q a hq ha
      rw [g2] at e1 e2
      rw [e1] at b1
      rw [e2] at b2
      simp only [Ext.LowerOK, Ext.UpperOK] at b1 b2
      rw [le_antisymm b2 b1, g4, g5, g6]
      ring
    · intro a ha
      obtain ⟨b1, b2, b3⟩ := h a ha
      refine ⟨fun hne => ?_, fun hk => ?_⟩
      · obtain ⟨e1, e2⟩ := lim a ha (fun sd hsd => by
          obtain ⟨sj, hsj, g1, g2, _⟩ := toSp sd hsd
          rw [g2]; exact hne sj hsj _ g1)
        rw [e1] at b1; rw [e2] at b2
        exact ⟨b1, b2⟩
      · have := b3 hk
        rwa [mulPos_lowerOK hdt, mulPos_upperOK hdt] at this
  · rintro ⟨ha, hb⟩ a hla
    obtain ⟨c1, c2⟩ := hb a hla
    have rate : 0 < k →
        (((p.lTD.flatten[a]?).getD .negInf).mulPos p.dt).LowerOK
            (invDyn rk env (aBegin mbs r) (sides r d) x a - last a) ∧
          (((p.uTD.flatten[a]?).getD .posInf).mulPos p.dt).UpperOK
            (invDyn rk env (aBegin mbs r) (sides r d) x a - last a) := by
      intro hk
      rw [mulPos_lowerOK hdt, mulPos_upperOK hdt]
      exact c2 hk
    by_cases hex : ∃ sd ∈ sp, sd.posInDof = a
    · obtain ⟨sd, hsd, rfl⟩ := hex
      obtain ⟨sj, hsj, g1, g2, g3, g4, g5, g6⟩ := toSp sd hsd
      obtain ⟨_, ⟨q, hq⟩, ⟨al, hal⟩⟩ := hd sj hsj _ g1
      have := ha sj hsj _ q al g1 hq hal
      obtain ⟨e1, e2⟩ := f8 sd hsd q al hq hal
      rw [e1, e2]
      rw [← g2] at this
      refine ⟨?_, ?_, rate⟩
      · simp only [Ext.LowerOK]; rw [this, g4, g5, g6]; exact le_of_eq (by ring)
      · simp only [Ext.UpperOK]; rw [this, g4, g5, g6]; exact le_of_eq (by ring)
    · push Not at hex
      obtain ⟨e1, e2⟩ := lim a hla hex
      rw [e1, e2]
      have := c1 (fun sj hsj i hi e => by
        obtain ⟨sd, hsd, g1, g2, _⟩ := ofSp sj hsj
        rw [hi] at g1
        obtain rfl : i = sd.index := Out.ok.inj g1
        exact hex sd hsd (by rw [g2, e]))
      exact ⟨this.1, this.2, rate⟩

/-- **C27** (polynomials).  For a `MotionPolyConstr` the lines hold exactly when the torque of every
one-dof joint lies between its two polynomials evaluated at the joint's position, and the torque of
every dof of every other joint is zero: no bound can be given for those joints, and the code leaves
both bounds of their lines at `-C`. -/
theorem C27_poly {rk : RobotKin K} {r : ℕ} {lP uP : List (List (List K))} {d : SolverData K}
    {s : MotionPoly K} (R : PolyRun rk r lP uP (some d) s) {mbs : List (MultiBody K)}
    (S : Setting rk r mbs d) (N : NoSelf r d) (env : MotionEnv K) (E : EnvOK rk env)
    (hq : ∀ i < rk.mb.joints.length, jdof rk.mb i = 1 → ∃ q l u, nested env.q i 0 = .ok q ∧
      nested lP i 0 = .ok l ∧ l ≠ [] ∧ nested uP i 0 = .ok u ∧ u ≠ []) :
    ∃ s', s.update rk.mb env = .ok s' ∧ s'.common.gen.nrGen = rk.mb.nrDof ∧
      s'.common.gen.A.cols = d.nrVars ∧ ∀ x : ℕ → K, SatGen d.nrVars s'.common.gen x ↔
      ∀ i < rk.mb.joints.length,
        (jdof rk.mb i = 1 → ∀ q l u, nested env.q i 0 = .ok q → nested lP i 0 = .ok l →
          nested uP i 0 = .ok u →
          polyVal l q ≤ invDyn rk env (aBegin mbs r) (sides r d) x (jpos rk.mb i) ∧
          invDyn rk env (aBegin mbs r) (sides r d) x (jpos rk.mb i) ≤ polyVal u q) ∧
        (jdof rk.mb i ≠ 1 → ∀ m < jdof rk.mb i,
          invDyn rk env (aBegin mbs r) (sides r d) x (jpos rk.mb i + m) = 0) := by
  have I := polyInv R
  obtain ⟨c, hc, Cm⟩ := computeMatrix_ok rk env d r (aBegin mbs r) s.common (setting_data S)
    S.2.2.2 S.2.2.1 E (I.ready d rfl mbs S)
  obtain ⟨s', e, p1, p2⟩ := polyLoop_ok rk r lP uP _ s I env c E.2.2 Cm.AL Cm.AU hq
  have hA : s'.common.A = c.A := by
    have := (polyStep_keeps _ e).1
    rw [this]
  have hr : s'.common.A.rows = rk.mb.nrDof := by rw [hA]; exact Cm.ready.rows
  refine ⟨s', by unfold MotionPoly.update; rw [hc, Out.ok_bind, e], hr,
    by unfold MotionCommon.gen; dsimp only; rw [hA]; exact Cm.ready.cols, fun x => ?_⟩
  have hv : ∀ i < rk.mb.nrDof, lineVal d.nrVars s'.common.A i x
      = invDyn rk env (aBegin mbs r) (sides r d) x i - env.C.get i := by
    intro i hi
    rw [← lastSides_eq_sides N, ← Cm.row i hi x, hA]
    unfold lineVal Mat.rowMul
    rw [Cm.ready.cols]
  unfold SatGen MotionCommon.gen
  dsimp only
  rw [hr]
  have other : ∀ i < rk.mb.joints.length, jdof rk.mb i ≠ 1 → ∀ m < jdof rk.mb i,
      ∀ i' < rk.mb.joints.length, jdof rk.mb i' = 1 → jpos rk.mb i' ≠ jpos rk.mb i + m := by
    intro i hi h1 m hm i' hi' h1' e
    rcases Nat.lt_trichotomy i i' with h | h | h
    · have := jpos_le_of_lt rk.mb h; omega
    · subst h; exact h1 h1'
    · have := jpos_le_of_lt rk.mb h; omega
  constructor
  · intro h i hi
    have hfit := jpos_fit rk.mb hi
    constructor
    · intro h1 q l u hq' hl hu
      obtain ⟨b1, b2⟩ := h (jpos rk.mb i) (by omega)
      obtain ⟨e1, e2⟩ := p1 i hi h1 q l u hq' hl hu
      rw [hv _ (by omega), e1] at b1
      rw [hv _ (by omega), e2] at b2
      simp only [Ext.LowerOK, Ext.UpperOK] at b1 b2
      constructor <;> linarith
    · intro h1 m hm
      obtain ⟨b1, b2⟩ := h (jpos rk.mb i + m) (by omega)
      obtain ⟨e1, e2⟩ := p2 (jpos rk.mb i + m) (other i hi h1 m hm)
      rw [hv _ (by omega), e1] at b1
      rw [hv _ (by omega), e2] at b2
      simp only [Ext.LowerOK, Ext.UpperOK] at b1 b2
      apply le_antisymm <;> linarith
  · intro h a ha
    obtain ⟨i, hi, ha1, ha2⟩ := exists_joint rk.mb ha
    obtain ⟨c1, c2⟩ := h i hi
    rw [hv a ha]
    by_cases h1 : jdof rk.mb i = 1
    · have : a = jpos rk.mb i := by omega
      subst this
      obtain ⟨q, l, u, q1, q2, _, q4, _⟩ := hq i hi h1
      obtain ⟨e1, e2⟩ := p1 i hi h1 q l u q1 q2 q4
      obtain ⟨b1, b2⟩ := c1 h1 q l u q1 q2 q4
      rw [e1, e2]
      simp only [Ext.LowerOK, Ext.UpperOK]
      constructor <;> linarith
    · obtain ⟨m, rfl⟩ : ∃ m, a = jpos rk.mb i + m := ⟨a - jpos rk.mb i, by omega⟩
      obtain ⟨e1, e2⟩ := p2 (jpos rk.mb i + m) (other i hi h1 m (by omega))
      have := c2 h1 m (by omega)
      rw [e1, e2, this]
      simp only [Ext.LowerOK, Ext.UpperOK]
      constructor <;> linarith

/-- **C27** (the executions exist): the constructor succeeds when a polynomial is given for every
one-dof joint; `updateNrVars` succeeds after any execution. -/
theorem C27_poly_setup {rk : RobotKin K} {r : ℕ} {lP uP : List (List (List K))}
    (h : ∀ i < rk.mb.joints.length, jdof rk.mb i = 1 →
      (∃ l, nested lP i 0 = .ok l) ∧ ∃ u, nested uP i 0 = .ok u) :
    (∃ s, MotionPoly.make rk.mb r lP uP = .ok s ∧ PolyRun rk r lP uP none s) ∧
    ∀ (od : Option (SolverData K)) (s : MotionPoly K), PolyRun rk r lP uP od s →
      ∀ (mbs : List (MultiBody K)) (d : SolverData K), Setting rk r mbs d →
      ∃ c, s.common.updateNrVars rk d = .ok c ∧
        PolyRun rk r lP uP (some d) { s with common := c } := by
  constructor
  · obtain ⟨s, e⟩ := polyMake_ok rk r lP uP h
    exact ⟨s, e, .make s e⟩
  · intro od s R mbs d S
    have I := polyInv R
    obtain ⟨c, e, _⟩ := updateNrVars_ready rk d r (aBegin mbs r) s.common (setting_data S)
      S.2.2.2 I.robot I.n I.curSize
    exact ⟨c, e, .nrVars d c R e⟩

end C27

/-! ## C28: self contacts -/

section C28
variable {K : Type} [Field K] [LinearOrder K] [IsStrictOrderedRing K]

/-- **C28** (what the code does).  For any contacts, self contacts included, the torque computed after
an update differs from inverse dynamics by exactly the contributions of the first body of every
contact that links two bodies of robot `r`; those contributions are lost. -/
theorem C28_last_side_partial {rk : RobotKin K} {r : ℕ} {p : TorqueParams K}
    (hp : p.Full rk.mb.nrDof) (hdt : 0 < p.dt) {d : SolverData K} {k : ℕ} {last : ℕ → K}
    {s : MotionConstr K} (R : MotionRun rk r p [] (some d) k last s) {mbs : List (MultiBody K)}
    (S : Setting rk r mbs d) (env : MotionEnv K) (E : EnvOK rk env) :
    ∃ s', s.update rk.mb env = .ok s' ∧
      ∀ x : Vec K, x.size = d.nrVars → ∃ aD lam c, alphaDVec d x = .ok aD ∧
        lambdaVec d x = .ok lam ∧ s'.common.computeTorque aD lam = .ok c ∧
        (∀ a < rk.mb.nrDof, c.curTorque.get a
          = invDyn rk env (aBegin mbs r) (sides r d) x.get a
            + (((d.allCont.zip d.lambdaBegin).filter fun cb =>
                decide ((r : ℤ) = cb.1.id.r1Index ∧ (r : ℤ) = cb.1.id.r2Index)).map fun cb =>
                  contactTorque rk env ⟨cb.1.id.r1BodyName, cb.2, cb.1.r1Points, cb.1.r1Cones⟩
                    x.get a).sum) ∧
        -- the lines constrain that same torque
        (SatGen d.nrVars s'.common.gen x.get ↔ ∀ a < rk.mb.nrDof,
          p.InLimits a (c.curTorque.get a) ∧ (0 < k → p.RateOK a (last a) (c.curTorque.get a))) := by
  obtain ⟨s', h1, h2, h3, h4, h5⟩ := motion_lines hp hdt R S env E
  refine ⟨s', h1, fun x hx => ?_⟩
  obtain ⟨aD, lam, c, g1, g2, g3, g4, g5⟩ := h5 x hx
  refine ⟨aD, lam, c, g1, g2, g3, fun a ha => by rw [g5 a ha, invDyn_last], ?_⟩
  rw [h4 x.get]
  refine forall_congr' fun i => forall_congr' fun hi => ?_
  rw [g5 i hi]

end C28

/-! ## Concrete cases -/

section Examples

/-- Robot 0: one revolute joint; robot 1: the ground, no dof. -/
def exMb : MultiBody ℚ := ⟨[⟨"hip", 1, none⟩], 1, [-1], [0]⟩
/-- Its bodies. -/
def exRk : RobotKin ℚ := ⟨exMb, fun _ => .ok [0]⟩
/-- A robot with a 2-dof and a 1-dof joint. -/
def exMb2 : MultiBody ℚ := ⟨[⟨"base", 2, none⟩, ⟨"hip", 1, none⟩], 2, [-1, 0], [0, 1]⟩
/-- Its bodies. -/
def exRk2 : RobotKin ℚ := ⟨exMb2, fun _ => .ok [0, 1]⟩
/-- Mass 1, bias 0; body "a" moves by 1 and body "b" by 2 along z per unit of joint motion. -/
def exEnv : MotionEnv ℚ :=
  ⟨⟨1, 1, fun _ _ => 1⟩, ⟨1, fun _ => 0⟩,
    fun b _ => ⟨6, 1, fun i _ => if i = 5 then (if b = "a" then 1 else 2) else 0⟩, [[3]], [[5]]⟩
/-- A contact of body "a" with one point and one generator; `i` is the robot of the other body. -/
def exCont (i : ℤ) : UniContact ℚ :=
  ⟨⟨0, i, "a", "b", -1⟩, [0], [0], ⟨[⟨0, 0, 1⟩]⟩, ⟨[⟨0, 0, -1⟩]⟩, ⟨M3.one, 0⟩, ⟨M3.one, 0⟩⟩
/-- Limits -10 and 10, rate -100 to 100, dt 1/10. -/
def exParams : TorqueParams ℚ := ⟨[[.fin (-10)]], [[.fin 10]], [[.fin (-100)]], [[.fin 100]], 1/10⟩

theorem exSetting (i : ℤ) : ∃ d : SolverData ℚ, Setting exRk 0 [exMb] d ∧
    d.allCont = [BiContact.ofUni (exCont i)] ∧ d.lambdaBegin = [1] ∧ d.nrVars = 2 := by
  have g : GoodInput [exMb] ([] : List (BiContact ℚ)) := by
    refine ⟨?_, by simp⟩
    intro mb hmb j hj l m hm
    simp only [List.mem_singleton] at hmb
    subst hmb
    simp only [exMb, List.mem_singleton] at hj
    subst hj
    cases hm
  obtain ⟨d, deps, e, L⟩ := layout_ok SolverData.init [exMb] [exCont i] [] g.1 g.2
  have h1 : d.allCont = [BiContact.ofUni (exCont i)] := by rw [L.allCont]; rfl
  have h2 : d.totalAlphaD = 1 := by rw [L.totalAlphaD]; rfl
  have h3 : d.lambdaBegin = [1] := by rw [L.lambdaBegin, h2]; rfl
  have h4 : d.nrVars = 2 := by
    rw [L.nrVars, h2, L.totalLambda, L.nrUniLambda, L.nrBiLambda]; rfl
  refine ⟨d, ⟨rfl, ⟨_, _, _, _, g, e⟩, ?_, ?_⟩, h1, h3, h4⟩
  · intro c hc
    rw [h1] at hc
    obtain rfl : c = _ := by simpa using hc
    refine ⟨le_rfl, le_rfl, rfl⟩
  · intro sd _
    exact ⟨[0], rfl, by simp, by simp, by simp [exRk, exMb]⟩

/-- Non-vacuity of C25, C26: a run with a contact between robot 0 and the ground. -/
example : ∃ d s, Setting exRk 0 [exMb] d ∧ NoSelf 0 d ∧ exParams.Full exRk.mb.nrDof ∧
    0 < exParams.dt ∧ EnvOK exRk exEnv ∧ sides 0 d ≠ [] ∧
    MotionRun exRk 0 exParams [] (some d) 0 (fun _ => 0) s := by
  obtain ⟨d, S, h1, h2, _⟩ := exSetting 1
  obtain ⟨⟨s, _, R⟩, h⟩ := C25_setup (rk := exRk) (r := 0) (p := exParams) (by decide) (by decide)
    (by decide) (by decide) (fun _ => .negInf) []
  obtain ⟨c, _, R'⟩ := h _ _ _ s R _ d S
  refine ⟨d, _, S, ?_, ⟨rfl, rfl⟩, by norm_num [exParams], ⟨rfl, rfl, rfl⟩, ?_, R'⟩
  · intro c hc
    rw [h1] at hc
    obtain rfl : c = _ := by simpa using hc
    decide
  · unfold sides
    rw [h1, h2]
    simp [sidesOf, BiContact.ofUni, exCont]

/-- Non-vacuity of C27 (springs): stiffness 2, offset 1 at position 3 forces the torque `-7`. -/
example : ∃ d s s', Setting exRk 0 [exMb] d ∧ NoSelf 0 d ∧
    springsMake exMb [⟨"hip", 2, 0, 1⟩] = .ok [⟨0, 0, 2, 0, 1⟩] ∧
    MotionRun exRk 0 exParams [⟨0, 0, 2, 0, 1⟩] (some d) 0 (fun _ => 0) s ∧
    s.updateSpring exMb exEnv [⟨0, 0, 2, 0, 1⟩] = .ok s' ∧
    ∀ x, SatGen d.nrVars s'.common.gen x →
      invDyn exRk exEnv (aBegin [exMb] 0) (sides 0 d) x 0 = -7 := by
  obtain ⟨d, S, h1, h2, _⟩ := exSetting 1
  obtain ⟨⟨s, _, R⟩, h⟩ := C25_setup (rk := exRk) (r := 0) (p := exParams) (by decide) (by decide)
    (by decide) (by decide) (fun _ => .negInf) [⟨0, 0, 2, 0, 1⟩]
  obtain ⟨c, _, R'⟩ := h _ _ _ s R _ d S
  have N : NoSelf 0 d := by
    intro c hc
    rw [h1] at hc
    obtain rfl : c = _ := by simpa using hc
    decide
  have hsp : springsMake exMb [(⟨"hip", 2, 0, 1⟩ : SpringJoint ℚ)] = .ok [⟨0, 0, 2, 0, 1⟩] := rfl
  obtain ⟨s', e, hs⟩ := C27_springs (l := [⟨"hip", 2, 0, 1⟩]) ⟨rfl, rfl⟩ (by norm_num [exParams]) hsp
    (by simp) R' S N exEnv ⟨rfl, rfl, rfl⟩ (by
      intro sj hsj i hi
      obtain rfl : sj = _ := by simpa using hsj
      obtain rfl : 0 = i := Out.ok.inj hi
      exact ⟨by decide, ⟨3, rfl⟩, ⟨5, rfl⟩⟩)
  refine ⟨d, _, s', S, N, hsp, R', e, fun x hx => ?_⟩
  have := ((hs x).mp hx).1 ⟨"hip", 2, 0, 1⟩ (by simp) 0 3 5 rfl rfl rfl
  have e0 : jpos exRk.mb 0 = 0 := rfl
  rw [e0] at this
  rw [this]
  norm_num

/-- Non-vacuity of C27 (polynomials): the hypotheses hold for the one-joint robot, and for a robot
with a 2-dof root joint (whose torques are then forced to zero). -/
example : ∃ d s, Setting exRk 0 [exMb] d ∧
    PolyRun exRk 0 [[[(-1 : ℚ), -2]]] [[[1, 2, 3]]] (some d) s := by
  obtain ⟨d, S, _⟩ := exSetting 1
  obtain ⟨⟨s, _, R⟩, h⟩ := C27_poly_setup (rk := exRk) (r := 0) (lP := [[[(-1 : ℚ), -2]]])
    (uP := [[[1, 2, 3]]]) (by
      intro i hi _
      have : i = 0 := by simp [exRk, exMb] at hi; omega
      subst this
      exact ⟨⟨_, rfl⟩, ⟨_, rfl⟩⟩)
  obtain ⟨c, _, R'⟩ := h _ _ R _ d S
  exact ⟨d, _, S, R'⟩

example : ∃ s, MotionPoly.make exMb2 0 [[], [[(-1 : ℚ)]]] [[], [[1]]] = .ok s ∧
    s.jointIndex = [1] ∧ jdof exMb2 0 = 2 := ⟨_, rfl, rfl, rfl⟩

/-- **C28** is false: a contact linking two bodies of the robot.  With zero acceleration and weight 1
the true torque is `0 + 0 - (1·1 + 2·(-1)) = 1`, the code computes 2. -/
theorem C28_counterexample : ∃ (d : SolverData ℚ) (s s' : MotionConstr ℚ) (aD lam : Vec ℚ)
    (c : MotionCommon ℚ) (x : Vec ℚ), Setting exRk 0 [exMb] d ∧
    MotionRun exRk 0 exParams [] (some d) 0 (fun _ => 0) s ∧ EnvOK exRk exEnv ∧
    s.update exMb exEnv = .ok s' ∧ x.size = d.nrVars ∧ alphaDVec d x = .ok aD ∧
    lambdaVec d x = .ok lam ∧ s'.common.computeTorque aD lam = .ok c ∧
    invDyn exRk exEnv (aBegin [exMb] 0) (sides 0 d) x.get 0 = 1 ∧ c.curTorque.get 0 = 2 := by
  obtain ⟨d, S, h1, h2, h3⟩ := exSetting 0
  obtain ⟨⟨s, _, R⟩, h⟩ := C25_setup (rk := exRk) (r := 0) (p := exParams) (by decide) (by decide)
    (by decide) (by decide) (fun _ => .negInf) []
  obtain ⟨c0, _, R'⟩ := h _ _ _ s R _ d S
  have E : EnvOK exRk exEnv := ⟨rfl, rfl, rfl⟩
  obtain ⟨s', g1, g2⟩ := C28_last_side_partial ⟨rfl, rfl⟩ (by norm_num [exParams]) R' S exEnv E
  obtain ⟨aD, lam, c, k1, k2, k3, k4, _⟩ := g2 ⟨2, fun i => if i = 1 then 1 else 0⟩ h3.symm
  have hv : invDyn exRk exEnv (aBegin [exMb] 0) (sides 0 d) (fun i => if i = 1 then 1 else 0) 0 = 1 := by
    unfold invDyn sides
    rw [h1, h2]
    simp [sidesOf, BiContact.ofUni, exCont, contactTorque, pointCol, pathOf, exRk, exEnv, exMb,
      onDofs, jpos, jdof, Side.force, combo, before, V3.dot, MultiBody.nrDof, aBegin, Out.val?]
    norm_num
  refine ⟨d, _, s', aD, lam, c, _, S, R', E, g1, h3.symm, k1, k2, k3, hv, ?_⟩
  rw [k4 0 (by decide)]
  dsimp only
  rw [hv, h1, h2]
  simp [BiContact.ofUni, exCont, contactTorque, pointCol, pathOf, exRk, exEnv, exMb,
      onDofs, jpos, jdof, Side.force, combo, before, V3.dot, MultiBody.nrDof, aBegin, Out.val?]
  norm_num

end Examples

end Verif
