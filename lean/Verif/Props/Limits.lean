import Verif.Proofs.LimitsRun

/-!
# Properties of the joint limit constraints (C29-C32, C56)
-/

set_option autoImplicit false
set_option linter.unusedSectionVars false

namespace Verif

open Spec

/-! ## C29: JointLimitsConstr -/

section C29
variable {K : Type} [Field K] [LinearOrder K] [IsStrictOrderedRing K]

theorem limit_lower {e : Ext K} {q a dt x : K} (h : 0 < dt) :
    ((e.addFin (-q - a * dt)).divBy (dt * dt * (1 / 2))).LowerOK x ↔
      e.LowerOK (q + a * dt + x * dt ^ 2 / 2) := by
  rw [Ext.lowerOK_divBy_pos (by positivity), Ext.lowerOK_addFin]
  have : dt * dt * (1 / 2) * x - (-q - a * dt) = q + a * dt + x * dt ^ 2 / 2 := by ring
  rw [this]

theorem limit_upper {e : Ext K} {q a dt x : K} (h : 0 < dt) :
    ((e.addFin (-q - a * dt)).divBy (dt * dt * (1 / 2))).UpperOK x ↔
      e.UpperOK (q + a * dt + x * dt ^ 2 / 2) := by
  rw [Ext.upperOK_divBy_pos (by positivity), Ext.upperOK_addFin]
  have : dt * dt * (1 / 2) * x - (-q - a * dt) = q + a * dt + x * dt ^ 2 / 2 := by ring
  rw [this]

/-- **C29**.  Robot whose first joint has at most one dof, and with as many position parameters as
dofs; position limits for every dof; configuration of the robot's size.  Whatever happened before,
`update` succeeds and the bounds hold exactly when, for every dof, the position reached after `dt` at
constant acceleration is within the limits and the acceleration and its variation respect theirs. -/
theorem C29_limits {mb : MultiBody K} {r : ℕ} {p : LimitParams K} (hdt : 0 < p.dt)
    {j0 : Joint K} (hj0 : mb.joints[0]? = some j0) (hdof : j0.dof ≤ 1)
    (hlQ : p.lQ.flatten.length = mb.nrDof) (huQ : p.uQ.flatten.length = mb.nrDof)
    {d : SolverData K} {s : JointLimits K} (R : LimitRun mb mb.nrDof r p (some d) s)
    {b : ℕ} (hb : vecAt d.alphaDBegin r = .ok b) {q alpha alphaD : List (List K)}
    (hq : q.flatten.length = mb.nrDof) (ha : alpha.flatten.length = mb.nrDof)
    (haD : alphaD.flatten.length = mb.nrDof) :
    ∃ s', s.update q alpha alphaD = .ok s' ∧ ∀ x : ℕ → K, SatBound s'.bound x ↔
      ∀ (a : ℕ) (l u : Ext K) (qa va ac : K), p.lQ.flatten[a]? = some l →
        p.uQ.flatten[a]? = some u → q.flatten[a]? = some qa → alpha.flatten[a]? = some va →
        alphaD.flatten[a]? = some ac →
        l.LowerOK (qa + va * p.dt + x (b + a) * p.dt ^ 2 / 2) ∧
        u.UpperOK (qa + va * p.dt + x (b + a) * p.dt ^ 2 / 2) ∧ p.AccOK a ac (x (b + a)) := by
  have I := limitInv R
  obtain ⟨j, hj, ho⟩ := I.off
  rw [hj0] at hj
  cases hj
  rw [if_neg (by omega)] at ho
  have hsMin : s.qMin.size = mb.nrDof := by have := I.sMin; rw [ho] at this; exact this
  have hsMax : s.qMax.size = mb.nrDof := by have := I.sMax; rw [ho] at this; exact this
  obtain ⟨b', hb', hbeg⟩ := I.begin' d rfl
  rw [hb] at hb'
  cases hb'
  have h0 : p.dt * p.dt * (1 / 2) ≠ 0 := by positivity
  unfold JointLimits.update
  rw [paramToVector_ok q s.qVec (by rw [I.sQ, hq]), Out.ok_bind,
    paramToVector_ok alpha s.alphaVec (by rw [I.sA, ha]), Out.ok_bind,
    paramToVector_ok alphaD s.prev (by rw [I.sP, haD]), Out.ok_bind]
  simp only [Vec.tail', I.sQ, I.sA, hsMin, hsMax, le_refl, if_true, Out.ok_bind, limitVec, I.step,
    if_neg h0, cwiseMax, cwiseMin, addVec, I.sAL, I.sAU, I.sDL, I.sDU, I.sP, Out.pure_eq]
  refine ⟨_, rfl, fun x => ?_⟩
  unfold SatBound JointLimits.bound
  simp only [Nat.sub_self, Nat.zero_add, hbeg, ho, Nat.add_zero, Ext.lowerOK_max, Ext.upperOK_min,
    limit_lower hdt, limit_upper hdt, Ext.lowerOK_addFin, Ext.upperOK_addFin, I.aL, I.aU, I.dL, I.dU,
    mulPos_lowerOK hdt, mulPos_upperOK hdt]
  constructor
  · rintro ⟨h1, h2⟩ a l u qa va ac hl hu hqa hva hac
    have hlt : a < mb.nrDof := by
      rw [← hlQ]
      by_contra hc
      rw [List.getElem?_eq_none (by omega)] at hl
      cases hl
    obtain ⟨⟨k1, k2⟩, k3⟩ := h1 a hlt
    obtain ⟨⟨k4, k5⟩, k6⟩ := h2 a hlt
    rw [I.qL ho a l hl, hqa, hva] at k1
    rw [I.qU ho a u hu, hqa, hva] at k4
    rw [hac] at k3 k6
    exact ⟨k1, k4, k2, k5, k3, k6⟩
  · intro h
    constructor <;> intro a hlt
    · obtain ⟨k1, k2, k3, k4, k5, k6⟩ := h a _ _ _ _ _
          (List.getElem?_eq_getElem (by rw [hlQ]; exact hlt))
          (List.getElem?_eq_getElem (by rw [huQ]; exact hlt))
          (List.getElem?_eq_getElem (by rw [hq]; exact hlt))
          (List.getElem?_eq_getElem (by rw [ha]; exact hlt))
          (List.getElem?_eq_getElem (by rw [haD]; exact hlt))
      rw [I.qL ho a _ (List.getElem?_eq_getElem (by rw [hlQ]; exact hlt)),
        List.getElem?_eq_getElem (l := q.flatten) (by rw [hq]; exact hlt),
        List.getElem?_eq_getElem (l := alpha.flatten) (by rw [ha]; exact hlt),
        List.getElem?_eq_getElem (l := alphaD.flatten) (by rw [haD]; exact hlt)]
      exact ⟨⟨k1, k3⟩, k5⟩
    · obtain ⟨k1, k2, k3, k4, k5, k6⟩ := h a _ _ _ _ _
          (List.getElem?_eq_getElem (by rw [hlQ]; exact hlt))
          (List.getElem?_eq_getElem (by rw [huQ]; exact hlt))
          (List.getElem?_eq_getElem (by rw [hq]; exact hlt))
          (List.getElem?_eq_getElem (by rw [ha]; exact hlt))
          (List.getElem?_eq_getElem (by rw [haD]; exact hlt))
      rw [I.qU ho a _ (List.getElem?_eq_getElem (by rw [huQ]; exact hlt)),
        List.getElem?_eq_getElem (l := q.flatten) (by rw [hq]; exact hlt),
        List.getElem?_eq_getElem (l := alpha.flatten) (by rw [ha]; exact hlt),
        List.getElem?_eq_getElem (l := alphaD.flatten) (by rw [haD]; exact hlt)]
      exact ⟨⟨k2, k4⟩, k6⟩

/-- **C29** (defect).  When the first joint has several dofs (a floating base), every `update`
combines vectors of different sizes: undefined behaviour, whatever the limits and the state. -/
theorem C29_floating_base_ub {mb : MultiBody K} {r nrParams : ℕ} {p : LimitParams K} {j0 : Joint K}
    (hj0 : mb.joints[0]? = some j0) (hdof : 1 < j0.dof) {od : Option (SolverData K)}
    {s : JointLimits K} (R : LimitRun mb nrParams r p od s) (q alpha alphaD : List (List K)) :
    s.update q alpha alphaD = .ub := by
  have I := limitInv R
  obtain ⟨j, hj, ho⟩ := I.off
  rw [hj0] at hj
  cases hj
  rw [if_pos hdof] at ho
  have hmem : j0 ∈ mb.joints := List.mem_of_getElem? hj0
  have hle : j0.dof ≤ mb.nrDof := List.le_sum_of_mem (List.mem_map.mpr ⟨_, hmem, rfl⟩)
  have hsMin : s.qMin.size = mb.nrDof - j0.dof := by rw [I.sMin, ho]
  have hsMax : s.qMax.size = mb.nrDof - j0.dof := by rw [I.sMax, ho]
  unfold JointLimits.update
  unfold paramToVector
  split
  · split
    · split
      · simp only [Out.ok_bind, Vec.tail', I.sA, hsMin]
        split
        · rw [if_pos (by omega)]
          simp only [Out.ok_bind, limitVec]
          split
          · rfl
          · simp only [Out.ok_bind, cwiseMax, I.sAL, hsMin]
            rw [if_neg (by omega)]
            rfl
        · rfl
      · rfl
    · rfl
  · rfl

/-- Two one-dof joints. -/
def exLimArm : MultiBody ℚ := ⟨[⟨"j1", 1, none⟩, ⟨"j2", 1, none⟩], 2, [-1, 0], [0, 1]⟩

/-- A floating base and a one-dof joint. -/
def exLimFloat : MultiBody ℚ := ⟨[⟨"root", 6, none⟩, ⟨"j1", 1, none⟩], 2, [-1, 0], [0, 1]⟩

/-- Ranges `[0, 1]` and `[-1, 1]`, velocities at most `1/5`, accelerations at most 3, jerks at most 100,
interaction zone 40 %, security zone 10 %. -/
def exLimits : LimitParams ℚ :=
  ⟨[[.fin 0], [.fin (-1)]], [[.fin 1], [.fin 1]], [[.fin (-1/5)], [.fin (-1/5)]],
   [[.fin (1/5)], [.fin (1/5)]], [[.fin (-3)], [.fin (-3)]], [[.fin 3], [.fin 3]],
   [[.fin (-100)]], [[.fin 100]], 2/5, 1/10, 1/50, 1⟩

/-- One robot whose accelerations begin at variable 0. -/
def exArmData (n : ℕ) : SolverData ℚ := { (SolverData.init : SolverData ℚ) with
  alphaD := [n], alphaDBegin := [0], totalAlphaD := n, nrVars := n }

theorem exLimitRun : ∃ s, LimitRun exLimArm exLimArm.nrDof 0 exLimits (some (exArmData 2)) s :=
  ⟨_, .nrVars _ _ (.make (fun _ => .negInf) _ rfl) rfl⟩

/-- The hypotheses of `C29_limits` are met. -/
example : ∃ s s', LimitRun exLimArm exLimArm.nrDof 0 exLimits (some (exArmData 2)) s ∧
    s.update [[1/2], [0]] [[1/10], [0]] [[0], [0]] = .ok s' ∧
    (∀ x : ℕ → ℚ, SatBound s'.bound x → 0 ≤ 1/2 + 1/10 + x 0 / 2 ∧ 1/2 + 1/10 + x 0 / 2 ≤ 1) := by
  obtain ⟨s, R⟩ := exLimitRun
  obtain ⟨s', h, hx⟩ := C29_limits (by norm_num [exLimits]) (j0 := ⟨"j1", 1, none⟩) rfl le_rfl rfl rfl R
    (b := 0) rfl (q := [[1/2], [0]]) (alpha := [[1/10], [0]]) (alphaD := [[0], [0]]) rfl rfl rfl
  refine ⟨s, s', R, h, fun x hs => ?_⟩
  obtain ⟨h1, h2, _⟩ := (hx x).mp hs 0 (.fin 0) (.fin 1) (1/2) (1/10) 0 rfl rfl rfl rfl rfl
  simpa [Ext.LowerOK, Ext.UpperOK, exLimits] using And.intro h1 h2

/-- Such an execution exists for a floating base. -/
example : ∃ s, LimitRun exLimFloat 8 0 ⟨[[], [.fin 0]], [[], [.fin 1]], [], [], [], [], [], [], 0, 0, 0, 1⟩
    (some (exArmData 7)) s :=
  ⟨_, .nrVars _ _ (.make (fun _ => .negInf) _ rfl) rfl⟩

end C29

/-! ## C30: rows of the damped limits -/

namespace Spec
variable {K : Type} [Field K] [LinearOrder K] [IsStrictOrderedRing K]

/-- What the bounds of a one-dof joint at position `q` mean for its next velocity `v`: `l`, `u`
position limits, `vl`, `vu` velocity limits, `inter`, `sec` fractions of the range, `c` damping. -/
def DampedOK (l u vl vu : Ext K) (inter sec c q v : K) : Prop :=
  vl.LowerOK v ∧ vu.UpperOK v ∧
  match l, u with
  | .fin l, .fin u =>
    (q - l < (u - l) * inter →
      -(c * ((q - l - (u - l) * sec) / ((u - l) * inter - (u - l) * sec))) ≤ v) ∧
    (¬ q - l < (u - l) * inter → u - q < (u - l) * inter →
      v ≤ c * ((u - q - (u - l) * sec) / ((u - l) * inter - (u - l) * sec)))
  | .negInf, .posInf => True
  | _, _ => False

end Spec

section C30
variable {K : Type} [Field K] [LinearOrder K] [IsStrictOrderedRing K]

theorem dampDists_fin {u l inter sec : K} {a : Ext K} {b : K}
    (h : dampDists (.fin u) (.fin l) inter sec = .ok (a, b)) :
    a = .fin ((u - l) * inter) ∧ b = (u - l) * sec := by
  simp only [dampDists, Out.ok.injEq, Prod.mk.injEq] at h
  exact ⟨h.1.symm, h.2.symm⟩

/-- A joint whose update succeeds has a finite range, or no limit at all. -/
theorem dampJoint_cases {mb : MultiBody K} {p : LimitParams K} {d d' : DampData K} {qi ai : K}
    {l u : Ext K} (hdt : 0 < p.dt) (E : EntryOK mb p d)
    (h : dampJoint p.dt p.off qi ai d = .ok (d', l, u)) :
    (∃ a b, d.min = .fin a ∧ d.max = .fin b ∧ d.iDist = .fin ((b - a) * p.inter) ∧
      d.sDist = (b - a) * p.sec) ∨
    (d.min = .negInf ∧ d.max = .posInf ∧ d' = { d with state := .free } ∧
      (∀ x : K, l.LowerOK x ↔ d.minVel.LowerOK (ai + x * p.dt)) ∧
      ∀ x : K, u.UpperOK x ↔ d.maxVel.UpperOK (ai + x * p.dt)) := by
  have hd := E.dist
  unfold dampJoint at h
  rw [if_neg hdt.ne'] at h
  rcases hmn : d.min with _ | a | _ <;> rcases hmx : d.max with _ | b | _ <;> rw [hmn, hmx] at hd h <;>
    simp only [dampDists] at hd
  · cases hd
  · split at hd
    · simp only [Out.ok.injEq, Prod.mk.injEq] at hd
      rw [← hd.1] at h
      simp [distTo, distFrom, Ext.lt] at h
    · cases hd
  · split at hd
    · simp only [Out.ok.injEq, Prod.mk.injEq] at hd
      rw [← hd.1] at h
      simp [distTo, distFrom, Ext.lt] at h
      obtain ⟨rfl, rfl, rfl⟩ := h
      refine .inr ⟨rfl, rfl, ?_, fun x => vel_lower hdt, fun x => vel_upper hdt⟩
      simp [hd.1, hmn, hmx]
    · cases hd
  · cases hd
  · simp only [Out.ok.injEq, Prod.mk.injEq] at hd
    exact .inl ⟨a, b, rfl, rfl, hd.1.symm, hd.2.symm⟩
  · split at hd
    · simp only [Out.ok.injEq, Prod.mk.injEq] at hd
      rw [← hd.1] at h
      simp [distTo, distFrom, Ext.lt] at h
    · cases hd
  · cases hd
  · cases hd
  · cases hd

/-- **C30** (one joint).  After any execution and a successful `update`, the two bounds of a one-dof
joint hold for an acceleration `x` exactly when the next velocity `α + x dt` is within the velocity
limits and the damper, and `x` within the acceleration and jerk limits. -/
theorem C30_row {mb : MultiBody K} {r : ℕ} {p : LimitParams K} (hdt : 0 < p.dt)
    {od : Option (SolverData K)} {s : DamperLimits K} (R : DampRun mb r p od s)
    {q alpha alphaD : List (List K)} (hD : alphaD.flatten.length = mb.nrDof)
    {s' : DamperLimits K} (h : s.update q alpha alphaD = .ok s') {i : ℕ}
    (hi : i < mb.joints.length) (h1 : jdof mb i = 1) :
    ∃ l u vl vu qi ai aD d', nested p.lQ i 0 = .ok l ∧ nested p.uQ i 0 = .ok u ∧
      nested p.lA i 0 = .ok vl ∧ nested p.uA i 0 = .ok vu ∧ nested q i 0 = .ok qi ∧
      nested alpha i 0 = .ok ai ∧ alphaD.flatten[jpos mb i]? = some aD ∧
      entryOf s' i = some d' ∧
      ∀ x : K, (s'.lower.get (jpos mb i)).LowerOK x ∧ (s'.upper.get (jpos mb i)).UpperOK x ↔
        DampedOK l u vl vu p.inter p.sec d'.damping qi (ai + x * p.dt) ∧
        p.AccOK (jpos mb i) aD x := by
  obtain ⟨qi, ai, d, d', l, u, k1, k2, k3, k4, E, rfl, k7, k8⟩ := damp_row hdt (dampInv R) h hi h1
  have hlt : jpos mb d.jointIndex < alphaD.flatten.length := by
    have := jpos_fit mb hi; omega
  rw [List.getElem?_eq_getElem hlt] at k8 ⊢
  refine ⟨d.min, d.max, d.minVel, d.maxVel, qi, ai, _, d', E.mn, E.mx, E.vmn, E.vmx, k1, k2, rfl, k4,
    fun x => ?_⟩
  rw [k8 x]
  have : l.LowerOK x ∧ u.UpperOK x ↔
      DampedOK d.min d.max d.minVel d.maxVel p.inter p.sec d'.damping qi (ai + x * p.dt) := by
    unfold DampedOK
    rcases dampJoint_cases hdt E k7 with ⟨a, b, e1, e2, e3, e4⟩ | ⟨e1, e2, _, e3, e4⟩
    · rw [(dampJoint_fin hdt e1 e2 e3 k7).1 x, e1, e2, e4]
    · rw [e3, e4, e1, e2]
      simp
  rw [this]
  rfl

/-- **C30**.  The bounds as read by the QP: for accelerations `x` of the robot's dofs starting at
variable `b`, they hold exactly when every one-dof joint respects its damped limits, and every other
dof its acceleration and jerk limits together with the bounds it had before (see C56). -/
theorem C30_bounds {mb : MultiBody K} {r : ℕ} {p : LimitParams K} (hdt : 0 < p.dt)
    {d : SolverData K} {s : DamperLimits K} (R : DampRun mb r p (some d) s) {b : ℕ}
    (hb : vecAt d.alphaDBegin r = .ok b) {q alpha alphaD : List (List K)}
    (hD : alphaD.flatten.length = mb.nrDof) {s' : DamperLimits K}
    (h : s.update q alpha alphaD = .ok s') (x : ℕ → K) :
    SatBound s'.bound x ↔
      (∀ i < mb.joints.length, jdof mb i = 1 → ∀ l u vl vu qi ai aD d', nested p.lQ i 0 = .ok l →
        nested p.uQ i 0 = .ok u → nested p.lA i 0 = .ok vl → nested p.uA i 0 = .ok vu →
        nested q i 0 = .ok qi → nested alpha i 0 = .ok ai → alphaD.flatten[jpos mb i]? = some aD →
        entryOf s' i = some d' →
        DampedOK l u vl vu p.inter p.sec d'.damping qi (ai + x (b + jpos mb i) * p.dt) ∧
        p.AccOK (jpos mb i) aD (x (b + jpos mb i))) ∧
      (∀ a < mb.nrDof, (∀ i < mb.joints.length, jdof mb i = 1 → jpos mb i ≠ a) → ∀ aD,
        alphaD.flatten[a]? = some aD →
        (s.lower.get a).LowerOK (x (b + a)) ∧ (s.upper.get a).UpperOK (x (b + a)) ∧
        p.AccOK a aD (x (b + a))) := by
  have I := dampInv R
  obtain ⟨I', hbeg, hprev, _, hother⟩ := damp_update I h
  have hb' := I'.begin' d rfl
  rw [hb] at hb'
  have hb'' := Out.ok.inj hb'
  have e : SatBound s'.bound x ↔ ∀ a < mb.nrDof,
      (s'.lower.get a).LowerOK (x (b + a)) ∧ (s'.upper.get a).UpperOK (x (b + a)) := by
    unfold SatBound DamperLimits.bound
    dsimp only
    rw [I'.sL, I'.sU, ← hb'']
    exact ⟨fun h a ha => ⟨h.1 a ha, h.2 a ha⟩, fun h => ⟨fun a ha => (h a ha).1, fun a ha => (h a ha).2⟩⟩
  have other : ∀ a < mb.nrDof, (∀ i < mb.joints.length, jdof mb i = 1 → jpos mb i ≠ a) → ∀ aD,
      alphaD.flatten[a]? = some aD →
      ((s'.lower.get a).LowerOK (x (b + a)) ∧ (s'.upper.get a).UpperOK (x (b + a)) ↔
        (s.lower.get a).LowerOK (x (b + a)) ∧ (s.upper.get a).UpperOK (x (b + a)) ∧
        p.AccOK a aD (x (b + a))) := by
    intro a ha hne aD haD
    obtain ⟨e1, e2⟩ := hother a (by
      intro d0 hd0
      have E := I.entry d0 hd0
      rw [E.pos]
      exact hne _ E.lt E.one)
    rw [e1, e2, Ext.lowerOK_max, Ext.lowerOK_max, Ext.upperOK_min, Ext.upperOK_min,
      Ext.lowerOK_addFin, Ext.upperOK_addFin, I.aL, I.aU, I.dL, I.dU, mulPos_lowerOK hdt,
      mulPos_upperOK hdt, hprev, haD]
    unfold LimitParams.AccOK
    simp only [Option.getD_some]
    tauto
  rw [e]
  constructor
  · intro hs
    refine ⟨fun i hi h1 l u vl vu qi ai aD d' a1 a2 a3 a4 a5 a6 a7 a8 => ?_, fun a ha hne aD haD =>
      (other a ha hne aD haD).mp (hs a ha)⟩
    obtain ⟨l', u', vl', vu', qi', ai', aD', d'', b1, b2, b3, b4, b5, b6, b7, b8, hrow⟩ :=
      C30_row hdt R hD h hi h1
    rw [a1] at b1; cases b1
    rw [a2] at b2; cases b2
    rw [a3] at b3; cases b3
    rw [a4] at b4; cases b4
    rw [a5] at b5; cases b5
    rw [a6] at b6; cases b6
    rw [a7] at b7; cases b7
    rw [a8] at b8; cases b8
    exact (hrow _).mp (hs _ (by have := jpos_fit mb hi; omega))
  · rintro ⟨hj, ho⟩ a ha
    by_cases hex : ∃ i < mb.joints.length, jdof mb i = 1 ∧ jpos mb i = a
    · obtain ⟨i, hi, h1, rfl⟩ := hex
      obtain ⟨l', u', vl', vu', qi', ai', aD', d'', b1, b2, b3, b4, b5, b6, b7, b8, hrow⟩ :=
        C30_row hdt R hD h hi h1
      exact (hrow _).mpr (hj i hi h1 _ _ _ _ _ _ _ _ b1 b2 b3 b4 b5 b6 b7 b8)
    · have hne : ∀ i < mb.joints.length, jdof mb i = 1 → jpos mb i ≠ a :=
        fun i hi h1 e => hex ⟨i, hi, h1, e⟩
      have haD := List.getElem?_eq_getElem (l := alphaD.flatten) (i := a) (by omega)
      exact (other a ha hne _ haD).mpr (ho a ha hne _ haD)

/-- **C30** (preconditions).  `update` succeeds when the configuration has the robot's shape and
every one-dof joint has either no position limit, or finite ones with different interaction and
security distances and a position which is not exactly at the security distance of a limit. -/
theorem C30_update_ok {mb : MultiBody K} {r : ℕ} {p : LimitParams K} (hdt : 0 < p.dt)
    {od : Option (SolverData K)} {s : DamperLimits K} (R : DampRun mb r p od s)
    {q alpha alphaD : List (List K)} (hD : alphaD.flatten.length = mb.nrDof)
    (hj : ∀ i < mb.joints.length, jdof mb i = 1 → ∃ qi ai l u, nested q i 0 = .ok qi ∧
      nested alpha i 0 = .ok ai ∧ nested p.lQ i 0 = .ok l ∧ nested p.uQ i 0 = .ok u ∧
      ((l = .negInf ∧ u = .posInf) ∨ ∃ a b, l = .fin a ∧ u = .fin b ∧
        (b - a) * p.inter ≠ (b - a) * p.sec ∧ qi - a ≠ (b - a) * p.sec ∧
        b - qi ≠ (b - a) * p.sec)) :
    ∃ s', s.update q alpha alphaD = .ok s' := by
  have I := dampInv R
  unfold DamperLimits.update
  rw [paramToVector_ok alphaD s.prev (by rw [hD, I.sP]), Out.ok_bind]
  obtain ⟨s1, h1⟩ := dampLoop_ok (q := q) (alpha := alpha) s.data.length
    { s with prev := ⟨s.prev.size, fun i => (alphaD.flatten[i]?).getD (s.prev.get i)⟩ } le_rfl I.nodup (by
      intro t d _ hd
      have E := I.entry d (List.mem_of_getElem? hd)
      obtain ⟨qi, ai, l, u, k1, k2, k3, k4, k5⟩ := hj _ E.lt E.one
      rw [E.mn] at k3; cases k3
      rw [E.mx] at k4; cases k4
      have hfit : d.alphaDBegin < mb.nrDof := by
        have := jpos_fit mb E.lt
        rw [E.pos]
        rw [E.one] at this
        omega
      have hdist := E.dist
      dsimp only
      rw [I.sL, I.sU, I.step, I.off]
      refine ⟨qi, ai, ?_⟩
      suffices ∃ r, dampJoint p.dt p.off qi ai d = .ok r by
        obtain ⟨r, hr⟩ := this
        exact ⟨r, k1, k2, hr, hfit, hfit⟩
      unfold dampJoint
      rw [if_neg hdt.ne']
      rcases k5 with ⟨e1, e2⟩ | ⟨a, b, e1, e2, n1, n2, n3⟩
      · rw [e1, e2] at hdist ⊢
        simp only [dampDists] at hdist
        split at hdist
        · simp only [Out.ok.injEq, Prod.mk.injEq] at hdist
          rw [← hdist.1]
          simp [distTo, distFrom, Ext.lt]
        · cases hdist
      · rw [e1, e2] at hdist ⊢
        obtain ⟨i1, i2⟩ := dampDists_fin hdist
        rw [i1, i2]
        dsimp only [distTo, distFrom]
        have m1 : (b - a) * p.inter - (b - a) * p.sec ≠ 0 := sub_ne_zero.mpr n1
        have m2 : qi - a - (b - a) * p.sec ≠ 0 := sub_ne_zero.mpr n2
        have m3 : b - qi - (b - a) * p.sec ≠ 0 := sub_ne_zero.mpr n3
        simp only [computeDamper, newDamping, computeDamping, fdiv_ok m1, fdiv_ok m2, fdiv_ok m3,
          Out.ok_bind, Out.pure_eq]
        split
        · split <;> exact ⟨_, rfl⟩
        · split
          · split <;> exact ⟨_, rfl⟩
          · exact ⟨_, rfl⟩)
  rw [h1, Out.ok_bind]
  obtain ⟨g1, g2, g3, _⟩ := dampLoop s.data.length (by dsimp only; exact le_rfl) (by exact I.nodup) h1
  dsimp only at g2 g3
  have ealphaDL : s1.alphaDL = s.alphaDL := by rw [g1]
  have ealphaDU : s1.alphaDU = s.alphaDU := by rw [g1]
  have ealphaDDL : s1.alphaDDL = s.alphaDDL := by rw [g1]
  have ealphaDDU : s1.alphaDDU = s.alphaDDU := by rw [g1]
  simp only [cwiseMax, cwiseMin, addVec, ealphaDL, ealphaDU, ealphaDDL, ealphaDDU, g2, g3, I.sL, I.sU,
    I.sAL, I.sAU, I.sDL, I.sDU, I.sP, if_true, Out.ok_bind, Out.pure_eq]
  exact ⟨_, rfl⟩

/-- **C30** (defect).  A one-dof joint with only one finite position limit: the interaction distance is
infinite and the damper is not a number; no `update` is ever defined. -/
theorem C30_half_infinite_ub {mb : MultiBody K} {r : ℕ} {p : LimitParams K} (hdt : 0 < p.dt)
    {od : Option (SolverData K)} {s : DamperLimits K} (R : DampRun mb r p od s)
    (q alpha alphaD : List (List K)) {i : ℕ} (hi : i < mb.joints.length) (h1 : jdof mb i = 1)
    {a : K} (hh : (nested p.lQ i 0 = .ok (.fin a) ∧ nested p.uQ i 0 = .ok .posInf) ∨
      (nested p.lQ i 0 = .ok .negInf ∧ nested p.uQ i 0 = .ok (.fin a))) :
    ∀ s', s.update q alpha alphaD ≠ .ok s' := by
  intro s' h
  obtain ⟨qi, ai, d, d', l, u, k1, k2, k3, k4, E, rfl, k7, k8⟩ := damp_row hdt (dampInv R) h hi h1
  rw [E.mn, E.mx] at hh
  simp only [Out.ok.injEq] at hh
  rcases dampJoint_cases hdt E k7 with ⟨_, _, e1, e2, _⟩ | ⟨e1, e2, _⟩ <;> rw [e1, e2] at hh <;>
    simp at hh

theorem exDampRun : ∃ s, DampRun exLimArm 0 exLimits (some (exArmData 2)) s :=
  ⟨_, .nrVars _ _ (.make (fun _ => .negInf) _ rfl) rfl⟩

/-- The hypotheses of `C30_update_ok`, `C30_row` and `C30_bounds` are met, with one joint in its lower
interaction zone (`1/5 < 2/5`) and the other one free. -/
example : ∃ s s', DampRun exLimArm 0 exLimits (some (exArmData 2)) s ∧
    s.update [[1/5], [0]] [[-1/10], [0]] [[0], [0]] = .ok s' ∧
    ∀ x : ℕ → ℚ, SatBound s'.bound x → -1/10 + x 0 ≤ 1/5 := by
  obtain ⟨s, R⟩ := exDampRun
  obtain ⟨s', h⟩ := C30_update_ok (q := [[1/5], [0]]) (alpha := [[-1/10], [0]])
    (alphaD := [[0], [0]]) (by norm_num [exLimits]) R rfl (by
      intro i hi _
      have : i = 0 ∨ i = 1 := by simp [exLimArm] at hi; omega
      rcases this with rfl | rfl
      · exact ⟨1/5, -1/10, .fin 0, .fin 1, rfl, rfl, rfl, rfl, .inr ⟨0, 1, rfl, rfl, by norm_num [exLimits],
          by norm_num [exLimits], by norm_num [exLimits]⟩⟩
      · exact ⟨0, 0, .fin (-1), .fin 1, rfl, rfl, rfl, rfl, .inr ⟨-1, 1, rfl, rfl, by norm_num [exLimits],
          by norm_num [exLimits], by norm_num [exLimits]⟩⟩)
  refine ⟨s, s', R, h, fun x hx => ?_⟩
  have hall := ((C30_bounds (by norm_num [exLimits]) R (b := 0) rfl rfl h x).mp hx).1 0
    (by simp [exLimArm]) rfl
  obtain ⟨_, _, _, _, _, _, _, d', b1, b2, b3, b4, b5, b6, b7, b8, _⟩ :=
    C30_row (by norm_num [exLimits]) R (q := [[1/5], [0]]) (alpha := [[-1/10], [0]])
      (alphaD := [[0], [0]]) rfl h (i := 0) (by simp [exLimArm]) rfl
  obtain ⟨⟨_, h2, _⟩, _⟩ := hall (.fin 0) (.fin 1) (.fin (-1/5)) (.fin (1/5)) (1/5) (-1/10) 0 d'
    rfl rfl rfl rfl rfl rfl rfl b8
  simpa [Ext.UpperOK, exLimits, jpos] using h2

/-- The hypotheses of `C30_half_infinite_ub` are met. -/
example : ∃ s, DampRun exLimArm 0 { exLimits with uQ := [[.posInf], [.fin 1]] }
    (some (exArmData 2)) s := by
  obtain ⟨s, h⟩ := dampMake_ok exLimArm 0 { exLimits with uQ := [[.posInf], [.fin 1]] }
    (fun _ => .negInf) (by
      intro i hi _
      have : i = 0 ∨ i = 1 := by simp [exLimArm] at hi; omega
      rcases this with rfl | rfl
      · exact ⟨.fin 0, .posInf, _, _, (.posInf, 0), rfl, rfl, rfl, rfl, by
          simp only [dampDists]; rw [if_pos (by norm_num [exLimits])]⟩
      · exact ⟨.fin (-1), .fin 1, _, _, _, rfl, rfl, rfl, rfl, rfl⟩)
    (by decide) (by decide) (by decide) (by decide) (by decide) (by decide)
  have R := DampRun.make (mb := exLimArm) (r := 0) (p := { exLimits with uQ := [[.posInf], [.fin 1]] })
    (fun _ => .negInf) s h
  have hr := (dampInv R).robot
  refine ⟨_, .nrVars (exArmData 2) { s with alphaDBegin := 0 } R ?_⟩
  unfold DamperLimits.updateNrVars
  rw [hr]
  rfl

end C30

/-! ## C32: the damping state machine -/

namespace Spec
variable {K : Type} [Field K] [LinearOrder K] [IsStrictOrderedRing K]

/-- The zone a joint with limits `l`, `u` is in at position `q`, the interaction distance being
`(u - l) * inter`.  The lower zone has precedence. -/
def zoneOf (l u inter q : K) : DampState :=
  if q - l < (u - l) * inter then .low
  else if u - q < (u - l) * inter then .upp
  else .free

/-- Distance to the limit a zone belongs to. -/
def zoneDist (l u q : K) : DampState → K
  | .low => q - l
  | .upp => u - q
  | .free => 0

/-- Executions (updates and `updateNrVars` calls, any number) during which each update finds joint
`i` in zone `z`. -/
inductive Stays (i : ℕ) (l u inter : K) (z : DampState) : DamperLimits K → DamperLimits K → Prop
  | refl (s : DamperLimits K) : Stays i l u inter z s s
  | nrVars {s s1 : DamperLimits K} (d : SolverData K) (s2 : DamperLimits K) :
      Stays i l u inter z s s1 → s1.updateNrVars d = .ok s2 → Stays i l u inter z s s2
  | update {s s1 : DamperLimits K} (q alpha alphaD : List (List K)) (s2 : DamperLimits K) (qi : K) :
      Stays i l u inter z s s1 → nested q i 0 = .ok qi → zoneOf l u inter qi = z →
      s1.update q alpha alphaD = .ok s2 → Stays i l u inter z s s2

end Spec

section C32
variable {K : Type} [Field K] [LinearOrder K] [IsStrictOrderedRing K]

/-- **C32** (one update).  After an update the state of a joint with finite limits is the zone of its
position.  The damping is unchanged when the joint is free or was already in that zone; otherwise it
becomes `|(iDist - sDist) / (dist - sDist) * α| + offset`. -/
theorem C32_update {mb : MultiBody K} {r : ℕ} {p : LimitParams K} (hdt : 0 < p.dt)
    {od : Option (SolverData K)} {s : DamperLimits K} (R : DampRun mb r p od s)
    {q alpha alphaD : List (List K)} {s' : DamperLimits K} (h : s.update q alpha alphaD = .ok s')
    {i : ℕ} (hi : i < mb.joints.length) (h1 : jdof mb i = 1) {l u : K}
    (hl : nested p.lQ i 0 = .ok (.fin l)) (hu : nested p.uQ i 0 = .ok (.fin u)) :
    ∃ qi ai d d', nested q i 0 = .ok qi ∧ nested alpha i 0 = .ok ai ∧ entryOf s i = some d ∧
      entryOf s' i = some d' ∧ d'.state = zoneOf l u p.inter qi ∧
      d'.damping =
        if d'.state = .free ∨ d'.state = d.state then d.damping
        else |((u - l) * p.inter - (u - l) * p.sec) /
          (zoneDist l u qi d'.state - (u - l) * p.sec) * ai| + p.off := by
  obtain ⟨qi, ai, d, d', lo, up, k1, k2, k3, k4, E, rfl, k7, _⟩ := damp_row hdt (dampInv R) h hi h1
  have e1 := E.mn
  have e2 := E.mx
  rw [hl] at e1
  rw [hu] at e2
  simp only [Out.ok.injEq] at e1 e2
  have hd := E.dist
  rw [← e1, ← e2] at hd
  obtain ⟨i1, i2⟩ := dampDists_fin hd
  obtain ⟨-, g2, -, g4⟩ := dampJoint_same k7
  have hz : zone qi d.min d.max d.iDist = zoneOf l u p.inter qi := by
    unfold zone zoneOf
    rw [← e1, ← e2, i1]
    simp only [distTo_lt_fin, distFrom_lt_fin]
  rw [hz] at g2 g4
  obtain ⟨-, f2, f3⟩ := dampJoint_fin hdt e1.symm e2.symm i1 k7
  refine ⟨qi, ai, d, d', k1, k2, k3, k4, g2, ?_⟩
  rw [g2]
  rw [i2] at f2 f3
  unfold zoneOf at g4 ⊢
  by_cases c1 : qi - l < (u - l) * p.inter
  · simp only [if_pos c1]
    obtain ⟨_, ⟨a1, a2⟩ | ⟨a1, _, a3⟩⟩ := f2 c1
    · rw [if_pos (.inr a1.symm)]; exact a2
    · rw [if_neg (by simp [Ne.symm a1])]; exact a3
  · simp only [if_neg c1] at g4 ⊢
    by_cases c2 : u - qi < (u - l) * p.inter
    · simp only [if_pos c2]
      obtain ⟨_, ⟨a1, a2⟩ | ⟨a1, _, a3⟩⟩ := f3 c1 c2
      · rw [if_pos (.inr a1.symm)]; exact a2
      · rw [if_neg (by simp [Ne.symm a1])]; exact a3
    · simp only [if_neg c2] at g4 ⊢
      rw [if_pos (.inl trivial)]
      rcases g4 with h | h
      · exact h
      · exact absurd rfl h

theorem entryOf_nrVars {s s' : DamperLimits K} {d : SolverData K} (h : s.updateNrVars d = .ok s')
    (i : ℕ) : entryOf s' i = entryOf s i := by
  unfold DamperLimits.updateNrVars at h
  simp only [Out.bind_eq_ok, Out.pure_eq, Out.ok.injEq] at h
  obtain ⟨b, _, rfl⟩ := h
  rfl

/-- **C32** (stays).  While a joint remains in the zone its state records, the damping does not
change, over any number of updates; nor does it while the joint remains free, whatever the recorded
state. -/
theorem C32_constant {mb : MultiBody K} {r : ℕ} {p : LimitParams K} (hdt : 0 < p.dt)
    {od : Option (SolverData K)} {s : DamperLimits K} (R : DampRun mb r p od s)
    {i : ℕ} (hi : i < mb.joints.length) (h1 : jdof mb i = 1) {l u : K}
    (hl : nested p.lQ i 0 = .ok (.fin l)) (hu : nested p.uQ i 0 = .ok (.fin u)) {z : DampState}
    {d : DampData K} (hd : entryOf s i = some d) (hz : z = .free ∨ d.state = z)
    {s' : DamperLimits K} (S : Stays i l u p.inter z s s') :
    ∃ d', entryOf s' i = some d' ∧ d'.damping = d.damping := by
  suffices (∃ od', DampRun mb r p od' s') ∧ ∃ d', entryOf s' i = some d' ∧
      d'.damping = d.damping ∧ (z = .free ∨ d'.state = z) by
    obtain ⟨_, d', a, b, _⟩ := this
    exact ⟨d', a, b⟩
  induction S with
  | refl => exact ⟨⟨od, R⟩, d, hd, rfl, hz⟩
  | nrVars dd s2 _ h ih =>
    obtain ⟨⟨od', R'⟩, d1, a, b, c⟩ := ih
    exact ⟨⟨_, .nrVars dd s2 R' h⟩, d1, (entryOf_nrVars h i).trans a, b, c⟩
  | update q alpha alphaD s2 qi _ hq hzq h ih =>
    obtain ⟨⟨od', R'⟩, d1, a, b, c⟩ := ih
    obtain ⟨qi', ai, d1', d2, k1, k2, k3, k4, k5, k6⟩ := C32_update hdt R' h hi h1 hl hu
    rw [hq] at k1; cases k1
    rw [a] at k3; cases k3
    rw [hzq] at k5
    rw [k5] at k6
    rw [if_pos (by rcases c with c | c; exact .inl c; exact .inr c.symm)] at k6
    exact ⟨⟨_, .update q alpha alphaD s2 R' h⟩, d2, k4, k6.trans b, .inr k5⟩

/-- **C32** (entry).  When a joint enters a zone at a distance strictly between the security and the
interaction distance, the damper equals `|α| + offset * (dist - sDist) / (iDist - sDist)`: with a
non-negative offset the current velocity `α` itself respects the damper. -/
theorem C32_entry {mb : MultiBody K} {r : ℕ} {p : LimitParams K} (hdt : 0 < p.dt)
    {od : Option (SolverData K)} {s : DamperLimits K} (R : DampRun mb r p od s)
    {q alpha alphaD : List (List K)} {s' : DamperLimits K} (h : s.update q alpha alphaD = .ok s')
    {i : ℕ} (hi : i < mb.joints.length) (h1 : jdof mb i = 1) {l u : K}
    (hl : nested p.lQ i 0 = .ok (.fin l)) (hu : nested p.uQ i 0 = .ok (.fin u))
    {qi ai : K} (hq : nested q i 0 = .ok qi) (ha : nested alpha i 0 = .ok ai)
    {d d' : DampData K} (hd : entryOf s i = some d) (hd' : entryOf s' i = some d')
    (hfree : d'.state ≠ .free) (hnew : d'.state ≠ d.state)
    (hs : (u - l) * p.sec < zoneDist l u qi d'.state)
    (hI : zoneDist l u qi d'.state < (u - l) * p.inter) :
    d'.damping * ((zoneDist l u qi d'.state - (u - l) * p.sec) /
        ((u - l) * p.inter - (u - l) * p.sec)) =
      |ai| + p.off * ((zoneDist l u qi d'.state - (u - l) * p.sec) /
        ((u - l) * p.inter - (u - l) * p.sec)) ∧
    (0 ≤ p.off → |ai| ≤ d'.damping * ((zoneDist l u qi d'.state - (u - l) * p.sec) /
        ((u - l) * p.inter - (u - l) * p.sec))) := by
  obtain ⟨qi', ai', d0, d0', k1, k2, k3, k4, k5, k6⟩ := C32_update hdt R h hi h1 hl hu
  rw [hq] at k1; cases k1
  rw [ha] at k2; cases k2
  rw [hd] at k3; cases k3
  rw [hd'] at k4; cases k4
  rw [if_neg (by tauto)] at k6
  generalize zoneDist l u qi d'.state = D at *
  generalize (u - l) * p.sec = S at *
  generalize (u - l) * p.inter = J at *
  have hDS : 0 < D - S := by linarith
  have hJS : 0 < J - S := by linarith
  have e : d'.damping * ((D - S) / (J - S)) = |ai| + p.off * ((D - S) / (J - S)) := by
    rw [k6, abs_mul, abs_of_pos (div_pos hJS hDS)]
    have := hDS.ne'
    have := hJS.ne'
    field_simp
  refine ⟨e, fun ho => ?_⟩
  rw [e]
  have : 0 ≤ p.off * ((D - S) / (J - S)) := mul_nonneg ho (div_pos hDS hJS).le
  linarith

/-- A fresh constraint, and an update with the first joint in its lower zone. -/
theorem exDampUpdate : ∃ s s', DampRun exLimArm 0 exLimits (some (exArmData 2)) s ∧
    (∀ d ∈ s.data, d.state = .free ∧ d.damping = 0) ∧
    s.update [[1/5], [0]] [[-9/100], [0]] [[0], [0]] = .ok s' := by
  have hm : ∃ s, DamperLimits.make exLimArm 0 (fun _ => .negInf) exLimits.lQ exLimits.uQ exLimits.lA
    exLimits.uA exLimits.lAD exLimits.uAD exLimits.lADD exLimits.uADD exLimits.inter exLimits.sec
    exLimits.off exLimits.dt = .ok s := ⟨_, rfl⟩
  obtain ⟨s, hs⟩ := hm
  have R : DampRun exLimArm 0 exLimits (some (exArmData 2)) { s with alphaDBegin := 0 } := by
    have R0 := DampRun.make (mb := exLimArm) (r := 0) (p := exLimits) (fun _ => .negInf) s hs
    refine .nrVars (exArmData 2) _ R0 ?_
    unfold DamperLimits.updateNrVars
    rw [(dampInv R0).robot]
    rfl
  obtain ⟨s', h⟩ := C30_update_ok (q := [[1/5], [0]]) (alpha := [[-9/100], [0]])
    (alphaD := [[0], [0]]) (by norm_num [exLimits]) R rfl (by
      intro i hi _
      have : i = 0 ∨ i = 1 := by simp [exLimArm] at hi; omega
      rcases this with rfl | rfl
      · exact ⟨1/5, -9/100, .fin 0, .fin 1, rfl, rfl, rfl, rfl, .inr ⟨0, 1, rfl, rfl, by norm_num [exLimits],
          by norm_num [exLimits], by norm_num [exLimits]⟩⟩
      · exact ⟨0, 0, .fin (-1), .fin 1, rfl, rfl, rfl, rfl, .inr ⟨-1, 1, rfl, rfl, by norm_num [exLimits],
          by norm_num [exLimits], by norm_num [exLimits]⟩⟩)
  exact ⟨_, s', R, (dampMake_inv hs).2.1, h⟩

/-- The hypotheses of `C32_update`, `C32_entry` are met: the first joint enters its lower zone, and
its damping becomes `|(3/10) / (1/10) * (-9/100)| + 1/50 = 29/100`. -/
example : ∃ s s' d d', DampRun exLimArm 0 exLimits (some (exArmData 2)) s ∧
    s.update [[1/5], [0]] [[-9/100], [0]] [[0], [0]] = .ok s' ∧ entryOf s 0 = some d ∧
    entryOf s' 0 = some d' ∧ d.state = .free ∧ d'.state = .low ∧ d'.damping = 29/100 := by
  obtain ⟨s, s', R, hf, h⟩ := exDampUpdate
  obtain ⟨qi, ai, d, d', k1, k2, k3, k4, k5, k6⟩ := C32_update (by norm_num [exLimits]) R h (i := 0)
    (by simp [exLimArm]) rfl (l := 0) (u := 1) rfl rfl
  cases k1
  cases k2
  have hd := hf d (List.mem_of_find?_eq_some k3)
  have hz : d'.state = .low := by rw [k5]; norm_num [zoneOf, exLimits]
  refine ⟨s, s', d, d', R, h, k3, k4, hd.1, hz, ?_⟩
  rw [hz, hd.1] at k6
  rw [if_neg (by simp)] at k6
  rw [k6]
  norm_num [exLimits, zoneDist, abs_div]

/-- The hypotheses of `C32_constant` are met by an actual stay in the lower zone. -/
example : ∃ s s' d, DampRun exLimArm 0 exLimits (some (exArmData 2)) s ∧ entryOf s 0 = some d ∧
    d.state = .low ∧ Stays 0 0 1 exLimits.inter .low s s' ∧ s.prev.get 0 = 0 ∧ s'.prev.get 0 = 1 := by
  obtain ⟨s, s', R, hf, h⟩ := exDampUpdate
  obtain ⟨qi, ai, d, d', k1, k2, k3, k4, k5, k6⟩ := C32_update (by norm_num [exLimits]) R h (i := 0)
    (by simp [exLimArm]) rfl (l := 0) (u := 1) rfl rfl
  cases k1
  have hz : d'.state = .low := by rw [k5]; norm_num [zoneOf, exLimits]
  obtain ⟨s2, h2⟩ := C30_update_ok (q := [[1/5], [0]]) (alpha := [[-9/100], [0]])
    (alphaD := [[1], [0]]) (by norm_num [exLimits]) (.update _ _ _ _ R h) rfl (by
      intro i hi _
      have : i = 0 ∨ i = 1 := by simp [exLimArm] at hi; omega
      rcases this with rfl | rfl
      · exact ⟨1/5, -9/100, .fin 0, .fin 1, rfl, rfl, rfl, rfl, .inr ⟨0, 1, rfl, rfl, by norm_num [exLimits],
          by norm_num [exLimits], by norm_num [exLimits]⟩⟩
      · exact ⟨0, 0, .fin (-1), .fin 1, rfl, rfl, rfl, rfl, .inr ⟨-1, 1, rfl, rfl, by norm_num [exLimits],
          by norm_num [exLimits], by norm_num [exLimits]⟩⟩)
  have p1 := (damp_update (dampInv R) h).2.2.1 0
  have p2 := (damp_update (dampInv (.update _ _ _ _ R h)) h2).2.2.1 0
  refine ⟨s', s2, d', .update _ _ _ _ R h, k4, hz, .update [[1/5], [0]] _ _ _ (1/5) (.refl _) rfl
    (by norm_num [zoneOf, exLimits]) h2, ?_, ?_⟩
  · rw [p1]; rfl
  · rw [p2]; rfl

end C32

/-! ## C31: the security distance is never crossed -/

namespace Spec
variable {K : Type} [Field K] [LinearOrder K] [IsStrictOrderedRing K]

/-- Executions in which joint `i`, now at position `q` with velocity `α`, is controlled: at each
cycle the constraint is updated with the current state (anything for the other joints), an
acceleration `x` satisfying the two bounds of the joint is applied for `dt` and the position integrates
the new velocity.  The damping in use is assumed compatible with the time step.  The joint starts at
`q0`. -/
inductive Controlled (mb : MultiBody K) (r : ℕ) (p : LimitParams K) (i : ℕ) (l u q0 : K) :
    Option (SolverData K) → DamperLimits K → K → K → Prop
  | start {od : Option (SolverData K)} {s : DamperLimits K} (a : K) : DampRun mb r p od s →
      Controlled mb r p i l u q0 od s q0 a
  | nrVars {od : Option (SolverData K)} {s : DamperLimits K} {q a : K} (d : SolverData K)
      (s' : DamperLimits K) : Controlled mb r p i l u q0 od s q a → s.updateNrVars d = .ok s' →
      Controlled mb r p i l u q0 (some d) s' q a
  | step {od : Option (SolverData K)} {s : DamperLimits K} {q a : K}
      (Q A AD : List (List K)) (s' : DamperLimits K) (d' : DampData K) (x : K) :
      Controlled mb r p i l u q0 od s q a → nested Q i 0 = .ok q → nested A i 0 = .ok a →
      AD.flatten.length = mb.nrDof → s.update Q A AD = .ok s' → entryOf s' i = some d' →
      p.dt * d'.damping ≤ (u - l) * p.inter - (u - l) * p.sec →
      (s'.lower.get (jpos mb i)).LowerOK x → (s'.upper.get (jpos mb i)).UpperOK x →
      Controlled mb r p i l u q0 od s' (q + (a + x * p.dt) * p.dt) (a + x * p.dt)

end Spec

section C31
variable {K : Type} [Field K] [LinearOrder K] [IsStrictOrderedRing K]

theorem controlled_run {mb : MultiBody K} {r : ℕ} {p : LimitParams K} {i : ℕ} {l u q0 : K}
    {od : Option (SolverData K)} {s : DamperLimits K} {q a : K}
    (C : Controlled mb r p i l u q0 od s q a) : DampRun mb r p od s := by
  induction C with
  | start a R => exact R
  | nrVars d s' _ h ih => exact .nrVars d s' ih h
  | step Q A AD s' d' x _ _ _ _ h _ _ _ _ ih => exact .update Q A AD s' ih h

/-- **C31**.  A joint with finite limits that starts at least the security distance away from both
limits stays so after any number of control cycles, provided that the damping in use is compatible with
the time step (`dt * damping ≤ iDist - sDist`), the two interaction zones do not overlap
(`inter ≤ 1/2`), and no velocity within the velocity limits covers more than `iDist - sDist` in one
step (so that the joint cannot jump over the interaction zone). -/
theorem C31_invariant {mb : MultiBody K} {r : ℕ} {p : LimitParams K} (hdt : 0 < p.dt)
    {i : ℕ} (hi : i < mb.joints.length) (h1 : jdof mb i = 1) {l u : K} {vl vu : Ext K}
    (hl : nested p.lQ i 0 = .ok (.fin l)) (hu : nested p.uQ i 0 = .ok (.fin u))
    (hvl : nested p.lA i 0 = .ok vl) (hvu : nested p.uA i 0 = .ok vu)
    (hlu : l ≤ u) (hsi : (u - l) * p.sec < (u - l) * p.inter) (hz : p.inter ≤ 1 / 2)
    (hslowL : ∀ v, vl.LowerOK v → -((u - l) * p.inter - (u - l) * p.sec) ≤ v * p.dt)
    (hslowU : ∀ v, vu.UpperOK v → v * p.dt ≤ (u - l) * p.inter - (u - l) * p.sec)
    {q0 : K} (h0l : (u - l) * p.sec ≤ q0 - l) (h0u : (u - l) * p.sec ≤ u - q0)
    {od : Option (SolverData K)} {s : DamperLimits K} {q a : K}
    (C : Controlled mb r p i l u q0 od s q a) :
    (u - l) * p.sec ≤ q - l ∧ (u - l) * p.sec ≤ u - q := by
  induction C with
  | start a R => exact ⟨h0l, h0u⟩
  | nrVars d s' _ h ih => exact ih
  | @step od s q a Q A AD s' d' x C hq ha hD h hd' hdamp hlo hup ih =>
    obtain ⟨l', u', vl', vu', qi', ai', aD', d'', b1, b2, b3, b4, b5, b6, b7, b8, hrow⟩ :=
      C30_row hdt (controlled_run C) hD h hi h1
    rw [hl] at b1; cases b1
    rw [hu] at b2; cases b2
    rw [hvl] at b3; cases b3
    rw [hvu] at b4; cases b4
    rw [hq] at b5; cases b5
    rw [ha] at b6; cases b6
    rw [hd'] at b8; cases b8
    obtain ⟨⟨w1, w2, w3, w4⟩, -⟩ := (hrow x).mp ⟨hlo, hup⟩
    have s1 := hslowL _ w1
    have s2 := hslowU _ w2
    have hsum : (u - l) * p.inter ≤ (u - l) - (u - l) * p.inter := by
      have : (u - l) * p.inter ≤ (u - l) * (1 / 2) :=
        mul_le_mul_of_nonneg_left hz (by linarith)
      linarith
    generalize a + x * p.dt = v at *
    generalize hS : (u - l) * p.sec = S at *
    generalize hJ : (u - l) * p.inter = J at *
    have hJS : 0 < J - S := by linarith
    obtain ⟨i1, i2⟩ := ih
    have bound : ∀ D, S ≤ D → p.dt * (d'.damping * ((D - S) / (J - S))) ≤ D - S := by
      intro D hD'
      have e : p.dt * (d'.damping * ((D - S) / (J - S))) = (p.dt * d'.damping) * (D - S) / (J - S) := by
        ring
      rw [e, div_le_iff₀ hJS]
      have := mul_le_mul_of_nonneg_right hdamp (show (0 : K) ≤ D - S by linarith)
      linarith
    by_cases c1 : q - l < J
    · have d1 := w3 c1
      have d2 := bound (q - l) i1
      have d3 : -(d'.damping * ((q - l - S) / (J - S))) * p.dt ≤ v * p.dt :=
        mul_le_mul_of_nonneg_right d1 hdt.le
      constructor
      · have : -(d'.damping * ((q - l - S) / (J - S))) * p.dt
            = -(p.dt * (d'.damping * ((q - l - S) / (J - S)))) := by ring
        rw [this] at d3
        linarith
      · linarith
    · by_cases c2 : u - q < J
      · have d1 := w4 c1 c2
        have d2 := bound (u - q) i2
        have d3 : v * p.dt ≤ (d'.damping * ((u - q - S) / (J - S))) * p.dt :=
          mul_le_mul_of_nonneg_right d1 hdt.le
        constructor
        · linarith
        · have : d'.damping * ((u - q - S) / (J - S)) * p.dt
            = p.dt * (d'.damping * ((u - q - S) / (J - S))) := by ring
          rw [this] at d3
          linarith
      · constructor <;> linarith

/-- The hypotheses of `C31_invariant` are met by an execution which moves the first joint: from `1/5`
to `4/25`. -/
example : ∃ od s, Controlled exLimArm 0 exLimits 0 0 1 (1/5) od s (1/5 + (-9/100 + 1/20 * 1) * 1)
    (-9/100 + 1/20 * 1) := by
  obtain ⟨s, s', R, hf, h⟩ := exDampUpdate
  obtain ⟨qi, ai, d, d', k1, k2, k3, k4, k5, k6⟩ := C32_update (by norm_num [exLimits]) R h (i := 0)
    (by simp [exLimArm]) rfl (l := 0) (u := 1) rfl rfl
  cases k1
  cases k2
  have hd := hf d (List.mem_of_find?_eq_some k3)
  have hz : d'.state = .low := by rw [k5]; norm_num [zoneOf, exLimits]
  rw [hz, hd.1] at k6
  rw [if_neg (by simp)] at k6
  have hdamp : d'.damping = 29/100 := by
    rw [k6]; norm_num [exLimits, zoneDist, abs_div]
  obtain ⟨_, _, _, _, _, _, _, d'', b1, b2, b3, b4, b5, b6, b7, b8, hrow⟩ :=
    C30_row (by norm_num [exLimits]) R (q := [[1/5], [0]]) (alpha := [[-9/100], [0]])
      (alphaD := [[0], [0]]) rfl h (i := 0) (by simp [exLimArm]) rfl
  cases b1; cases b2; cases b3; cases b4; cases b5; cases b6; cases b7
  rw [k4] at b8; cases b8
  obtain ⟨r1, r2⟩ := (hrow (1/20)).mpr (by
    unfold DampedOK LimitParams.AccOK
    rw [hdamp]
    refine ⟨⟨?_, ?_, ?_⟩, ?_, ?_, ?_, ?_⟩
    · norm_num [Ext.LowerOK, exLimits]
    · norm_num [Ext.UpperOK, exLimits]
    · constructor
      · intro _; norm_num [exLimits]
      · intro h; exact absurd (by norm_num [exLimits]) h
    · norm_num [Ext.LowerOK, exLimits, jpos]
    · norm_num [Ext.UpperOK, exLimits, jpos]
    · norm_num [Ext.LowerOK, exLimits, jpos]
    · norm_num [Ext.UpperOK, exLimits, jpos])
  exact ⟨_, _, .step (p := exLimits) [[1/5], [0]] [[-9/100], [0]] [[0], [0]] s' d' (1/20)
    (.start (-9/100) R) rfl rfl rfl h k4 (by rw [hdamp]; norm_num [exLimits]) r1 r2⟩

/-- `exLimits` satisfies the remaining hypotheses of `C31_invariant`. -/
example : (1 - 0 : ℚ) * exLimits.sec < (1 - 0) * exLimits.inter ∧ exLimits.inter ≤ 1 / 2 ∧
    (∀ v, (Ext.fin (-1/5 : ℚ)).LowerOK v → -((1 - 0) * exLimits.inter - (1 - 0) * exLimits.sec) ≤ v * exLimits.dt) ∧
    (∀ v, (Ext.fin (1/5 : ℚ)).UpperOK v → v * exLimits.dt ≤ (1 - 0) * exLimits.inter - (1 - 0) * exLimits.sec) := by
  refine ⟨by norm_num [exLimits], by norm_num [exLimits], fun v h => ?_, fun v h => ?_⟩ <;>
    simp only [Ext.LowerOK, Ext.UpperOK] at h <;> norm_num [exLimits] <;> linarith

/-- **C31** (the zones must not overlap).  One joint with range `[0, 1]`, interaction fraction `3/5`,
security fraction `1/10`, velocities at most 1, step `1/2`: all hypotheses of `C31_invariant` but
`inter ≤ 1/2`.  At the middle of the range only the lower damper is active, the upper limit is not
protected, and an acceleration within the bounds brings the joint onto its limit. -/
theorem C31_overlap_counterexample :
    ∃ (mb : MultiBody ℚ) (p : LimitParams ℚ), jdof mb 0 = 1 ∧ 0 < p.dt ∧
      nested p.lQ 0 0 = .ok (.fin 0) ∧ nested p.uQ 0 0 = .ok (.fin 1) ∧
      nested p.lA 0 0 = .ok (.fin (-1)) ∧ nested p.uA 0 0 = .ok (.fin 1) ∧
      p.sec = 1/10 ∧ p.inter = 3/5 ∧ p.dt = 1/2 ∧
      ∃ od s a, Controlled mb 0 p 0 0 1 (1/2) od s 1 a := by
  refine ⟨⟨[⟨"j", 1, none⟩], 1, [-1], [0]⟩,
    ⟨[[.fin 0]], [[.fin 1]], [[.fin (-1)]], [[.fin 1]], [], [], [], [], 3/5, 1/10, 0, 1/2⟩, rfl,
    by norm_num, rfl, rfl, rfl, rfl, rfl, rfl, rfl, ?_⟩
  generalize hmb : (⟨[⟨"j", 1, none⟩], 1, [-1], [0]⟩ : MultiBody ℚ) = mb
  generalize hp : (⟨[[.fin 0]], [[.fin 1]], [[.fin (-1)]], [[.fin 1]], [], [], [], [], 3/5, 1/10, 0,
    1/2⟩ : LimitParams ℚ) = p
  have hdt : 0 < p.dt := by rw [← hp]; norm_num
  have hlen : 0 < mb.joints.length := by rw [← hmb]; simp
  have hd1 : jdof mb 0 = 1 := by rw [← hmb]; rfl
  have hm : ∃ s, DamperLimits.make mb 0 (fun _ => .negInf) p.lQ p.uQ p.lA p.uA p.lAD p.uAD p.lADD
      p.uADD p.inter p.sec p.off p.dt = .ok s := by
    rw [← hmb, ← hp]; exact ⟨_, rfl⟩
  obtain ⟨s, hs⟩ := hm
  have R := DampRun.make (mb := mb) (r := 0) (p := p) (fun _ => .negInf) s hs
  obtain ⟨s', h⟩ := C30_update_ok (q := [[1/2]]) (alpha := [[0]]) (alphaD := [[0]]) hdt R
    (by rw [← hmb]; rfl) (by
      intro i hi _
      have : i = 0 := by rw [← hmb] at hi; simpa using hi
      subst this
      rw [← hp]
      exact ⟨1/2, 0, .fin 0, .fin 1, rfl, rfl, rfl, rfl, .inr ⟨0, 1, rfl, rfl, by norm_num,
          by norm_num, by norm_num⟩⟩)
  have hl : nested p.lQ 0 0 = .ok (.fin 0) := by rw [← hp]; rfl
  have hu : nested p.uQ 0 0 = .ok (.fin 1) := by rw [← hp]; rfl
  have hvl : nested p.lA 0 0 = .ok (.fin (-1)) := by rw [← hp]; rfl
  have hvu : nested p.uA 0 0 = .ok (.fin 1) := by rw [← hp]; rfl
  obtain ⟨qi, ai, d, d', k1, k2, k3, k4, k5, k6⟩ := C32_update hdt R h hlen hd1 hl hu
  cases k1
  cases k2
  have hdm : d'.damping = 0 := by
    have hd := (dampMake_inv hs).2.1 d (List.mem_of_find?_eq_some k3)
    rw [k6, hd.2]
    split
    · rfl
    · rw [← hp]; simp
  obtain ⟨_, _, _, _, _, _, _, d'', b1, b2, b3, b4, b5, b6, b7, b8, hrow⟩ :=
    C30_row hdt R (q := [[1/2]]) (alpha := [[0]]) (alphaD := [[0]]) (by rw [← hmb]; rfl) h hlen hd1
  rw [hl] at b1; cases b1
  rw [hu] at b2; cases b2
  rw [hvl] at b3; cases b3
  rw [hvu] at b4; cases b4
  cases b5; cases b6
  rw [k4] at b8; cases b8
  obtain ⟨r1, r2⟩ := (hrow 2).mpr (by
    unfold DampedOK LimitParams.AccOK
    rw [hdm, ← hp]
    refine ⟨⟨?_, ?_, ?_, ?_⟩, ?_, ?_, ?_, ?_⟩
    · norm_num [Ext.LowerOK]
    · norm_num [Ext.UpperOK]
    · intro _; norm_num
    · intro h; exact absurd (by norm_num) h
    · simp [Ext.LowerOK]
    · simp [Ext.UpperOK]
    · simp [Ext.LowerOK]
    · simp [Ext.UpperOK])
  have C := Controlled.step (l := 0) (u := 1) [[1/2]] [[0]] [[0]] s' d' 2 (.start 0 R) rfl rfl
    (by rw [← hmb]; rfl) h k4 (by rw [hdm, ← hp]; norm_num) r1 r2
  have e : (1/2 + (0 + 2 * p.dt) * p.dt : ℚ) = 1 := by rw [← hp]; norm_num
  rw [e] at C
  exact ⟨_, _, _, C⟩

end C31

/-! ## C56: dofs of joints with several dofs -/

section C56
variable {K : Type} [Field K] [LinearOrder K] [IsStrictOrderedRing K]

/-- Dof `a` does not belong to a one-dof joint. -/
def Spec.MultiDof (mb : MultiBody K) (a : ℕ) : Prop :=
  ∀ i < mb.joints.length, jdof mb i = 1 → jpos mb i ≠ a

/-- Successive updates and `updateNrVars` calls. -/
inductive Spec.Later : DamperLimits K → DamperLimits K → Prop
  | refl (s : DamperLimits K) : Later s s
  | nrVars {s s1 : DamperLimits K} (d : SolverData K) (s2 : DamperLimits K) :
      Later s s1 → s1.updateNrVars d = .ok s2 → Later s s2
  | update {s s1 : DamperLimits K} (q alpha alphaD : List (List K)) (s2 : DamperLimits K) :
      Later s s1 → s1.update q alpha alphaD = .ok s2 → Later s s2

/-- **C56** (what holds: one-dof joints).  Two executions with the same parameters, in which joint `i`
has the same damping and recorded zone, give the same bounds to that joint when updated with the same
robot state, whatever they went through before. -/
theorem C56_one_dof_partial {mb : MultiBody K} {r : ℕ} {p : LimitParams K} (hdt : 0 < p.dt)
    {od₁ od₂ : Option (SolverData K)} {s₁ s₂ t₁ t₂ : DamperLimits K} (R₁ : DampRun mb r p od₁ s₁)
    (R₂ : DampRun mb r p od₂ s₂) {q alpha alphaD : List (List K)}
    (hD : alphaD.flatten.length = mb.nrDof) (h₁ : s₁.update q alpha alphaD = .ok t₁)
    (h₂ : s₂.update q alpha alphaD = .ok t₂) {i : ℕ} (hi : i < mb.joints.length)
    (h1 : jdof mb i = 1) {d₁ d₂ : DampData K} (hd₁ : entryOf s₁ i = some d₁)
    (hd₂ : entryOf s₂ i = some d₂) (hstate : d₁.state = d₂.state) (hdamp : d₁.damping = d₂.damping)
    (x : K) :
    (t₁.lower.get (jpos mb i)).LowerOK x ∧ (t₁.upper.get (jpos mb i)).UpperOK x ↔
    (t₂.lower.get (jpos mb i)).LowerOK x ∧ (t₂.upper.get (jpos mb i)).UpperOK x := by
  obtain ⟨qi, ai, d, d', l, u, k1, k2, k3, k4, E, e, k7, k8⟩ := damp_row hdt (dampInv R₁) h₁ hi h1
  obtain ⟨qi', ai', f, f', l', u', m1, m2, m3, m4, F, e', m7, m8⟩ :=
    damp_row hdt (dampInv R₂) h₂ hi h1
  rw [hd₁] at k3; cases k3
  rw [hd₂] at m3; cases m3
  rw [k1] at m1; cases m1
  rw [k2] at m2; cases m2
  have hE : d₁ = d₂ := by
    have h1 := E.mn; have h2 := E.mx; have h3 := E.vmn; have h4 := E.vmx
    have h5 := E.dist; have h6 := E.pos
    have g1 := F.mn; have g2 := F.mx; have g3 := F.vmn; have g4 := F.vmx
    have g5 := F.dist; have g6 := F.pos
    rw [e] at h1 h2 h3 h4 h6
    rw [e'] at g1 g2 g3 g4 g6
    have n1 := Out.ok.inj (h1.symm.trans g1)
    have n2 := Out.ok.inj (h2.symm.trans g2)
    have n3 := Out.ok.inj (h3.symm.trans g3)
    have n4 := Out.ok.inj (h4.symm.trans g4)
    rw [n1, n2] at h5
    have n5 := Out.ok.inj (h5.symm.trans g5)
    simp only [Prod.mk.injEq] at n5
    cases d₁
    cases d₂
    simp_all
  rw [hE] at k7
  rw [k7] at m7
  cases m7
  have hlt : jpos mb i < alphaD.flatten.length := by
    have := jpos_fit mb hi; omega
  rw [k8 x, m8 x, List.getElem?_eq_getElem hlt]
  rfl

/-- **C56** (what holds: other joints).  For a dof of a joint with several dofs the bounds only ever get tighter: an
acceleration rejected once is rejected by every later update, whatever the state of the robot.  A
constraint that depends only on the current state would not do that. -/
theorem C56_never_relaxed {mb : MultiBody K} {r : ℕ} {p : LimitParams K}
    {od : Option (SolverData K)} {s s' : DamperLimits K} (R : DampRun mb r p od s)
    (L : Later s s') {a : ℕ} (ha : MultiDof mb a) (x : K)
    (h : (s'.lower.get a).LowerOK x ∧ (s'.upper.get a).UpperOK x) :
    (s.lower.get a).LowerOK x ∧ (s.upper.get a).UpperOK x := by
  suffices (∃ od', DampRun mb r p od' s') ∧
      ((s'.lower.get a).LowerOK x ∧ (s'.upper.get a).UpperOK x →
        (s.lower.get a).LowerOK x ∧ (s.upper.get a).UpperOK x) from this.2 h
  clear h
  induction L with
  | refl => exact ⟨⟨od, R⟩, id⟩
  | nrVars d s2 _ h ih =>
    obtain ⟨⟨od', R'⟩, ih⟩ := ih
    refine ⟨⟨_, .nrVars d s2 R' h⟩, ?_⟩
    unfold DamperLimits.updateNrVars at h
    simp only [Out.bind_eq_ok, Out.pure_eq, Out.ok.injEq] at h
    obtain ⟨b, _, rfl⟩ := h
    exact ih
  | update q alpha alphaD s2 _ h ih =>
    obtain ⟨⟨od', R'⟩, ih⟩ := ih
    have I := dampInv R'
    obtain ⟨e1, e2⟩ := (damp_update I h).2.2.2.2 a (by
      intro d0 hd0
      have E := I.entry d0 hd0
      rw [E.pos]
      exact ha _ E.lt E.one)
    refine ⟨⟨_, .update q alpha alphaD s2 R' h⟩, fun hx => ih ?_⟩
    rw [e1, e2, Ext.lowerOK_max, Ext.lowerOK_max, Ext.upperOK_min, Ext.upperOK_min] at hx
    exact ⟨hx.1.1.1, hx.2.1.1⟩

/-- **C56** (defect).  A robot with one two-dof joint and jerk limits `±1`, step 1.  Two executions
end with the same update (same position, velocity and acceleration), but the bounds they give are not
the same: one accepts a zero acceleration, the other, which went through a state with acceleration 10,
does not.  The bounds are not a function of the current state. -/
theorem C56_history_counterexample :
    ∃ (mb : MultiBody ℚ) (p : LimitParams ℚ) (s₁ s₂ t₁ t₂ : DamperLimits ℚ)
      (q alpha alphaD : List (List ℚ)), DampRun mb 0 p none s₁ ∧ DampRun mb 0 p none s₂ ∧
      s₁.update q alpha alphaD = .ok t₁ ∧ s₂.update q alpha alphaD = .ok t₂ ∧
      ((t₁.lower.get 0).LowerOK 0 ∧ (t₁.upper.get 0).UpperOK 0) ∧ ¬ (t₂.lower.get 0).LowerOK 0 := by
  generalize hmb : (⟨[⟨"j", 2, none⟩], 1, [-1], [0]⟩ : MultiBody ℚ) = mb
  generalize hp : (⟨[], [], [[.fin (-5), .fin (-5)]], [[.fin 5, .fin 5]], [], [],
    [[.fin (-1), .fin (-1)]], [[.fin 1, .fin 1]], 2/5, 1/10, 0, 1⟩ : LimitParams ℚ) = p
  have hm : ∃ s, DamperLimits.make mb 0 (fun _ => .negInf) p.lQ p.uQ p.lA p.uA p.lAD p.uAD p.lADD
      p.uADD p.inter p.sec p.off p.dt = .ok s := by
    rw [← hmb, ← hp]; exact ⟨_, rfl⟩
  obtain ⟨s, hs⟩ := hm
  have R := DampRun.make (mb := mb) (r := 0) (p := p) (fun _ => .negInf) s hs
  have multi : ∀ i < mb.joints.length, jdof mb i = 1 → False := by
    intro i hi h
    have : i = 0 := by rw [← hmb] at hi; simpa using hi
    subst this
    rw [← hmb] at h
    cases h
  have hdt : 0 < p.dt := by rw [← hp]; norm_num
  have hn : mb.nrDof = 2 := by rw [← hmb]; rfl
  have upd : ∀ {s : DamperLimits ℚ} (R : DampRun mb 0 p none s) (x : ℚ),
      ∃ s', s.update [[0, 0]] [[0, 0]] [[x, 0]] = .ok s' := fun R x =>
    C30_update_ok hdt R (by rw [hn]; rfl) fun i hi h => (multi i hi h).elim
  have row : ∀ {s : DamperLimits ℚ} (R : DampRun mb 0 p none s) (x : ℚ) {s' : DamperLimits ℚ},
      s.update [[0, 0]] [[0, 0]] [[x, 0]] = .ok s' →
      s'.lower.get 0 = ((s.lower.get 0).max .negInf).max (.fin (-1 + x)) ∧
      s'.upper.get 0 = ((s.upper.get 0).min .posInf).min (.fin (1 + x)) := by
    intro s R x s' h
    have I := dampInv R
    obtain ⟨-, -, hprev, -, ho⟩ := damp_update I h
    obtain ⟨e1, e2⟩ := ho 0 (fun d hd => (multi _ (I.entry d hd).lt (I.entry d hd).one).elim)
    rw [e1, e2, I.aL, I.aU, I.dL, I.dU, hprev, ← hp]
    simp [Ext.mulPos, Ext.addFin]
  have h0 := dampMake_inv hs
  have hl0 : s.lower.get 0 = .fin (-5) := by rw [h0.2.2.1 0, ← hp]; rfl
  have hu0 : s.upper.get 0 = .fin 5 := by rw [h0.2.2.2 0, ← hp]; rfl
  obtain ⟨t1, ht1⟩ := upd R 0
  obtain ⟨s2, hs2⟩ := upd R 10
  have R2 := DampRun.update _ _ _ _ R hs2
  obtain ⟨t2, ht2⟩ := upd R2 0
  refine ⟨mb, p, s, s2, t1, t2, [[0, 0]], [[0, 0]], [[0, 0]], R, R2, ht1, ht2, ?_, ?_⟩
  · rw [(row R 0 ht1).1, (row R 0 ht1).2, hl0, hu0, Ext.lowerOK_max, Ext.lowerOK_max, Ext.upperOK_min,
      Ext.upperOK_min]
    norm_num [Ext.LowerOK, Ext.UpperOK]
  · rw [(row R2 0 ht2).1, (row R 10 hs2).1, hl0, Ext.lowerOK_max, Ext.lowerOK_max, Ext.lowerOK_max,
      Ext.lowerOK_max]
    norm_num [Ext.LowerOK]

/-- The hypotheses of `C56_never_relaxed` are met by the executions above; a robot with a several-dof
joint has such dofs. -/
example : MultiDof exLimFloat 3 := by
  intro i hi h
  have : i = 0 ∨ i = 1 := by simp [exLimFloat] at hi; omega
  rcases this with rfl | rfl
  · cases h
  · decide

end C56

end Verif
