import Verif.Proofs.Limits
import Verif.Proofs.MotionPoly

/-!
# Executions of the joint limit constraints
-/

set_option autoImplicit false
set_option linter.unusedSectionVars false

namespace Verif

open Spec

namespace Spec
variable {K : Type} [Field K] [LinearOrder K] [IsStrictOrderedRing K]

/-- Parameters of the joint limit constraints, nested per joint: position, velocity, acceleration and
jerk limits, interaction and security percentage, damper offset, time step. -/
structure LimitParams (K : Type) where
  lQ : List (List (Ext K))
  uQ : List (List (Ext K))
  lA : List (List (Ext K))
  uA : List (List (Ext K))
  lAD : List (List (Ext K))
  uAD : List (List (Ext K))
  lADD : List (List (Ext K))
  uADD : List (List (Ext K))
  inter : K
  sec : K
  off : K
  dt : K

/-- The acceleration `x` of dof `a` respects the acceleration and jerk limits, `old` being the
previous acceleration.  Dofs for which no limit is given are not limited. -/
def LimitParams.AccOK (p : LimitParams K) (a : ℕ) (old x : K) : Prop :=
  ((p.lAD.flatten[a]?).getD .negInf).LowerOK x ∧ ((p.uAD.flatten[a]?).getD .posInf).UpperOK x ∧
  ((p.lADD.flatten[a]?).getD .negInf).LowerOK ((x - old) / p.dt) ∧
  ((p.uADD.flatten[a]?).getD .posInf).UpperOK ((x - old) / p.dt)

/-- Executions of a `DamperJointLimitsConstr` of robot `r`. -/
inductive DampRun (mb : MultiBody K) (r : ℕ) (p : LimitParams K) :
    Option (SolverData K) → DamperLimits K → Prop
  | make (junk : ℕ → Ext K) (s : DamperLimits K) :
      DamperLimits.make mb r junk p.lQ p.uQ p.lA p.uA p.lAD p.uAD p.lADD p.uADD p.inter p.sec p.off
        p.dt = .ok s → DampRun mb r p none s
  | nrVars {od : Option (SolverData K)} {s : DamperLimits K} (d : SolverData K)
      (s' : DamperLimits K) : DampRun mb r p od s → s.updateNrVars d = .ok s' →
      DampRun mb r p (some d) s'
  | update {od : Option (SolverData K)} {s : DamperLimits K} (q alpha alphaD : List (List K))
      (s' : DamperLimits K) : DampRun mb r p od s → s.update q alpha alphaD = .ok s' →
      DampRun mb r p od s'

/-- Executions of a `JointLimitsConstr` of robot `r`. -/
inductive LimitRun (mb : MultiBody K) (nrParams r : ℕ) (p : LimitParams K) :
    Option (SolverData K) → JointLimits K → Prop
  | make (junk : ℕ → Ext K) (s : JointLimits K) :
      JointLimits.make mb nrParams r junk p.lQ p.uQ p.lAD p.uAD p.lADD p.uADD p.dt = .ok s →
      LimitRun mb nrParams r p none s
  | nrVars {od : Option (SolverData K)} {s : JointLimits K} (d : SolverData K)
      (s' : JointLimits K) : LimitRun mb nrParams r p od s → s.updateNrVars d = .ok s' →
      LimitRun mb nrParams r p (some d) s'
  | update {od : Option (SolverData K)} {s : JointLimits K} (q alpha alphaD : List (List K))
      (s' : JointLimits K) : LimitRun mb nrParams r p od s → s.update q alpha alphaD = .ok s' →
      LimitRun mb nrParams r p od s'

/-- What the constraint remembers about joint `i`. -/
def entryOf (s : DamperLimits K) (i : ℕ) : Option (DampData K) :=
  s.data.find? fun d => decide (d.jointIndex = i)

end Spec

variable {K : Type} [Field K] [LinearOrder K] [IsStrictOrderedRing K]

/-- The static part of the entry of a joint. -/
structure EntryOK (mb : MultiBody K) (p : LimitParams K) (d : DampData K) : Prop where
  lt : d.jointIndex < mb.joints.length
  one : jdof mb d.jointIndex = 1
  pos : d.alphaDBegin = jpos mb d.jointIndex
  mn : nested p.lQ d.jointIndex 0 = .ok d.min
  mx : nested p.uQ d.jointIndex 0 = .ok d.max
  vmn : nested p.lA d.jointIndex 0 = .ok d.minVel
  vmx : nested p.uA d.jointIndex 0 = .ok d.maxVel
  dist : dampDists d.max d.min p.inter p.sec = .ok (d.iDist, d.sDist)

structure DampInv (mb : MultiBody K) (r : ℕ) (p : LimitParams K) (od : Option (SolverData K))
    (s : DamperLimits K) : Prop where
  robot : s.robotIndex = r
  step : s.step = p.dt
  off : s.off = p.off
  sL : s.lower.size = mb.nrDof
  sU : s.upper.size = mb.nrDof
  sAL : s.alphaDL.size = mb.nrDof
  sAU : s.alphaDU.size = mb.nrDof
  sDL : s.alphaDDL.size = mb.nrDof
  sDU : s.alphaDDU.size = mb.nrDof
  sP : s.prev.size = mb.nrDof
  aL : ∀ a, s.alphaDL.get a = (p.lAD.flatten[a]?).getD .negInf
  aU : ∀ a, s.alphaDU.get a = (p.uAD.flatten[a]?).getD .posInf
  dL : ∀ a, s.alphaDDL.get a = ((p.lADD.flatten[a]?).getD .negInf).mulPos p.dt
  dU : ∀ a, s.alphaDDU.get a = ((p.uADD.flatten[a]?).getD .posInf).mulPos p.dt
  idx : s.data.map DampData.jointIndex =
    (List.range mb.joints.length).filter fun i => decide (jdof mb i = 1)
  entry : ∀ d ∈ s.data, EntryOK mb p d
  begin' : ∀ d, od = some d → vecAt d.alphaDBegin r = .ok s.alphaDBegin

theorem dampInit_loop {mb : MultiBody K} {p : LimitParams K} (m : ℕ) (hm : m ≤ mb.joints.length)
    {l : List (DampData K)}
    (h : forRange m (dampInit mb p.lQ p.uQ p.lA p.uA p.inter p.sec) [] = .ok l) :
    l.map DampData.jointIndex = (List.range m).filter (fun i => decide (jdof mb i = 1)) ∧
    (∀ d ∈ l, EntryOK mb p d) ∧ ∀ d ∈ l, d.state = .free ∧ d.damping = 0 := by
  induction m generalizing l with
  | zero =>
    simp only [forRange, Out.ok.injEq] at h
    subst h
    simp
  | succ m ih =>
    simp only [forRange, Out.bind_eq_ok, dampInit] at h
    obtain ⟨l1, h1, j, hj, h2⟩ := h
    obtain ⟨g1, g2, g3⟩ := ih (by omega) h1
    have hjd : jdof mb m = j.dof := by
      unfold jdof; rw [vecAt_eq_ok.mp hj]; rfl
    rw [List.range_succ, List.filter_append]
    split at h2
    · rename_i h1d
      simp only [Out.bind_eq_ok, Out.pure_eq, Out.ok.injEq] at h2
      obtain ⟨u, hu, l, hl, vl, hvl, vu, hvu, ⟨a, b⟩, hd, pos, hp, rfl⟩ := h2
      have hpos : pos = jpos mb m := by
        unfold MultiBody.jointPosInDof at hp
        rw [if_pos (by omega)] at hp
        exact (Out.ok.inj hp).symm
      refine ⟨?_, ?_, ?_⟩
      · rw [List.filter_cons_of_pos (by simp [hjd, h1d])]
        simp [g1]
      · intro d hd'
        rcases List.mem_append.mp hd' with h | h
        · exact g2 d h
        · rw [List.mem_singleton] at h
          subst h
          exact ⟨by dsimp only; omega, by dsimp only; omega, hpos, hl, hu, hvl, hvu, hd⟩
      · intro d hd'
        rcases List.mem_append.mp hd' with h | h
        · exact g3 d h
        · rw [List.mem_singleton] at h
          subst h
          exact ⟨rfl, rfl⟩
    · rename_i h1d
      simp only [Out.pure_eq, Out.ok.injEq] at h2
      subst h2
      rw [List.filter_cons_of_neg (by simp [hjd, h1d])]
      exact ⟨by simp [g1], g2, g3⟩

theorem dampMake_inv {mb : MultiBody K} {r : ℕ} {p : LimitParams K} {junk : ℕ → Ext K}
    {s : DamperLimits K}
    (h : DamperLimits.make mb r junk p.lQ p.uQ p.lA p.uA p.lAD p.uAD p.lADD p.uADD p.inter p.sec
      p.off p.dt = .ok s) :
    DampInv mb r p none s ∧ (∀ d ∈ s.data, d.state = .free ∧ d.damping = 0) ∧
    (∀ a, s.lower.get a = (p.lA.flatten[a]?).getD (junk a)) ∧
    ∀ a, s.upper.get a = (p.uA.flatten[a]?).getD (junk a) := by
  unfold DamperLimits.make at h
  simp only [Out.bind_eq_ok, Out.pure_eq, Out.ok.injEq] at h
  obtain ⟨l, hl, lo, hlo, up, hup, aL, haL, aU, haU, dL, hdL, dU, hdU, rfl⟩ := h
  obtain ⟨g1, g2, g3⟩ := dampInit_loop _ le_rfl hl
  obtain ⟨_, rfl⟩ := paramToVector_eq_ok hlo
  obtain ⟨_, rfl⟩ := paramToVector_eq_ok hup
  obtain ⟨_, rfl⟩ := paramToVector_eq_ok haL
  obtain ⟨_, rfl⟩ := paramToVector_eq_ok haU
  obtain ⟨_, rfl⟩ := paramToVector_eq_ok hdL
  obtain ⟨_, rfl⟩ := paramToVector_eq_ok hdU
  exact ⟨⟨rfl, rfl, rfl, rfl, rfl, rfl, rfl, rfl, rfl, rfl, fun _ => rfl, fun _ => rfl, fun _ => rfl,
    fun _ => rfl, g1, g2, fun d h => by cases h⟩, g3, fun _ => rfl, fun _ => rfl⟩

theorem dampMake_ok (mb : MultiBody K) (r : ℕ) (p : LimitParams K) (junk : ℕ → Ext K)
    (hj : ∀ i < mb.joints.length, jdof mb i = 1 → ∃ l u vl vu dd, nested p.lQ i 0 = .ok l ∧
      nested p.uQ i 0 = .ok u ∧ nested p.lA i 0 = .ok vl ∧ nested p.uA i 0 = .ok vu ∧
      dampDists u l p.inter p.sec = .ok dd)
    (hlA : p.lA.flatten.length ≤ mb.nrDof) (huA : p.uA.flatten.length ≤ mb.nrDof)
    (hlAD : p.lAD.flatten.length ≤ mb.nrDof) (huAD : p.uAD.flatten.length ≤ mb.nrDof)
    (hlADD : p.lADD.flatten.length ≤ mb.nrDof) (huADD : p.uADD.flatten.length ≤ mb.nrDof) :
    ∃ s, DamperLimits.make mb r junk p.lQ p.uQ p.lA p.uA p.lAD p.uAD p.lADD p.uADD p.inter p.sec
      p.off p.dt = .ok s := by
  unfold DamperLimits.make
  obtain ⟨l, e, _⟩ := forRange_inv (n := mb.nrJoints) (I := fun _ _ => True)
    (f := dampInit mb p.lQ p.uQ p.lA p.uA p.inter p.sec) (s := ([] : List (DampData K))) trivial (by
      intro i hi s _
      have hi' : i < mb.joints.length := hi
      unfold dampInit
      rw [vecAt_eq_ok.mpr (List.getElem?_eq_getElem hi'), Out.ok_bind]
      split
      · rename_i hd
        obtain ⟨l, u, vl, vu, dd, h1, h2, h3, h4, h5⟩ := hj i hi' (by
          unfold jdof; rw [List.getElem?_eq_getElem hi']; exact hd)
        rw [h1, h2, h3, h4]
        simp only [Out.ok_bind, h5, MultiBody.jointPosInDof, if_pos hi']
        exact ⟨_, rfl, trivial⟩
      · exact ⟨_, rfl, trivial⟩)
  simp only [e, Out.ok_bind]
  rw [paramToVector_ok p.lA _ hlA, Out.ok_bind, paramToVector_ok p.uA _ huA, Out.ok_bind,
    paramToVector_ok p.lAD _ (by exact hlAD), Out.ok_bind, paramToVector_ok p.uAD _ (by exact huAD),
    Out.ok_bind, paramToVector_ok p.lADD _ (by exact hlADD), Out.ok_bind,
    paramToVector_ok p.uADD _ (by exact huADD), Out.ok_bind]
  exact ⟨_, rfl⟩

theorem DampInv.nodupIdx {mb : MultiBody K} {r : ℕ} {p : LimitParams K} {od : Option (SolverData K)}
    {s : DamperLimits K} (I : DampInv mb r p od s) : (s.data.map DampData.jointIndex).Nodup := by
  rw [I.idx]; exact List.Nodup.filter _ List.nodup_range

theorem DampInv.nodup {mb : MultiBody K} {r : ℕ} {p : LimitParams K} {od : Option (SolverData K)}
    {s : DamperLimits K} (I : DampInv mb r p od s) : (s.data.map DampData.alphaDBegin).Nodup := by
  have h := I.nodupIdx
  have e : s.data.map DampData.alphaDBegin = (s.data.map DampData.jointIndex).map (jpos mb) := by
    rw [List.map_map]
    exact List.map_congr_left fun d hd => (I.entry d hd).pos
  rw [e]
  refine List.Nodup.map_on ?_ h
  intro i hi j hj hij
  obtain ⟨d, hd, rfl⟩ := List.mem_map.mp hi
  obtain ⟨d', hd', rfl⟩ := List.mem_map.mp hj
  have e1 := I.entry d hd
  have e2 := I.entry d' hd'
  exact jpos_inj e1.lt e2.lt (by rw [e1.one]; omega) (by rw [e2.one]; omega) hij

/-- The entry of a one-dof joint. -/
theorem DampInv.entry_of {mb : MultiBody K} {r : ℕ} {p : LimitParams K}
    {od : Option (SolverData K)} {s : DamperLimits K} (I : DampInv mb r p od s) {i : ℕ}
    (hi : i < mb.joints.length) (h1 : jdof mb i = 1) :
    ∃ (t : ℕ) (d : DampData K), s.data[t]? = some d ∧ d.jointIndex = i := by
  have : i ∈ s.data.map DampData.jointIndex := by
    rw [I.idx, List.mem_filter]
    exact ⟨List.mem_range.mpr hi, by simp [h1]⟩
  obtain ⟨d, hd, rfl⟩ := List.mem_map.mp this
  obtain ⟨t, ht⟩ := List.mem_iff_getElem?.mp hd
  exact ⟨t, d, ht, rfl⟩

theorem entryOf_get {s : DamperLimits K} (hn : (s.data.map DampData.jointIndex).Nodup) {t : ℕ}
    {d : DampData K} (h : s.data[t]? = some d) : entryOf s d.jointIndex = some d := by
  unfold entryOf
  rcases hf : s.data.find? (fun d' => decide (d'.jointIndex = d.jointIndex)) with _ | d'
  · rw [List.find?_eq_none] at hf
    exact absurd (by simp) (hf d (List.mem_of_getElem? h))
  · have h1 := List.mem_of_find?_eq_some hf
    have h2 := List.find?_some hf
    simp only [decide_eq_true_eq] at h2
    obtain ⟨t', ht'⟩ := List.mem_iff_getElem?.mp h1
    have e1 : (s.data.map DampData.jointIndex)[t]? = some d.jointIndex := by simp [h]
    have e2 : (s.data.map DampData.jointIndex)[t']? = some d.jointIndex := by simp [ht', h2]
    have hlt : t < s.data.length := by
      by_contra hc
      rw [List.getElem?_eq_none (by omega)] at h
      cases h
    have : t = t' := (List.getElem?_inj (by simpa using hlt) hn).mp (e1.trans e2.symm)
    subst this
    rw [h] at ht'
    rw [hf]
    exact ht'.symm

/-- Everything one update does. -/
theorem damp_update {mb : MultiBody K} {r : ℕ} {p : LimitParams K} {od : Option (SolverData K)}
    {s s' : DamperLimits K} (I : DampInv mb r p od s) {q alpha alphaD : List (List K)}
    (h : s.update q alpha alphaD = .ok s') :
    DampInv mb r p od s' ∧ s'.alphaDBegin = s.alphaDBegin ∧
    (∀ a, s'.prev.get a = (alphaD.flatten[a]?).getD (s.prev.get a)) ∧
    (∀ (t : ℕ) (d : DampData K), s.data[t]? = some d → ∃ qi ai d' l u,
      nested q d.jointIndex 0 = .ok qi ∧ nested alpha d.jointIndex 0 = .ok ai ∧
      dampJoint p.dt p.off qi ai d = .ok (d', l, u) ∧ s'.data[t]? = some d' ∧
      s'.lower.get d.alphaDBegin = (l.max (s.alphaDL.get d.alphaDBegin)).max
        ((s.alphaDDL.get d.alphaDBegin).addFin (s'.prev.get d.alphaDBegin)) ∧
      s'.upper.get d.alphaDBegin = (u.min (s.alphaDU.get d.alphaDBegin)).min
        ((s.alphaDDU.get d.alphaDBegin).addFin (s'.prev.get d.alphaDBegin))) ∧
    (∀ a, (∀ d ∈ s.data, d.alphaDBegin ≠ a) →
      s'.lower.get a = ((s.lower.get a).max (s.alphaDL.get a)).max
        ((s.alphaDDL.get a).addFin (s'.prev.get a)) ∧
      s'.upper.get a = ((s.upper.get a).min (s.alphaDU.get a)).min
        ((s.alphaDDU.get a).addFin (s'.prev.get a))) := by
  unfold DamperLimits.update at h
  simp only [Out.bind_eq_ok, Out.pure_eq, Out.ok.injEq] at h
  obtain ⟨prev, hprev, s1, h1, l1, hl1, ddL, hddL, l2, hl2, u1, hu1, ddU, hddU, u2, hu2, rfl⟩ := h
  obtain ⟨_, rfl⟩ := paramToVector_eq_ok hprev
  obtain ⟨g1, g2, g3, g4, _, g6, g7⟩ := dampLoop s.data.length (by dsimp only; exact le_rfl) (by exact I.nodup) h1
  obtain ⟨c1, rfl⟩ := cwiseMax_eq_ok hl1
  obtain ⟨c2, rfl⟩ := addVec_eq_ok hddL
  obtain ⟨c3, rfl⟩ := cwiseMax_eq_ok hl2
  obtain ⟨c4, rfl⟩ := cwiseMin_eq_ok hu1
  obtain ⟨c5, rfl⟩ := addVec_eq_ok hddU
  obtain ⟨c6, rfl⟩ := cwiseMin_eq_ok hu2
  dsimp only at g2 g3 g4 g6 g7
  have ealphaDL : s1.alphaDL = s.alphaDL := by rw [g1]
  have ealphaDU : s1.alphaDU = s.alphaDU := by rw [g1]
  have ealphaDDL : s1.alphaDDL = s.alphaDDL := by rw [g1]
  have ealphaDDU : s1.alphaDDU = s.alphaDDU := by rw [g1]
  have estep : s1.step = s.step := by rw [g1]
  have eoff : s1.off = s.off := by rw [g1]
  have erob : s1.robotIndex = s.robotIndex := by rw [g1]
  have ebeg : s1.alphaDBegin = s.alphaDBegin := by rw [g1]
  have eprev : s1.prev = ⟨s.prev.size, fun i => (alphaD.flatten[i]?).getD (s.prev.get i)⟩ := by
    rw [g1]
  have key : ∀ (t : ℕ) (d : DampData K), s.data[t]? = some d → ∃ qi ai d' l u,
      nested q d.jointIndex 0 = .ok qi ∧ nested alpha d.jointIndex 0 = .ok ai ∧
      dampJoint s.step s.off qi ai d = .ok (d', l, u) ∧ s1.data[t]? = some d' ∧
      s1.lower.get d.alphaDBegin = l ∧ s1.upper.get d.alphaDBegin = u := by
    intro t d hd
    have ht : t < s.data.length := by
      by_contra hc
      rw [List.getElem?_eq_none (by omega)] at hd
      cases hd
    obtain ⟨qi, ai, d', l, u, k1, k2, k3, k4, k5, k6, _⟩ := g6 t d ht hd
    exact ⟨qi, ai, d', l, u, k1, k2, k3, k4, k5, k6⟩
  have same : ∀ (t : ℕ) (d' : DampData K), s1.data[t]? = some d' →
      ∃ d, s.data[t]? = some d ∧ d.Same d' := by
    intro t d' hd'
    have ht : t < s.data.length := by
      by_contra hc
      rw [List.getElem?_eq_none (by omega)] at hd'
      cases hd'
    have hd := List.getElem?_eq_getElem ht
    obtain ⟨_, _, d2, _, _, _, _, k3, k4, _⟩ := key t _ hd
    rw [hd'] at k4
    cases k4
    exact ⟨_, hd, (dampJoint_same k3).1⟩
  refine ⟨⟨?_, ?_, ?_, ?_, ?_, ?_, ?_, ?_, ?_, ?_, ?_, ?_, ?_, ?_, ?_, ?_, ?_⟩, ebeg, ?_, ?_, ?_⟩
  · exact erob.trans I.robot
  · exact estep.trans I.step
  · exact eoff.trans I.off
  · exact g2.trans I.sL
  · exact g3.trans I.sU
  · dsimp only; rw [ealphaDL]; exact I.sAL
  · dsimp only; rw [ealphaDU]; exact I.sAU
  · dsimp only; rw [ealphaDDL]; exact I.sDL
  · dsimp only; rw [ealphaDDU]; exact I.sDU
  · dsimp only; rw [eprev]; exact I.sP
  · dsimp only; rw [ealphaDL]; exact I.aL
  · dsimp only; rw [ealphaDU]; exact I.aU
  · dsimp only; rw [ealphaDDL]; exact I.dL
  · dsimp only; rw [ealphaDDU]; exact I.dU
  · dsimp only
    rw [← I.idx]
    apply List.ext_getElem?
    intro t
    rw [List.getElem?_map, List.getElem?_map]
    rcases e : s1.data[t]? with _ | d'
    · have : s.data[t]? = none := by
        rw [List.getElem?_eq_none_iff] at e ⊢
        omega
      rw [this]
    · obtain ⟨d, hd, hs⟩ := same t d' e
      rw [hd]
      simp [hs.2.2.2.2.2.2.1]
  · intro d' hd'
    obtain ⟨t, ht⟩ := List.mem_iff_getElem?.mp hd'
    obtain ⟨d, hd, h1, h2, h3, h4, h5, h6, h7, h8⟩ := same t d' ht
    have E := I.entry d (List.mem_of_getElem? hd)
    refine ⟨?_, ?_, ?_, ?_, ?_, ?_, ?_, ?_⟩
    · rw [h7]; exact E.lt
    · rw [h7]; exact E.one
    · rw [h7, h8]; exact E.pos
    · rw [h7, h1]; exact E.mn
    · rw [h7, h2]; exact E.mx
    · rw [h7, h3]; exact E.vmn
    · rw [h7, h4]; exact E.vmx
    · rw [h1, h2, h5, h6]; exact E.dist
  · intro d hd
    dsimp only
    rw [ebeg]
    exact I.begin' d hd
  · intro a; dsimp only; rw [eprev]
  · intro t d hd
    obtain ⟨qi, ai, d', l, u, k1, k2, k3, k4, k5, k6⟩ := key t d hd
    rw [I.step, I.off] at k3
    refine ⟨qi, ai, d', l, u, k1, k2, k3, k4, ?_, ?_⟩
    · dsimp only; rw [k5, ealphaDL, ealphaDDL, eprev]
    · dsimp only; rw [k6, ealphaDU, ealphaDDU, eprev]
  · intro a ha
    obtain ⟨e1, e2⟩ := g7 a ha
    dsimp only
    rw [e1, e2, ealphaDL, ealphaDDL, ealphaDU, ealphaDDU, eprev]
    exact ⟨rfl, rfl⟩

theorem dampInv {mb : MultiBody K} {r : ℕ} {p : LimitParams K} {od : Option (SolverData K)}
    {s : DamperLimits K} (R : DampRun mb r p od s) : DampInv mb r p od s := by
  induction R with
  | make junk s h => exact (dampMake_inv h).1
  | nrVars d s' _ h ih =>
    unfold DamperLimits.updateNrVars at h
    simp only [Out.bind_eq_ok, Out.pure_eq, Out.ok.injEq] at h
    obtain ⟨b, hb, rfl⟩ := h
    exact ⟨ih.robot, ih.step, ih.off, ih.sL, ih.sU, ih.sAL, ih.sAU, ih.sDL, ih.sDU, ih.sP, ih.aL,
      ih.aU, ih.dL, ih.dU, ih.idx, ih.entry, fun d' hd => by
        cases hd
        rw [ih.robot] at hb
        exact hb⟩
  | update q alpha alphaD s' _ h ih => exact (damp_update ih h).1

/-- The row of a one-dof joint, limits included. -/
theorem damp_row {mb : MultiBody K} {r : ℕ} {p : LimitParams K} {od : Option (SolverData K)}
    {s s' : DamperLimits K} (hdt : 0 < p.dt) (I : DampInv mb r p od s) {q alpha alphaD : List (List K)}
    (h : s.update q alpha alphaD = .ok s') {i : ℕ} (hi : i < mb.joints.length)
    (h1 : jdof mb i = 1) :
    ∃ qi ai d d' l u, nested q i 0 = .ok qi ∧ nested alpha i 0 = .ok ai ∧ entryOf s i = some d ∧
      entryOf s' i = some d' ∧ EntryOK mb p d ∧ d.jointIndex = i ∧
      dampJoint p.dt p.off qi ai d = .ok (d', l, u) ∧
      ∀ x : K, (s'.lower.get (jpos mb i)).LowerOK x ∧ (s'.upper.get (jpos mb i)).UpperOK x ↔
        (l.LowerOK x ∧ u.UpperOK x) ∧
        p.AccOK (jpos mb i) ((alphaD.flatten[jpos mb i]?).getD (s.prev.get (jpos mb i))) x := by
  obtain ⟨I', _, hp, hrow, _⟩ := damp_update I h
  obtain ⟨t, d, hd, rfl⟩ := I.entry_of hi h1
  obtain ⟨qi, ai, d', l, u, k1, k2, k3, k4, k5, k6⟩ := hrow t d hd
  have E := I.entry d (List.mem_of_getElem? hd)
  have hj : d'.jointIndex = d.jointIndex := (dampJoint_same k3).1.2.2.2.2.2.2.1
  have e' := entryOf_get I'.nodupIdx k4
  rw [hj] at e'
  refine ⟨qi, ai, d, d', l, u, k1, k2, entryOf_get I.nodupIdx hd, e', E, rfl, k3, fun x => ?_⟩
  rw [← E.pos, k5, k6, Ext.lowerOK_max, Ext.lowerOK_max, Ext.upperOK_min, Ext.upperOK_min,
    Ext.lowerOK_addFin, Ext.upperOK_addFin, I.aL, I.aU, I.dL, I.dU, mulPos_lowerOK hdt,
    mulPos_upperOK hdt, hp]
  unfold LimitParams.AccOK
  tauto

/-! ## JointLimits -/

structure LimitInv (mb : MultiBody K) (nrParams r : ℕ) (p : LimitParams K)
    (od : Option (SolverData K)) (s : JointLimits K) : Prop where
  robot : s.robotIndex = r
  step : s.step = p.dt
  off : ∃ j, mb.joints[0]? = some j ∧ s.offset = if 1 < j.dof then j.dof else 0
  sMin : s.qMin.size = mb.nrDof - s.offset
  sMax : s.qMax.size = mb.nrDof - s.offset
  sQ : s.qVec.size = nrParams
  sA : s.alphaVec.size = mb.nrDof
  sAL : s.alphaDL.size = mb.nrDof
  sAU : s.alphaDU.size = mb.nrDof
  sDL : s.alphaDDL.size = mb.nrDof
  sDU : s.alphaDDU.size = mb.nrDof
  sP : s.prev.size = mb.nrDof
  aL : ∀ a, s.alphaDL.get a = (p.lAD.flatten[a]?).getD .negInf
  aU : ∀ a, s.alphaDU.get a = (p.uAD.flatten[a]?).getD .posInf
  dL : ∀ a, s.alphaDDL.get a = ((p.lADD.flatten[a]?).getD .negInf).mulPos p.dt
  dU : ∀ a, s.alphaDDU.get a = ((p.uADD.flatten[a]?).getD .posInf).mulPos p.dt
  qL : s.offset = 0 → ∀ (a : ℕ) (e : Ext K), p.lQ.flatten[a]? = some e → s.qMin.get a = e
  qU : s.offset = 0 → ∀ (a : ℕ) (e : Ext K), p.uQ.flatten[a]? = some e → s.qMax.get a = e
  begin' : ∀ d, od = some d → ∃ b, vecAt d.alphaDBegin r = .ok b ∧ s.alphaDBegin = b + s.offset

theorem limitInv {mb : MultiBody K} {nrParams r : ℕ} {p : LimitParams K}
    {od : Option (SolverData K)} {s : JointLimits K} (R : LimitRun mb nrParams r p od s) :
    LimitInv mb nrParams r p od s := by
  induction R with
  | make junk s h =>
    unfold JointLimits.make at h
    simp only [Out.bind_eq_ok, Out.pure_eq, Out.ok.injEq] at h
    obtain ⟨j, hj, lQ, hlQ, uQ, huQ, qMin, h1, qMax, h2, aL, haL, aU, haU, dL, hdL, dU, hdU, rfl⟩ := h
    obtain ⟨_, rfl⟩ := paramToVector_eq_ok h1
    obtain ⟨_, rfl⟩ := paramToVector_eq_ok h2
    obtain ⟨_, rfl⟩ := paramToVector_eq_ok haL
    obtain ⟨_, rfl⟩ := paramToVector_eq_ok haU
    obtain ⟨_, rfl⟩ := paramToVector_eq_ok hdL
    obtain ⟨_, rfl⟩ := paramToVector_eq_ok hdU
    refine ⟨rfl, rfl, ⟨j, vecAt_eq_ok.mp hj, rfl⟩, rfl, rfl, rfl, rfl, rfl, rfl, rfl, rfl, rfl,
      fun _ => rfl, fun _ => rfl, fun _ => rfl, fun _ => rfl, ?_, ?_, fun d h => by cases h⟩
    · intro ho a e he
      dsimp only at ho ⊢
      rw [ho] at hlQ
      simp only [ne_eq, not_true_eq_false, if_false, Out.ok.injEq] at hlQ
      rw [← hlQ, he]
      rfl
    · intro ho a e he
      dsimp only at ho ⊢
      rw [ho] at huQ
      simp only [ne_eq, not_true_eq_false, if_false, Out.ok.injEq] at huQ
      rw [← huQ, he]
      rfl
  | nrVars d s' _ h ih =>
    unfold JointLimits.updateNrVars at h
    simp only [Out.bind_eq_ok, Out.pure_eq, Out.ok.injEq] at h
    obtain ⟨b, hb, rfl⟩ := h
    rw [ih.robot] at hb
    exact ⟨ih.robot, ih.step, ih.off, ih.sMin, ih.sMax, ih.sQ, ih.sA, ih.sAL, ih.sAU, ih.sDL, ih.sDU,
      ih.sP, ih.aL, ih.aU, ih.dL, ih.dU, ih.qL, ih.qU, fun d' hd => by cases hd; exact ⟨b, hb, rfl⟩⟩
  | update q alpha alphaD s' _ h ih =>
    unfold JointLimits.update at h
    simp only [Out.bind_eq_ok, Out.pure_eq, Out.ok.injEq] at h
    obtain ⟨qV, hq, aV, ha, pV, hp, _, _, _, _, _, _, _, _, _, _, _, _, _, _, _, _, _, _, _, _, rfl⟩ := h
    obtain ⟨_, rfl⟩ := paramToVector_eq_ok hq
    obtain ⟨_, rfl⟩ := paramToVector_eq_ok ha
    obtain ⟨_, rfl⟩ := paramToVector_eq_ok hp
    exact ⟨ih.robot, ih.step, ih.off, ih.sMin, ih.sMax, ih.sQ, ih.sA, ih.sAL, ih.sAU, ih.sDL, ih.sDU,
      ih.sP, ih.aL, ih.aU, ih.dL, ih.dU, ih.qL, ih.qU, ih.begin'⟩

end Verif
