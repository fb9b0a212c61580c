import Verif.Props.Mimic

/-!
# C10 with mimic joints, and C12 (optimality) for LSSOL
-/

set_option autoImplicit false
set_option linter.unusedSectionVars false

namespace Verif

open Finset Spec

variable {K : Type} [Field K] [LinearOrder K] [IsStrictOrderedRing K]

/-! ## Symmetry -/

theorem fillQC_symm {n : ℕ} {ts : List (TaskQC K)} (hs : ∀ t ∈ ts, t.Sized n) (hc : ∀ t ∈ ts, TaskConvex t)
    {o : Mat K × Vec K} (h : fillQC ts n (Mat.zero n n, Vec.const n 0) = .ok o) (a b : ℕ) :
    o.1.get a b = o.1.get b a := by
  obtain ⟨o', e, _, _, _, hQ, _⟩ := fillQC_ok n ts hs
  rw [e] at h
  cases h
  rw [hQ, hQ]
  congr 1
  · congr 1
    exact List.map_congr_left fun t ht => TaskQC.q_symm (hc t ht) a b
  · by_cases hab : a = b
    · subst hab; rfl
    · rw [if_neg (fun h => hab h.1), if_neg (fun h => hab h.1.symm)]

theorem reduceQC_symm {Q : Mat K} {C : Vec K} {M : Mat K} {QC : Mat K × Vec K} (h : reduceQC Q C M = .ok QC)
    (hQ : ∀ a b, Q.get a b = Q.get b a) (a b : ℕ) : QC.1.get a b = QC.1.get b a := by
  unfold reduceQC at h
  split at h
  · cases h
    simp only [Finset.sum_mul]
    rw [Finset.sum_comm]
    refine Finset.sum_congr rfl fun k _ => Finset.sum_congr rfl fun l _ => ?_
    rw [hQ k l]
    ring
  · cases h

theorem qld_symm {n re ri : ℕ} {inp : QPInput K} {s s1 : Qld K} {p : QldProblem K} (hs : s.SizedFor n re ri)
    (ht : ∀ t ∈ inp.tasks, t.Sized n) (hc : ∀ t ∈ inp.tasks, TaskConvex t) (h : s.updateMatrix inp = .ok s1)
    (hp : s1.problem = .ok p) (a b : ℕ) : p.Q.get a b = p.Q.get b a := by
  unfold Qld.updateMatrix at h
  simp only [Out.bind_eq_ok] at h
  obtain ⟨e, _, q0, _, q, _, X, _, o, ho, h⟩ := h
  rw [hs.Qr, hs.Qc, hs.C] at ho
  have hsym := fillQC_symm ht hc ho
  unfold Qld.problem at hp
  by_cases hd : s.dep.deps.length ≠ 0
  · rw [if_pos hd] at h
    simp only [Out.bind_eq_ok] at h
    obtain ⟨_, _, _, _, _, _, QC, hQC, h⟩ := h
    cases h
    rw [if_pos hd] at hp
    simp only [Out.bind_eq_ok] at hp
    obtain ⟨_, _, _, _, _, _, _, _, hp⟩ := hp
    cases hp
    exact reduceQC_symm hQC hsym a b
  · rw [if_neg hd] at h
    cases h
    rw [if_neg hd] at hp
    simp only [Out.bind_eq_ok] at hp
    obtain ⟨_, _, _, _, _, _, _, _, hp⟩ := hp
    cases hp
    exact hsym a b

theorem lssol_symm {n re : ℕ} {inp : QPInput K} {s s1 : Lssol K} {p : LssolProblem K} (hs : s.SizedFor n re)
    (ht : ∀ t ∈ inp.tasks, t.Sized n) (hc : ∀ t ∈ inp.tasks, TaskConvex t) (h : s.updateMatrix inp = .ok s1)
    (hp : s1.problem = .ok p) (a b : ℕ) : p.Q.get a b = p.Q.get b a := by
  unfold Lssol.updateMatrix at h
  simp only [Out.bind_eq_ok] at h
  obtain ⟨e, _, q0, _, q, _, X, _, o, ho, h⟩ := h
  rw [hs.Qr, hs.Qc, hs.C] at ho
  have hsym := fillQC_symm ht hc ho
  unfold Lssol.problem at hp
  by_cases hd : s.dep.deps.length ≠ 0
  · rw [if_pos hd] at h
    simp only [Out.bind_eq_ok] at h
    obtain ⟨_, _, _, _, QC, hQC, h⟩ := h
    cases h
    rw [if_pos hd] at hp
    simp only [Out.bind_eq_ok] at hp
    obtain ⟨_, _, _, _, _, _, hp⟩ := hp
    cases hp
    exact reduceQC_symm hQC hsym a b
  · rw [if_neg hd] at h
    cases h
    rw [if_neg hd] at hp
    simp only [Out.bind_eq_ok] at hp
    obtain ⟨_, _, _, _, _, _, hp⟩ := hp
    cases hp
    exact hsym a b

/-! ## The quadratic form -/

theorem quad_of_obj (m : ℕ) (Q : ℕ → ℕ → K) (C y : ℕ → K) :
    ∑ i ∈ range m, ∑ j ∈ range m, y i * Q i j * y j = quadObj m Q C y + quadObj m Q C (fun i => -y i) := by
  unfold quadObj
  have h1 : ∑ i ∈ range m, ∑ j ∈ range m, -y i * Q i j * -y j = ∑ i ∈ range m, ∑ j ∈ range m, y i * Q i j * y j :=
    Finset.sum_congr rfl fun i _ => Finset.sum_congr rfl fun j _ => by ring
  have h2 : ∑ i ∈ range m, C i * -y i = -∑ i ∈ range m, C i * y i := by
    rw [← Finset.sum_neg_distrib]
    exact Finset.sum_congr rfl fun i _ => by ring
  rw [h1, h2]
  ring

theorem fullX_neg (ds : DepSt K) (y : ℕ → K) : fullX ds (fun i => -y i) = fun i => -fullX ds y i := by
  unfold fullX
  split
  · funext i
    unfold expand
    rw [← Finset.sum_neg_distrib]
    exact Finset.sum_congr rfl fun j _ => by ring
  · rfl

/-- The unit vector. -/
def unitVec (r : ℕ) : ℕ → K := fun i => if i = r then 1 else 0

theorem quad_unit (m : ℕ) (Q : ℕ → ℕ → K) {r : ℕ} (hr : r < m) :
    ∑ i ∈ range m, ∑ j ∈ range m, unitVec r i * Q i j * unitVec r j = Q r r := by
  have : ∀ i j, (unitVec r i * Q i j * unitVec r j : K) = if j = r then (if i = r then Q i j else 0) else 0 := by
    intro i j
    unfold unitVec
    split_ifs <;> simp
  simp only [this, Finset.sum_ite_eq', Finset.mem_range, hr, if_true]

theorem reg_nonneg_form {n : ℕ} {inp : QPInput K} {e i g : ℕ} (hi : InputFits n e i g inp) (hc : ∀ t ∈ inp.tasks, TaskConvex t) :
    ∃ Q : ℕ → ℕ → K, (∀ x, objective n inp x + objective n inp (fun i => -x i)
        = ∑ i ∈ range n, ∑ j ∈ range n, x i * Q i j * x j) ∧
      (∀ x : ℕ → K, 0 ≤ ∑ i ∈ range n, ∑ j ∈ range n, x i * Q i j * x j) ∧ ∀ a < n, 1 / 10000 ≤ Q a a := by
  have hdf : DepsAre (K := K) n [] (Qld.init (K := K)).dep :=
    ⟨⟨List.nodup_nil, by simp, by simp⟩, Or.inl ⟨rfl, rfl⟩⟩
  have hfs : ∀ j ∈ ([] : List (QPInput K)) ++ [inp], InputFits n e i g j := by
    intro j hj; simp at hj; subst hj; exact hi
  obtain ⟨p, hp, _, hsz, _⟩ := qldRun_spec hfs hdf
  obtain ⟨_, _, _, hpsd, hdiag⟩ := (C10_hessian_convex hfs hc).1 _ p hdf hp
  refine ⟨p.Q.get, fun x => ?_, hpsd, hdiag⟩
  have ho := fun x => (C09_objective hfs x).1 _ p hdf hp
  rw [← ho, ← ho, quad_of_obj n p.Q.get p.C.get x]
  unfold QldProblem.obj
  rw [hsz]
  simp

theorem fullX_unit {n : ℕ} {deps : List (ℕ × ℕ × K)} {ds : DepSt K} (hd : DepsAre n deps ds) {r k : ℕ}
    (hrk : (freeVars n deps)[r]? = some k) (hlead : ∀ d ∈ deps, d.1 ≠ k) :
    ∀ v < n, fullX ds (unitVec r) v = unitVec k v := by
  obtain ⟨_, hperm, hspec⟩ := hd.ok
  have hkm := List.mem_of_getElem? hrk
  simp only [freeVars, List.mem_filter, List.mem_range, decide_eq_true_eq] at hkm
  intro v hv
  by_cases hne : deps = []
  · subst hne
    rw [fullX_nil hd]
    have : r = k := by
      simp only [freeVars, List.not_mem_nil, false_implies, implies_true, decide_true, List.filter_true] at hrk
      obtain ⟨h1, h2⟩ := List.getElem?_eq_some_iff.mp hrk
      simpa using h2
    rw [this]
  have hds := hspec hne
  have hl : ds.deps.length ≠ 0 := by
    rw [hperm.length_eq, List.length_eq_zero_iff.ne]; exact hne
  have hkR : k ∉ reps deps := by
    intro hc
    obtain ⟨d, hdm, heq⟩ := List.mem_map.mp hc
    exact hkm.2 d hdm heq
  rw [← nonrep_eq_freeVars] at hrk
  have hnd : (nonrep deps n).Nodup := List.Nodup.filter _ List.nodup_range
  have hrank : ∀ w < n, w ∉ reps deps → (rank deps w = r ↔ w = k) := by
    intro w hw hR
    have hg := nonrep_getElem hw hR
    constructor
    · intro he
      rw [he, hrk] at hg
      exact (Option.some.inj hg).symm
    · intro he
      subst he
      obtain ⟨a1, a2⟩ := List.getElem?_eq_some_iff.mp hg
      obtain ⟨b1, b2⟩ := List.getElem?_eq_some_iff.mp hrk
      exact (List.Nodup.getElem_inj_iff hnd).mp (a2.trans b2.symm)
  unfold fullX
  rw [if_pos hl]
  by_cases hR : v ∈ reps deps
  · obtain ⟨d, hdm, rfl⟩ := List.mem_map.mp hR
    have hl' : d.1 ∉ reps deps := by
      intro hc
      obtain ⟨e, he, heq⟩ := List.mem_map.mp hc
      exact hd.1.2.2 d hdm e he heq.symm
    have h1 : expand ds.M (unitVec r) d.2.1 = d.2.2 * unitVec r (rank deps d.1) := hds.mulRep d hdm _
    rw [h1]
    unfold unitVec
    rw [if_neg (fun hh => hlead d hdm ((hrank _ (hd.1.2.1 d hdm).1 hl').mp hh)), if_neg (hkm.2 d hdm), mul_zero]
  · have h1 : expand ds.M (unitVec r) v = unitVec r (rank deps v) := hds.mulKeep v hv hR _
    rw [h1]
    unfold unitVec
    simp only [hrank v hv hR]

/-! ## The properties -/

/-- **C10** (mimic joints): with dependencies the Hessian handed to either backend still has the size of the
reduced problem, is symmetric and positive semidefinite, and the diagonal entry of every variable that no
joint mimics is at least 1e-4. -/
theorem C10_reduced {n e i g : ℕ} {hist : List (QPInput K)} {inp : QPInput K}
    (h : ∀ j ∈ hist ++ [inp], InputFits n e i g j) (hc : ∀ t ∈ inp.tasks, TaskConvex t)
    {deps : List (ℕ × ℕ × K)} :
    let m := n - deps.length
    let Good := fun Q : Mat K => Q.rows = m ∧ Q.cols = m ∧ (∀ a b, Q.get a b = Q.get b a) ∧
      (∀ y : ℕ → K, 0 ≤ ∑ i ∈ range m, ∑ j ∈ range m, y i * Q.get i j * y j) ∧
      ∀ r k : ℕ, (freeVars n deps)[r]? = some k → (∀ d ∈ deps, d.1 ≠ k) → 1 / 10000 ≤ Q.get r r
    (∀ (s0 : Qld K) (p : QldProblem K), DepsAre n deps s0.dep → QldRun n e i g hist inp s0 p → Good p.Q) ∧
    (∀ (s0 : Lssol K) (p : LssolProblem K), DepsAre n deps s0.dep → LssolRun n e i g hist inp s0 p → Good p.Q) := by
  intro m Good
  have hi := h inp (by simp)
  obtain ⟨Qf, hQf, hpsd, hdiag⟩ := reg_nonneg_form hi hc
  have key : ∀ (ds : DepSt K) (Q : Mat K) (C : ℕ → K), DepsAre n deps ds → Q.rows = m → Q.cols = m →
      (∀ a b, Q.get a b = Q.get b a) → (∀ y, quadObj m Q.get C y = objective n inp (fullX ds y)) → Good Q := by
    intro ds Q C hd h1 h2 h3 h4
    have hq : ∀ y : ℕ → K, ∑ i ∈ range m, ∑ j ∈ range m, y i * Q.get i j * y j
        = ∑ i ∈ range n, ∑ j ∈ range n, fullX ds y i * Qf i j * fullX ds y j := by
      intro y
      rw [quad_of_obj m Q.get C y, h4, h4, fullX_neg, hQf]
    refine ⟨h1, h2, h3, fun y => by rw [hq]; exact hpsd _, ?_⟩
    intro r k hrk hlead
    have hkn : k < n := by
      have := List.mem_of_getElem? hrk
      simp only [freeVars, List.mem_filter, List.mem_range] at this
      exact this.1
    have hrm : r < m := by
      have h5 := (List.getElem?_eq_some_iff.mp hrk).1
      rw [← nonrep_eq_freeVars] at h5
      have h6 := nonrep_length hd.1
      simp only [m]
      omega
    rw [← quad_unit m Q.get hrm, hq]
    have hu := fullX_unit hd hrk hlead
    rw [show ∑ i ∈ range n, ∑ j ∈ range n, fullX ds (unitVec r) i * Qf i j * fullX ds (unitVec r) j
        = ∑ i ∈ range n, ∑ j ∈ range n, unitVec k i * Qf i j * unitVec k j from
      Finset.sum_congr rfl fun i hi => Finset.sum_congr rfl fun j hj => by
        rw [hu i (Finset.mem_range.mp hi), hu j (Finset.mem_range.mp hj)], quad_unit n Qf hkn]
    exact hdiag k hkn
  have ht := (h inp (by simp)).1.1
  constructor
  · intro s0 p hd hp
    obtain ⟨p', _, hu, r0, r1, r2, _, _, _, _, _, _, _, _, ho, _⟩ := qldRun_spec h hd
    have e0 := hu p hp
    refine key s0.dep p.Q p.C.get hd (by rw [e0, r1]) (by rw [e0, r2]) ?_ ?_
    · obtain ⟨s, s1, e1, e2, e3⟩ := hp
      obtain ⟨hs0, hdep0⟩ := Qld.updateSize_sized n e i g s0
      obtain ⟨s', e1', hs, _⟩ := Qld.hist_ok (hist := hist) (fun j hj => h j (by simp [hj])) hs0
        (by rw [hdep0]; exact hd.ok.1)
      rw [e1] at e1'
      cases e1'
      exact qld_symm hs ht hc e2 e3
    · intro y
      have := ho y
      unfold QldProblem.obj at this
      rw [r0] at this
      rw [e0]
      exact this
  · intro s0 p hd hp
    obtain ⟨p', _, hu, r0, r1, r2, _, _, _, _, _, _, ho, _⟩ := lssolRun_spec h hd
    have e0 := hu p hp
    refine key s0.dep p.Q p.C.get hd (by rw [e0, r1]) (by rw [e0, r2]) ?_ ?_
    · obtain ⟨s, s1, e1, e2, e3⟩ := hp
      obtain ⟨hs0, hdep0⟩ := Lssol.updateSize_sized n e i g s0
      obtain ⟨s', e1', hs, _⟩ := Lssol.hist_ok (hist := hist) (fun j hj => h j (by simp [hj])) hs0
        (by rw [hdep0]; exact hd.ok.1)
      rw [e1] at e1'
      cases e1'
      exact lssol_symm hs ht hc e2 e3
    · intro y
      have := ho y
      unfold LssolProblem.obj at this
      rw [r0] at this
      rw [e0]
      exact this

/-- Two variables, the second mimics the first with multiplier -1. -/
theorem exOpposite_wf : DepsWF 2 [(0, 1, (-1 : ℚ))] := by
  refine ⟨by decide, ?_, ?_⟩ <;> simp

/-- **C10** (mimic joints): the reduction undoes the regularisation.  With the convex task `[[1,1],[1,1]]` and a joint
that mimics another one with multiplier -1, the Hessian handed to the backend is `[0]`. -/
theorem C10_reduced_zero_diagonal :
    ∃ (s0 : Qld ℚ) (p : QldProblem ℚ), DepsAre 2 [(0, 1, (-1 : ℚ))] s0.dep ∧ (∀ t ∈ exSingular.tasks, TaskConvex t) ∧
      QldRun 2 0 0 0 [] exSingular s0 p ∧ p.Q.rows = 1 ∧ p.Q.get 0 0 = 0 := by
  obtain ⟨ds, e, hs⟩ := setDependencies_ok exOpposite_wf (by decide) DepSt.init
  have hdr : DepsAre 2 [(0, 1, (-1 : ℚ))] ({ Qld.init with dep := ds } : Qld ℚ).dep :=
    ⟨exOpposite_wf, Or.inr ⟨_, e⟩⟩
  have hfs : ∀ j ∈ ([] : List (QPInput ℚ)) ++ [exSingular], InputFits 2 0 0 0 j := by
    intro j hj; simp at hj; subst hj; exact exSingular_fits
  obtain ⟨p, hp, _, h0, h1, _, _, _, _, _, _, _, _, _, ho, _⟩ := qldRun_spec hfs hdr
  refine ⟨_, p, hdr, exSingular_convex, hp, h1, ?_⟩
  have h2 := quad_unit 1 p.Q.get (r := 0) (by decide)
  rw [← h2, quad_of_obj 1 p.Q.get p.C.get]
  have ho1 := ho (unitVec 0)
  have ho2 := ho (fun i => -unitVec 0 i)
  unfold QldProblem.obj at ho1 ho2
  rw [h0] at ho1 ho2
  change quadObj 1 _ _ _ = _ at ho1 ho2
  rw [ho1, ho2, fullX_neg]
  have hl : ds.deps.length ≠ 0 := by rw [hs.perm.length_eq]; decide
  have x0 : fullX ds (unitVec 0) 0 = (1 : ℚ) := by
    unfold fullX
    rw [if_pos hl]
    exact hs.mulKeep 0 (by decide) (by simp [reps]) _
  have x1 : fullX ds (unitVec 0) 1 = (-1 : ℚ) := by
    unfold fullX
    rw [if_pos hl]
    have := hs.mulRep (0, 1, -1) (by simp) (unitVec 0)
    refine this.trans ?_
    have : rank [(0, 1, (-1 : ℚ))] 0 = 0 := rfl
    simp [this, unitVec]
  have hf : (range 2).filter (fun i => |accDiag exSingular.tasks i| < (1 : ℚ) / 10000) = ∅ := by
    ext i
    simp only [mem_filter, mem_range, Finset.notMem_empty, iff_false, not_and, not_lt]
    intro hi
    interval_cases i <;> simp [accDiag, exSingular, TaskQC.q, Mat.ofRows] <;> norm_num
  unfold objective
  rw [hf]
  simp [exSingular, TaskQC.obj, Mat.ofRows, Vec.ofList, Finset.sum_range_succ, x0, x1]

/-- A problem with four variables, two of them mimicking (`exDeps`), and a convex task meets the hypotheses of
`C10_reduced`; variable 0 of the reduced problem is variable 1 and is followed by no joint. -/
example : ∃ (s0 : Qld ℚ) (p : QldProblem ℚ), DepsAre 4 exDeps s0.dep ∧ InputFits 4 0 0 0 exSingular ∧
    (∀ t ∈ exSingular.tasks, TaskConvex t) ∧ QldRun 4 0 0 0 [] exSingular s0 p ∧
    (freeVars 4 exDeps)[(0 : ℕ)]? = some 1 ∧ ∀ d ∈ exDeps, d.1 ≠ 1 := by
  have hfit : InputFits 4 0 0 0 exSingular := by
    refine ⟨⟨?_, by simp [exSingular], by simp [exSingular], by simp [exSingular],
      by simp [exSingular]⟩, by decide, by decide, by decide⟩
    intro t ht; simp only [exSingular, List.mem_singleton] at ht; subst ht
    exact ⟨by decide, by decide, rfl⟩
  have hfs : ∀ j ∈ ([] : List (QPInput ℚ)) ++ [exSingular], InputFits 4 0 0 0 j := by
    intro j hj; simp at hj; subst hj; exact hfit
  obtain ⟨ds, e, _⟩ := setDependencies_ok exDeps_wf (by decide) DepSt.init
  have hdr : DepsAre 4 exDeps ({ Qld.init with dep := ds } : Qld ℚ).dep := ⟨exDeps_wf, Or.inr ⟨_, e⟩⟩
  obtain ⟨p, hp, _⟩ := qldRun_spec hfs hdr
  refine ⟨_, p, hdr, hfit, exSingular_convex, hp, by decide, ?_⟩
  intro d hd
  simp only [exDeps, List.mem_cons, List.not_mem_nil, or_false] at hd
  rcases hd with rfl | rfl <;> decide

/-- **C12**, optimality (LSSOL). -/
theorem C12_optimal_lssol_partial {n e i g : ℕ} {histr histf : List (QPInput K)} {inp : QPInput K}
    (hr : ∀ j ∈ histr ++ [inp], InputFits n e i g j)
    (hf : ∀ j ∈ histf ++ [inp], InputFits n e i g j)
    {deps : List (ℕ × ℕ × K)} {sr sf : Lssol K} (hdr : DepsAre n deps sr.dep)
    (hdf : DepsAre n [] sf.dep) {pr pf : LssolProblem K}
    (hpr : LssolRun n e i g histr inp sr pr) (hpf : LssolRun n e i g histf inp sf pf)
    (hzero : ∀ d ∈ deps, d.2.2 = 0 → LastBounds inp d.2.1 0) {y : ℕ → K}
    (hfeas : pr.Feasible y) (hopt : ∀ z, pr.Feasible z → pr.obj y ≤ pr.obj z) :
    pf.Feasible (fullX sr.dep y) ∧ Mimic deps (fullX sr.dep y) ∧
    ∀ x, pf.Feasible x → Mimic deps x → pf.obj (fullX sr.dep y) ≤ pf.obj x := by
  have core := C12_reduction_lssol_partial hr hf hdr hdf hpr hpf hzero
  refine ⟨(core y).1.mp hfeas, fullX_mimic hdr y, fun x hx hm => ?_⟩
  obtain ⟨z, hz⟩ := fullX_surj hdr hm
  obtain ⟨pf', _, hu', _, _, _, _, _, _, _, hl', hb', _⟩ := lssolRun_spec hf hdf
  have hsz := (core y).2.2.2.2
  have hfz : pf.Feasible (fullX sr.dep z) := by
    have e1 := hu' pf hpf
    unfold LssolProblem.Feasible at hx ⊢
    rw [e1] at hx ⊢
    rw [hl', hb', fullX_nil hdf, boundsAt_nil n inp _ hdf] at hx ⊢
    rw [satLines_congr hz]
    exact ⟨hx.1, fun v hv => by rw [hz v hv]; exact hx.2 v hv⟩
  have hle := hopt z ((core z).1.mpr hfz)
  rw [(core y).2.2.1, (core z).2.2.1] at hle
  have : pf.obj (fullX sr.dep z) = pf.obj x := by
    unfold LssolProblem.obj
    rw [hsz]
    exact quadObj_congr hz
  rw [← this]
  exact hle

end Verif
