import Verif.Props.Fill

/-! # C11, C12: mimic joints and the reduced problem -/

set_option autoImplicit false
set_option linter.unusedSectionVars false

namespace Verif

open Finset Spec

variable {K : Type} [Field K] [LinearOrder K] [IsStrictOrderedRing K]

/-! ## Specification -/

namespace Spec

/-- `x` satisfies the mimic relations: replica = multiplier * leader. -/
def Mimic (deps : List (ℕ × ℕ × K)) (x : ℕ → K) : Prop :=
  ∀ d ∈ deps, x d.2.1 = d.2.2 * x d.1

/-- Variables that are not replicas, in increasing order. -/
def freeVars (n : ℕ) (deps : List (ℕ × ℕ × K)) : List ℕ :=
  (List.range n).filter fun k => ∀ d ∈ deps, d.2.1 ≠ k

end Spec

/-! ## Helpers -/

theorem nonrep_eq_freeVars (n : ℕ) (deps : List (ℕ × ℕ × K)) :
    nonrep deps n = freeVars n deps := by
  unfold nonrep freeVars
  apply List.filter_congr
  intro k _
  simp only [reps, List.mem_map, decide_eq_decide]
  constructor
  · intro h d hd heq; exact h ⟨d, hd, heq⟩
  · rintro h ⟨d, hd, heq⟩; exact h d hd heq

theorem fullX_mimic {n : ℕ} {deps : List (ℕ × ℕ × K)} {ds : DepSt K} (hd : DepsAre n deps ds)
    (y : ℕ → K) : Mimic deps (fullX ds y) := by
  obtain ⟨_, hperm, hspec⟩ := hd.ok
  intro d hdm
  have hne : deps ≠ [] := List.ne_nil_of_mem hdm
  have hds := hspec hne
  have hl : ds.deps.length ≠ 0 := by
    rw [hperm.length_eq, List.length_eq_zero_iff.ne]; exact hne
  have hlead : d.1 ∉ reps deps := by
    intro hc
    obtain ⟨e, he, heq⟩ := List.mem_map.mp hc
    exact hd.1.2.2 d hdm e he heq.symm
  have h1 : expand ds.M y d.2.1 = d.2.2 * y (rank deps d.1) := hds.mulRep d hdm y
  have h2 : expand ds.M y d.1 = y (rank deps d.1) := hds.mulKeep d.1 (hd.1.2.1 d hdm).1 hlead y
  unfold fullX
  rw [if_pos hl, h1, h2]

theorem fullX_surj {n : ℕ} {deps : List (ℕ × ℕ × K)} {ds : DepSt K} (hd : DepsAre n deps ds)
    {x : ℕ → K} (hx : Mimic deps x) : ∃ y, ∀ v < n, fullX ds y v = x v := by
  obtain ⟨_, hperm, hspec⟩ := hd.ok
  by_cases hne : deps = []
  · subst hne
    exact ⟨x, fun v _ => by rw [fullX_nil hd]⟩
  have hds := hspec hne
  have hl : ds.deps.length ≠ 0 := by
    rw [hperm.length_eq, List.length_eq_zero_iff.ne]; exact hne
  refine ⟨fun r => x ((nonrep deps n).getD r 0), fun v hv => ?_⟩
  unfold fullX
  rw [if_pos hl]
  have keep : ∀ v < n, v ∉ reps deps →
      expand ds.M (fun r => x ((nonrep deps n).getD r 0)) v = x v := by
    intro v hv hR
    have : expand ds.M _ v = _ := hds.mulKeep v hv hR (fun r => x ((nonrep deps n).getD r 0))
    rw [this, List.getD_eq_getElem?_getD, nonrep_getElem hv hR]
    rfl
  by_cases hR : v ∈ reps deps
  · obtain ⟨d, hdm, rfl⟩ := List.mem_map.mp hR
    have hlead : d.1 ∉ reps deps := by
      intro hc
      obtain ⟨e, he, heq⟩ := List.mem_map.mp hc
      exact hd.1.2.2 d hdm e he heq.symm
    have h1 : expand ds.M (fun r => x ((nonrep deps n).getD r 0)) d.2.1
      = d.2.2 * x ((nonrep deps n).getD (rank deps d.1) 0) := hds.mulRep d hdm _
    rw [h1, hx d hdm, List.getD_eq_getElem?_getD, nonrep_getElem (hd.1.2.1 d hdm).1 hlead]
    rfl
  · exact keep v hv hR

theorem boundsAt_all {n : ℕ} {inp : QPInput K} {deps : List (ℕ × ℕ × K)} {ds : DepSt K}
    (hd : DepsAre n deps ds)
    (hzero : ∀ d ∈ deps, d.2.2 = 0 → LastBounds inp d.2.1 0) (y : ℕ → K) :
    BoundsAt n inp ds.deps (fullX ds y) ↔ ∀ v < n, LastBounds inp v (fullX ds y v) := by
  obtain ⟨_, hperm, _⟩ := hd.ok
  constructor
  · intro h v hv
    by_cases hR : v ∈ reps ds.deps
    · obtain ⟨d, hdm, rfl⟩ := List.mem_map.mp hR
      by_cases h0 : d.2.2 = 0
      · have hdm' := hperm.mem_iff.mp hdm
        rw [fullX_mimic hd y d hdm', h0, zero_mul]
        exact hzero d hdm' h0
      · exact h _ hv (Or.inr ⟨d, hdm, rfl, h0⟩)
    · exact h v hv (Or.inl hR)
  · intro h v hv _
    exact h v hv

theorem satLines_congr {n : ℕ} {inp : QPInput K} {x x' : ℕ → K} (h : ∀ v < n, x v = x' v) :
    SatLines n inp x ↔ SatLines n inp x' := by
  have : ∀ (A : Mat K) (i : ℕ), lineVal n A i x = lineVal n A i x' := by
    intro A i
    unfold lineVal
    apply Finset.sum_congr rfl
    intro j hj
    rw [h j (mem_range.mp hj)]
  unfold SatLines
  simp only [this]

/-! ## C11 -/

/-- **C11**: for well-formed dependencies, in any order and whatever was set before, the maps
between full and reduced variables are mutually inverse on the free variables and the multiplier
matrix reproduces the free variables and the mimic relations. -/
theorem C11_dependency_maps {n : ℕ} {deps : List (ℕ × ℕ × K)} (h : DepsWF n deps)
    (hn : 0 < n) (prev : DepSt K) :
    ∃ ds, setDependencies n deps prev = .ok ds ∧ ds.deps.Perm deps ∧
      ds.reducedToFull = (freeVars n deps).map (fun k : ℕ => (k : ℤ)) ∧
      (freeVars n deps).length = n - deps.length ∧
      (∀ (r k : ℕ), (freeVars n deps)[r]? = some k → ds.fullToReduced[k]? = some (r : ℤ)) ∧
      ds.M.rows = n ∧ ds.M.cols = n - deps.length ∧
      ∀ y : ℕ → K, (∀ r k : ℕ, (freeVars n deps)[r]? = some k → expand ds.M y k = y r) ∧
        Mimic deps (expand ds.M y) := by
  obtain ⟨ds, e, hs⟩ := setDependencies_ok h hn prev
  have hlen := nonrep_length h
  rw [← nonrep_eq_freeVars]
  have hrk : ∀ r k : ℕ, (nonrep deps n)[r]? = some k → k < n ∧ k ∉ reps deps ∧ rank deps k = r := by
    intro r k hr
    obtain ⟨hlt, hget⟩ := List.getElem?_eq_some_iff.mp hr
    have hm := mem_nonrep.mp (hget ▸ List.getElem_mem hlt)
    refine ⟨hm.1, hm.2, ?_⟩
    have h1 := nonrep_getElem hm.1 hm.2
    obtain ⟨hlt', hget'⟩ := List.getElem?_eq_some_iff.mp h1
    exact (List.Nodup.getElem_inj_iff (nonrep_nodup deps n)).mp (hget'.trans hget.symm)
  refine ⟨ds, e, hs.perm, hs.r2fEq, by omega, ?_, hs.rows, hs.cols, fun y => ⟨?_, ?_⟩⟩
  · intro r k hr
    obtain ⟨h1, h2, h3⟩ := hrk r k hr
    rw [hs.f2r k h1 h2, h3]
  · intro r k hr
    obtain ⟨h1, h2, h3⟩ := hrk r k hr
    have : expand ds.M y k = y (rank deps k) := hs.mulKeep k h1 h2 y
    rw [this, h3]
  · intro d hdm
    have hlead : d.1 ∉ reps deps := by
      intro hc
      obtain ⟨e, he, heq⟩ := List.mem_map.mp hc
      exact h.2.2 d hdm e he heq.symm
    have h1 : expand ds.M y d.2.1 = d.2.2 * y (rank deps d.1) := hs.mulRep d hdm y
    have h2 : expand ds.M y d.1 = y (rank deps d.1) := hs.mulKeep d.1 (h.2.1 d hdm).1 hlead y
    rw [h1, h2]

/-- Two mimic joints of one leader, given in decreasing order, one with a negative multiplier. -/
def exDeps : List (ℕ × ℕ × ℚ) := [(2, 3, -2), (2, 0, 1 / 2)]

theorem exDeps_wf : DepsWF 4 exDeps := by
  refine ⟨by decide, ?_, ?_⟩ <;> simp [exDeps]

example : DepsWF 4 exDeps ∧ 0 < 4 ∧ freeVars 4 exDeps = [1, 2] := ⟨exDeps_wf, by decide, by decide⟩

/-- A problem without variables (fixed robots only, no contact) fails the assertion, with or without
mimic joints. -/
theorem C11_no_variables_ub (deps : List (ℕ × ℕ × K)) (prev : DepSt K) :
    setDependencies 0 deps prev = .ub := if_pos (Nat.zero_le _)

theorem exChain_sorted : List.mergeSort [(0, 1, (2 : ℚ)), (1, 2, 3)]
    (fun a b => decide (a.2.1 ≤ b.2.1)) = [(0, 1, (2 : ℚ)), (1, 2, 3)] :=
  List.mergeSort_of_pairwise (by simp)

/-- A mimic joint following another mimic joint is outside the hypotheses, and rightly so: on a
fresh backend the matrix is written at column -1. -/
theorem C11_mimic_chain_ub :
    setDependencies 4 [(0, 1, (2 : ℚ)), (1, 2, 3)] DepSt.init = .ub := by
  rw [setDependencies, if_neg (by decide), exChain_sorted]
  rfl

/-- On a backend that was used before, the same chain silently attaches the second replica to an
unrelated variable: `x2 = 3 x3` instead of `x2 = 3 x1`. -/
theorem C11_mimic_chain_stale :
    ∃ ds1 ds, setDependencies 4 ([] : List (ℕ × ℕ × ℚ)) DepSt.init = .ok ds1 ∧
      setDependencies 4 [(0, 1, (2 : ℚ)), (1, 2, 3)] ds1 = .ok ds ∧
      ∀ y : ℕ → ℚ, expand ds.M y 2 = 3 * expand ds.M y 3 ∧ expand ds.M y 1 = 2 * expand ds.M y 0 := by
  apply Exists.intro
  apply Exists.intro
  refine ⟨?_, ?_, fun y => ?_⟩
  · rw [setDependencies, if_neg (by decide), List.mergeSort_nil]
    rfl
  · rw [setDependencies, if_neg (by decide), exChain_sorted]
    rfl
  · simp [expand, Finset.sum_range_succ]

/-! ## C12 -/

/-- **C12**, full statement: `y` is feasible for the reduced problem exactly when the expanded
vector is feasible for the unreduced problem.  False for a multiplier equal to 0, see
`C12_counterexample`. -/
def C12_full (K : Type) [Field K] [LinearOrder K] : Prop :=
  ∀ (n e i g : ℕ) (inp : QPInput K) (deps : List (ℕ × ℕ × K)) (sr sf : Qld K)
    (pr pf : QldProblem K), InputFits n e i g inp → DepsAre n deps sr.dep → DepsAre n [] sf.dep →
    QldRun n e i g [] inp sr pr → QldRun n e i g [] inp sf pf →
    ∀ y, pr.Feasible y ↔ pf.Feasible (fullX sr.dep y)

/-- **C12** (QLD): the reduced problem at `y` is the full problem at the expanded vector: same
objective, same lines, and same bounds provided a replica with multiplier exactly 0 has 0 within
its bounds (what is missing: that case, where the code drops the bounds).  `pr` is the problem
built with the dependencies, `pf` the one built without. -/
theorem C12_reduction_partial {n e i g : ℕ} {histr histf : List (QPInput K)} {inp : QPInput K}
    (hr : ∀ j ∈ histr ++ [inp], InputFits n e i g j)
    (hf : ∀ j ∈ histf ++ [inp], InputFits n e i g j)
    {deps : List (ℕ × ℕ × K)} {sr sf : Qld K} (hdr : DepsAre n deps sr.dep)
    (hdf : DepsAre n [] sf.dep) {pr pf : QldProblem K}
    (hpr : QldRun n e i g histr inp sr pr) (hpf : QldRun n e i g histf inp sf pf)
    (hzero : ∀ d ∈ deps, d.2.2 = 0 → LastBounds inp d.2.1 0) (y : ℕ → K) :
    (pr.Feasible y ↔ pf.Feasible (fullX sr.dep y)) ∧
    (pr.Lines y ↔ pf.Lines (fullX sr.dep y)) ∧
    pr.obj y = pf.obj (fullX sr.dep y) ∧
    pr.C.size + deps.length = n ∧ pf.C.size = n := by
  obtain ⟨pr', _, hu, c1, _, _, _, _, _, _, _, _, hl, hb, ho, _⟩ := qldRun_spec hr hdr
  obtain ⟨pf', _, hu', c2, _, _, _, _, _, _, _, _, hl', hb', ho', _⟩ := qldRun_spec hf hdf
  rw [hu pr hpr, hu' pf hpf]
  have hwl := nonrep_length hdr.1
  unfold QldProblem.Feasible
  rw [hl, hb, ho, hl', hb', ho', fullX_nil hdf, boundsAt_all hdr hzero, boundsAt_nil n inp _ hdf]
  exact ⟨Iff.rfl, Iff.rfl, rfl, by omega, c2⟩

/-- **C12** (LSSOL). -/
theorem C12_reduction_lssol_partial {n e i g : ℕ} {histr histf : List (QPInput K)}
    {inp : QPInput K} (hr : ∀ j ∈ histr ++ [inp], InputFits n e i g j)
    (hf : ∀ j ∈ histf ++ [inp], InputFits n e i g j)
    {deps : List (ℕ × ℕ × K)} {sr sf : Lssol K} (hdr : DepsAre n deps sr.dep)
    (hdf : DepsAre n [] sf.dep) {pr pf : LssolProblem K}
    (hpr : LssolRun n e i g histr inp sr pr) (hpf : LssolRun n e i g histf inp sf pf)
    (hzero : ∀ d ∈ deps, d.2.2 = 0 → LastBounds inp d.2.1 0) (y : ℕ → K) :
    (pr.Feasible y ↔ pf.Feasible (fullX sr.dep y)) ∧
    (pr.Lines y ↔ pf.Lines (fullX sr.dep y)) ∧
    pr.obj y = pf.obj (fullX sr.dep y) ∧
    pr.C.size + deps.length = n ∧ pf.C.size = n := by
  obtain ⟨pr', _, hu, c1, _, _, _, _, _, _, hl, hb, ho, _⟩ := lssolRun_spec hr hdr
  obtain ⟨pf', _, hu', c2, _, _, _, _, _, _, hl', hb', ho', _⟩ := lssolRun_spec hf hdf
  rw [hu pr hpr, hu' pf hpf]
  have hwl := nonrep_length hdr.1
  unfold LssolProblem.Feasible
  rw [hl, hb, ho, hl', hb', ho', fullX_nil hdf, boundsAt_all hdr hzero, boundsAt_nil n inp _ hdf]
  exact ⟨Iff.rfl, Iff.rfl, rfl, by omega, c2⟩

/-- **C12**, optimality: the expansion of an optimum of the reduced problem is optimal for the full
problem among the vectors satisfying the mimic relations (and is one of them). -/
theorem C12_optimal_partial {n e i g : ℕ} {histr histf : List (QPInput K)} {inp : QPInput K}
    (hr : ∀ j ∈ histr ++ [inp], InputFits n e i g j)
    (hf : ∀ j ∈ histf ++ [inp], InputFits n e i g j)
    {deps : List (ℕ × ℕ × K)} {sr sf : Qld K} (hdr : DepsAre n deps sr.dep)
    (hdf : DepsAre n [] sf.dep) {pr pf : QldProblem K}
    (hpr : QldRun n e i g histr inp sr pr) (hpf : QldRun n e i g histf inp sf pf)
    (hzero : ∀ d ∈ deps, d.2.2 = 0 → LastBounds inp d.2.1 0) {y : ℕ → K}
    (hfeas : pr.Feasible y) (hopt : ∀ z, pr.Feasible z → pr.obj y ≤ pr.obj z) :
    pf.Feasible (fullX sr.dep y) ∧ Mimic deps (fullX sr.dep y) ∧
    ∀ x, pf.Feasible x → Mimic deps x → pf.obj (fullX sr.dep y) ≤ pf.obj x := by
  have core := C12_reduction_partial hr hf hdr hdf hpr hpf hzero
  refine ⟨(core y).1.mp hfeas, fullX_mimic hdr y, fun x hx hm => ?_⟩
  obtain ⟨z, hz⟩ := fullX_surj hdr hm
  obtain ⟨pf', _, hu', _, _, _, _, _, _, _, _, _, hl', hb', _⟩ := qldRun_spec hf hdf
  have hsz := (core y).2.2.2.2
  have hfz : pf.Feasible (fullX sr.dep z) := by
    have e1 := hu' pf hpf
    unfold QldProblem.Feasible at hx ⊢
    rw [e1] at hx ⊢
    rw [hl', hb', fullX_nil hdf, boundsAt_nil n inp _ hdf] at hx ⊢
    rw [satLines_congr hz]
    exact ⟨hx.1, fun v hv => by rw [hz v hv]; exact hx.2 v hv⟩
  have hle := hopt z ((core z).1.mpr hfz)
  rw [(core y).2.2.1, (core z).2.2.1] at hle
  have : pf.obj (fullX sr.dep z) = pf.obj x := by
    unfold QldProblem.obj
    rw [hsz]
    exact quadObj_congr hz
  rw [← this]
  exact hle

/-- A problem with four variables, bounds on the replicas, and the dependencies `exDeps`, meets the
hypotheses. -/
example : ∃ ds, setDependencies 4 exDeps DepSt.init = .ok ds ∧ DepsAre 4 exDeps ds ∧
    ∀ d ∈ exDeps, d.2.2 = 0 → LastBounds
      (⟨[], [], [], [], [⟨0, Vec.ofList [.fin 0, .negInf, .fin (-1), .fin 0],
        Vec.ofList [.fin 1, .fin 1, .fin 1, .fin 1]⟩]⟩ : QPInput ℚ) d.2.1 0 := by
  obtain ⟨ds, e, _⟩ := setDependencies_ok exDeps_wf (by decide) DepSt.init
  refine ⟨ds, e, ⟨exDeps_wf, Or.inr ⟨_, e⟩⟩, ?_⟩
  intro d hd h0
  simp only [exDeps, List.mem_cons, List.not_mem_nil, or_false] at hd
  rcases hd with rfl | rfl <;> norm_num at h0

/-- Two variables, the second mimics the first with multiplier 0 and must be at least 1. -/
def exZero : QPInput ℚ :=
  ⟨[], [], [], [], [⟨1, Vec.ofList [.fin 1], Vec.ofList [.posInf]⟩]⟩

/-- **C12** fails for a multiplier 0: the bounds of the replica disappear from the reduced problem. -/
theorem C12_counterexample : ¬ C12_full ℚ := by
  intro h
  have hf : InputFits 2 0 0 0 exZero := by
    refine ⟨⟨by simp [exZero], by simp [exZero], by simp [exZero], by simp [exZero], ?_⟩,
      by decide, by decide, by decide⟩
    intro c hc
    simp only [exZero, List.mem_singleton] at hc
    subst hc; exact ⟨by decide, by decide⟩
  have hwf : DepsWF 2 [(0, 1, (0 : ℚ))] := by
    refine ⟨by decide, ?_, ?_⟩ <;> simp
  obtain ⟨ds, e, hs⟩ := setDependencies_ok hwf (by decide) DepSt.init
  have hdr : DepsAre 2 [(0, 1, (0 : ℚ))] ({ Qld.init with dep := ds } : Qld ℚ).dep :=
    ⟨hwf, Or.inr ⟨_, e⟩⟩
  have hdf : DepsAre (K := ℚ) 2 [] (Qld.init (K := ℚ)).dep :=
    ⟨⟨List.nodup_nil, by simp, by simp⟩, Or.inl ⟨rfl, rfl⟩⟩
  have hfs : ∀ j ∈ ([] : List (QPInput ℚ)) ++ [exZero], InputFits 2 0 0 0 j := by
    intro j hj; simp at hj; subst hj; exact hf
  obtain ⟨pr, hpr, _, _, _, _, _, _, _, _, _, _, hl, hb, _⟩ := qldRun_spec hfs hdr
  obtain ⟨pf, hpf, _, _, _, _, _, _, _, _, _, _, hl', hb', _⟩ := qldRun_spec hfs hdf
  have := (h 2 0 0 0 exZero _ _ _ pr pf hf hdr hdf hpr hpf (fun _ => 0)).mp (by
    unfold QldProblem.Feasible
    rw [hl, hb]
    refine ⟨by refine ⟨?_, ?_, ?_⟩ <;> simp [exZero], ?_⟩
    intro v hv hcase
    have hperm := hs.perm
    rcases hcase with hR | ⟨d, hdm, hdv, h0⟩
    · have hv0 : v = 0 := by
        by_contra hne
        have : v = 1 := by omega
        subst this
        exact hR (List.mem_map.mpr ⟨(0, 1, 0), hperm.mem_iff.mpr (by simp), rfl⟩)
      subst hv0
      exact ⟨trivial, trivial⟩
    · have := hperm.mem_iff.mp hdm
      simp at this
      subst this
      simp at h0)
  unfold QldProblem.Feasible at this
  rw [hl', hb', fullX_nil hdf, boundsAt_nil 2 _ _ hdf] at this
  have h1 := (this.2 1 (by omega)).1
  rw [fullX_mimic hdr (fun _ => 0) (0, 1, 0) (by simp)] at h1
  simp [lastLower, exZero, Vec.ofList, Ext.LowerOK] at h1
  norm_num at h1

end Verif
