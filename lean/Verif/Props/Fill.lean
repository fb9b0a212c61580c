import Verif.Proofs.Psd

/-! # C05–C10: the quadratic program handed to the backend

The specifications (`Spec.*` in `Proofs/Assembly.lean` and `Proofs/Psd.lean`) talk only about the
registered constraints and tasks: `SatLines` (every active line holds), `SatBound`, `objective`
(weighted sum plus regularisation), `InputFits` (what a caller must respect).  `QldRun` /
`LssolRun` say which problem reaches the solver after sizing and any number of control steps. -/

set_option autoImplicit false
set_option linter.unusedSectionVars false

namespace Verif

open Finset Spec

variable {K : Type} [Field K] [LinearOrder K] [IsStrictOrderedRing K]

/-! ## A concrete input used in the non-vacuity examples -/

/-- Two variables: one task on variable 0, `x0 + x1 = 3`, `x0 <= 5` (one inactive second line),
`1 <= x0 - x1 <= 2`, `0 <= x1 <= 4`. -/
def exInp : QPInput ℚ where
  tasks := [⟨Mat.ofRows 1 [[2]], Vec.ofList [1], (0, 0), 3⟩]
  eq := [⟨1, 1, Mat.ofRows 2 [[1, 1]], Vec.ofList [3]⟩]
  inEq := [⟨2, 1, Mat.ofRows 2 [[1, 0], [7, 7]], Vec.ofList [.fin 5, .fin 0]⟩]
  gen := [⟨1, 1, Mat.ofRows 2 [[1, -1]], Vec.ofList [.fin 1], Vec.ofList [.fin 2]⟩]
  bound := [⟨1, Vec.ofList [.fin 0], Vec.ofList [.fin 4]⟩]

theorem exInp_fits : InputFits 2 1 2 1 exInp := by
  refine ⟨⟨?_, ?_, ?_, ?_, ?_⟩, ?_, ?_, ?_⟩
  · intro t ht; simp only [exInp, List.mem_singleton] at ht; subst ht; exact ⟨by decide, by decide, rfl⟩
  · intro t ht; simp only [exInp, List.mem_singleton] at ht; subst ht
    exact ⟨by decide, by decide, by decide, by decide⟩
  · intro t ht; simp only [exInp, List.mem_singleton] at ht; subst ht
    exact ⟨by decide, by decide, by decide, by decide⟩
  · intro t ht; simp only [exInp, List.mem_singleton] at ht; subst ht
    exact ⟨by decide, by decide, by decide, by decide, by decide⟩
  · intro t ht; simp only [exInp, List.mem_singleton] at ht; subst ht
    exact ⟨by decide, by decide⟩
  · decide
  · decide
  · decide

/-! ## C05 -/

/-- **C05** (QLD): with sizes large enough for the constraints in use, assembling the problem never
leaves the allocated matrices, whatever the state of the backend before and after any number of
control steps, with or without mimic dependencies. -/
theorem C05_qld_in_range {n e i g : ℕ} {hist : List (QPInput K)} {inp : QPInput K}
    (h : ∀ j ∈ hist ++ [inp], InputFits n e i g j) {s0 : Qld K} {deps : List (ℕ × ℕ × K)}
    (hd : DepsAre n deps s0.dep) :
    ∃ p, QldRun n e i g hist inp s0 p := by
  obtain ⟨p, hp, _⟩ := qldRun_spec h hd
  exact ⟨p, hp⟩

/-- **C05** (LSSOL). -/
theorem C05_lssol_in_range {n e i g : ℕ} {hist : List (QPInput K)} {inp : QPInput K}
    (h : ∀ j ∈ hist ++ [inp], InputFits n e i g j) {s0 : Lssol K} {deps : List (ℕ × ℕ × K)}
    (hd : DepsAre n deps s0.dep) :
    ∃ p, LssolRun n e i g hist inp s0 p := by
  obtain ⟨p, hp, _⟩ := lssolRun_spec h hd
  exact ⟨p, hp⟩

/-- The hypotheses of C05–C10 are met by the concrete input, with three earlier control steps. -/
example : (∀ j ∈ [exInp, exInp, exInp] ++ [exInp], InputFits 2 1 2 1 j) ∧
    DepsAre 2 [] (Qld.init (K := ℚ)).dep := by
  refine ⟨?_, ?_, ?_⟩
  · intro j hj
    simp at hj
    subst hj; exact exInp_fits
  · exact ⟨List.nodup_nil, by simp, by simp⟩
  · exact Or.inl ⟨rfl, rfl⟩

/-- Sizes that are not refreshed after a constraint was added: the assembly writes outside the
matrices (both backends), starting from a backend sized for the same problem without it. -/
theorem C05_stale_size_ub :
    (((Qld.init (K := ℚ)).updateSize 2 0 2 1).updateMatrix exInp = .ub) ∧
    (((Lssol.init (K := ℚ)).updateSize 2 0 2 0).updateMatrix exInp = .ub) := by
  constructor <;> rfl

/-! ## C06 -/

/-- **C06**: the lines QLD gets are exactly the active lines of the registered constraints, and
their number is the number of active lines (general inequalities counted twice). -/
theorem C06_qld_lines {n e i g : ℕ} {hist : List (QPInput K)} {inp : QPInput K}
    (h : ∀ j ∈ hist ++ [inp], InputFits n e i g j) {s0 : Qld K} (hd : DepsAre n [] s0.dep)
    {p : QldProblem K} (hp : QldRun n e i g hist inp s0 p) :
    (∀ x, p.Lines x ↔ SatLines n inp x) ∧
    p.Aeq.rows = (inp.eq.map EqC.nrEq).sum ∧
    p.Aineq.rows = (inp.inEq.map InEqC.nrInEq).sum + 2 * (inp.gen.map GenC.nrGen).sum ∧
    p.Aeq.cols = n ∧ p.Aineq.cols = n := by
  obtain ⟨p', _, hu, _, _, _, c1, c2, _, _, r1, r2, hl, _⟩ := qldRun_spec h hd
  rw [hu p hp]
  simp only [fullX_nil hd] at hl
  exact ⟨hl, r1, by omega, c1, c2⟩

/-- The lines of the example are satisfiable and not trivial. -/
example : SatLines 2 exInp (fun j => if j = 0 then (9 / 4 : ℚ) else 3 / 4) ∧
    ¬ SatLines 2 exInp (fun _ => (0 : ℚ)) := by
  constructor
  · refine ⟨?_, ?_, ?_⟩ <;> intro c hc <;> simp only [exInp, List.mem_singleton] at hc <;>
      subst hc <;> intro i hi <;> interval_cases i <;>
      simp only [lineVal, Mat.ofRows, Vec.ofList, Finset.sum_range_succ, Finset.sum_range_zero,
        Ext.UpperOK, Ext.LowerOK] <;> norm_num
  · rintro ⟨h, _⟩
    have := h _ (by simp [exInp]; rfl) 0 (by decide)
    simp [lineVal, Mat.ofRows, Vec.ofList] at this

/-! ## C07 -/

/-- **C07**: the lines LSSOL gets are exactly the active lines of the registered constraints. -/
theorem C07_lssol_lines {n e i g : ℕ} {hist : List (QPInput K)} {inp : QPInput K}
    (h : ∀ j ∈ hist ++ [inp], InputFits n e i g j) {s0 : Lssol K} (hd : DepsAre n [] s0.dep)
    {p : LssolProblem K} (hp : LssolRun n e i g hist inp s0 p) :
    (∀ x, p.Lines x ↔ SatLines n inp x) ∧
    p.A.rows = (inp.eq.map EqC.nrEq).sum + (inp.inEq.map InEqC.nrInEq).sum +
      (inp.gen.map GenC.nrGen).sum ∧ p.A.cols = n := by
  obtain ⟨p', _, hu, _, _, _, c1, _, _, r1, hl, _⟩ := lssolRun_spec h hd
  rw [hu p hp]
  simp only [fullX_nil hd] at hl
  exact ⟨hl, r1, c1⟩

/-- **C07**: switching the backend changes neither the feasible set nor the objective, with or
without mimic dependencies, whatever each backend did before. -/
theorem C07_same_problem {n e i g : ℕ} {histQ histL : List (QPInput K)} {inp : QPInput K}
    (hQ : ∀ j ∈ histQ ++ [inp], InputFits n e i g j)
    (hL : ∀ j ∈ histL ++ [inp], InputFits n e i g j)
    {sq : Qld K} {sl : Lssol K} {deps : List (ℕ × ℕ × K)}
    (hdQ : DepsAre n deps sq.dep) (hdL : sl.dep = sq.dep)
    {p : QldProblem K} (hp : QldRun n e i g histQ inp sq p)
    {q : LssolProblem K} (hq : LssolRun n e i g histL inp sl q) (y : ℕ → K) :
    (p.Feasible y ↔ q.Feasible y) ∧ (p.Lines y ↔ q.Lines y) ∧ p.obj y = q.obj y := by
  obtain ⟨p', _, hu, _, _, _, _, _, _, _, _, _, hl, hb, ho, _⟩ := qldRun_spec hQ hdQ
  obtain ⟨q', _, hu', _, _, _, _, _, _, _, hl', hb', ho', _⟩ :=
    lssolRun_spec hL (s0 := sl) (deps := deps) (by rw [hdL]; exact hdQ)
  rw [hu p hp, hu' q hq]
  unfold QldProblem.Feasible LssolProblem.Feasible
  rw [hl, hl', hb, hb', ho, ho', hdL]
  exact ⟨Iff.rfl, Iff.rfl, rfl⟩

example : ∃ p q, QldRun 2 1 2 1 [] exInp (Qld.init (K := ℚ)) p ∧
    LssolRun 2 1 2 1 [exInp] exInp (Lssol.init (K := ℚ)) q := by
  have hd : DepsAre (K := ℚ) 2 [] DepSt.init :=
    ⟨⟨List.nodup_nil, by simp, by simp⟩, Or.inl ⟨rfl, rfl⟩⟩
  obtain ⟨p, hp⟩ := C05_qld_in_range (n := 2) (e := 1) (i := 2) (g := 1) (hist := [])
    (inp := exInp) (by intro j hj; simp at hj; subst hj; exact exInp_fits) (s0 := Qld.init) hd
  obtain ⟨q, hq⟩ := C05_lssol_in_range (n := 2) (e := 1) (i := 2) (g := 1) (hist := [exInp])
    (inp := exInp) (by intro j hj; simp at hj; subst hj; exact exInp_fits) (s0 := Lssol.init) hd
  exact ⟨p, q, hp, hq⟩

/-! ## C08 -/

theorem boundsAt_nil (n : ℕ) (inp : QPInput K) (ds : DepSt K) (hd : DepsAre n [] ds) (x : ℕ → K) :
    BoundsAt n inp ds.deps x ↔ ∀ v < n, LastBounds inp v (x v) := by
  have : ds.deps = [] := List.perm_nil.mp hd.ok.2.1
  unfold BoundsAt
  rw [this]
  exact ⟨fun h v hv => h v hv (Or.inl (by simp [reps])), fun h v hv _ => h v hv⟩

/-- **C08**, full statement: the bounds handed to QLD are the conjunction of the registered bound
constraints.  False for overlapping constraints, see `C08_counterexample`. -/
def C08_full (K : Type) [Field K] [LinearOrder K] : Prop :=
  ∀ (n e i g : ℕ) (inp : QPInput K) (s0 : Qld K) (p : QldProblem K),
    InputFits n e i g inp → DepsAre n [] s0.dep → QldRun n e i g [] inp s0 p →
    ∀ x, InBounds p.XL p.XU x ↔ ∀ c ∈ inp.bound, SatBound c x

/-- **C08** when the bound constraints cover disjoint variables (what is missing for the full
statement: overlapping constraints, where it is false). -/
theorem C08_bounds_enforced_partial {n e i g : ℕ} {hist : List (QPInput K)} {inp : QPInput K}
    (h : ∀ j ∈ hist ++ [inp], InputFits n e i g j)
    (hdis : inp.bound.Pairwise fun c d => ∀ v, ¬ (Covers c v ∧ Covers d v)) :
    (∀ (s0 : Qld K) (p : QldProblem K), DepsAre n [] s0.dep → QldRun n e i g hist inp s0 p →
      ∀ x, InBounds p.XL p.XU x ↔ ∀ c ∈ inp.bound, SatBound c x) ∧
    (∀ (s0 : Lssol K) (p : LssolProblem K), DepsAre n [] s0.dep → LssolRun n e i g hist inp s0 p →
      ∀ x, InBounds p.XL p.XU x ↔ ∀ c ∈ inp.bound, SatBound c x) := by
  have hs := (h inp (by simp)).1.2.2.2.2
  constructor
  · intro s0 p hd hp x
    obtain ⟨p', _, hu, _, _, _, _, _, _, _, _, _, _, hb, _⟩ := qldRun_spec h hd
    rw [hu p hp, hb, fullX_nil hd, boundsAt_nil n inp _ hd, lastBounds_disjoint hs hdis]
  · intro s0 p hd hp x
    obtain ⟨p', _, hu, _, _, _, _, _, _, _, _, hb, _⟩ := lssolRun_spec h hd
    rw [hu p hp, hb, fullX_nil hd, boundsAt_nil n inp _ hd, lastBounds_disjoint hs hdis]

/-- **C08**, what the code does on overlapping constraints: on every variable the last registered
constraint covering it wins, and an uncovered variable is free (QLD and LSSOL). -/
theorem C08_last_wins {n e i g : ℕ} {hist : List (QPInput K)} {inp : QPInput K}
    (h : ∀ j ∈ hist ++ [inp], InputFits n e i g j)
    (hsame : ∀ c ∈ inp.bound, c.lower.size = c.upper.size) (x : ℕ → K) :
    let Q := ∀ v < n, ∀ pre c post, inp.bound = pre ++ c :: post → Covers c v →
        (∀ d ∈ post, ¬ Covers d v) →
        (c.lower.get (v - c.beginVar)).LowerOK (x v) ∧ (c.upper.get (v - c.beginVar)).UpperOK (x v)
    (∀ (s0 : Qld K) (p : QldProblem K), DepsAre n [] s0.dep → QldRun n e i g hist inp s0 p →
      (InBounds p.XL p.XU x ↔ Q)) ∧
    (∀ (s0 : Lssol K) (p : LssolProblem K), DepsAre n [] s0.dep → LssolRun n e i g hist inp s0 p →
      (InBounds p.XL p.XU x ↔ Q)) := by
  intro Q
  have key : (∀ v < n, LastBounds inp v (x v)) ↔ Q := by
    constructor
    · intro hl v hv pre c post heq hc hpost
      have hsc := hsame c (by rw [heq]; simp)
      have hc' := hc
      unfold Covers at hc'
      have := hl v hv
      unfold LastBounds at this
      rw [heq, lastLower_some pre post c v _ (by omega), lastUpper_some pre post c v _ (by omega)]
        at this
      · exact this
      · intro d hd hcov; exact hpost d hd ⟨hcov.1, by omega⟩
      · intro d hd hcov; exact hpost d hd ⟨hcov.1, by omega⟩
    · intro hQ v hv
      by_cases hex : ∃ c ∈ inp.bound, Covers c v
      · -- the last covering constraint
        have hlast : ∀ cs : List (BoundC K), (∃ c ∈ cs, Covers c v) →
            ∃ pre c post, cs = pre ++ c :: post ∧ Covers c v ∧ ∀ d ∈ post, ¬ Covers d v := by
          intro cs
          induction cs using List.reverseRecOn with
          | nil => rintro ⟨c, hc, _⟩; simp at hc
          | append_singleton t c ih =>
            intro hex
            by_cases hcv : Covers c v
            · exact ⟨t, c, [], rfl, hcv, by simp⟩
            · obtain ⟨d, hd, hdv⟩ := hex
              rcases List.mem_append.mp hd with hd | hd
              · obtain ⟨pre, c', post, rfl, h1, h2⟩ := ih ⟨d, hd, hdv⟩
                refine ⟨pre, c', post ++ [c], by simp, h1, ?_⟩
                intro d hd
                rcases List.mem_append.mp hd with hd | hd
                · exact h2 d hd
                · rw [List.mem_singleton.mp hd]; exact hcv
              · rw [List.mem_singleton.mp hd] at hdv; exact absurd hdv hcv
        obtain ⟨pre, c, post, heq, h1, h2⟩ := hlast _ hex
        have hsc := hsame c (by rw [heq]; simp)
        have := hQ v hv pre c post heq h1 h2
        unfold LastBounds
        have h1' := h1
        unfold Covers at h1'
        rw [heq, lastLower_some pre post c v _ (by omega), lastUpper_some pre post c v _ (by omega)]
        · exact this
        · intro d hd hcov; exact h2 d hd ⟨hcov.1, by omega⟩
        · intro d hd hcov; exact h2 d hd ⟨hcov.1, by omega⟩
      · unfold LastBounds
        rw [lastLower_none, lastUpper_none]
        · exact ⟨trivial, trivial⟩
        · intro c hc hcov; exact hex ⟨c, hc, hcov.1, by omega⟩
        · intro c hc hcov; exact hex ⟨c, hc, hcov.1, by omega⟩
  constructor
  · intro s0 p hd hp
    obtain ⟨p', _, hu, _, _, _, _, _, _, _, _, _, _, hb, _⟩ := qldRun_spec h hd
    rw [hu p hp, hb, fullX_nil hd, boundsAt_nil n inp _ hd, key]
  · intro s0 p hd hp
    obtain ⟨p', _, hu, _, _, _, _, _, _, _, _, hb, _⟩ := lssolRun_spec h hd
    rw [hu p hp, hb, fullX_nil hd, boundsAt_nil n inp _ hd, key]

/-- Two bound constraints on the same variable: `0 <= x <= 1` then `5 <= x <= 6`. -/
def exOverlap : QPInput ℚ :=
  ⟨[], [], [], [], [⟨0, Vec.ofList [.fin 0], Vec.ofList [.fin 1]⟩,
    ⟨0, Vec.ofList [.fin 5], Vec.ofList [.fin 6]⟩]⟩

/-- **C08** fails for overlapping bound constraints: 5 is accepted although the first constraint
asks for at most 1. -/
theorem C08_counterexample : ¬ C08_full ℚ := by
  intro h
  have hf : InputFits 1 0 0 0 exOverlap := by
    refine ⟨⟨by simp [exOverlap], by simp [exOverlap], by simp [exOverlap], by simp [exOverlap], ?_⟩,
      by decide, by decide, by decide⟩
    intro c hc
    simp only [exOverlap, List.mem_cons, List.not_mem_nil, or_false] at hc
    rcases hc with rfl | rfl <;> exact ⟨by decide, by decide⟩
  have hd : DepsAre (K := ℚ) 1 [] (Qld.init (K := ℚ)).dep :=
    ⟨⟨List.nodup_nil, by simp, by simp⟩, Or.inl ⟨rfl, rfl⟩⟩
  obtain ⟨p, hp⟩ := C05_qld_in_range (n := 1) (e := 0) (i := 0) (g := 0) (hist := [])
    (inp := exOverlap) (by intro j hj; simp at hj; subst hj; exact hf) (s0 := Qld.init) hd
  have hw := (C08_last_wins (n := 1) (e := 0) (i := 0) (g := 0) (hist := []) (inp := exOverlap)
    (by intro j hj; simp at hj; subst hj; exact hf)
    (by intro c hc; simp only [exOverlap, List.mem_cons, List.not_mem_nil, or_false] at hc
        rcases hc with rfl | rfl <;> rfl) (fun _ => 5)).1 _ p hd hp
  have h1 := (h 1 0 0 0 exOverlap Qld.init p hf hd hp (fun _ => 5)).mp (hw.mpr ?_)
  · have := (h1 _ (by simp only [exOverlap]; exact List.mem_cons_self ..)).2 0 (by decide)
    simp only [Vec.ofList, Ext.UpperOK] at this
    norm_num at this
  · intro v hv pre c post heq hc hpost
    have hv0 : v = 0 := by omega
    subst hv0
    rcases pre with _ | ⟨a, pre⟩
    · -- first constraint cannot be last
      simp only [exOverlap, List.nil_append, List.cons.injEq] at heq
      obtain ⟨_, rfl⟩ := heq
      exact absurd ⟨by decide, by decide⟩ (hpost _ (List.mem_singleton.mpr rfl))
    · rcases pre with _ | ⟨b, pre⟩
      · simp only [exOverlap, List.cons_append, List.nil_append, List.cons.injEq] at heq
        obtain ⟨_, rfl, _⟩ := heq
        simp only [Vec.ofList, Ext.UpperOK, Ext.LowerOK]
        norm_num
      · simp [exOverlap] at heq

/-- Disjoint bounds exist (two constraints). -/
example : List.Pairwise (fun c d => ∀ v, ¬ (Covers c v ∧ Covers d v))
    [(⟨0, Vec.ofList [.fin 0], Vec.ofList [.fin 1]⟩ : BoundC ℚ),
      ⟨1, Vec.ofList [.fin 5, .negInf], Vec.ofList [.posInf, .fin 6]⟩] := by
  simp only [List.pairwise_cons, List.mem_singleton, forall_eq, List.not_mem_nil, false_imp_iff,
    implies_true, List.Pairwise.nil, and_true]
  rintro v ⟨⟨_, h1⟩, ⟨h2, _⟩⟩
  simp [Vec.ofList] at h1 h2
  omega

/-! ## C09 -/

/-- **C09**: the objective handed to the backend is the weighted sum of the tasks plus the diagonal
regularisation, for both backends. -/
theorem C09_objective {n e i g : ℕ} {hist : List (QPInput K)} {inp : QPInput K}
    (h : ∀ j ∈ hist ++ [inp], InputFits n e i g j) (x : ℕ → K) :
    (∀ (s0 : Qld K) (p : QldProblem K), DepsAre n [] s0.dep → QldRun n e i g hist inp s0 p →
      p.obj x = objective n inp x) ∧
    (∀ (s0 : Lssol K) (p : LssolProblem K), DepsAre n [] s0.dep → LssolRun n e i g hist inp s0 p →
      p.obj x = objective n inp x) := by
  constructor
  · intro s0 p hd hp
    obtain ⟨p', _, hu, _, _, _, _, _, _, _, _, _, _, _, ho, _⟩ := qldRun_spec h hd
    rw [hu p hp, ho, fullX_nil hd]
  · intro s0 p hd hp
    obtain ⟨p', _, hu, _, _, _, _, _, _, _, _, _, ho, _⟩ := lssolRun_spec h hd
    rw [hu p hp, ho, fullX_nil hd]

/-- On the example the objective is `3 (x0² + x0) + 1e-4/2 x1²`. -/
example (x : ℕ → ℚ) : objective 2 exInp x = 3 * (x 0 ^ 2 + x 0) + 1 / 20000 * x 1 ^ 2 := by
  have h0 : ¬ |accDiag exInp.tasks 0| < (1 : ℚ) / 10000 := by
    simp [accDiag, exInp, TaskQC.q, Mat.ofRows]; norm_num
  have h1 : |accDiag exInp.tasks 1| < (1 : ℚ) / 10000 := by
    simp [accDiag, exInp, TaskQC.q, Mat.ofRows]
  have hf : (range 2).filter (fun i => |accDiag exInp.tasks i| < (1 : ℚ) / 10000) = {1} := by
    ext i
    simp only [mem_filter, mem_range, mem_singleton]
    constructor
    · rintro ⟨hi, hp⟩
      interval_cases i
      · exact absurd hp h0
      · rfl
    · rintro rfl; exact ⟨by decide, h1⟩
  unfold objective
  rw [hf]
  simp [exInp, TaskQC.obj, Mat.ofRows, Vec.ofList]
  ring

/-! ## C10 -/

/-- **C10**: with convex tasks and nonnegative weights the Hessian handed to either backend is
symmetric, positive semidefinite and has diagonal entries of at least 1e-4. -/
theorem C10_hessian_convex {n e i g : ℕ} {hist : List (QPInput K)} {inp : QPInput K}
    (h : ∀ j ∈ hist ++ [inp], InputFits n e i g j) (hc : ∀ t ∈ inp.tasks, TaskConvex t) :
    let Good := fun Q : Mat K => Q.rows = n ∧ Q.cols = n ∧
      (∀ a b, Q.get a b = Q.get b a) ∧
      (∀ x : ℕ → K, 0 ≤ ∑ i ∈ range n, ∑ j ∈ range n, x i * Q.get i j * x j) ∧
      ∀ a < n, 1 / 10000 ≤ Q.get a a
    (∀ (s0 : Qld K) (p : QldProblem K), DepsAre n [] s0.dep → QldRun n e i g hist inp s0 p →
      Good p.Q) ∧
    (∀ (s0 : Lssol K) (p : LssolProblem K), DepsAre n [] s0.dep → LssolRun n e i g hist inp s0 p →
      Good p.Q) := by
  intro Good
  have hs := (h inp (by simp)).1.1
  have cpos : (0 : K) < 1 / 10000 := by positivity
  have key : ∀ Q : Mat K, Q.rows = n → Q.cols = n →
      (∀ a b, Q.get a b = (inp.tasks.map fun t => t.q a b).sum +
        if a = b ∧ a < n ∧ |accDiag inp.tasks a| < diagConstant K then diagConstant K else 0) →
      Good Q := by
    intro Q hr hcl hQ
    have hdiag : ∀ a, 0 ≤ accDiag inp.tasks a := by
      intro a
      apply List.sum_nonneg
      intro z hz
      obtain ⟨t, ht, rfl⟩ := List.mem_map.mp hz
      exact TaskQC.q_diag (hc t ht) a
    refine ⟨hr, hcl, ?_, ?_, ?_⟩
    · intro a b
      rw [hQ, hQ]
      congr 1
      · congr 1
        apply List.map_congr_left
        intro t ht
        exact TaskQC.q_symm (hc t ht) a b
      · by_cases hab : a = b
        · subst hab; rfl
        · rw [if_neg (fun h => hab h.1), if_neg (fun h => hab h.1.symm)]
    · intro x
      have split : ∀ i j, x i * Q.get i j * x j = (inp.tasks.map fun t => x i * t.q i j * x j).sum +
          (if i = j ∧ i < n ∧ |accDiag inp.tasks i| < diagConstant K
            then x i * diagConstant K * x j else 0) := by
        intro i j
        rw [hQ, mul_add, add_mul]
        congr 1
        · rw [mul_listsum, listsum_mul]
        · split <;> simp
      simp only [split, Finset.sum_add_distrib]
      apply add_nonneg
      · rw [Finset.sum_congr rfl (fun i _ => sum_listsum _ _ _), sum_listsum]
        apply List.sum_nonneg
        intro z hz
        obtain ⟨t, ht, rfl⟩ := List.mem_map.mp hz
        exact TaskQC.q_psd (hs t ht) (hc t ht) x
      · apply Finset.sum_nonneg
        intro i _
        apply Finset.sum_nonneg
        intro j _
        split
        next hij =>
          rw [← hij.1, mul_comm (x i), mul_assoc]
          exact mul_nonneg cpos.le (mul_self_nonneg _)
        next => exact le_refl _
    · intro a ha
      rw [hQ]
      have hd := hdiag a
      have hacc : (inp.tasks.map fun t => t.q a a).sum = accDiag inp.tasks a := rfl
      rw [hacc]
      by_cases hlt : |accDiag inp.tasks a| < diagConstant K
      · rw [if_pos ⟨rfl, ha, hlt⟩]
        unfold diagConstant
        linarith
      · rw [if_neg (fun h => hlt h.2.2), add_zero]
        rw [abs_of_nonneg hd] at hlt
        exact not_lt.mp hlt
  constructor
  · intro s0 p hd hp
    obtain ⟨p', _, hu, _, r1, r2, _, _, _, _, _, _, _, _, _, hQ⟩ := qldRun_spec h hd
    rw [hu p hp]
    exact key _ r1 r2 (hQ rfl)
  · intro s0 p hd hp
    obtain ⟨p', _, hu, _, r1, r2, _, _, _, _, _, _, _, hQ, _⟩ := lssolRun_spec h hd
    rw [hu p hp]
    exact key _ r1 r2 (hQ rfl)

/-- Task with Hessian `[[1,1],[1,1]]`. -/
def exSingular : QPInput ℚ :=
  ⟨[⟨Mat.ofRows 2 [[1, 1], [1, 1]], Vec.ofList [0, 0], (0, 0), 1⟩], [], [], [], []⟩

/-- The tasks of the example are convex. -/
theorem exSingular_convex : ∀ t ∈ exSingular.tasks, TaskConvex t := by
  intro t ht
  simp only [exSingular, List.mem_singleton] at ht
  subst ht
  refine ⟨rfl, rfl, by norm_num, ?_, ?_⟩
  · intro a ha b hb
    simp only [Mat.ofRows, List.length_cons, List.length_nil] at ha hb
    interval_cases a <;> interval_cases b <;> rfl
  · intro x
    simp [Mat.ofRows, Finset.sum_range_succ]
    nlinarith [sq_nonneg (x 0 + x 1)]

theorem exSingular_fits : InputFits 2 0 0 0 exSingular := by
  refine ⟨⟨?_, by simp [exSingular], by simp [exSingular], by simp [exSingular],
    by simp [exSingular]⟩, by decide, by decide, by decide⟩
  intro t ht; simp only [exSingular, List.mem_singleton] at ht; subst ht
  exact ⟨by decide, by decide, rfl⟩

/-- **C10**: the regularisation does not make the Hessian positive definite: with the convex task
`[[1,1],[1,1]]` the direction `(1,-1)` has zero curvature. -/
theorem C10_not_positive_definite :
    ∃ p, QldRun 2 0 0 0 [] exSingular Qld.init p ∧
      ∑ i ∈ range 2, ∑ j ∈ range 2, (if i = 0 then (1 : ℚ) else -1) * p.Q.get i j *
        (if j = 0 then (1 : ℚ) else -1) = 0 := by
  have hd : DepsAre (K := ℚ) 2 [] (Qld.init (K := ℚ)).dep :=
    ⟨⟨List.nodup_nil, by simp, by simp⟩, Or.inl ⟨rfl, rfl⟩⟩
  obtain ⟨p, hp, _, _, _, _, _, _, _, _, _, _, _, _, _, hQ⟩ := qldRun_spec (n := 2) (e := 0)
    (i := 0) (g := 0) (hist := []) (inp := exSingular)
    (by intro j hj; simp at hj; subst hj; exact exSingular_fits) (s0 := Qld.init) hd
  refine ⟨p, hp, ?_⟩
  simp only [hQ rfl, Finset.sum_range_succ, Finset.sum_range_zero]
  simp [exSingular, TaskQC.q, accDiag, Mat.ofRows, diagConstant]
  norm_num

end Verif
