import Verif.Props.Solver
import Verif.Props.NormalAcc

/-!
# Successful control steps, and their existence

`Spec.Solved` describes a whole control step that succeeded; it is used by the properties on closed loops.
`realise` shows that these steps exist: on robots without mimic joints, every assembled problem and every
solution of it is the outcome of some successful `solve`.
-/

set_option autoImplicit false
set_option linter.unusedSectionVars false

namespace Verif

open Finset Spec

namespace Spec
variable {K : Type} [Field K] [LinearOrder K] [IsStrictOrderedRing K]

/-- A control step that succeeded: a solver, configured by `nrVars(mbs, uni, bi)` (any calls before; afterwards
any calls but `nrVars`, and no change of backend with mimic joints), assembled the problem `inp` and `solve`
returned true with `result() = x`; `d` is its `SolverData`.  Side conditions as in C55. -/
def SolvedIn (backend : String) (mbs : List (MultiBody K)) (uni : List (UniContact K)) (bi : List (BiContact K))
    (d : SolverData K) (inp : QPInput K) (x : Vec K) : Prop :=
  ∃ (Ob W R : Type) (_ : DecidableEq Ob) (ob : Objects K Ob W R) (hasLssol : Bool)
    (pre post : List (Call K Ob W R))
    (sw0 : Solver K Ob × W) (s s' : Solver K Ob) (w w' : W) (eng : Engines K) (mbcs mbcs' : List (Mbc K R)),
    (∀ mb ∈ mbs, MimicOK mb) ∧ GoodContacts bi ∧
    (∀ mb ∈ mbs, ∀ j ∈ mb.joints, ∀ l m, j.mimic = some (l, m) → m ≠ 0) ∧
    (∀ c ∈ post, Keeps mbs c) ∧ Run ob hasLssol (pre ++ .nrVars mbs uni bi :: post) sw0 (s, w) ∧
    EngineSized eng ∧ EngineOptimal eng ∧ mbcs.length = mbs.length ∧
    (∀ (r : ℕ) (mb : MultiBody K) (m : Mbc K R), mbs[r]? = some mb → mbcs[r]? = some m → Shaped mb m) ∧
    s.solve ob eng mbs mbcs w = .ok (true, mbcs', s', w') ∧
    InputFits s.data.nrVars s.maxEq s.maxInEq s.maxGen (s.input ob w') ∧
    (s.input ob w').bound.Pairwise (fun c d => ∀ v, ¬ (Covers c v ∧ Covers d v)) ∧
    s.backend.name = backend ∧ d = s'.data ∧ inp = s.input ob w' ∧ x = s'.backend.result

/-- A control step that succeeded, with `n` variables and any contacts. -/
def Solved (backend : String) (mbs : List (MultiBody K)) (n : ℕ) (inp : QPInput K) (x : Vec K) : Prop :=
  ∃ uni bi d, SolvedIn backend mbs uni bi d inp x ∧ n = d.nrVars

/-- `x` respects every constraint and the mimic joints. -/
def Admissible (mbs : List (MultiBody K)) (n : ℕ) (inp : QPInput K) (x : ℕ → K) : Prop :=
  AllSatisfied n inp x ∧ MimicJoints mbs x

end Spec

/-- The data of a successful step: a layout of the robots and contacts, and a result of its size. -/
theorem solvedIn_data {K : Type} [Field K] [LinearOrder K] [IsStrictOrderedRing K] {backend : String}
    {mbs : List (MultiBody K)} {uni : List (UniContact K)} {bi : List (BiContact K)} {d : SolverData K}
    {inp : QPInput K} {x : Vec K} (h : SolvedIn backend mbs uni bi d inp x) :
    GoodInput mbs bi ∧ (∃ old d0 deps, layout old mbs uni bi = .ok (d0, deps) ∧ SameLayout d0 d) ∧
      x.size = d.nrVars := by
  obtain ⟨Ob, W, R, _, ob, hasLssol, pre, post, sw0, s, s', w, w', eng, mbcs, mbcs', h1, h2, h3, h4, h5, h6,
    h7, h8, h9, h10, h11, h12, -, rfl, rfl, rfl⟩ := h
  have hready := ready_of_run h1 h2 h4 h5
  obtain ⟨⟨msg, e⟩, -⟩ := solve_parts h10
  have hready' := hready.solveNoMbcUpdate e
  obtain ⟨d, w1, c1, c2, hnd, _, _, hu, hs, rfl, _⟩ := solveNoMbcUpdate_parts e
  obtain ⟨b1, ok, b2, e1, e2, _, hsz, -⟩ := Backend.assemble_solve h6 hready.sized hready.deps.ok.1 h11
  rw [hu] at e1
  cases e1
  rw [hs] at e2
  cases e2
  obtain ⟨old, d0, hlay, hsame⟩ := hready'.lay
  exact ⟨⟨fun mb h => MimicOK.named (h1 mb h), h2⟩, ⟨old, d0, _, hlay, hsame⟩,
    hsz.trans (computeNormalAccB_layout hnd).nrVars.symm⟩

/-- What C55 says of a successful step. -/
theorem solvedIn_optimal {K : Type} [Field K] [LinearOrder K] [IsStrictOrderedRing K] {backend : String}
    {mbs : List (MultiBody K)} {uni : List (UniContact K)} {bi : List (BiContact K)} {d : SolverData K}
    {inp : QPInput K} {x : Vec K} (h : SolvedIn backend mbs uni bi d inp x) :
    Admissible mbs d.nrVars inp x.get ∧ InputSized d.nrVars inp ∧
      ∀ z, Admissible mbs d.nrVars inp z → objective d.nrVars inp x.get ≤ objective d.nrVars inp z := by
  obtain ⟨Ob, W, R, _, ob, hasLssol, pre, post, sw0, s, s', w, w', eng, mbcs, mbcs', h1, h2, h3, h4, h5, h6,
    h7, h8, h9, h10, h11, h12, -, rfl, rfl, rfl⟩ := h
  obtain ⟨⟨msg, e⟩, -⟩ := solve_parts h10
  obtain ⟨d, w1, c1, c2, hnd, _, _, hu, hs, e', _⟩ := solveNoMbcUpdate_parts e
  have hn : s'.data.nrVars = s.data.nrVars := by rw [e']; exact (computeNormalAccB_layout hnd).nrVars
  obtain ⟨-, k1, k2, k3⟩ := C55_end_to_end h1 h2 h3 h4 h5 h6 h7 h8 h9 h10 h11 h12
  rw [hn]
  exact ⟨⟨k1, k2⟩, h11.1, fun z hz => k3 z hz.1 hz.2⟩

theorem solved_optimal {K : Type} [Field K] [LinearOrder K] [IsStrictOrderedRing K] {backend : String}
    {mbs : List (MultiBody K)} {n : ℕ} {inp : QPInput K} {x : Vec K}
    (h : Solved backend mbs n inp x) :
    Admissible mbs n inp x.get ∧ InputSized n inp ∧
      ∀ z, Admissible mbs n inp z → objective n inp x.get ≤ objective n inp z := by
  obtain ⟨uni, bi, d, h, rfl⟩ := h
  exact solvedIn_optimal h

namespace Realise
variable {K : Type} [Field K] [LinearOrder K] [IsStrictOrderedRing K]

/-- Objects that return the parts of a given problem: the object `k` is the `k`-th task, equality, ... -/
def objects (inp : QPInput K) : Objects K ℕ Unit Unit where
  cNrVars := fun _ _ _ w => .ok w
  tNrVars := fun _ _ _ w => .ok w
  cUpdate := fun _ _ _ _ w => .ok w
  tUpdate := fun _ _ _ _ w => .ok w
  eq := fun _ k => inp.eq.getD k ⟨0, 0, Mat.zero 0 0, Vec.const 0 0⟩
  inEq := fun _ k => inp.inEq.getD k ⟨0, 0, Mat.zero 0 0, Vec.const 0 .posInf⟩
  gen := fun _ k => inp.gen.getD k ⟨0, 0, Mat.zero 0 0, Vec.const 0 .negInf, Vec.const 0 .posInf⟩
  bound := fun _ k => inp.bound.getD k ⟨0, Vec.const 0 .negInf, Vec.const 0 .posInf⟩
  task := fun _ k => inp.tasks.getD k ⟨Mat.zero 0 0, Vec.const 0 0, (0, 0), 0⟩
  parts := fun _ => []

def rows (inp : QPInput K) : Part → List ℕ
  | .eq => List.range inp.eq.length
  | .inEq => List.range inp.inEq.length
  | .genInEq => List.range inp.gen.length
  | .bound => List.range inp.bound.length

def start (inp : QPInput K) : Solver K ℕ :=
  ⟨⟨[], rows inp⟩, List.range inp.tasks.length, SolverData.init, maxEq inp, maxInEq inp, maxGen inp,
    .qld Qld.init⟩

open Classical in
/-- A numerical solver that answers `y` when `y` is a minimiser and fails otherwise. -/
noncomputable def pinned (y : ℕ → K) : Engines K where
  qld := fun p => (decide (p.Feasible y ∧ ∀ z, p.Feasible z → p.obj y ≤ p.obj z), ⟨p.C.size, y⟩)
  lssol := fun p => (decide (p.Feasible y ∧ ∀ z, p.Feasible z → p.obj y ≤ p.obj z), ⟨p.C.size, y⟩)
  istate := Vec.const 0 0

open Classical in
theorem pinned_ok (y : ℕ → K) : EngineSized (pinned y) ∧ EngineOptimal (pinned y) :=
  ⟨⟨fun _ => rfl, fun _ => rfl⟩, fun _ h => of_decide_eq_true h, fun _ h => of_decide_eq_true h⟩

theorem forEach_const {α σ : Type} (l : List α) (w : σ) : forEach l (fun _ w => Out.ok w) w = .ok w := by
  induction l with
  | nil => rfl
  | cons a l ih => rw [forEach, Out.ok_bind, ih]

theorem range_getD {α : Type} (l : List α) (a : α) : (List.range l.length).map (fun k => l.getD k a) = l := by
  apply List.ext_getElem
  · simp
  · intro i h1 h2
    simp [List.getD, h2]

theorem input_start (inp : QPInput K) {s : Solver K ℕ} (h1 : s.regs = (start inp).regs)
    (h2 : s.tasks = (start inp).tasks) : s.input (objects inp) () = inp := by
  unfold Solver.input
  rw [h1, h2]
  cases inp
  simp only [start, objects, rows, range_getD]

end Realise

open Realise

/-- The number of decision variables: dofs of the robots, weights of the contacts. -/
def Spec.nrVariables {K : Type} [Field K] (mbs : List (MultiBody K)) (uni : List (UniContact K))
    (bi : List (BiContact K)) : ℕ :=
  (mbs.map MultiBody.nrDof).sum + ((uni.map uniWeights).sum + (bi.map biWeights).sum)

/-- Every problem that fits the variables of some robots (without mimic joints) and contacts, with bound
constraints on disjoint variables, and every minimiser `y` of its objective among the points that satisfy its
constraints: there is a successful step with that problem and that result. -/
theorem realiseIn {K : Type} [Field K] [LinearOrder K] [IsStrictOrderedRing K] {mbs : List (MultiBody K)}
    (hm : ∀ mb ∈ mbs, MimicOK mb) (hno : ∀ mb ∈ mbs, NoMimic mb) (htree : ∀ mb ∈ mbs, 0 < mb.nrDof → Tree mb)
    {uni : List (UniContact K)} {bi : List (BiContact K)} (hg : GoodContacts bi)
    {mbcs : List (Mbc K Unit)} (hlen : mbcs.length = mbs.length)
    (hmbc : ∀ (r : ℕ) (mb : MultiBody K) (m : Mbc K Unit), mbs[r]? = some mb → mbcs[r]? = some m →
      Shaped mb m ∧ (0 < mb.nrDof → MbcSized mb m))
    {inp : QPInput K} (hs : InputSized (nrVariables mbs uni bi) inp)
    (hpos : 0 < nrVariables mbs uni bi)
    (hdis : inp.bound.Pairwise fun c d => ∀ v, ¬ (Covers c v ∧ Covers d v)) {y : ℕ → K}
    (hy : AllSatisfied (nrVariables mbs uni bi) inp y)
    (hopt : ∀ z, AllSatisfied (nrVariables mbs uni bi) inp z →
      objective (nrVariables mbs uni bi) inp y ≤ objective (nrVariables mbs uni bi) inp z) :
    ∃ d x, SolvedIn "QLD" mbs uni bi d inp x ∧ d.nrVars = nrVariables mbs uni bi ∧ ∀ v, x.get v = y v := by
  have hfit : InputFits (nrVariables mbs uni bi) (maxEq inp) (maxInEq inp) (maxGen inp) inp :=
    ⟨hs, le_rfl, le_rfl, le_rfl⟩
  obtain ⟨d, deps, e, sp⟩ := layout_ok (SolverData.init : SolverData K) mbs uni bi
    (fun mb h => MimicOK.named (hm mb h)) hg
  have hn : d.nrVars = nrVariables mbs uni bi := by
    rw [sp.nrVars, sp.totalAlphaD, sp.totalLambda, sp.nrUniLambda, sp.nrBiLambda]; rfl
  have hnil : allDeps mbs 0 = [] := allDeps_eq_nil hno 0
  have hwf : DepsWF d.nrVars (allDeps mbs 0) :=
    allDeps_DepsWF hm (by rw [hn]; unfold nrVariables; omega)
  obtain ⟨ds, hds, _⟩ := setDependencies_ok hwf (hn ▸ hpos) DepSt.init
  have hdeps := sp.deps
  subst hdeps
  let q0 : Qld K := ({ Qld.init with dep := ds } : Qld K)
  let s : Solver K ℕ := { start inp with
    data := d, backend := (Backend.qld q0).updateSize d.nrVars (maxEq inp) (maxInEq inp) (maxGen inp) }
  have hrun : Run (objects inp) false ([] ++ .nrVars mbs uni bi :: []) (start inp, ()) (s, ()) := by
    have hbk : (start inp).backend.setDependencies d.nrVars (allDeps mbs 0) = .ok (.qld q0) := by
      simp only [start, Backend.setDependencies]
      have : setDependencies d.nrVars (allDeps mbs 0) (Qld.init : Qld K).dep = .ok ds := hds
      rw [this]
      rfl
    have hdat : (start inp).data = SolverData.init := rfl
    have hst : ∀ s1 : Solver K ℕ, s1.updateTasksNrVars (objects inp) mbs () = .ok () := by
      intro s1
      unfold Solver.updateTasksNrVars
      exact forEach_const _ _
    simp only [Run, List.nil_append, forEach, Call.run, Solver.nrVars, hdat, e, Out.ok_bind, hbk, Out.pure_eq, hst]
    rfl
  have hin : s.input (objects inp) () = inp := input_start inp rfl rfl
  have get : ∀ {r : ℕ} {mb : MultiBody K}, mbs[r]? = some mb → ∃ m, mbcs[r]? = some m := by
    intro r mb hr
    have : r < mbcs.length := by
      rw [hlen]
      by_contra hc
      rw [List.getElem?_eq_none (by omega)] at hr
      cases hr
    exact ⟨_, List.getElem?_eq_getElem this⟩
  obtain ⟨d', hd, -⟩ := C54_normal_recursion_partial (R := Unit) (d := d)
    ⟨fun mb h => MimicOK.named (hm mb h), hg⟩ htree (.nrVars e) mbcs (by
      intro r mb hr h0
      obtain ⟨m, hmm⟩ := get hr
      exact ⟨m, hmm, (hmbc r mb m hr hmm).2 h0⟩)
  have hE := pinned_ok y
  have hshape : ∀ (r : ℕ) (m : Mbc K Unit), mbcs[r]? = some m → ∃ mb, mbs[r]? = some mb ∧ Shaped mb m := by
    intro r m hr
    have : r < mbs.length := by
      rw [← hlen]
      by_contra hc
      rw [List.getElem?_eq_none (by omega)] at hr
      cases hr
    exact ⟨_, List.getElem?_eq_getElem this, (hmbc r _ m (List.getElem?_eq_getElem this) hr).1⟩
  have hfit' : InputFits s.data.nrVars s.maxEq s.maxInEq s.maxGen (s.input (objects inp) ()) := by
    rw [hin]
    change InputFits d.nrVars (maxEq inp) (maxInEq inp) (maxGen inp) _
    rw [hn]
    exact hfit
  obtain ⟨flag, mbcs', s', hsol⟩ := C14_solve_returns hm hg (by simp)
    hrun hE.1 (w1 := ()) (w2 := ()) (mbs' := mbs) (mbcs := mbcs) (d := d') hd
    (by exact forEach_const _ _) (by exact forEach_const _ _) hfit' hshape (Or.inl rfl)
  have hD : DepsAre (nrVariables mbs uni bi) [] q0.dep := by
    refine ⟨?_, .inr ⟨DepSt.init, ?_⟩⟩
    · rw [← hnil, ← hn]; exact hwf
    · rw [← hnil, ← hn]; exact hds
  obtain ⟨-, -, -, ⟨b, hb1, hb2, hb3⟩, -⟩ := C14_solve hsol
  rw [hin] at hb1
  have hb1' : (Backend.qld (q0.updateSize d.nrVars (maxEq inp) (maxInEq inp) (maxGen inp))).updateMatrix inp
      = .ok b := hb1
  simp only [Backend.updateMatrix, Out.bind_eq_ok] at hb1'
  obtain ⟨q, hq, hb⟩ := hb1'
  cases hb
  have hflag : flag = true := by
    obtain ⟨p, hp, hf⟩ := hb2
    rw [hn] at hq
    have hR : QldRun (nrVariables mbs uni bi) (maxEq inp) (maxInEq inp) (maxGen inp) [] inp q0 p :=
      ⟨_, q, rfl, hq, hp⟩
    have hall : ∀ j ∈ ([] : List (QPInput K)) ++ [inp],
        InputFits (nrVariables mbs uni bi) (maxEq inp) (maxInEq inp) (maxGen inp) j := by
      intro j hj
      simp at hj
      subst hj
      exact hfit
    have ho := fun z => (C09_objective hall z).1 _ p hD hR
    have hfe : ∀ z, p.Feasible z ↔ AllSatisfied (nrVariables mbs uni bi) inp z := fun z =>
      and_congr ((C06_qld_lines hall hD hR).1 z) ((C08_bounds_enforced_partial hall hdis).1 _ p hD hR z)
    rw [hf]
    simp only [pinned, decide_eq_true_eq]
    exact ⟨(hfe y).2 hy, fun z hz => by rw [ho, ho]; exact hopt z ((hfe z).1 hz)⟩
  subst hflag
  have hres : ∀ v, s'.backend.result.get v = y v := by
    obtain ⟨y', hy', hyv⟩ := Backend.result_full hb3
    intro v
    have hdep : (Backend.qld q).dep = q0.dep := by
      have hz := Backend.updateSize_sized d.nrVars (maxEq inp) (maxInEq inp) (maxGen inp) (Backend.qld q0)
      rw [(Backend.updateMatrix_sized hb1 hz.1).1, hz.2]
      rfl
    rw [hy', hdep, fullX_nil hD]
    rcases hyv with ⟨p, rfl⟩ | ⟨p, rfl⟩ <;> rfl
  have hn' : s'.data.nrVars = nrVariables mbs uni bi := by
    obtain ⟨⟨msg, e⟩, -⟩ := solve_parts hsol
    obtain ⟨d, w1, c1, c2, hnd, _, _, _, _, e', _⟩ := solveNoMbcUpdate_parts e
    rw [e', ← hn]
    exact (computeNormalAccB_layout hnd).nrVars
  refine ⟨s'.data, s'.backend.result, ⟨ℕ, Unit, Unit, inferInstance, objects inp, false, [], [], (start inp, ()), s, s',
    (), (), pinned y, mbcs, mbcs', hm, hg, ?_, by simp, hrun, hE.1, hE.2, hlen, ?_, hsol,
    hfit', by rw [hin]; exact hdis, rfl, rfl, hin.symm, rfl⟩, hn', hres⟩
  · intro mb hmb j hj l m h
    rw [hno mb hmb j hj] at h
    cases h
  · exact fun r mb m hr hmm => (hmbc r mb m hr hmm).1

theorem realise {K : Type} [Field K] [LinearOrder K] [IsStrictOrderedRing K] {mbs : List (MultiBody K)}
    (hm : ∀ mb ∈ mbs, MimicOK mb) (hno : ∀ mb ∈ mbs, NoMimic mb) (htree : ∀ mb ∈ mbs, 0 < mb.nrDof → Tree mb)
    {uni : List (UniContact K)} {bi : List (BiContact K)} (hg : GoodContacts bi)
    {mbcs : List (Mbc K Unit)} (hlen : mbcs.length = mbs.length)
    (hmbc : ∀ (r : ℕ) (mb : MultiBody K) (m : Mbc K Unit), mbs[r]? = some mb → mbcs[r]? = some m →
      Shaped mb m ∧ (0 < mb.nrDof → MbcSized mb m))
    {inp : QPInput K} (hs : InputSized (nrVariables mbs uni bi) inp)
    (hpos : 0 < nrVariables mbs uni bi)
    (hdis : inp.bound.Pairwise fun c d => ∀ v, ¬ (Covers c v ∧ Covers d v)) {y : ℕ → K}
    (hy : AllSatisfied (nrVariables mbs uni bi) inp y)
    (hopt : ∀ z, AllSatisfied (nrVariables mbs uni bi) inp z →
      objective (nrVariables mbs uni bi) inp y ≤ objective (nrVariables mbs uni bi) inp z) :
    ∃ x, Solved "QLD" mbs (nrVariables mbs uni bi) inp x ∧ ∀ v, x.get v = y v := by
  obtain ⟨d, x, h1, h2, h3⟩ := realiseIn hm hno htree hg hlen hmbc hs hpos hdis hy hopt
  exact ⟨x, ⟨uni, bi, d, h1, h2.symm⟩, h3⟩

/-- Without mimic joints nothing is asked of mimic joints. -/
theorem mimicJoints_of_noMimic {K : Type} [Field K] [LinearOrder K] [IsStrictOrderedRing K]
    {mbs : List (MultiBody K)} (h : ∀ mb ∈ mbs, NoMimic mb) (x : ℕ → K) : MimicJoints mbs x := by
  intro r mb hr i k j j' hi hk m hmm
  rw [h mb (List.mem_of_getElem? hr) j (List.mem_of_getElem? hi)] at hmm
  cases hmm

end Verif
