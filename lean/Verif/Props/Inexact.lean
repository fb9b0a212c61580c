import Verif.Proofs.Tolerance
import Verif.Props.Safety

/-!
# C84, C85: inexact numerical solvers

C55 and what follows from it assume a numerical solver that answers exactly.  Here the answer satisfies its constraints
up to `ε` and is within `δ` of the optimum.
-/

set_option autoImplicit false
set_option linter.unusedSectionVars false

namespace Verif

open Finset Spec

section C84
variable {K Ob W R : Type} [Field K] [LinearOrder K] [IsStrictOrderedRing K] [DecidableEq Ob]

namespace Spec

/-- Variable `v` is the acceleration of a mimic joint of one of the robots. -/
def MimicVar (mbs : List (MultiBody K)) (v : ℕ) : Prop :=
  ∃ (r : ℕ) (mb : MultiBody K) (i : ℕ) (j : Joint K), mbs[r]? = some mb ∧ mb.joints[i]? = some j ∧
    j.mimic ≠ none ∧ v = ((mbs.take r).map MultiBody.nrDof).sum + dofBefore mb i

end Spec

/-- An exact numerical solver is one with no tolerance. -/
theorem C84_exact {eng : Engines K} (h : EngineOptimal eng) {ε δ : K} (hε : 0 ≤ ε) (hδ : 0 ≤ δ) :
    EngineNear ε δ eng := by
  refine ⟨fun p hp => ?_, fun p hp => ?_⟩
  · obtain ⟨⟨⟨h1, h2⟩, h3⟩, h4⟩ := h.1 p hp
    refine ⟨⟨fun i hi => by rw [h1 i hi]; simpa using hε, fun i hi => ?_, _, h3, fun i hi => by simpa using hε⟩,
      fun z hz => (h4 z hz).trans (by linarith)⟩
    exact Ext.upperOK_mono (h2 i hi) (by linarith)
  · obtain ⟨⟨h1, h3⟩, h4⟩ := h.2 p hp
    refine ⟨⟨fun i hi => ⟨?_, ?_⟩, _, h3, fun i hi => by simpa using hε⟩, fun z hz => (h4 z hz).trans (by linarith)⟩
    · exact Ext.lowerOK_mono (h1 i hi).1 (by linarith)
    · exact Ext.upperOK_mono (h1 i hi).2 (by linarith)

/-- Free variables of the full vector are variables of the backend. -/
theorem fullX_near {n : ℕ} {deps : List (ℕ × ℕ × K)} {ds : DepSt K} (hd : DepsAre n deps ds) {y z : ℕ → K} {ε : K}
    (h : ∀ i < n - ds.deps.length, |y i - z i| ≤ ε) {v : ℕ} (hv : v < n) (hr : v ∉ reps deps) :
    |fullX ds y v - fullX ds z v| ≤ ε := by
  obtain ⟨-, hperm, hsp⟩ := hd.ok
  unfold fullX
  split
  · rename_i hne
    have hne' : deps ≠ [] := by
      rintro rfl
      rw [List.perm_nil] at hperm
      simp [hperm] at hne
    have hds := hsp hne'
    have e1 : expand ds.M y v = y (rank deps v) := hds.mulKeep v hv hr y
    have e2 : expand ds.M z v = z (rank deps v) := hds.mulKeep v hv hr z
    rw [e1, e2]
    exact h _ (by rw [hperm.length_eq]; exact rank_lt hd.1 hv hr)
  · rename_i hne
    exact h v (by simp only [not_not] at hne; omega)

/-- **C84.**  Hypotheses of C55, with a numerical solver whose successful answers satisfy their problem up to `ε` and
are within `δ` of the optimum.  After a successful `solve`:

* the accelerations written to the robots, followed by `lambdaVec()`, are the vector `result()`;
* every active line of every registered constraint holds up to `ε`, in the units of that line;
* some point that respects every bound and the mimic joints differs from the result by at most `ε` in each variable that
  is not the acceleration of a mimic joint;
* every mimic joint's acceleration is exactly its multiplier times its leader's;
* no vector that satisfies every constraint has an objective smaller by more than `δ`. -/
theorem C84_end_to_end {ob : Objects K Ob W R} {hasLssol : Bool}
    {pre post : List (Call K Ob W R)} {mbs : List (MultiBody K)} {uni : List (UniContact K)}
    {bi : List (BiContact K)} (hm : ∀ mb ∈ mbs, MimicOK mb) (hb : GoodContacts bi)
    (hnz : ∀ mb ∈ mbs, ∀ j ∈ mb.joints, ∀ l m, j.mimic = some (l, m) → m ≠ 0)
    (hp : ∀ c ∈ post, Keeps mbs c) {sw0 : Solver K Ob × W} {s s' : Solver K Ob} {w w' : W}
    (h : Run ob hasLssol (pre ++ .nrVars mbs uni bi :: post) sw0 (s, w)) {eng : Engines K} {ε δ : K}
    (hE : EngineSized eng) (hO : EngineNear ε δ eng)
    {mbcs mbcs' : List (Mbc K R)} (hlen : mbcs.length = mbs.length)
    (hshape : ∀ (r : ℕ) (mb : MultiBody K) (m : Mbc K R), mbs[r]? = some mb → mbcs[r]? = some m →
      Shaped mb m)
    (hsol : s.solve ob eng mbs mbcs w = .ok (true, mbcs', s', w'))
    (hfit : InputFits s.data.nrVars s.maxEq s.maxInEq s.maxGen (s.input ob w'))
    (hdis : (s.input ob w').bound.Pairwise fun c d => ∀ v, ¬ (Covers c v ∧ Covers d v)) :
    (∃ vl, lambdaVec s'.data s'.backend.result = .ok vl ∧
      (mbcs'.map fun m => m.alphaD.flatten).flatten ++ vl.toList = s'.backend.result.toList) ∧
    LinesNear ε s.data.nrVars (s.input ob w') s'.backend.result.get ∧
    (∃ z, (∀ c ∈ (s.input ob w').bound, SatBound c z) ∧ MimicJoints mbs z ∧
      ∀ v < s.data.nrVars, ¬ MimicVar mbs v → |s'.backend.result.get v - z v| ≤ ε) ∧
    MimicJoints mbs s'.backend.result.get ∧
    ∀ x, AllSatisfied s.data.nrVars (s.input ob w') x → MimicJoints mbs x →
      objective s.data.nrVars (s.input ob w') s'.backend.result.get
        ≤ objective s.data.nrVars (s.input ob w') x + δ := by
  have hready := ready_of_run hm hb hp h
  obtain ⟨⟨msg, h1⟩, hupd⟩ := solve_parts hsol
  have hready' := hready.solveNoMbcUpdate h1
  obtain ⟨d, w1, c1, c2, hnd, _, _, hu, hs, rfl, _⟩ := solveNoMbcUpdate_parts h1
  have hin := hfit.1
  obtain ⟨b1, ok, b2, e1, e2, _, hsz, y, hy, hopt⟩ :=
    Backend.assemble_solve_near hE hready.sized hready.deps.ok.1 hfit
  rw [hu] at e1
  cases e1
  rw [hs] at e2
  cases e2
  obtain ⟨hl, ⟨z0, hbd, hz0⟩, hbest⟩ := hopt ε δ hO rfl
  have hn : d.nrVars = s.data.nrVars := (computeNormalAccB_layout hnd).nrVars
  have hgx : c2.result.get = fullX s.backend.dep y := funext hy
  have hzero : ∀ e ∈ allDeps mbs 0, e.2.2 = 0 → LastBounds (s.input ob w') e.2.1 0 := by
    intro e he h0
    obtain ⟨r, mb, i, k, j, j', m, f1, f2, f3, f4, rfl⟩ := allDeps_desc hm 0 e he
    exact absurd h0 (hnz mb (List.mem_of_getElem? f1) j (List.mem_of_getElem? f2) _ m f4)
  have hmj : MimicJoints mbs c2.result.get := by
    rw [hgx]
    exact mimicJoints_of hm (fullX_mimic hready.deps y)
  refine ⟨?_, ?_, ?_, hmj, ?_⟩
  · -- written accelerations
    obtain ⟨old, d0, hlay, hsame⟩ := hready'.lay
    have hgood : GoodInput mbs bi := ⟨fun mb h => MimicOK.named (hm mb h), hb⟩
    have hsame' : SameLayout d0 d := hsame
    obtain ⟨as, ls, va, vl, a1, a2, a3, a4, a5, a6, a7, a8, a9⟩ :=
      C02_accessors old mbs uni bi hgood d0 _ hlay c2.result (by rw [hsz, ← hn]; exact hsame'.nrVars)
    refine ⟨vl, by rw [← a8]; exact hsame'.lambdaVec _, ?_⟩
    rw [if_pos rfl] at hupd
    obtain ⟨g1, g2⟩ := updateMbcs_spec hupd
    have hal : (mbcs'.map fun m => m.alphaD.flatten) = as.map Vec.toList := by
      apply List.ext_getElem?
      intro r
      by_cases hr : r < mbs.length
      · obtain ⟨v, v1, v2, v3⟩ := a3 r hr
        have hrm : r < mbcs.length := by omega
        obtain ⟨v', m', q1, q2, q3, q4⟩ := g2 r _ (List.getElem?_eq_getElem hrm)
        rw [zero_add] at q1
        have q1' : alphaDVecAt d c2.result r = .ok v' := q1
        rw [hsame'.alphaDVecAt, v2] at q1'
        cases q1'
        obtain ⟨u1, u2, _⟩ := vectorToParam_spec q3
        have hsh := hshape r _ _ (List.getElem?_eq_getElem hr) (List.getElem?_eq_getElem hrm)
        have hsize : (mbcs[r]).alphaD.flatten.length = v.size := by
          rw [v3, List.length_flatten, hsh]; rfl
        simp only [List.getElem?_map, q2, v1, Option.map_some, Option.some.injEq]
        rw [u2, hsize]
        simp [Vec.toList]
      · rw [List.getElem?_eq_none (by simp; omega), List.getElem?_eq_none (by simp; omega)]
    rw [hal, a9, ← List.flatten_append, ← List.map_append]
    exact a5
  · rw [hgx]; exact hl
  · refine ⟨fullX s.backend.dep z0,
      (lastBounds_disjoint hin.2.2.2.2 hdis _).mp ((boundsAt_all hready.deps hzero z0).mp hbd),
      mimicJoints_of hm (fullX_mimic hready.deps z0), fun v hv hnm => ?_⟩
    rw [hgx]
    refine fullX_near hready.deps hz0 hv fun hr => hnm ?_
    obtain ⟨e, he, rfl⟩ := List.mem_map.mp hr
    obtain ⟨r, mb, i, k, j, j', m, f1, f2, f3, f4, rfl⟩ := allDeps_desc hm 0 e he
    exact ⟨r, mb, i, j, f1, f2, by rw [f4]; simp, by simp⟩
  · intro x hx hxm
    obtain ⟨z, hz⟩ := fullX_surj hready.deps (mimic_of_joints hm hxm)
    rw [hgx, ← objective_congr hin.1 hz]
    apply hbest
    · exact (satLines_congr hz).mpr hx.1
    · apply (boundsAt_all hready.deps hzero z).mpr
      apply (lastBounds_disjoint hin.2.2.2.2 hdis _).mpr
      intro c hc
      exact (satBound_congr (hin.2.2.2.2 c hc) hz).mpr (hx.2 c hc)

namespace Spec

/-- `SolvedIn` with an inexact numerical solver. -/
def SolvedInNear (ε δ : K) (backend : String) (mbs : List (MultiBody K)) (uni : List (UniContact K))
    (bi : List (BiContact K)) (d : SolverData K) (inp : QPInput K) (x : Vec K) : Prop :=
  ∃ (Ob W R : Type) (_ : DecidableEq Ob) (ob : Objects K Ob W R) (hasLssol : Bool)
    (pre post : List (Call K Ob W R))
    (sw0 : Solver K Ob × W) (s s' : Solver K Ob) (w w' : W) (eng : Engines K) (mbcs mbcs' : List (Mbc K R)),
    (∀ mb ∈ mbs, MimicOK mb) ∧ GoodContacts bi ∧
    (∀ mb ∈ mbs, ∀ j ∈ mb.joints, ∀ l m, j.mimic = some (l, m) → m ≠ 0) ∧
    (∀ c ∈ post, Keeps mbs c) ∧ Run ob hasLssol (pre ++ .nrVars mbs uni bi :: post) sw0 (s, w) ∧
    EngineSized eng ∧ EngineNear ε δ eng ∧ mbcs.length = mbs.length ∧
    (∀ (r : ℕ) (mb : MultiBody K) (m : Mbc K R), mbs[r]? = some mb → mbcs[r]? = some m → Shaped mb m) ∧
    s.solve ob eng mbs mbcs w = .ok (true, mbcs', s', w') ∧
    InputFits s.data.nrVars s.maxEq s.maxInEq s.maxGen (s.input ob w') ∧
    (s.input ob w').bound.Pairwise (fun c d => ∀ v, ¬ (Covers c v ∧ Covers d v)) ∧
    s.backend.name = backend ∧ d = s'.data ∧ inp = s.input ob w' ∧ x = s'.backend.result

/-- `Solved` with an inexact numerical solver. -/
def SolvedNear (ε δ : K) (backend : String) (mbs : List (MultiBody K)) (n : ℕ) (inp : QPInput K) (x : Vec K) : Prop :=
  ∃ uni bi d, SolvedInNear ε δ backend mbs uni bi d inp x ∧ n = d.nrVars

end Spec

/-- A step with an exact solver is one with any tolerance. -/
theorem Spec.Solved.near {backend : String} {mbs : List (MultiBody K)} {n : ℕ} {inp : QPInput K} {x : Vec K}
    (h : Solved backend mbs n inp x) {ε δ : K} (hε : 0 ≤ ε) (hδ : 0 ≤ δ) : SolvedNear ε δ backend mbs n inp x := by
  obtain ⟨uni, bi, d, ⟨Ob, W, R, i, ob, hasLssol, pre, post, sw0, s, s', w, w', eng, mbcs, mbcs', h1, h2, h3, h4, h5, h6,
    h7, h8⟩, rfl⟩ := h
  exact ⟨uni, bi, d, ⟨Ob, W, R, i, ob, hasLssol, pre, post, sw0, s, s', w, w', eng, mbcs, mbcs', h1, h2, h3, h4, h5, h6,
    C84_exact h7 hε hδ, h8⟩, rfl⟩

/-- What C84 says of a successful step. -/
theorem solvedNear_spec {ε δ : K} {backend : String} {mbs : List (MultiBody K)} {n : ℕ} {inp : QPInput K} {x : Vec K}
    (h : SolvedNear ε δ backend mbs n inp x) :
    LinesNear ε n inp x.get ∧
    (∃ z, (∀ c ∈ inp.bound, SatBound c z) ∧ MimicJoints mbs z ∧
      ∀ v < n, ¬ MimicVar mbs v → |x.get v - z v| ≤ ε) ∧
    MimicJoints mbs x.get ∧ InputSized n inp ∧
    ∀ z, Admissible mbs n inp z → objective n inp x.get ≤ objective n inp z + δ := by
  obtain ⟨uni, bi, d, ⟨Ob, W, R, _, ob, hasLssol, pre, post, sw0, s, s', w, w', eng, mbcs, mbcs', h1, h2, h3, h4, h5, h6,
    h7, h8, h9, h10, h11, h12, -, rfl, rfl, rfl⟩, rfl⟩ := h
  obtain ⟨⟨msg, e⟩, -⟩ := solve_parts h10
  obtain ⟨d, w1, c1, c2, hnd, _, _, hu, hs, e', _⟩ := solveNoMbcUpdate_parts e
  have hn : s'.data.nrVars = s.data.nrVars := by rw [e']; exact (computeNormalAccB_layout hnd).nrVars
  obtain ⟨-, k1, k2, k3, k4⟩ := C84_end_to_end h1 h2 h3 h4 h5 h6 h7 h8 h9 h10 h11 h12
  rw [hn]
  exact ⟨k1, k2, k3, h11.1, fun z hz => k4 z hz.1 hz.2⟩

theorem solvedNear_wf {ε δ : K} {backend : String} {mbs : List (MultiBody K)} {n : ℕ} {inp : QPInput K} {x : Vec K}
    (h : SolvedNear ε δ backend mbs n inp x) : (∀ mb ∈ mbs, MimicOK mb) ∧ DepsWF n (allDeps mbs 0) := by
  obtain ⟨uni, bi, d, ⟨Ob, W, R, _, ob, hasLssol, pre, post, sw0, s, s', w, w', eng, mbcs, mbcs', h1, h2, h3, h4, h5, h6,
    h7, h8, h9, h10, h11, h12, -, rfl, rfl, rfl⟩, rfl⟩ := h
  obtain ⟨⟨msg, e⟩, -⟩ := solve_parts h10
  obtain ⟨d, w1, c1, c2, hnd, _, _, hu, hs, e', _⟩ := solveNoMbcUpdate_parts e
  have hn : s'.data.nrVars = s.data.nrVars := by rw [e']; exact (computeNormalAccB_layout hnd).nrVars
  rw [hn]
  exact ⟨h1, (ready_of_run h1 h2 h4 h5).deps.1⟩

/-- **C84** (bounds).  Every bound on a variable that is not the acceleration of a mimic joint holds up to `ε`; a bound
on a mimic joint with multiplier `m` holds up to `|m| ε`. -/
theorem C84_bounds {ε δ : K} {backend : String} {mbs : List (MultiBody K)} {n : ℕ} {inp : QPInput K} {x : Vec K}
    (h : SolvedNear ε δ backend mbs n inp x) {c : BoundC K} (hc : c ∈ inp.bound) {i : ℕ} :
    (¬ MimicVar mbs (c.beginVar + i) →
      (i < c.lower.size → (c.lower.get i).LowerOK (x.get (c.beginVar + i) + ε)) ∧
      (i < c.upper.size → (c.upper.get i).UpperOK (x.get (c.beginVar + i) - ε))) ∧
    ∀ (r : ℕ) (mb : MultiBody K) (a b : ℕ) (j j' : Joint K) (m : K), mbs[r]? = some mb → mb.joints[a]? = some j →
      mb.joints[b]? = some j' → j.mimic = some (j'.name, m) →
      c.beginVar + i = ((mbs.take r).map MultiBody.nrDof).sum + dofBefore mb a →
      (i < c.lower.size → (c.lower.get i).LowerOK (x.get (c.beginVar + i) + |m| * ε)) ∧
      (i < c.upper.size → (c.upper.get i).UpperOK (x.get (c.beginVar + i) - |m| * ε)) := by
  obtain ⟨-, ⟨z, hz, hmz, hnear⟩, hmx, hsz, -⟩ := solvedNear_spec h
  obtain ⟨hok, hwf⟩ := solvedNear_wf h
  have hcs := hsz.2.2.2.2 c hc
  constructor
  · intro hv
    constructor
    · intro hi
      refine Ext.lowerOK_mono ((hz c hc).1 i hi) ?_
      have := abs_le.mp (hnear _ (by have := hcs.1; have := hcs.2; omega) hv)
      linarith
    · intro hi
      refine Ext.upperOK_mono ((hz c hc).2 i hi) ?_
      have := abs_le.mp (hnear _ (by have := hcs.1; have := hcs.2; omega) hv)
      linarith
  · intro r mb a b j j' m hr ha hb hj he
    have hL : ¬ MimicVar mbs (((mbs.take r).map MultiBody.nrDof).sum + dofBefore mb b) := by
      rintro ⟨r', mb', i', k, g1, g2, g3, g4⟩
      obtain ⟨⟨l, m'⟩, hk⟩ := Option.ne_none_iff_exists'.mp g3
      obtain ⟨-, k', hk', rfl, -⟩ := (hok mb' (List.mem_of_getElem? g1)).2 k (List.mem_of_getElem? g2) l m' hk
      obtain ⟨q, hq⟩ := List.mem_iff_getElem?.mp hk'
      refine hwf.2.2 _ (mem_allDeps hok hr ha hb hj 0) _ (mem_allDeps hok g1 g2 hq hk 0) ?_
      simpa using g4
    have hlt := (hwf.2.1 _ (mem_allDeps hok hr ha hb hj 0)).1
    simp only [zero_add] at hlt
    have e1 := hmx r mb hr a b j j' ha hb m hj
    have e2 := hmz r mb hr a b j j' ha hb m hj
    rw [← he] at e1 e2
    have e3 : |x.get (c.beginVar + i) - z (c.beginVar + i)| ≤ |m| * ε := by
      rw [e1, e2, ← mul_sub, abs_mul]
      exact mul_le_mul_of_nonneg_left (hnear _ hlt hL) (abs_nonneg _)
    have := abs_le.mp e3
    exact ⟨fun hi => Ext.lowerOK_mono ((hz c hc).1 i hi) (by linarith),
      fun hi => Ext.upperOK_mono ((hz c hc).2 i hi) (by linarith)⟩

namespace Realise

open Classical in
/-- A numerical solver that answers `y` when `y` is within the tolerances and fails otherwise. -/
noncomputable def pinnedNear (ε δ : K) (y : ℕ → K) : Engines K where
  qld := fun p => (decide (QldNear ε p y ∧ ∀ z, p.Feasible z → p.obj y ≤ p.obj z + δ), ⟨p.C.size, y⟩)
  lssol := fun p => (decide (LssolNear ε p y ∧ ∀ z, p.Feasible z → p.obj y ≤ p.obj z + δ), ⟨p.C.size, y⟩)
  istate := Vec.const 0 0

open Classical in
theorem pinnedNear_ok (ε δ : K) (y : ℕ → K) : EngineSized (pinnedNear ε δ y) ∧ EngineNear ε δ (pinnedNear ε δ y) :=
  ⟨⟨fun _ => rfl, fun _ => rfl⟩, fun _ h => of_decide_eq_true h, fun _ h => of_decide_eq_true h⟩

end Realise

open Realise

/-- As `realiseIn`, for a point `y` that satisfies the lines up to `ε`, is within `ε` of one that respects the bounds, and is
within `δ` of the optimum. -/
theorem realiseInNear {ε δ : K} (hε : 0 ≤ ε) {mbs : List (MultiBody K)}
    (hm : ∀ mb ∈ mbs, MimicOK mb) (hno : ∀ mb ∈ mbs, NoMimic mb) (htree : ∀ mb ∈ mbs, 0 < mb.nrDof → Tree mb)
    {uni : List (UniContact K)} {bi : List (BiContact K)} (hg : GoodContacts bi)
    {mbcs : List (Mbc K Unit)} (hlen : mbcs.length = mbs.length)
    (hmbc : ∀ (r : ℕ) (mb : MultiBody K) (m : Mbc K Unit), mbs[r]? = some mb → mbcs[r]? = some m →
      Shaped mb m ∧ (0 < mb.nrDof → MbcSized mb m))
    {inp : QPInput K} (hs : InputSized (nrVariables mbs uni bi) inp)
    (hpos : 0 < nrVariables mbs uni bi)
    (hdis : inp.bound.Pairwise fun c d => ∀ v, ¬ (Covers c v ∧ Covers d v)) {y : ℕ → K}
    (hy : LinesNear ε (nrVariables mbs uni bi) inp y)
    {z0 : ℕ → K} (hz0 : ∀ c ∈ inp.bound, SatBound c z0) (hyz : ∀ v < nrVariables mbs uni bi, |y v - z0 v| ≤ ε)
    (hopt : ∀ z, AllSatisfied (nrVariables mbs uni bi) inp z →
      objective (nrVariables mbs uni bi) inp y ≤ objective (nrVariables mbs uni bi) inp z + δ) :
    ∃ d x, SolvedInNear ε δ "QLD" mbs uni bi d inp x ∧ d.nrVars = nrVariables mbs uni bi ∧ ∀ v, x.get v = y v := by
  have hfit : InputFits (nrVariables mbs uni bi) (maxEq inp) (maxInEq inp) (maxGen inp) inp :=
    ⟨hs, le_rfl, le_rfl, le_rfl⟩
  obtain ⟨d, deps, e, sp⟩ := layout_ok (SolverData.init : SolverData K) mbs uni bi
    (fun mb h => MimicOK.named (hm mb h)) hg
  have hn : d.nrVars = nrVariables mbs uni bi := by
    rw [sp.nrVars, sp.totalAlphaD, sp.totalLambda, sp.nrUniLambda, sp.nrBiLambda]; rfl
  have hnil : allDeps mbs 0 = [] := allDeps_eq_nil hno 0
  have hwf : DepsWF d.nrVars (allDeps mbs 0) :=
    allDeps_DepsWF hm (by rw [hn]; unfold nrVariables; omega)
  obtain ⟨ds, hds, _⟩ := setDependencies_ok hwf (hn ▸ hpos) DepSt.init
  have hdeps := sp.deps
  subst hdeps
  let q0 : Qld K := ({ Qld.init with dep := ds } : Qld K)
  let s : Solver K ℕ := { start inp with
    data := d, backend := (Backend.qld q0).updateSize d.nrVars (maxEq inp) (maxInEq inp) (maxGen inp) }
  have hrun : Run (objects inp) false ([] ++ .nrVars mbs uni bi :: []) (start inp, ()) (s, ()) := by
    have hbk : (start inp).backend.setDependencies d.nrVars (allDeps mbs 0) = .ok (.qld q0) := by
      simp only [start, Backend.setDependencies]
      have : setDependencies d.nrVars (allDeps mbs 0) (Qld.init : Qld K).dep = .ok ds := hds
      rw [this]
      rfl
    have hdat : (start inp).data = SolverData.init := rfl
    have hst : ∀ s1 : Solver K ℕ, s1.updateTasksNrVars (objects inp) mbs () = .ok () := by
      intro s1
      unfold Solver.updateTasksNrVars
      exact forEach_const _ _
    simp only [Run, List.nil_append, forEach, Call.run, Solver.nrVars, hdat, e, Out.ok_bind, hbk, Out.pure_eq, hst]
    rfl
  have hin : s.input (objects inp) () = inp := input_start inp rfl rfl
  have get : ∀ {r : ℕ} {mb : MultiBody K}, mbs[r]? = some mb → ∃ m, mbcs[r]? = some m := by
    intro r mb hr
    have : r < mbcs.length := by
      rw [hlen]
      by_contra hc
      rw [List.getElem?_eq_none (by omega)] at hr
      cases hr
    exact ⟨_, List.getElem?_eq_getElem this⟩
  obtain ⟨d', hd, -⟩ := C54_normal_recursion_partial (R := Unit) (d := d)
    ⟨fun mb h => MimicOK.named (hm mb h), hg⟩ htree (.nrVars e) mbcs (by
      intro r mb hr h0
      obtain ⟨m, hmm⟩ := get hr
      exact ⟨m, hmm, (hmbc r mb m hr hmm).2 h0⟩)
  have hE := pinnedNear_ok ε δ y
  have hshape : ∀ (r : ℕ) (m : Mbc K Unit), mbcs[r]? = some m → ∃ mb, mbs[r]? = some mb ∧ Shaped mb m := by
    intro r m hr
    have : r < mbs.length := by
      rw [← hlen]
      by_contra hc
      rw [List.getElem?_eq_none (by omega)] at hr
      cases hr
    exact ⟨_, List.getElem?_eq_getElem this, (hmbc r _ m (List.getElem?_eq_getElem this) hr).1⟩
  have hfit' : InputFits s.data.nrVars s.maxEq s.maxInEq s.maxGen (s.input (objects inp) ()) := by
    rw [hin]
    change InputFits d.nrVars (maxEq inp) (maxInEq inp) (maxGen inp) _
    rw [hn]
    exact hfit
  obtain ⟨flag, mbcs', s', hsol⟩ := C14_solve_returns hm hg (by simp)
    hrun hE.1 (w1 := ()) (w2 := ()) (mbs' := mbs) (mbcs := mbcs) (d := d') hd
    (by exact forEach_const _ _) (by exact forEach_const _ _) hfit' hshape (Or.inl rfl)
  have hD : DepsAre (nrVariables mbs uni bi) [] q0.dep := by
    refine ⟨?_, .inr ⟨DepSt.init, ?_⟩⟩
    · rw [← hnil, ← hn]; exact hwf
    · rw [← hnil, ← hn]; exact hds
  obtain ⟨-, -, -, ⟨b, hb1, hb2, hb3⟩, -⟩ := C14_solve hsol
  rw [hin] at hb1
  have hb1' : (Backend.qld (q0.updateSize d.nrVars (maxEq inp) (maxInEq inp) (maxGen inp))).updateMatrix inp
      = .ok b := hb1
  simp only [Backend.updateMatrix, Out.bind_eq_ok] at hb1'
  obtain ⟨q, hq, hb⟩ := hb1'
  cases hb
  have hflag : flag = true := by
    obtain ⟨p, hp, hf⟩ := hb2
    rw [hn] at hq
    have hR : QldRun (nrVariables mbs uni bi) (maxEq inp) (maxInEq inp) (maxGen inp) [] inp q0 p :=
      ⟨_, q, rfl, hq, hp⟩
    have hall : ∀ j ∈ ([] : List (QPInput K)) ++ [inp],
        InputFits (nrVariables mbs uni bi) (maxEq inp) (maxInEq inp) (maxGen inp) j := by
      intro j hj
      simp at hj
      subst hj
      exact hfit
    have ho := fun z => (C09_objective hall z).1 _ p hD hR
    have hfe : ∀ z, p.Feasible z ↔ AllSatisfied (nrVariables mbs uni bi) inp z := fun z =>
      and_congr ((C06_qld_lines hall hD hR).1 z) ((C08_bounds_enforced_partial hall hdis).1 _ p hD hR z)
    rw [hf]
    simp only [pinnedNear, decide_eq_true_eq]
    have hC : p.C.size = nrVariables mbs uni bi := by
      obtain ⟨p', _, hu, c1, _⟩ := qldRun_spec hall hD
      rw [hu p hR, c1]
      rfl
    have hsz := Qld.updateSize_sized (nrVariables mbs uni bi) (maxEq inp) (maxInEq inp) (maxGen inp) q0
    obtain ⟨a1, a2, a3⟩ := active_le hs
    have hD' := hD.ok.1
    obtain ⟨l1, l2⟩ := (Qld.assembled_rows hs hsz.1 a1 (by omega) (by rw [hsz.2]; exact hD') hq hp).2.near
      (ε := ε) (y := y) (by rw [hsz.2, fullX_nil hD y]; exact hy)
    refine ⟨⟨l1, l2, z0,
      ((C08_bounds_enforced_partial hall hdis).1 _ p hD hR z0).2 hz0, fun i hi => hyz i (hC ▸ hi)⟩,
      fun z hz => by rw [ho, ho]; exact hopt z ((hfe z).1 hz)⟩
  subst hflag
  have hres : ∀ v, s'.backend.result.get v = y v := by
    obtain ⟨y', hy', hyv⟩ := Backend.result_full hb3
    intro v
    have hdep : (Backend.qld q).dep = q0.dep := by
      have hz := Backend.updateSize_sized d.nrVars (maxEq inp) (maxInEq inp) (maxGen inp) (Backend.qld q0)
      rw [(Backend.updateMatrix_sized hb1 hz.1).1, hz.2]
      rfl
    rw [hy', hdep, fullX_nil hD]
    rcases hyv with ⟨p, rfl⟩ | ⟨p, rfl⟩ <;> rfl
  have hn' : s'.data.nrVars = nrVariables mbs uni bi := by
    obtain ⟨⟨msg, e⟩, -⟩ := solve_parts hsol
    obtain ⟨d, w1, c1, c2, hnd, _, _, _, _, e', _⟩ := solveNoMbcUpdate_parts e
    rw [e', ← hn]
    exact (computeNormalAccB_layout hnd).nrVars
  refine ⟨s'.data, s'.backend.result, ⟨ℕ, Unit, Unit, inferInstance, objects inp, false, [], [], (start inp, ()), s, s',
    (), (), pinnedNear ε δ y, mbcs, mbcs', hm, hg, ?_, by simp, hrun, hE.1, hE.2, hlen, ?_, hsol,
    hfit', by rw [hin]; exact hdis, rfl, rfl, hin.symm, rfl⟩, hn', hres⟩
  · intro mb hmb j hj l m h
    rw [hno mb hmb j hj] at h
    cases h
  · exact fun r mb m hr hmm => (hmbc r mb m hr hmm).1

theorem realiseNear {ε δ : K} (hε : 0 ≤ ε) {mbs : List (MultiBody K)}
    (hm : ∀ mb ∈ mbs, MimicOK mb) (hno : ∀ mb ∈ mbs, NoMimic mb) (htree : ∀ mb ∈ mbs, 0 < mb.nrDof → Tree mb)
    {uni : List (UniContact K)} {bi : List (BiContact K)} (hg : GoodContacts bi)
    {mbcs : List (Mbc K Unit)} (hlen : mbcs.length = mbs.length)
    (hmbc : ∀ (r : ℕ) (mb : MultiBody K) (m : Mbc K Unit), mbs[r]? = some mb → mbcs[r]? = some m →
      Shaped mb m ∧ (0 < mb.nrDof → MbcSized mb m))
    {inp : QPInput K} (hs : InputSized (nrVariables mbs uni bi) inp)
    (hpos : 0 < nrVariables mbs uni bi)
    (hdis : inp.bound.Pairwise fun c d => ∀ v, ¬ (Covers c v ∧ Covers d v)) {y : ℕ → K}
    (hy : LinesNear ε (nrVariables mbs uni bi) inp y)
    {z0 : ℕ → K} (hz0 : ∀ c ∈ inp.bound, SatBound c z0) (hyz : ∀ v < nrVariables mbs uni bi, |y v - z0 v| ≤ ε)
    (hopt : ∀ z, AllSatisfied (nrVariables mbs uni bi) inp z →
      objective (nrVariables mbs uni bi) inp y ≤ objective (nrVariables mbs uni bi) inp z + δ) :
    ∃ x, SolvedNear ε δ "QLD" mbs (nrVariables mbs uni bi) inp x ∧ ∀ v, x.get v = y v := by
  obtain ⟨d, x, h, hn, hx⟩ := realiseInNear hε hm hno htree hg hlen hmbc hs hpos hdis hy hz0 hyz hopt
  exact ⟨x, ⟨uni, bi, d, h, hn.symm⟩, hx⟩

end C84

/-! ## C85: damped joint limits in the loop closed through an inexact solver -/

namespace Spec
variable {K : Type} [Field K] [LinearOrder K] [IsStrictOrderedRing K]

/-- `LimitLoop` with numerical solvers of tolerances `ε` and `δ`. -/
inductive NearLoop (ε δ : K) (mbs : List (MultiBody K)) (mb : MultiBody K) (r : ℕ) (p : LimitParams K)
    (Q0 : List (List K)) : Option (SolverData K) → DamperLimits K → List (List K) → List (List K) → Prop
  | start {od : Option (SolverData K)} {s : DamperLimits K} (A0 : List (List K)) :
      DampRun mb r p od s → NearLoop ε δ mbs mb r p Q0 od s Q0 A0
  | nrVars {od : Option (SolverData K)} {s : DamperLimits K} {Q A : List (List K)} (d : SolverData K)
      (s' : DamperLimits K) : NearLoop ε δ mbs mb r p Q0 od s Q A → s.updateNrVars d = .ok s' →
      NearLoop ε δ mbs mb r p Q0 (some d) s' Q A
  | step {d : SolverData K} {s : DamperLimits K} {Q A : List (List K)} (AD : List (List K))
      (s' : DamperLimits K) (backend : String) (n : ℕ) (inp : QPInput K) (x : Vec K) (Q' A' : List (List K)) :
      NearLoop ε δ mbs mb r p Q0 (some d) s Q A → vecAt d.alphaDBegin r = .ok (aBegin mbs r) →
      AD.flatten.length = mb.nrDof → s.update Q A AD = .ok s' → SolvedNear ε δ backend mbs n inp x →
      s'.bound ∈ inp.bound → Integrates mb (aBegin mbs r) p.dt x.get Q A Q' A' →
      NearLoop ε δ mbs mb r p Q0 (some d) s' Q' A'

end Spec

section C85
variable {K : Type} [Field K] [LinearOrder K] [IsStrictOrderedRing K]

theorem nearLoop_run {ε δ : K} {mbs : List (MultiBody K)} {mb : MultiBody K} {r : ℕ} {p : LimitParams K}
    {Q0 Q A : List (List K)} {od : Option (SolverData K)} {s : DamperLimits K}
    (C : NearLoop ε δ mbs mb r p Q0 od s Q A) : DampRun mb r p od s := by
  induction C with
  | start a R => exact R
  | nrVars d s' _ h ih => exact .nrVars d s' ih h
  | step AD s' b n inp x Q' A' _ _ _ h _ _ _ ih => exact .update _ _ AD s' ih h

/-- Arithmetic of one damper with an error `e` on the displacement. -/
theorem near_step {R D c v off dt e E : K} (hR : 0 < R) (hdt : 0 ≤ dt) (hc : dt * c ≤ R) (ho : off ≤ c) (he : 0 ≤ e)
    (hE : e * R = E * (off * dt)) (hEe : e ≤ E) (hD : -E ≤ D) (hv : -(c * (D / R)) ≤ v) :
    -E ≤ D + v * dt - e := by
  have h1 : -(c * (D / R)) * dt ≤ v * dt := mul_le_mul_of_nonneg_right hv hdt
  have h3 : -(c * (D / R)) * dt = -(dt * c / R) * D := by ring
  have hk1 : dt * c / R ≤ 1 := (div_le_one hR).2 hc
  have hk2 : off * dt / R ≤ dt * c / R := by
    apply div_le_div_of_nonneg_right _ hR.le
    have := mul_le_mul_of_nonneg_right ho hdt
    linarith
  have hE' : e = E * (off * dt / R) := by
    field_simp
    linarith
  rw [h3] at h1
  generalize dt * c / R = k at *
  generalize off * dt / R = k0 at *
  by_cases hD0 : 0 ≤ D
  · have : k * D ≤ 1 * D := mul_le_mul_of_nonneg_right hk1 hD0
    linarith
  · push Not at hD0
    have hE0 : 0 ≤ E := he.trans hEe
    -- D (1 - k) ≥ - E (1 - k) ≥ - E (1 - k0)
    have a1 := mul_le_mul_of_nonneg_right hD (sub_nonneg.2 hk1)
    have a2 := mul_le_mul_of_nonneg_left hk2 hE0
    linarith

/-- **C85.**  The loop of C75 with numerical solvers that satisfy their constraints only up to `ε`, for a joint that is
not a mimic joint.  Let `R` be the width of the zone between the security and the interaction distances.  If the damping
offset is positive, and the displacement `m` that the velocity limits allow in one step, increased by `ε dt²`, is small
in front of `R` as in C75, then after any number of steps the joint is never closer to its limits than the security
distance by more than `E = ε dt R / off`.  Errors do not accumulate. -/
theorem C85_limits_hold {ε δ : K} (hε : 0 ≤ ε) {mbs : List (MultiBody K)} {mb : MultiBody K} {r : ℕ} {p : LimitParams K}
    (hdt : 0 < p.dt) (hoff : 0 < p.off) {i : ℕ} (hi : i < mb.joints.length) (h1 : jdof mb i = 1)
    (hmim : ¬ MimicVar mbs (aBegin mbs r + jpos mb i)) {l u : K}
    {vl vu : Ext K} (hl : nested p.lQ i 0 = .ok (.fin l)) (hu : nested p.uQ i 0 = .ok (.fin u))
    (hvl : nested p.lA i 0 = .ok vl) (hvu : nested p.uA i 0 = .ok vu)
    (hlu : l ≤ u) (hsi : (u - l) * p.sec < (u - l) * p.inter) (hz : p.inter ≤ 1 / 2) {m : K}
    (hm : m * (2 * ((u - l) * p.inter - (u - l) * p.sec) - p.off * p.dt)
      ≤ ((u - l) * p.inter - (u - l) * p.sec) * ((u - l) * p.inter - (u - l) * p.sec - p.off * p.dt))
    (hmR : m < (u - l) * p.inter - (u - l) * p.sec)
    (hslowL : ∀ v, vl.LowerOK v → -(m - ε * p.dt ^ 2) ≤ v * p.dt)
    (hslowU : ∀ v, vu.UpperOK v → v * p.dt ≤ m - ε * p.dt ^ 2)
    {Q0 : List (List K)} {q0 : K} (hq0 : nested Q0 i 0 = .ok q0)
    (h0l : (u - l) * p.inter ≤ q0 - l) (h0u : (u - l) * p.inter ≤ u - q0)
    {od : Option (SolverData K)} {s : DamperLimits K} {Q A : List (List K)}
    (C : NearLoop ε δ mbs mb r p Q0 od s Q A) :
    ∃ q, nested Q i 0 = .ok q ∧
      (u - l) * p.sec - ε * p.dt * ((u - l) * p.inter - (u - l) * p.sec) / p.off ≤ q - l ∧
      (u - l) * p.sec - ε * p.dt * ((u - l) * p.inter - (u - l) * p.sec) / p.off ≤ u - q := by
  have hsum : 2 * ((u - l) * p.inter) ≤ u - l := by
    have : (u - l) * p.inter ≤ (u - l) * (1 / 2) := mul_le_mul_of_nonneg_left hz (by linarith)
    linarith
  have hR : 0 < (u - l) * p.inter - (u - l) * p.sec := by linarith
  have he : 0 ≤ ε * p.dt ^ 2 := by positivity
  have hE0 : 0 ≤ ε * p.dt * ((u - l) * p.inter - (u - l) * p.sec) / p.off := by positivity
  have hEdef : ε * p.dt ^ 2 * ((u - l) * p.inter - (u - l) * p.sec)
      = ε * p.dt * ((u - l) * p.inter - (u - l) * p.sec) / p.off * (p.off * p.dt) := by
    field_simp
  generalize ε * p.dt * ((u - l) * p.inter - (u - l) * p.sec) / p.off = E at *
  -- invariant
  suffices H : ∃ q, nested Q i 0 = .ok q ∧ ((u - l) * p.sec - E ≤ q - l ∧ (u - l) * p.sec - E ≤ u - q) ∧
      (((u - l) * p.inter ≤ q - l ∧ (u - l) * p.inter ≤ u - q) ∨
        ∃ a d, nested A i 0 = .ok a ∧ entryOf s i = some d ∧ |a| * p.dt ≤ m ∧
          (d.state ≠ .free → p.dt * d.damping ≤ (u - l) * p.inter - (u - l) * p.sec ∧ p.off ≤ d.damping) ∧
          (d.state ≠ .low → (u - l) * p.inter - m ≤ q - l) ∧
          (d.state ≠ .upp → (u - l) * p.inter - m ≤ u - q)) by
    obtain ⟨q, e, h, -⟩ := H
    exact ⟨q, e, h⟩
  induction C with
  | start a R => exact ⟨q0, hq0, ⟨by linarith, by linarith⟩, .inl ⟨h0l, h0u⟩⟩
  | nrVars d s' _ h ih =>
    obtain ⟨q, e, h1, h2⟩ := ih
    refine ⟨q, e, h1, h2.imp_right ?_⟩
    rintro ⟨a, d, k1, k2, k3⟩
    exact ⟨a, d, k1, (entryOf_nrVars h i).trans k2, k3⟩
  | @step d s Q A AD s' b n inp x Q' A' C hb hD h hs hmem hint ih =>
    obtain ⟨q, hq, ⟨i1, i2⟩, hst⟩ := ih
    have R := nearLoop_run C
    obtain ⟨-, -, -, -, qi', ai, aD, d', b1, b2, b3, b4, b5, b6, b7, b8, -⟩ := C30_row hdt R hD h hi h1
    rw [hq] at b5; cases b5
    obtain ⟨-, ⟨z, hzb, -, hxz⟩, -, hsz, -⟩ := solvedNear_spec hs
    have hsat := hzb _ hmem
    have hrow := ((C30_bounds hdt R hb hD h z).1 hsat).1 i hi h1 _ _ _ _ _ _ _ _ hl hu hvl hvu hq b6 b7 b8
    obtain ⟨e1, e2⟩ := hint i hi h1 _ _ hq b6
    obtain ⟨⟨w1, w2, w3, w4⟩, -⟩ := hrow
    have s1 := hslowL _ w1
    have s2 := hslowU _ w2
    -- the joint's variable is one of the problem's
    have hvar : aBegin mbs r + jpos mb i < n := by
      obtain ⟨I', -⟩ := damp_update (dampInv R) h
      have hbg := I'.begin' d rfl
      rw [hb] at hbg
      have hbg' := Out.ok.inj hbg
      have hfit := jpos_fit mb hi
      have hsized := (hsz.2.2.2.2 _ hmem).1
      have sL := I'.sL
      simp only [DamperLimits.bound, sL] at hsized
      omega
    have hnear := abs_le.mp (hxz _ hvar hmim)
    obtain ⟨qi', ai', d0, d1, k1, k2, k3, k4, k5, k6⟩ := C32_update hdt R h hi h1 hl hu
    rw [hq] at k1; cases k1
    rw [b6] at k2; cases k2
    rw [b8] at k4; cases k4
    -- the damping in use
    have hdamp : d'.state ≠ .free →
        p.dt * d'.damping ≤ (u - l) * p.inter - (u - l) * p.sec ∧ p.off ≤ d'.damping := by
      intro hf
      rw [k6]
      rcases hst with ⟨o1, o2⟩ | ⟨a, d1, a1, a2, a3, a4, a5, a6⟩
      · exact absurd (k5.trans (by unfold zoneOf; rw [if_neg (not_lt.2 o1), if_neg (not_lt.2 o2)])) hf
      · rw [b6] at a1; cases a1
        rw [k3] at a2; cases a2
        by_cases hsame : d'.state = d0.state
        · rw [if_pos (.inr hsame)]
          exact a4 (hsame ▸ hf)
        · rw [if_neg (by tauto)]
          refine ⟨entry_damping hdt hoff.le hm hmR ?_ a3, by linarith [abs_nonneg (((u - l) * p.inter - (u - l) * p.sec) /
            (zoneDist l u q d'.state - (u - l) * p.sec) * ai)]⟩
          cases hzz : d'.state with
          | low => have := a5 (fun hh => hsame (hzz.trans hh.symm)); simp only [zoneDist]; linarith
          | upp => have := a6 (fun hh => hsame (hzz.trans hh.symm)); simp only [zoneDist]; linarith
          | free => exact absurd hzz hf
    have hdd : 0 ≤ p.dt ^ 2 := by positivity
    have dz1 := mul_le_mul_of_nonneg_right hnear.1 hdd
    have dz2 := mul_le_mul_of_nonneg_right hnear.2 hdd
    have hdiff : (ai + x.get (aBegin mbs r + jpos mb i) * p.dt) * p.dt
        = (ai + z (aBegin mbs r + jpos mb i) * p.dt) * p.dt
          + (x.get (aBegin mbs r + jpos mb i) - z (aBegin mbs r + jpos mb i)) * p.dt ^ 2 := by ring
    have hv : |ai + x.get (aBegin mbs r + jpos mb i) * p.dt| * p.dt ≤ m := by
      rw [← abs_of_pos hdt, ← abs_mul, abs_of_pos hdt, abs_le]
      constructor <;> linarith
    have hv' := hv
    rw [← abs_of_pos hdt, ← abs_mul, abs_of_pos hdt, abs_le] at hv'
    refine ⟨_, e2, ?_, .inr ⟨_, d', e1, b8, hv, hdamp, ?_, ?_⟩⟩
    · have hEe : d'.state ≠ .free → ε * p.dt ^ 2 ≤ E := by
        intro hf
        obtain ⟨g1, g2⟩ := hdamp hf
        have g3 : p.off * p.dt ≤ (u - l) * p.inter - (u - l) * p.sec := by
          have := mul_le_mul_of_nonneg_left g2 hdt.le
          linarith
        have := mul_le_mul_of_nonneg_left g3 hE0
        rw [← hEdef] at this
        exact le_of_mul_le_mul_right this hR
      by_cases c1 : q - l < (u - l) * p.inter
      · have hlow : d'.state = .low := by rw [k5]; unfold zoneOf; rw [if_pos c1]
        have hne : d'.state ≠ .free := by rw [hlow]; simp
        obtain ⟨g1, g2⟩ := hdamp hne
        have := near_step (D := q - l - (u - l) * p.sec) hR hdt.le g1 g2 he hEdef (hEe hne) (by linarith) (w3 c1)
        constructor
        · linarith only [this, hdiff, dz1]
        · linarith only [c1, hsum, hmR, hv'.2, hR, hE0]
      · by_cases c2 : u - q < (u - l) * p.inter
        · have hupp : d'.state = .upp := by rw [k5]; unfold zoneOf; rw [if_neg c1, if_pos c2]
          have hne : d'.state ≠ .free := by rw [hupp]; simp
          obtain ⟨g1, g2⟩ := hdamp hne
          have := near_step (D := u - q - (u - l) * p.sec) hR hdt.le g1 g2 he hEdef (hEe hne) (by linarith)
            (neg_le_neg (w4 c1 c2))
          constructor
          · linarith only [c2, hsum, hmR, hv'.1, hR, hE0]
          · linarith only [this, hdiff, dz2]
        · constructor
          · linarith only [not_lt.1 c1, hmR, hv'.1, hE0]
          · linarith only [not_lt.1 c2, hmR, hv'.2, hE0]
    · intro hne
      have : (u - l) * p.inter ≤ q - l := by
        by_contra hc
        exact hne (k5.trans (by unfold zoneOf; rw [if_pos (not_le.1 hc)]))
      linarith only [this, hv'.1, hv'.2]
    · intro hne
      by_cases c1 : q - l < (u - l) * p.inter
      · linarith only [c1, hsum, hmR, hv'.2, hsi, hlu, hv'.1, hR]
      · have : (u - l) * p.inter ≤ u - q := by
          by_contra hc
          exact hne (k5.trans (by unfold zoneOf; rw [if_neg c1, if_pos (not_le.1 hc)]))
        linarith only [this, hv'.1, hv'.2]

end C85

namespace InexactEx
open WeightEx SafetyEx

/-- A step of an inexact solver on the robot of `WeightEx` with one pull task and one bound constraint. -/
theorem solveNear {ε δ : ℚ} (hε : 0 ≤ ε) (c : ℚ) {b : BoundC ℚ} (hb : b.Sized 2) {y z0 : ℕ → ℚ} (hz0 : SatBound b z0)
    (hyz : ∀ v < 2, |y v - z0 v| ≤ ε) (hy1 : y 1 = 0)
    (hopt : ∀ z, SatBound b z → (y 0) ^ 2 / 2 - c * y 0 ≤ z 0 ^ 2 / 2 - c * z 0 + δ) :
    ∃ x, SolvedNear ε δ "QLD" [robot] 2 ⟨[pull c 1], [], [], [], [b]⟩ x ∧ ∀ v, x.get v = y v := by
  have hobj : ∀ z, objective 2 ⟨[pull c 1], [], [], [], [b]⟩ z = z 0 ^ 2 / 2 - c * z 0 + z 1 ^ 2 / 20000 := by
    intro z
    have := objective_pulls [pull c 1] 1 (by simp [accDiag, pull_q]) (by simp [accDiag, pull_q]) z
    rw [if_neg (by norm_num [abs_lt])] at this
    simp only [List.map_cons, List.map_nil, List.sum_cons, List.sum_nil, pull_obj] at this
    have e : objective 2 ⟨[pull c 1], [], [], [], [b]⟩ z = objective 2 (inpOf [pull c 1]) z := rfl
    rw [e, this]
    ring
  refine realiseNear hε (mbs := [robot]) (uni := []) (bi := []) (mbcs := [mbc]) (inp := ⟨[pull c 1], [], [], [], [b]⟩)
    robot_ok robot_noMimic ?_ (by intro c hc; simp at hc) rfl ?_
    ⟨by simp [pull_sized, nrVariables, robot, MultiBody.nrDof], by simp, by simp, by simp, ?_⟩
    Nat.two_pos (by simp) (Spec.SatLines.near ⟨by simp, by simp, by simp⟩ hε) (z0 := z0) (by simpa using hz0) hyz ?_
  · intro mb hmb _
    simp only [List.mem_singleton] at hmb
    subst hmb
    exact robot_tree
  · intro r mb m hr hmm
    cases r with
    | zero => simp at hr hmm; subst hr; subst hmm; exact ⟨rfl, fun _ => ⟨rfl, rfl, rfl⟩⟩
    | succ r => simp at hr
  · intro c hc
    simp only [List.mem_singleton] at hc
    subst hc
    exact hb
  · intro z hz
    have e : nrVariables [robot] ([] : List (UniContact ℚ)) [] = 2 := rfl
    rw [e, hobj, hobj, hy1]
    have := hopt z (hz.2 b (by simp))
    nlinarith [sq_nonneg (z 1)]

/-- **C84** is not vacuous: a solver of tolerance `1/100` pushed by a task against a bound `x₀ ≤ 1` returns `101/100`.
The bound is violated; C84 gives exactly this violation. -/
example : ∃ x, SolvedNear (1/100 : ℚ) 0 "QLD" [robot] 2
    ⟨[pull 2 1], [], [], [], [⟨0, ⟨1, fun _ => .negInf⟩, ⟨1, fun _ => .fin 1⟩⟩]⟩ x ∧ x.get 0 = 101/100 ∧
    ¬ SatBound ⟨0, ⟨1, fun _ => .negInf⟩, ⟨1, fun _ => .fin 1⟩⟩ x.get := by
  obtain ⟨x, hx, ex⟩ := solveNear (ε := 1/100) (δ := 0) (by norm_num) 2
    (b := ⟨0, ⟨1, fun _ => .negInf⟩, ⟨1, fun _ => .fin 1⟩⟩) (by simp [BoundC.Sized])
    (y := fun v => if v = 0 then 101/100 else 0) (z0 := fun v => if v = 0 then 1 else 0)
    (by simp [SatBound, Ext.LowerOK, Ext.UpperOK])
    (by intro v _; by_cases h : v = 0 <;> norm_num [h, abs_le]) (by norm_num)
    (by
      intro z hz
      have := hz.2 0 (by simp)
      simp only [Ext.UpperOK] at this
      norm_num at this ⊢
      nlinarith [sq_nonneg (z 0 - 1)])
  refine ⟨x, hx, by rw [ex]; norm_num, fun h => ?_⟩
  have := h.2 0 (by simp)
  simp only [Ext.UpperOK, ex] at this
  norm_num at this

/-- As `SafetyEx.prm`, with offset `o`. -/
def prmO (o V : ℚ) : LimitParams ℚ :=
  ⟨[[.fin 0], [.fin 0]], [[.fin 1], [.fin 1]], [[.fin (-V)], [.fin (-V)]], [[.fin V], [.fin V]], [], [], [], [],
    2/5, 1/10, o, 1⟩

theorem setup (o V : ℚ) : ∃ s, DampRun robot 0 (prmO o V) (some dat) s := by
  have hm : ∃ s, DamperLimits.make robot 0 (fun _ => .negInf) (prmO o V).lQ (prmO o V).uQ (prmO o V).lA (prmO o V).uA (prmO o V).lAD
      (prmO o V).uAD (prmO o V).lADD (prmO o V).uADD (prmO o V).inter (prmO o V).sec (prmO o V).off (prmO o V).dt = .ok s := ⟨_, rfl⟩
  obtain ⟨s, hs⟩ := hm
  exact ⟨_, .nrVars dat _ (.make (fun _ => .negInf) s hs) (by
    unfold DamperLimits.updateNrVars
    have : s.robotIndex = 0 := by cases hs; rfl
    rw [this]
    rfl)⟩

/-- What the bounds mean for the accelerations of the two joints. -/
theorem bounds {o V : ℚ} {s : DamperLimits ℚ} (R : DampRun robot 0 (prmO o V) (some dat) s) {q0 q1 a0 a1 : ℚ}
    (h0 : q0 ≠ 1/10 ∧ q0 ≠ 9/10) (h1 : q1 ≠ 1/10 ∧ q1 ≠ 9/10) :
    ∃ s' d0 d1, s.update [[q0], [q1]] [[a0], [a1]] [[0], [0]] = .ok s' ∧ entryOf s' 0 = some d0 ∧
      entryOf s' 1 = some d1 ∧ s'.bound.Sized 2 ∧ ∀ x, SatBound s'.bound x ↔
        DampedOK (.fin 0) (.fin 1) (.fin (-V)) (.fin V) (2/5) (1/10) d0.damping q0 (a0 + x 0 * 1) ∧
        DampedOK (.fin 0) (.fin 1) (.fin (-V)) (.fin V) (2/5) (1/10) d1.damping q1 (a1 + x 1 * 1) := by
  have hdt : 0 < (prmO o V).dt := by norm_num [prmO]
  obtain ⟨s', h⟩ := C30_update_ok (q := [[q0], [q1]]) (alpha := [[a0], [a1]]) (alphaD := [[0], [0]]) hdt R rfl (by
    intro i hi _
    have : i = 0 ∨ i = 1 := by simp [robot] at hi; omega
    rcases this with rfl | rfl
    · refine ⟨q0, a0, _, _, rfl, rfl, rfl, rfl, .inr ⟨0, 1, rfl, rfl, by norm_num [prmO], ?_, ?_⟩⟩
      · norm_num [prmO]; intro h; exact h0.1 h
      · norm_num [prmO]; intro h; exact h0.2 (by linarith)
    · refine ⟨q1, a1, _, _, rfl, rfl, rfl, rfl, .inr ⟨0, 1, rfl, rfl, by norm_num [prmO], ?_, ?_⟩⟩
      · norm_num [prmO]; intro h; exact h1.1 h
      · norm_num [prmO]; intro h; exact h1.2 (by linarith))
  obtain ⟨-, -, -, -, -, -, -, d0, -, -, -, -, -, -, -, e0, -⟩ :=
    C30_row hdt R (q := [[q0], [q1]]) (alpha := [[a0], [a1]]) (alphaD := [[0], [0]]) rfl h (i := 0)
      (by simp [robot]) rfl
  obtain ⟨-, -, -, -, -, -, -, d1, -, -, -, -, -, -, -, e1, -⟩ :=
    C30_row hdt R (q := [[q0], [q1]]) (alpha := [[a0], [a1]]) (alphaD := [[0], [0]]) rfl h (i := 1)
      (by simp [robot]) rfl
  have hb := C30_bounds hdt R (b := 0) rfl (q := [[q0], [q1]]) (alpha := [[a0], [a1]]) (alphaD := [[0], [0]]) rfl h
  have acc : ∀ a x, (prmO o V).AccOK a 0 x := fun a x => by
    simp [LimitParams.AccOK, prmO, Ext.LowerOK, Ext.UpperOK]
  refine ⟨s', d0, d1, h, e0, e1, ?_, fun x => ?_⟩
  · obtain ⟨I', hbeg, -⟩ := damp_update (dampInv R) h
    have := I'.begin' dat rfl
    have hz : s'.alphaDBegin = 0 := (Out.ok.inj this).symm
    have sL := I'.sL
    have sU := I'.sU
    have hn : robot.nrDof = 2 := rfl
    simp only [BoundC.Sized, DamperLimits.bound, sL, sU, hn, hz]
    exact ⟨le_rfl, le_rfl⟩
  · rw [hb x]
    constructor
    · rintro ⟨k, -⟩
      exact ⟨(k 0 (by simp [robot]) rfl _ _ _ _ _ _ _ _ rfl rfl rfl rfl rfl rfl rfl e0).1,
        (k 1 (by simp [robot]) rfl _ _ _ _ _ _ _ _ rfl rfl rfl rfl rfl rfl rfl e1).1⟩
    · rintro ⟨k0, k1⟩
      constructor
      · intro i hi _ l u vl vu qi ai aD d' b1 b2 b3 b4 b5 b6 b7 b8
        have : i = 0 ∨ i = 1 := by simp [robot] at hi; omega
        rcases this with rfl | rfl
        · cases b1; cases b2; cases b3; cases b4; cases b5; cases b6; cases b7
          rw [e0] at b8; cases b8
          exact ⟨k0, acc _ _⟩
        · cases b1; cases b2; cases b3; cases b4; cases b5; cases b6; cases b7
          rw [e1] at b8; cases b8
          exact ⟨k1, acc _ _⟩
      · intro a ha hne
        exfalso
        have : a = 0 ∨ a = 1 := by have hn : robot.nrDof = 2 := rfl; omega
        rcases this with rfl | rfl
        · exact hne 0 (by simp [robot]) rfl rfl
        · exact hne 1 (by simp [robot]) rfl rfl

theorem moves {x : ℕ → ℚ} {o V q0 q1 a0 a1 : ℚ} :
    Integrates robot (aBegin [robot] 0) (prmO o V).dt x [[q0], [q1]] [[a0], [a1]]
      [[q0 + (a0 + x 0 * 1) * 1], [q1 + (a1 + x 1 * 1) * 1]] [[a0 + x 0 * 1], [a1 + x 1 * 1]] := by
  intro i hi _ q a hq ha
  have : i = 0 ∨ i = 1 := by simp [robot] at hi; omega
  rcases this with rfl | rfl <;> cases hq <;> cases ha <;> exact ⟨rfl, rfl⟩

theorem notMimic (v : ℕ) : ¬ MimicVar [robot] v := by
  rintro ⟨r, mb, i, j, h1, h2, h3, -⟩
  exact h3 (robot_noMimic mb (List.mem_of_getElem? h1) j (List.mem_of_getElem? h2))

/-- **C85** applies: offset `1/10`, tolerance `1/100`, velocity limit `1/20`, hence `m = 6/100`.  A task pulls joint 0 up;
the solver exceeds the bound on the acceleration by its tolerance.  All hypotheses of `C85_limits_hold` are met. -/
example : (∃ s, NearLoop (1/100) 0 [robot] robot 0 (prmO (1/10) (1/20)) [[1/2], [1/2]] (some dat) s
      [[14/25], [1/2]] [[3/50], [0]]) ∧ ¬ MimicVar [robot] (aBegin [robot] 0 + jpos robot 0) ∧
    (3/50 : ℚ) * (2 * ((1 - 0) * (2/5) - (1 - 0) * (1/10)) - 1/10 * 1)
      ≤ ((1 - 0) * (2/5) - (1 - 0) * (1/10)) * ((1 - 0) * (2/5) - (1 - 0) * (1/10) - 1/10 * 1) ∧
    (1/20 : ℚ) * 1 ≤ 3/50 - 1/100 * 1 ^ 2 := by
  refine ⟨?_, notMimic _, by norm_num, by norm_num⟩
  obtain ⟨s, R⟩ := InexactEx.setup (1/10) (1/20)
  obtain ⟨s', d0, d1, h, -, -, hs, hb⟩ := InexactEx.bounds R (q0 := 1/2) (q1 := 1/2) (a0 := 0) (a1 := 0) (by norm_num)
    (by norm_num)
  obtain ⟨x, hx, ex⟩ := solveNear (ε := 1/100) (δ := 0) (by norm_num) 1 hs (y := fun i => if i = 0 then 3/50 else 0)
    (z0 := fun i => if i = 0 then 1/20 else 0)
    ((hb _).2 (by constructor <;> norm_num [DampedOK, Ext.LowerOK, Ext.UpperOK]))
    (by intro v _; by_cases h : v = 0 <;> norm_num [h, abs_le]) (by norm_num) (by
      intro z hz
      have := ((hb z).1 hz).1.2.1
      simp only [Ext.UpperOK] at this
      norm_num
      nlinarith [sq_nonneg (z 0 - 1/20)])
  have L := NearLoop.step (Q' := _) (A' := _) [[0], [0]] s' "QLD" 2 _ x
    (NearLoop.start (mbs := [robot]) (Q0 := [[1/2], [1/2]]) [[0], [0]] R) rfl rfl h hx (by simp) InexactEx.moves
  rw [ex, ex] at L
  norm_num at L
  exact ⟨s', L⟩

/-- One step of the run below: the joint keeps its velocity. -/
theorem coast {ε : ℚ} (hε : 0 ≤ ε) {Q0 : List (List ℚ)} {s : DamperLimits ℚ} {q η : ℚ} (hη : 0 ≤ η) (hηV : η ≤ 1/10)
    (L : NearLoop ε 0 [robot] robot 0 (prmO 0 (1/10)) Q0 (some dat) s [[q], [1/2]] [[-η], [0]])
    (hq1 : q ≠ 1/10) (hq : q ≤ 2/5) {c : ℚ} (hc : c = 3/10 / (3/10 - η) * η)
    (hd : ∀ d, entryOf s 0 = some d → q < 2/5 →
      (d.state = .free ∧ q = 2/5 - η) ∨ (d.state = .low ∧ d.damping = c))
    (h1 : η - c * ((q - 1/10) / (3/10)) ≤ ε) (h2 : -(c * ((q - 1/10) / (3/10))) ≤ 1/10) :
    ∃ s', NearLoop ε 0 [robot] robot 0 (prmO 0 (1/10)) Q0 (some dat) s' [[q - η], [1/2]] [[-η], [0]] ∧
      ∀ d, entryOf s' 0 = some d → (q < 2/5 → d.state = .low ∧ d.damping = c) ∧ (q = 2/5 → d.state = .free) := by
  have R := nearLoop_run L
  have hdt : 0 < (prmO 0 (1/10)).dt := by norm_num [prmO]
  obtain ⟨s', d', d1, h, e0, e1, hs, hb⟩ := InexactEx.bounds R (q0 := q) (q1 := 1/2) (a0 := -η) (a1 := 0)
    ⟨hq1, by intro h; linarith⟩ (by norm_num)
  obtain ⟨qi, ai, d0, e', k1, k2, hd0, k4, k5, k6⟩ := C32_update hdt R h (i := 0) (by simp [robot]) rfl
    (l := 0) (u := 1) rfl rfl
  cases k1
  cases k2
  rw [e0] at k4; cases k4
  have hz : d'.state = if q < 2/5 then .low else .free := by
    rw [k5]
    unfold zoneOf
    simp only [prmO, sub_zero, one_mul]
    by_cases hlt : q < 2/5
    · rw [if_pos hlt, if_pos hlt]
    · rw [if_neg hlt, if_neg hlt, if_neg (by linarith)]
  have hR : 0 < 3/10 - η := by linarith
  have hdamp : q < 2/5 → d'.state = .low ∧ d'.damping = c := by
    intro hlt
    have hlow : d'.state = .low := by rw [hz, if_pos hlt]
    refine ⟨hlow, ?_⟩
    rw [hlow] at k6
    rcases hd d0 hd0 hlt with ⟨hf, he⟩ | ⟨hl, he⟩
    · rw [k6, if_neg (by rw [hf]; simp), he]
      simp only [prmO, zoneDist]
      rw [show ((1:ℚ) - 0) * (2/5) - (1 - 0) * (1/10) = 3/10 by norm_num,
        show 2/5 - η - 0 - (1 - 0) * (1/10) = 3/10 - η by ring, abs_mul, abs_neg, abs_of_nonneg hη,
        abs_of_pos (by positivity), hc, add_zero]
    · rw [k6, if_pos (.inr hl.symm), he]
  obtain ⟨x, hx, ex⟩ := solveNear (ε := ε) (δ := 0) hε 0 hs (y := fun _ => 0)
    (z0 := fun i => if i = 0 ∧ q < 2/5 then max 0 (η - c * ((q - 1/10) / (3/10))) else 0)
    ((hb _).2 (by
      constructor
      · by_cases hlt : q < 2/5
        · rw [(hdamp hlt).2]
          simp only [hlt, and_self, if_true, DampedOK, Ext.LowerOK, Ext.UpperOK]
          rw [show ((1:ℚ) - 0) * (2/5) = 2/5 by norm_num, show ((1:ℚ) - 0) * (1/10) = 1/10 by norm_num]
          have m1 := le_max_left 0 (η - c * ((q - 1/10) / (3/10)))
          have m2 := le_max_right 0 (η - c * ((q - 1/10) / (3/10)))
          have m3 : max 0 (η - c * ((q - 1/10) / (3/10))) ≤ η + 1/10 := max_le (by linarith) (by linarith)
          refine ⟨by linarith, by linarith, ?_, ?_⟩
          · intro _
            rw [show q - 0 - 1/10 = q - 1/10 by ring, show (2/5 : ℚ) - 1/10 = 3/10 by norm_num]
            linarith
          · intro _ hh
            linarith
        · simp only [hlt, and_false, if_false, DampedOK, Ext.LowerOK, Ext.UpperOK]
          rw [show ((1:ℚ) - 0) * (2/5) = 2/5 by norm_num]
          refine ⟨by linarith, by linarith, ?_, ?_⟩
          · intro hh
            exact absurd (by linarith) hlt
          · intro _ hh
            linarith
      · norm_num [DampedOK, Ext.LowerOK, Ext.UpperOK]))
    (by
      intro v _
      by_cases h : v = 0 ∧ q < 2/5
      · simp only [h, and_self, if_true, zero_sub, abs_neg]
        rw [abs_of_nonneg (le_max_left _ _)]
        exact max_le hε h1
      · simp only [h, if_false, sub_zero, abs_zero]
        exact hε) rfl (by
      intro z hz
      nlinarith [sq_nonneg (z 0)])
  have L' := NearLoop.step (Q' := _) (A' := _) [[0], [0]] s' "QLD" 2 _ x L rfl rfl h hx (by simp) InexactEx.moves
  rw [ex, ex] at L'
  simp only [zero_mul, add_zero, mul_one] at L'
  rw [← sub_eq_add_neg] at L'
  refine ⟨s', L', fun d he => ?_⟩
  rw [e0] at he; cases he
  exact ⟨hdamp, fun he => by rw [hz, if_neg (by linarith)]⟩

/-- **C85** (the offset is needed).  Limits `[0, 1]`, no offset, slow velocity limits.  Whatever the tolerance `ε > 0`
and the distance `B`, there is a run in which every answer of the solver is within `ε` of the bounds and optimal, and
joint 0, which starts outside of the zones, ends more than `B` beyond its limit. -/
theorem C85_no_offset_counterexample {ε : ℚ} (hε : 0 < ε) (B : ℚ) :
    ∃ s q A, NearLoop ε 0 [robot] robot 0 (prmO 0 (1/10)) [[2/5], [1/2]] (some dat) s [[q], [1/2]] A ∧ q < -B := by
  obtain ⟨B', hB, hB0⟩ : ∃ B' : ℚ, B ≤ B' ∧ 0 ≤ B' := ⟨max B 0, le_max_left _ _, le_max_right _ _⟩
  obtain ⟨t, ht0, htε, ht1⟩ : ∃ t : ℚ, 0 < t ∧ t ≤ ε ∧ t ≤ 1/10 :=
    ⟨min ε (1/10), lt_min hε (by norm_num), min_le_left _ _, min_le_right _ _⟩
  obtain ⟨N, hN⟩ := exists_nat_gt ((1 + 5 * (B' + 2)) / t)
  have hN' : 1 + 5 * (B' + 2) < N * t := (div_lt_iff₀ ht0).1 hN
  obtain ⟨η, hη⟩ : ∃ η : ℚ, η = 3 / (5 * (2 * N + 1)) := ⟨_, rfl⟩
  have hNp : (0:ℚ) < 5 * (2 * N + 1) := by positivity
  have hη0 : 0 < η := by rw [hη]; positivity
  have hηN : η * (5 * (2 * N + 1)) = 3 := by rw [hη]; field_simp
  have hηt : η * (1 + 5 * (B' + 2)) ≤ t := by
    have a1 := mul_le_mul_of_nonneg_left hN'.le hη0.le
    have a2 : η * (N * t) = t * (η * N) := by ring
    have a3 : η * N ≤ 1 := by nlinarith
    have a4 := mul_le_mul_of_nonneg_left a3 ht0.le
    linarith
  have hη1 : η ≤ 1/10 := by nlinarith
  have hBη : 0 ≤ η * B' := by positivity
  obtain ⟨c, hc⟩ : ∃ c : ℚ, c = 3/10 / (3/10 - η) * η := ⟨_, rfl⟩
  have hR : 0 < 3/10 - η := by linarith
  have hc0 : 0 ≤ c := by rw [hc]; positivity
  have hc1 : c ≤ 3/2 * η := by
    rw [hc]
    apply mul_le_mul_of_nonneg_right _ hη0.le
    rw [div_le_iff₀ hR]
    linarith
  -- `k` steps
  have run : ∀ k : ℕ, (k:ℚ) * η ≤ B' + 2/5 + η →
      ∃ s, NearLoop ε 0 [robot] robot 0 (prmO 0 (1/10)) [[2/5], [1/2]] (some dat) s [[2/5 - k * η], [1/2]] [[-η], [0]] ∧
        ∀ d, entryOf s 0 = some d → 2/5 - k * η < 2/5 →
          (d.state = .free ∧ 2/5 - k * η = 2/5 - η) ∨ (d.state = .low ∧ d.damping = c) := by
    intro k
    induction k with
    | zero =>
      intro _
      obtain ⟨s, R⟩ := InexactEx.setup 0 (1/10)
      refine ⟨s, ?_, fun d _ h => by norm_num at h⟩
      have := NearLoop.start (ε := ε) (δ := 0) (mbs := [robot]) (Q0 := [[2/5], [1/2]]) [[-η], [0]] R
      simpa using this
    | succ k ih =>
      intro hk
      push_cast at hk
      have hkη : 0 ≤ (k:ℚ) * η := by positivity
      obtain ⟨s, L, hd⟩ := ih (by linarith)
      have hX : -(c * ((2/5 - k * η - 1/10) / (3/10))) ≤ 5 * (η * (B' + 2)) := by
        have e : -(c * ((2/5 - k * η - 1/10) / (3/10))) = c * (10/3 * (k * η - 3/10)) := by ring
        rw [e]
        calc c * (10/3 * (k * η - 3/10)) ≤ c * (10/3 * (B' + 2)) := by
              apply mul_le_mul_of_nonneg_left _ hc0
              linarith
          _ ≤ 3/2 * η * (10/3 * (B' + 2)) := by
              apply mul_le_mul_of_nonneg_right hc1
              positivity
          _ = 5 * (η * (B' + 2)) := by ring
      obtain ⟨s', L', hd'⟩ := coast hε.le hη0.le hη1 L (by
          intro hq
          have h1 : (k:ℚ) * η * (5 * (2 * N + 1)) = 3/10 * (5 * (2 * N + 1)) := by
            rw [show (k:ℚ) * η = 3/10 by linarith]
          rw [mul_assoc, hηN] at h1
          have h2 : (2 * k : ℚ) = 2 * N + 1 := by linarith
          have h3 : 2 * k = 2 * N + 1 := by exact_mod_cast h2
          omega) (by linarith) hc hd (by linarith) (by linarith)
      refine ⟨s', ?_, fun d he _ => ?_⟩
      · push_cast
        rw [show 2/5 - ((k:ℚ) + 1) * η = 2/5 - k * η - η by ring]
        exact L'
      · obtain ⟨f1, f2⟩ := hd' d he
        by_cases hk0 : k = 0
        · subst hk0
          left
          refine ⟨f2 (by simp), by simp⟩
        · right
          apply f1
          have : (0:ℚ) < k := by exact_mod_cast Nat.pos_of_ne_zero hk0
          have := mul_pos this hη0
          linarith
  obtain ⟨k, hk1, hk2⟩ : ∃ k : ℕ, B' + 2/5 < (k:ℚ) * η ∧ (k:ℚ) * η ≤ B' + 2/5 + η := by
    refine ⟨⌊(B' + 2/5) / η⌋₊ + 1, ?_, ?_⟩
    · have := Nat.lt_floor_add_one ((B' + 2/5) / η)
      rw [div_lt_iff₀ hη0] at this
      push_cast
      exact this
    · have := Nat.floor_le (a := (B' + 2/5) / η) (by positivity)
      rw [le_div_iff₀ hη0] at this
      push_cast
      linarith
  obtain ⟨s, L, -⟩ := run k hk2
  exact ⟨s, _, _, L, by linarith⟩

end InexactEx

end Verif
