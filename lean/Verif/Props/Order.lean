import Verif.Props.Weights
import Verif.Props.SolverReg
import Verif.Props.Fill

/-!
# C121: the order in which tasks and constraints are added

The solver updates the constraints, then the tasks, in the order in which they were added
(QPSolver.cpp:326-334) and puts them in the QP in that order (GenQPUtils.h:20-271).  The problem does not
depend on it, except for bounds on the same variable.
-/

set_option autoImplicit false
set_option linter.unusedSectionVars false

namespace Verif

open Finset Spec

namespace Spec

/-- What two objects do in their updates does not interfere: after one has been updated the other does the
same as before. -/
def Apart {Ob W : Type} (f : Ob → W → Out W) : Prop :=
  ∀ a b, a ≠ b → ∀ w w1 w2, f a w = .ok w1 → f b w1 = .ok w2 →
    ∃ v, f b w = .ok v ∧ f a v = .ok w2

/-- Objects with a memory of their own: the update of one reads and writes only its part. -/
def ownUpdate {Ob S : Type} [DecidableEq Ob] (g : Ob → S → Out S) (o : Ob) (w : Ob → S) : Out (Ob → S) := do
  let s ← g o (w o)
  pure (Function.update w o s)

variable {K : Type}

/-- The same tasks and constraints, in whatever order, on the same variables. -/
structure SameObjects {Ob : Type} (s s' : Solver K Ob) : Prop where
  tasks : s'.tasks.Perm s.tasks
  constr : s'.regs.constr.Perm s.regs.constr
  rows : ∀ p, (s'.regs.rows p).Perm (s.regs.rows p)

/-- The same tasks and rows, in whatever order. -/
structure SameRows (inp inp' : QPInput K) : Prop where
  tasks : inp'.tasks.Perm inp.tasks
  eq : inp'.eq.Perm inp.eq
  inEq : inp'.inEq.Perm inp.inEq
  gen : inp'.gen.Perm inp.gen
  bound : inp'.bound.Perm inp.bound

end Spec

/-! ## Updates in another order -/

theorem forEach_perm {Ob W : Type} {f : Ob → W → Out W} (hf : Apart f) {l l' : List Ob} (h : l.Perm l')
    {w w' : W} (e : forEach l f w = .ok w') : forEach l' f w = .ok w' := by
  induction h generalizing w with
  | nil => exact e
  | cons a _ ih =>
    simp only [forEach, Out.bind_eq_ok] at e ⊢
    obtain ⟨w1, h1, h2⟩ := e
    exact ⟨w1, h1, ih h2⟩
  | swap a b l =>
    simp only [forEach, Out.bind_eq_ok] at e ⊢
    obtain ⟨w1, h1, w2, h2, h3⟩ := e
    by_cases hab : b = a
    · subst hab
      exact ⟨w1, h1, w2, h2, h3⟩
    · obtain ⟨v, hv, hv'⟩ := hf b a hab _ _ _ h1 h2
      exact ⟨v, hv, w2, hv', h3⟩
  | trans _ _ ih1 ih2 => exact ih2 (ih1 e)

/-- **C121** (objects with their own memory): updates that read and write only the object itself do not
interfere. -/
theorem C121_separate {Ob S : Type} [DecidableEq Ob] (g : Ob → S → Out S) : Apart (ownUpdate g) := by
  intro a b hab w w1 w2 h1 h2
  simp only [ownUpdate, Out.bind_eq_ok] at h1 h2 ⊢
  obtain ⟨x, hx, h1⟩ := h1
  cases h1
  obtain ⟨y, hy, h2⟩ := h2
  cases h2
  rw [Function.update_of_ne (Ne.symm hab)] at hy
  refine ⟨Function.update w b y, ⟨y, hy, rfl⟩, x, ?_, ?_⟩
  · rw [Function.update_of_ne hab]
    exact hx
  · show Out.ok _ = Out.ok _
    rw [Function.update_comm hab]

section
variable {K : Type} [Field K] [LinearOrder K] [IsStrictOrderedRing K] {Ob W R : Type}

omit [Field K] [LinearOrder K] [IsStrictOrderedRing K] in
theorem Spec.SameObjects.symm {s s' : Solver K Ob} (h : SameObjects s s') : SameObjects s' s :=
  ⟨h.tasks.symm, h.constr.symm, fun p => (h.rows p).symm⟩

/-- The problem two such solvers assemble from the same state of the objects. -/
theorem sameRows_input {ob : Objects K Ob W R} {s s' : Solver K Ob} (h : SameObjects s s') (w : W) :
    SameRows (s.input ob w) (s'.input ob w) :=
  ⟨h.tasks.map _, (h.rows .eq).map _, (h.rows .inEq).map _, (h.rows .genInEq).map _, (h.rows .bound).map _⟩

/-- **C121** (what is registered): two new solvers, given the same tasks and constraints in whatever orders
and with whatever other calls between, hold the same objects. -/
theorem C121_registered [DecidableEq Ob] (ob : Objects K Ob W R) (l l' : Bool)
    (calls calls' : List (Call K Ob W R))
    (s₀ s₀' s s' : Solver K Ob) (w₀ w₀' w w' : W) (h₀ : Solver.init l = .ok s₀)
    (h₀' : Solver.init l' = .ok s₀') (h : Run ob l calls (s₀, w₀) (s, w))
    (h' : Run ob l' calls' (s₀', w₀') (s', w')) (hp : ∀ o, (ob.parts o).Nodup)
    (ha : Alternating (calls.filterMap constrOp)) (ha' : Alternating (calls'.filterMap constrOp))
    (ht : ∀ a, (∃ i, LiveAdd (calls.filterMap taskOp) i a) ↔ ∃ i, LiveAdd (calls'.filterMap taskOp) i a)
    (hc : ∀ o, Registered (calls.filterMap constrOp) o ↔ Registered (calls'.filterMap constrOp) o) :
    SameObjects s s' := by
  unfold Solver.init at h₀ h₀'
  rw [Out.bind_eq_ok] at h₀ h₀'
  obtain ⟨b, _, h₀⟩ := h₀
  obtain ⟨b', _, h₀'⟩ := h₀'
  cases h₀
  cases h₀'
  obtain ⟨t1, r1⟩ := run_regs calls h
  obtain ⟨t2, r2⟩ := run_regs calls' h'
  obtain ⟨n1, m1, _⟩ := C03_registry_ordered_set (calls.filterMap taskOp)
  obtain ⟨n2, m2, _⟩ := C03_registry_ordered_set (calls'.filterMap taskOp)
  obtain ⟨q1, e1, nd1, mem1, rows1⟩ := C04_in_step_partial ob.parts hp _ ha
  obtain ⟨q2, e2, nd2, mem2, rows2⟩ := C04_in_step_partial ob.parts hp _ ha'
  have i1 : q1 = s.regs := Out.ok.inj (e1.symm.trans r1)
  have i2 : q2 = s'.regs := Out.ok.inj (e2.symm.trans r2)
  subst i1
  subst i2
  have hcp : s'.regs.constr.Perm s.regs.constr :=
    (List.perm_ext_iff_of_nodup nd2 nd1).2 fun o => by rw [mem1, mem2, hc]
  refine ⟨?_, hcp, fun p => ?_⟩
  · dsimp only at t1 t2
    rw [t1, t2]
    exact (List.perm_ext_iff_of_nodup n2 n1).2 fun o => by rw [m1, m2, ht]
  · rw [rows1, rows2]
    exact hcp.filter _

/-- **C121** (a control step): if the updates of the objects do not interfere and the first solver makes the
step, the objects of the second, holding the same ones, are updated without failure and end in the same
state; so the two problems have the same tasks and rows. -/
theorem C121_step [DecidableEq Ob] {ob : Objects K Ob W R} {s s' : Solver K Ob} (h : SameObjects s s')
    (hdata : s'.data = s.data) {eng : Engines K} {mbs : List (MultiBody K)} {mbcs : List (Mbc K R)}
    (hc : ∀ d, Apart fun c w => ob.cUpdate c mbs mbcs d w)
    (ht : ∀ d, Apart fun t w => ob.tUpdate t mbs mbcs d w) {w w1 : W} {ok : Bool} {msg : List DiagEntry}
    {s1 : Solver K Ob} (e : s.solveNoMbcUpdate ob eng mbs mbcs w = .ok (ok, msg, s1, w1)) :
    (∃ d wc, computeNormalAccB mbs mbcs s'.data = .ok d ∧ d = s1.data ∧
      forEach s'.regs.constr (fun c w => ob.cUpdate c mbs mbcs d w) w = .ok wc ∧
      forEach s'.tasks (fun t w => ob.tUpdate t mbs mbcs d w) wc = .ok w1) ∧
    SameRows (s.input ob w1) (s'.input ob w1) ∧
    ∀ {eng' : Engines K} {ok' : Bool} {msg' : List DiagEntry} {s1' : Solver K Ob} {w1' : W},
      s'.solveNoMbcUpdate ob eng' mbs mbcs w = .ok (ok', msg', s1', w1') →
        w1' = w1 ∧ s1'.data = s1.data := by
  obtain ⟨d, wc, b1, b2, e1, e2, e3, _, _, rfl, _⟩ := solveNoMbcUpdate_parts e
  have f2 := forEach_perm (hc d) h.constr.symm e2
  have f3 := forEach_perm (ht d) h.tasks.symm e3
  refine ⟨⟨d, wc, by rw [hdata]; exact e1, rfl, f2, f3⟩, sameRows_input h w1, ?_⟩
  intro eng' ok' msg' s1' w1' e'
  obtain ⟨d', wc', b1', b2', g1, g2, g3, _, _, rfl, _⟩ := solveNoMbcUpdate_parts e'
  rw [hdata, e1] at g1
  cases g1
  rw [f2] at g2
  cases g2
  rw [f3] at g3
  cases g3
  exact ⟨rfl, rfl⟩

/-- **C121** (sizes): the two solvers are told of the new number of variables and sized the same way. -/
theorem C121_sizes {ob : Objects K Ob W R} {s s' : Solver K Ob} (h : SameObjects s s') (w : W) :
    (s'.updateConstrSize ob w).maxEq = (s.updateConstrSize ob w).maxEq ∧
    (s'.updateConstrSize ob w).maxInEq = (s.updateConstrSize ob w).maxInEq ∧
    (s'.updateConstrSize ob w).maxGen = (s.updateConstrSize ob w).maxGen ∧
    ∀ (mbs : List (MultiBody K)) (uni : List (UniContact K)) (bi : List (BiContact K)) (w1 : W)
      (s1 : Solver K Ob), (∀ d, Apart fun t w => ob.tNrVars t mbs d w) →
      (∀ d, Apart fun c w => ob.cNrVars c mbs d w) → s'.data = s.data →
      s'.backend = s.backend → s.nrVars ob mbs uni bi w = .ok (s1, w1) →
      ∃ s1', s'.nrVars ob mbs uni bi w = .ok (s1', w1) ∧ SameObjects s1 s1' ∧ s1'.data = s1.data := by
  have key : ∀ (f : Ob → ℕ) (l l' : List Ob), l'.Perm l →
      l'.foldl (fun acc o => acc + f o) 0 = l.foldl (fun acc o => acc + f o) 0 := by
    intro f l l' hl
    exact hl.foldl_eq (rcomm := ⟨fun a b c => by omega⟩) 0
  refine ⟨key _ _ _ (h.rows .eq), key _ _ _ (h.rows .inEq), key _ _ _ (h.rows .genInEq), ?_⟩
  intro mbs uni bi w1 s1 ht hc hd hb e
  simp only [Solver.nrVars, Solver.updateTasksNrVars, Solver.updateConstrsNrVars, Out.bind_eq_ok] at e ⊢
  obtain ⟨⟨d, deps⟩, e1, wt, e2, wc, e3, b, e4, e5⟩ := e
  cases e5
  exact ⟨_, ⟨(d, deps), by rw [hd]; exact e1, wt, forEach_perm (ht d) h.tasks.symm e2, w1,
    forEach_perm (hc d) h.constr.symm e3, b, by rw [hb]; exact e4, rfl⟩, ⟨h.tasks, h.constr, h.rows⟩, rfl⟩

end

/-! ## The problem -/

section
variable {K : Type} [Field K] [LinearOrder K] [IsStrictOrderedRing K]

theorem accDiag_perm {ts ts' : List (TaskQC K)} (h : ts'.Perm ts) (i : ℕ) : accDiag ts' i = accDiag ts i :=
  (h.map _).sum_eq

/-- **C121** (the problem): the same tasks and rows in another order need the same room, have the same
objective, the same regularised variables and accept the same vectors; bounds on different variables stay on
different variables, and a Hessian that leaves no direction free still leaves none. -/
theorem C121_problem {inp inp' : QPInput K} (h : SameRows inp inp') (mbs : List (MultiBody K)) (n : ℕ) :
    (∀ e i g, InputFits n e i g inp' ↔ InputFits n e i g inp) ∧
    ((inp'.bound.Pairwise fun c d => ∀ v, ¬ (Covers c v ∧ Covers d v)) ↔
      inp.bound.Pairwise fun c d => ∀ v, ¬ (Covers c v ∧ Covers d v)) ∧
    (∀ x, Admissible mbs n inp' x ↔ Admissible mbs n inp x) ∧
    (∀ x, objective n inp' x = objective n inp x) ∧
    (Definite n inp' ↔ Definite n inp) := by
  refine ⟨fun e i g => ?_, ?_, fun x => ?_, fun x => ?_, ?_⟩
  · simp only [InputFits, InputSized, maxEq, maxInEq, maxGen, (h.eq.map EqC.maxEq).sum_eq,
      (h.inEq.map InEqC.maxInEq).sum_eq, (h.gen.map GenC.maxGen).sum_eq, h.tasks.mem_iff, h.eq.mem_iff,
      h.inEq.mem_iff, h.gen.mem_iff, h.bound.mem_iff]
  · exact h.bound.pairwise_iff (fun hab v hv => hab v ⟨hv.2, hv.1⟩)
  · simp only [Admissible, AllSatisfied, SatLines, h.eq.mem_iff, h.inEq.mem_iff, h.gen.mem_iff,
      h.bound.mem_iff]
  · simp only [objective, accDiag_perm h.tasks, (h.tasks.map fun t => t.obj x).sum_eq]
  · simp only [Definite, accDiag_perm h.tasks]
    refine forall_congr' fun d => ?_
    rw [(h.tasks.map fun t : TaskQC K => t.weight * ∑ a ∈ range t.Q.rows, ∑ b ∈ range t.Q.cols,
      d (t.begin'.1 + a) * t.Q.get a b * d (t.begin'.2 + b)).sum_eq]

/-- **C121** (the result): two successful steps, with whatever backends, on the same tasks and rows in
whatever orders (bounds on different variables, as part of `Solved`): the result of each is accepted by the
constraints of the other, the objectives reached are equal, and the results are equal if the Hessian leaves
no direction free. -/
theorem C121_result {b b' : String} {mbs : List (MultiBody K)} {n : ℕ} {inp inp' : QPInput K} {x x' : Vec K}
    (hs : SameRows inp inp') (h : Solved b mbs n inp x) (h' : Solved b' mbs n inp' x') :
    Admissible mbs n inp x'.get ∧ Admissible mbs n inp' x.get ∧
    objective n inp x.get = objective n inp' x'.get ∧
    (Definite n inp → ∀ v < n, x.get v = x'.get v) := by
  obtain ⟨_, _, hadm, hobj, _⟩ := C121_problem hs mbs n
  obtain ⟨a1, -, a2⟩ := solved_optimal h
  obtain ⟨b1, -, b2⟩ := solved_optimal h'
  have c1 := (hadm _).1 b1
  have c2 := (hadm _).2 a1
  have he : objective n inp x.get = objective n inp x'.get :=
    le_antisymm (a2 _ c1) (by rw [← hobj, ← hobj]; exact b2 _ c2)
  refine ⟨c1, c2, by rw [hobj]; exact he, fun hdef v hv => ?_⟩
  by_contra hne
  have hpos := hdef (fun v => x.get v - x'.get v) ⟨v, hv, sub_ne_zero.2 hne⟩
  have hm := a2 _ (admissible_mid a1 c1)
  have := objective_mid n inp x.get x'.get
  linarith

/-- **C121** (a step from the objects): two solvers hold the same objects in whatever orders, the objects are
in the same state and do not interfere, and both steps succeed under the conditions of C55.  Then the
accelerations and forces of the two have the same objective, and are the same if the Hessian leaves no
direction free. -/
theorem C121_end_to_end {Ob W R : Type} [DecidableEq Ob] {ob : Objects K Ob W R} {l l' : Bool}
    {pre post pre' post' : List (Call K Ob W R)} {mbs : List (MultiBody K)} {uni : List (UniContact K)}
    {bi : List (BiContact K)} (hm : ∀ mb ∈ mbs, MimicOK mb) (hb : GoodContacts bi)
    (hnz : ∀ mb ∈ mbs, ∀ j ∈ mb.joints, ∀ l m, j.mimic = some (l, m) → m ≠ 0)
    (hp : ∀ c ∈ post, Keeps mbs c) (hp' : ∀ c ∈ post', Keeps mbs c)
    {sw0 sw0' : Solver K Ob × W} {s s' s1 s1' : Solver K Ob} {w w1 w1' : W}
    (h : Run ob l (pre ++ .nrVars mbs uni bi :: post) sw0 (s, w))
    (h' : Run ob l' (pre' ++ .nrVars mbs uni bi :: post') sw0' (s', w))
    (hso : SameObjects s s') (hdata : s'.data = s.data) {eng eng' : Engines K}
    (hE : EngineSized eng) (hO : EngineOptimal eng) (hE' : EngineSized eng') (hO' : EngineOptimal eng')
    {mbcs mbcs1 mbcs1' : List (Mbc K R)} (hlen : mbcs.length = mbs.length)
    (hshape : ∀ (r : ℕ) (mb : MultiBody K) (m : Mbc K R), mbs[r]? = some mb → mbcs[r]? = some m →
      Shaped mb m)
    (hc : ∀ d, Apart fun c w => ob.cUpdate c mbs mbcs d w)
    (ht : ∀ d, Apart fun t w => ob.tUpdate t mbs mbcs d w)
    (hsol : s.solve ob eng mbs mbcs w = .ok (true, mbcs1, s1, w1))
    (hsol' : s'.solve ob eng' mbs mbcs w = .ok (true, mbcs1', s1', w1'))
    (hfit : InputFits s.data.nrVars s.maxEq s.maxInEq s.maxGen (s.input ob w1))
    (hfit' : InputFits s.data.nrVars s'.maxEq s'.maxInEq s'.maxGen (s.input ob w1))
    (hdis : (s.input ob w1).bound.Pairwise fun c d => ∀ v, ¬ (Covers c v ∧ Covers d v)) :
    objective s.data.nrVars (s.input ob w1) s1.backend.result.get
      = objective s.data.nrVars (s.input ob w1) s1'.backend.result.get ∧
    (Definite s.data.nrVars (s.input ob w1) → ∀ v < s.data.nrVars,
      s1.backend.result.get v = s1'.backend.result.get v) := by
  obtain ⟨⟨msg, g⟩, _⟩ := solve_parts hsol
  obtain ⟨⟨msg', g'⟩, _⟩ := solve_parts hsol'
  obtain ⟨_, hsr, hst⟩ := C121_step hso hdata hc ht g
  obtain ⟨rfl, hd1⟩ := hst g'
  obtain ⟨f1, f2, _⟩ := C121_problem hsr mbs s.data.nrVars
  have hn : s1.data.nrVars = s.data.nrVars := by
    obtain ⟨d, _, _, _, e1, _, _, _, _, rfl, _⟩ := solveNoMbcUpdate_parts g
    exact (computeNormalAccB_layout e1).nrVars
  have S : Solved s.backend.name mbs s.data.nrVars (s.input ob w1') s1.backend.result :=
    ⟨uni, bi, s1.data, ⟨Ob, W, R, inferInstance, ob, l, pre, post, sw0, s, s1, w, w1', eng, mbcs, mbcs1, hm, hb, hnz,
      hp, h, hE, hO, hlen, hshape, hsol, hfit, hdis, rfl, rfl, rfl, rfl⟩, hn.symm⟩
  have S' : Solved s'.backend.name mbs s.data.nrVars (s'.input ob w1') s1'.backend.result :=
    ⟨uni, bi, s1'.data, ⟨Ob, W, R, inferInstance, ob, l', pre', post', sw0', s', s1', w, w1', eng', mbcs, mbcs1', hm, hb,
      hnz, hp', h', hE', hO', hlen, hshape, hsol', by rw [hdata]; exact (f1 _ _ _).2 hfit', f2.2 hdis, rfl,
      rfl, rfl, rfl⟩, by rw [hd1, hn]⟩
  obtain ⟨_, _, r1, r2⟩ := C121_result hsr S S'
  obtain ⟨_, _, _, hobj, _⟩ := C121_problem hsr mbs s.data.nrVars
  exact ⟨by rw [r1, hobj], r2⟩

end

/-! ## Bounds on the same variable -/

/-- The bounds of `exOverlap` in the other order. -/
def exOverlapSwapped : QPInput ℚ := { exOverlap with bound := exOverlap.bound.reverse }

theorem overlap_fits : InputFits 1 0 0 0 exOverlap := by
  refine ⟨⟨by simp [exOverlap], by simp [exOverlap], by simp [exOverlap], by simp [exOverlap], ?_⟩,
    by decide, by decide, by decide⟩
  intro c hc
  simp only [exOverlap, List.mem_cons, List.not_mem_nil, or_false] at hc
  rcases hc with rfl | rfl <;> exact ⟨by decide, by decide⟩

theorem overlap_same : SameRows exOverlap exOverlapSwapped :=
  ⟨.refl _, .refl _, .refl _, .refl _, List.reverse_perm _⟩

/-- **C121** fails for bounds on the same variable: a variable bounded by 0 and 1 by one constraint and by 5
and 6 by another is put between 5 and 6 if they are added in this order and between 0 and 1 if not. -/
theorem C121_bounds_counterexample :
    (∀ (s0 : Qld ℚ) (p : QldProblem ℚ), DepsAre 1 [] s0.dep → QldRun 1 0 0 0 [] exOverlap s0 p →
      ∀ x, InBounds p.XL p.XU x ↔ 5 ≤ x 0 ∧ x 0 ≤ 6) ∧
    (∀ (s0 : Qld ℚ) (p : QldProblem ℚ), DepsAre 1 [] s0.dep → QldRun 1 0 0 0 [] exOverlapSwapped s0 p →
      ∀ x, InBounds p.XL p.XU x ↔ 0 ≤ x 0 ∧ x 0 ≤ 1) ∧
    SameRows exOverlap exOverlapSwapped := by
  have gen : ∀ (inp : QPInput ℚ) (a b c d : ℚ), InputFits 1 0 0 0 inp →
      inp.bound = [⟨0, Vec.ofList [.fin a], Vec.ofList [.fin b]⟩, ⟨0, Vec.ofList [.fin c], Vec.ofList [.fin d]⟩] →
      ∀ (s0 : Qld ℚ) (p : QldProblem ℚ), DepsAre 1 [] s0.dep → QldRun 1 0 0 0 [] inp s0 p →
        ∀ x, InBounds p.XL p.XU x ↔ c ≤ x 0 ∧ x 0 ≤ d := by
    intro inp a b c d hf hb s0 p hd hp x
    have hw := (C08_last_wins (n := 1) (e := 0) (i := 0) (g := 0) (hist := []) (inp := inp)
      (by intro j hj; simp at hj; subst hj; exact hf)
      (by intro c hc; rw [hb] at hc; simp only [List.mem_cons, List.not_mem_nil, or_false] at hc
          rcases hc with rfl | rfl <;> rfl) x).1 s0 p hd hp
    rw [hw]
    constructor
    · intro h
      exact h 0 (by omega) [⟨0, Vec.ofList [.fin a], Vec.ofList [.fin b]⟩] _ [] hb
        ⟨le_refl _, by simp [Vec.ofList]⟩ (by simp)
    · intro h v hv pre e post heq hc hpost
      have hv0 : v = 0 := by omega
      subst hv0
      rw [hb] at heq
      rcases pre with _ | ⟨a', pre⟩
      · simp only [List.nil_append, List.cons.injEq] at heq
        obtain ⟨_, rfl⟩ := heq
        exact absurd ⟨le_refl _, by simp [Vec.ofList]⟩ (hpost _ (List.mem_singleton.mpr rfl))
      · rcases pre with _ | ⟨b', pre⟩
        · simp only [List.cons_append, List.nil_append, List.cons.injEq] at heq
          obtain ⟨_, rfl, _⟩ := heq
          exact h
        · simp at heq
  refine ⟨gen _ 0 1 5 6 overlap_fits rfl, gen _ 5 6 0 1 ?_ rfl, overlap_same⟩
  exact ((C121_problem overlap_same [] 1).1 0 0 0).2 overlap_fits

/-! ## Concrete cases -/

namespace OrderEx

/-- Each object counts its own updates. -/
def count : ℕ → ℕ → Out ℕ := fun o k => if o < 5 then .ok (k + o) else .ub

example : Apart (ownUpdate count) := C121_separate count

example : (forEach [2, 4, 2] (ownUpdate count) (fun _ => 1) >>= fun w => .ok ((List.range 5).map w))
    = .ok [1, 1, 5, 1, 5] := by decide

/-- Objects that write the same memory do interfere. -/
example : ¬ Apart (fun (o : ℕ) (_ : ℕ) => Out.ok o) := by
  intro h
  obtain ⟨v, h1, h2⟩ := h 0 1 (by decide) 7 0 1 rfl rfl
  cases h2

/-- Two tasks and a constraint, added in two orders with other calls between. -/
def calls₁ : List (Call ℚ ℕ Unit Unit) :=
  [.addTask none 0, .addConstr none 3, .addTask none 1, .addConstr none 4, .updateConstrSize]

/-- See `calls₁`. -/
def calls₂ : List (Call ℚ ℕ Unit Unit) :=
  [.addTask none 1, .addTask none 2, .addConstr none 4, .removeTask 2, .addConstr none 3, .addTask none 0]

example : ∃ s₀ s s', Solver.init false = .ok s₀ ∧ Run exObjects false calls₁ (s₀, ()) (s, ()) ∧
    Run exObjects false calls₂ (s₀, ()) (s', ()) ∧ s.tasks = [0, 1] ∧ s'.tasks = [1, 0] ∧
    s.regs.constr = [3, 4] ∧ s'.regs.constr = [4, 3] ∧ SameObjects s s' := by
  refine ⟨_, _, _, rfl, rfl, rfl, by decide, by decide, by decide, by decide, ?_⟩
  refine ⟨?_, ?_, fun p => ?_⟩
  · decide
  · decide
  · cases p <;> decide

/-- Two steps of the robot of C71 with its tasks in the two orders have the same result. -/
example {x x' : Vec ℚ} {b b' : String}
    (h : Solved b [WeightEx.robot] 2 (WeightEx.inpOf [WeightEx.pull 0 1, WeightEx.pull 1 1]) x)
    (h' : Solved b' [WeightEx.robot] 2 (WeightEx.inpOf [WeightEx.pull 1 1, WeightEx.pull 0 1]) x') :
    objective 2 (WeightEx.inpOf [WeightEx.pull 0 1, WeightEx.pull 1 1]) x.get
      = objective 2 (WeightEx.inpOf [WeightEx.pull 1 1, WeightEx.pull 0 1]) x'.get :=
  (C121_result (inp := WeightEx.inpOf [WeightEx.pull 0 1, WeightEx.pull 1 1])
    (inp' := WeightEx.inpOf [WeightEx.pull 1 1, WeightEx.pull 0 1])
    ⟨List.Perm.swap (WeightEx.pull 0 1) (WeightEx.pull 1 1) [], .refl _, .refl _, .refl _, .refl _⟩ h h').2.2.1

end OrderEx

end Verif
