import Verif.Props.Solver
import Verif.Props.Registry

/-!
# C03, C04: the registries inside the solver

`Props/Registry.lean` speaks of the registries alone.  Here they are followed through every history of
calls on the solver object, mixed with `nrVars`, `updateConstrSize`, `solver(name)`, `solve` and changes
the user makes to their own objects.
-/

set_option autoImplicit false
set_option linter.unusedSectionVars false

namespace Verif

variable {K Ob W R : Type} [Field K] [LinearOrder K] [IsStrictOrderedRing K] [DecidableEq Ob]

namespace Spec

/-- The calls that concern the list of tasks. -/
def taskOp : Call K Ob W R → Option (RegOp Ob)
  | .addTask _ o => some (.add o)
  | .removeTask o => some (.remove o)
  | .resetTasks => some .reset
  | _ => none

/-- The calls that concern the constraints. -/
def constrOp : Call K Ob W R → Option (FunOp Ob)
  | .addConstr _ o => some (.add o)
  | .removeConstr o => some (.remove o)
  | _ => none

end Spec

open Spec

theorem addTask_tasks {ob : Objects K Ob W R} {mbs : Option (List (MultiBody K))} {o : Ob}
    {s s' : Solver K Ob} {w w' : W} (h : s.addTask ob mbs o w = .ok (s', w')) :
    s' = { s with tasks := regAdd s.tasks o } := by
  unfold Solver.addTask at h
  cases mbs with
  | none => cases h; rfl
  | some l =>
    dsimp only at h
    split at h
    · simp only [Out.bind_eq_ok] at h
      obtain ⟨w1, _, h⟩ := h
      cases h
      rfl
    · cases h; rfl

theorem addConstr_regs {ob : Objects K Ob W R} {mbs : Option (List (MultiBody K))} {o : Ob}
    {s s' : Solver K Ob} {w w' : W} (h : s.addConstr ob mbs o w = .ok (s', w')) :
    s' = { s with regs := addToSolver ob.parts s.regs o } := by
  unfold Solver.addConstr at h
  cases mbs with
  | none => cases h; rfl
  | some l =>
    dsimp only at h
    split at h
    · simp only [Out.bind_eq_ok] at h
      obtain ⟨w1, _, h⟩ := h
      cases h
      rfl
    · cases h; rfl

theorem solveNoMbcUpdate_regs {ob : Objects K Ob W R} {eng : Engines K} {mbs : List (MultiBody K)}
    {mbcs : List (Mbc K R)} {s s' : Solver K Ob} {w w' : W} {ok : Bool} {msg : List DiagEntry}
    (h : s.solveNoMbcUpdate ob eng mbs mbcs w = .ok (ok, msg, s', w')) :
    s'.tasks = s.tasks ∧ s'.regs = s.regs := by
  obtain ⟨_, _, _, _, _, _, _, _, _, rfl, _⟩ := solveNoMbcUpdate_parts h
  exact ⟨rfl, rfl⟩

theorem call_regs {ob : Objects K Ob W R} {l : Bool} {c : Call K Ob W R} {sw sw' : Solver K Ob × W}
    (h : c.run ob l sw = .ok sw') :
    sw'.1.tasks = (taskOp c).toList.foldl regStep sw.1.tasks ∧
    forEach (constrOp c).toList (funStep ob.parts) sw.1.regs = .ok sw'.1.regs := by
  obtain ⟨s, w⟩ := sw
  obtain ⟨s', w'⟩ := sw'
  cases c with
  | nrVars mbs uni bi =>
    simp only [Call.run, Solver.nrVars, Out.bind_eq_ok] at h
    obtain ⟨⟨d, deps⟩, _, w1, _, w2, _, b, _, h⟩ := h
    cases h
    exact ⟨rfl, rfl⟩
  | updateConstrSize => cases h; exact ⟨rfl, rfl⟩
  | updateNrVars mbs =>
    simp only [Call.run, Out.bind_eq_ok] at h
    obtain ⟨w1, _, w2, _, h⟩ := h
    cases h
    exact ⟨rfl, rfl⟩
  | setSolver name =>
    simp only [Call.run, Solver.setSolver, Out.bind_eq_ok] at h
    obtain ⟨s1, ⟨b, _, h1⟩, h⟩ := h
    cases h1
    cases h
    exact ⟨rfl, rfl⟩
  | addConstr mbs o =>
    rw [addConstr_regs h]
    exact ⟨rfl, rfl⟩
  | removeConstr o =>
    simp only [Call.run, Solver.removeConstr, Out.bind_eq_ok] at h
    obtain ⟨s1, ⟨r, hr, h1⟩, h⟩ := h
    cases h1
    cases h
    refine ⟨rfl, ?_⟩
    simp only [constrOp, Option.toList, forEach, funStep]
    rw [hr]
    rfl
  | addTask mbs o =>
    rw [addTask_tasks h]
    exact ⟨rfl, rfl⟩
  | removeTask o => cases h; exact ⟨rfl, rfl⟩
  | resetTasks => cases h; exact ⟨rfl, rfl⟩
  | solve eng mbs mbcs =>
    simp only [Call.run, Out.bind_eq_ok] at h
    obtain ⟨⟨o, m, s1, w1⟩, h1, h⟩ := h
    cases h
    obtain ⟨⟨msg, h2⟩, _⟩ := solve_parts h1
    obtain ⟨e1, e2⟩ := solveNoMbcUpdate_regs h2
    exact ⟨e1, by rw [e2]; rfl⟩
  | solveNoMbcUpdate eng mbs mbcs =>
    simp only [Call.run, Out.bind_eq_ok] at h
    obtain ⟨⟨o, m, s1, w1⟩, h1, h⟩ := h
    cases h
    obtain ⟨e1, e2⟩ := solveNoMbcUpdate_regs h1
    exact ⟨e1, by rw [e2]; rfl⟩
  | user f => cases h; exact ⟨rfl, rfl⟩

theorem run_regs {ob : Objects K Ob W R} {l : Bool} (calls : List (Call K Ob W R))
    {sw sw' : Solver K Ob × W} (h : Run ob l calls sw sw') :
    sw'.1.tasks = (calls.filterMap taskOp).foldl regStep sw.1.tasks ∧
    forEach (calls.filterMap constrOp) (funStep ob.parts) sw.1.regs = .ok sw'.1.regs := by
  induction calls generalizing sw with
  | nil =>
    cases h
    exact ⟨rfl, rfl⟩
  | cons c t ih =>
    simp only [Run, forEach, Out.bind_eq_ok] at h
    obtain ⟨sw1, h1, h2⟩ := h
    obtain ⟨a1, a2⟩ := call_regs h1
    obtain ⟨b1, b2⟩ := ih h2
    constructor
    · rw [b1, a1]
      cases ht : taskOp c <;> simp [List.filterMap_cons, ht]
    · cases ht : constrOp c with
      | none =>
        rw [ht] at a2
        have : sw.1.regs = sw1.1.regs := Out.ok.inj a2
        simpa [List.filterMap_cons, ht, this] using b2
      | some op =>
        rw [ht] at a2
        simp only [Option.toList, forEach] at a2
        rw [Out.bind_eq_ok] at a2
        obtain ⟨r, hr, a2⟩ := a2
        cases a2
        simp only [List.filterMap_cons, ht, forEach, hr, Out.ok_bind]
        exact b2

/-- **C03** (the tasks of a solver): after any history of calls on a new solver, none of which crashes or
throws, the tasks whose cost is put in the problem are the ones added and neither removed nor dropped by
`resetTasks` since, once each, in the order of their first addition since then.  No other call of the solver
changes them. -/
theorem C03_solver_tasks (ob : Objects K Ob W R) (l : Bool) (calls : List (Call K Ob W R))
    (s₀ s : Solver K Ob) (w₀ w : W) (h₀ : Solver.init l = .ok s₀) (h : Run ob l calls (s₀, w₀) (s, w)) :
    (∃ ts : List Ob, (s.input ob w).tasks = ts.map (ob.task w) ∧ ts.Nodup ∧
      (∀ a, a ∈ ts ↔ ∃ i, LiveAdd (calls.filterMap taskOp) i a) ∧
      ts.Pairwise fun a b => ∀ i j, Inserted (calls.filterMap taskOp) i a →
        Inserted (calls.filterMap taskOp) j b → i < j) := by
  unfold Solver.init at h₀
  rw [Out.bind_eq_ok] at h₀
  obtain ⟨b, _, h₀⟩ := h₀
  cases h₀
  obtain ⟨h1, _⟩ := run_regs calls h
  exact ⟨s.tasks, rfl, by rw [h1]; exact C03_registry_ordered_set _⟩

/-- **C04** (the constraints of a solver, partial): after any history of calls on a new solver that adds each
constraint only while absent and removes it only while present, each kind of rows of the problem is returned
by the constraints that are registered and have this kind of rows, once each, in the order in which the
constraints are updated. -/
theorem C04_solver_constraints_partial (ob : Objects K Ob W R) (l : Bool) (calls : List (Call K Ob W R))
    (s₀ s : Solver K Ob) (w₀ w : W) (h₀ : Solver.init l = .ok s₀) (h : Run ob l calls (s₀, w₀) (s, w))
    (hp : ∀ o, (ob.parts o).Nodup) (ha : Alternating (calls.filterMap constrOp)) :
    ∃ cs : List Ob, cs.Nodup ∧ (∀ o, o ∈ cs ↔ Registered (calls.filterMap constrOp) o) ∧
      s.regs.constr = cs ∧
      (s.input ob w).eq = (cs.filter fun o => Part.eq ∈ ob.parts o).map (ob.eq w) ∧
      (s.input ob w).inEq = (cs.filter fun o => Part.inEq ∈ ob.parts o).map (ob.inEq w) ∧
      (s.input ob w).gen = (cs.filter fun o => Part.genInEq ∈ ob.parts o).map (ob.gen w) ∧
      (s.input ob w).bound = (cs.filter fun o => Part.bound ∈ ob.parts o).map (ob.bound w) := by
  unfold Solver.init at h₀
  rw [Out.bind_eq_ok] at h₀
  obtain ⟨b, _, h₀⟩ := h₀
  cases h₀
  obtain ⟨_, h2⟩ := run_regs calls h
  obtain ⟨r, e, nd, mem, rows⟩ := C04_in_step_partial ob.parts hp _ ha
  have : r = s.regs := Out.ok.inj (e.symm.trans h2)
  subst this
  exact ⟨s.regs.constr, nd, mem, rfl, congrArg _ (rows .eq), congrArg _ (rows .inEq),
    congrArg _ (rows .genInEq), congrArg _ (rows .bound)⟩

/-! ## A history -/

/-- A solver with tasks 0, 1, 2 and a constraint 3 added at different moments, one task removed and added
again. -/
def regCalls : List (Call ℚ ℕ Unit Unit) :=
  [.addTask none 0, .addTask none 1, .addConstr none 3, .addTask none 0, .removeTask 0, .updateConstrSize,
    .addTask none 2, .addTask none 0, .user id]

example : ∃ s₀ s, Solver.init false = .ok s₀ ∧ Run exObjects false regCalls (s₀, ()) (s, ()) ∧
    s.tasks = [1, 2, 0] ∧ Alternating (regCalls.filterMap constrOp) ∧ s.regs.constr = [3] ∧
    ∀ o, (exObjects.parts o).Nodup := by
  refine ⟨_, _, rfl, rfl, by decide, ?_, by decide, fun o => by simp [exObjects]⟩
  intro pre op post e
  have e' : [FunOp.add 3] = pre ++ op :: post := e
  cases pre with
  | nil =>
    simp only [List.nil_append, List.cons.injEq] at e'
    obtain ⟨rfl, _⟩ := e'
    rintro ⟨i, hi, _⟩
    simp at hi
  | cons a t =>
    simp at e'

/-- `resetTasks` drops them all. -/
example : ∃ s₀ s, Solver.init false = .ok s₀ ∧
    Run exObjects false (regCalls ++ [.resetTasks, .addTask none 2]) (s₀, ()) (s, ()) ∧ s.tasks = [2] :=
  ⟨_, _, rfl, rfl, by decide⟩

end Verif
