import Verif.Model.Solver

/-!
# Calls of the solver seen by a caller that catches exceptions

src/QPSolver.cpp:42-67, 85-168, 173-187, 225-262, 326-347 and src/Tasks/QPSolver.h:168-194.

The functions of `Model/Solver.lean` drop the state when a call throws.  Here the same bodies are
written statement by statement so that the outcome comes together with the state left behind.  The
virtual methods of the constraints and tasks may throw from anywhere in their body: the world they
leave is a parameter (`Left`).  The other statements do not throw (proved in `Props/Throwing.lean`,
`C106_only_objects`), so the state written for them in the `throws` branch never matters; the same
holds of the `ub` branches, after which nothing is claimed.
-/

set_option autoImplicit false

namespace Verif

variable {K Ob W R : Type}

/-- The world left by a virtual method that throws, per method of `Objects`. -/
structure Left (K Ob W R : Type) where
  cNrVars : Ob → List (MultiBody K) → SolverData K → W → W
  tNrVars : Ob → List (MultiBody K) → SolverData K → W → W
  cUpdate : Ob → List (MultiBody K) → List (Mbc K R) → SolverData K → W → W
  tUpdate : Ob → List (MultiBody K) → List (Mbc K R) → SolverData K → W → W

/-- A call whose state is lost when it throws: run it, then the rest; if it does not return the
state is `s`. -/
def attempt {α β σ : Type} (x : Out α) (s : σ) (k : α → Out β × σ) : Out β × σ :=
  match x with
  | .ok a => k a
  | .throws e => (.throws e, s)
  | .ub => (.ub, s)

/-- A call that gives its state in every case, followed by the rest. -/
def andThen {α β σ τ : Type} (x : Out α × σ) (put : σ → τ) (k : α → σ → Out β × τ) : Out β × τ :=
  match x with
  | (.ok a, s) => k a s
  | (.throws e, s) => (.throws e, put s)
  | (.ub, s) => (.ub, put s)

/-- `for(T * o : l) { o->f(...); }`: the loop ends at the first object that throws. -/
def forEachX {α σ : Type} (l : List α) (f : α → σ → Out σ) (left : α → σ → σ) (s : σ) :
    Out Unit × σ :=
  match l with
  | [] => (.ok (), s)
  | a :: t => attempt (f a s) (left a s) (forEachX t f left)

section
variable [Field K] [LinearOrder K] [DecidableEq Ob]

/-- `nrVars(mbs, uni, bi)` (QPSolver.cpp:85-168): `data_` is written in place (90-155), then the
tasks (157) and the constraints (159) are told, and only then is the backend sized (161-162). -/
def Solver.nrVarsX (ob : Objects K Ob W R) (left : Left K Ob W R) (mbs : List (MultiBody K))
    (uni : List (UniContact K)) (bi : List (BiContact K)) (s : Solver K Ob) (w : W) :
    Out Unit × (Solver K Ob × W) :=
  attempt (layout s.data mbs uni bi) (s, w) fun (d, deps) =>
    let s1 := { s with data := d }
    andThen (forEachX s.tasks (fun t w => ob.tNrVars t mbs d w)
        (fun t w => left.tNrVars t mbs d w) w) (fun w => (s1, w)) fun _ w1 =>
      andThen (forEachX s.regs.constr (fun c w => ob.cNrVars c mbs d w)
          (fun c w => left.cNrVars c mbs d w) w1) (fun w => (s1, w)) fun _ w2 =>
        attempt (s.backend.setDependencies d.nrVars deps) (s1, w2) fun b =>
          (.ok (), { s1 with backend := b.updateSize d.nrVars s.maxEq s.maxInEq s.maxGen }, w2)

/-- `updateNrVars(mbs)` (QPSolver.cpp:173-187). -/
def Solver.updateNrVarsX (ob : Objects K Ob W R) (left : Left K Ob W R) (mbs : List (MultiBody K))
    (s : Solver K Ob) (w : W) : Out Unit × (Solver K Ob × W) :=
  andThen (forEachX s.tasks (fun t w => ob.tNrVars t mbs s.data w)
      (fun t w => left.tNrVars t mbs s.data w) w) (fun w => (s, w)) fun _ w1 =>
    andThen (forEachX s.regs.constr (fun c w => ob.cNrVars c mbs s.data w)
        (fun c w => left.cNrVars c mbs s.data w) w1) (fun w => (s, w)) fun _ w2 => (.ok (), s, w2)

/-- `addConstraint(mbs, co)` / `addConstraint(co)` (QPSolver.cpp:225-238): `push_back` comes before
`updateNrVars`. -/
def Solver.addConstraintX (ob : Objects K Ob W R) (left : Left K Ob W R)
    (mbs : Option (List (MultiBody K))) (o : Ob) (s : Solver K Ob) (w : W) :
    Out Unit × (Solver K Ob × W) :=
  if o ∈ s.regs.constr then (.ok (), s, w)
  else
    let s1 := { s with regs := { s.regs with constr := s.regs.constr ++ [o] } }
    match mbs with
    | none => (.ok (), s1, w)
    | some mbs =>
      if 0 < s1.data.nrVars then
        attempt (ob.cNrVars o mbs s1.data w) (s1, left.cNrVars o mbs s1.data w) fun w1 =>
          (.ok (), s1, w1)
      else (.ok (), s1, w)

/-- `ConstraintFunction::addToSolver` (QPSolver.h:168-178, 184-192): `addConstraint`, then the kind
lists. -/
def Solver.addConstrX (ob : Objects K Ob W R) (left : Left K Ob W R)
    (mbs : Option (List (MultiBody K))) (o : Ob) (s : Solver K Ob) (w : W) :
    Out Unit × (Solver K Ob × W) :=
  andThen (s.addConstraintX ob left mbs o w) id fun _ sw =>
    (.ok (), { sw.1 with regs := (ob.parts o).foldl (fun r p => addPart o p r) sw.1.regs }, sw.2)

/-- `addTask(mbs, task)` / `addTask(task)` (QPSolver.cpp:249-262): `push_back` comes before
`updateNrVars`. -/
def Solver.addTaskX (ob : Objects K Ob W R) (left : Left K Ob W R)
    (mbs : Option (List (MultiBody K))) (o : Ob) (s : Solver K Ob) (w : W) :
    Out Unit × (Solver K Ob × W) :=
  if o ∈ s.tasks then (.ok (), s, w)
  else
    let s1 := { s with tasks := s.tasks ++ [o] }
    match mbs with
    | none => (.ok (), s1, w)
    | some mbs =>
      if 0 < s1.data.nrVars then
        attempt (ob.tNrVars o mbs s1.data w) (s1, left.tNrVars o mbs s1.data w) fun w1 =>
          (.ok (), s1, w1)
      else (.ok (), s1, w)

/-- `preUpdate` (QPSolver.cpp:326-334): `computeNormalAccB` writes `data_`, then the constraints and
the tasks are updated, and only then is the problem assembled. -/
def Solver.preUpdateX (ob : Objects K Ob W R) (left : Left K Ob W R) (mbs : List (MultiBody K))
    (mbcs : List (Mbc K R)) (s : Solver K Ob) (w : W) : Out Unit × (Solver K Ob × W) :=
  attempt (computeNormalAccB mbs mbcs s.data) (s, w) fun d =>
    let s1 := { s with data := d }
    andThen (forEachX s.regs.constr (fun c w => ob.cUpdate c mbs mbcs d w)
        (fun c w => left.cUpdate c mbs mbcs d w) w) (fun w => (s1, w)) fun _ w1 =>
      andThen (forEachX s.tasks (fun t w => ob.tUpdate t mbs mbcs d w)
          (fun t w => left.tUpdate t mbs mbcs d w) w1) (fun w => (s1, w)) fun _ w2 =>
        attempt (s.backend.updateMatrix (s.input ob w2)) (s1, w2) fun b =>
          (.ok (), { s1 with backend := b }, w2)

/-- `solveNoMbcUpdate` (QPSolver.cpp:51-67). -/
def Solver.solveNoMbcUpdateX (ob : Objects K Ob W R) (left : Left K Ob W R) (eng : Engines K)
    (mbs : List (MultiBody K)) (mbcs : List (Mbc K R)) (s : Solver K Ob) (w : W) :
    Out Bool × (Solver K Ob × W) :=
  andThen (s.preUpdateX ob left mbs mbcs w) id fun _ sw =>
    attempt (sw.1.backend.solve eng) sw fun (ok, b) =>
      let s2 := { sw.1 with backend := b }
      if ok then (.ok true, s2, sw.2)
      else attempt (b.errorMsg eng (s2.input ob sw.2)) (s2, sw.2) fun _ => (.ok false, s2, sw.2)

/-- `solve` (QPSolver.cpp:42-49) with `postUpdate` (336-347); the caller's configurations are part of
the state, and are written by `postUpdate` only. -/
def Solver.solveX (ob : Objects K Ob W R) (left : Left K Ob W R) (eng : Engines K)
    (mbs : List (MultiBody K)) (mbcs : List (Mbc K R)) (s : Solver K Ob) (w : W) :
    Out Bool × (List (Mbc K R) × Solver K Ob × W) :=
  andThen (s.solveNoMbcUpdateX ob left eng mbs mbcs w) (fun sw => (mbcs, sw)) fun ok sw =>
    if ok then attempt (sw.1.updateMbcs mbcs 0) (mbcs, sw) fun mbcs' => (.ok true, mbcs', sw)
    else (.ok false, mbcs, sw)

end

end Verif
