import Verif.Base

/-!
# Model of the constraint and task registries of `QPSolver`

src/QPSolver.cpp:189-283 and `ConstraintFunction` (src/Tasks/QPSolver.h:162-204).  Pointers are
modelled by a type of object identities with decidable equality.
-/

set_option autoImplicit false

namespace Verif

variable {Ob : Type} [DecidableEq Ob]

/-- `addConstraint` / `addTask` (QPSolver.cpp:225-228, 249-252): push back unless already found. -/
def regAdd (l : List Ob) (o : Ob) : List Ob := if o ∈ l then l else l ++ [o]

/-- `removeConstraint` / `removeTask` (QPSolver.cpp:240-244, 264-268): erase the first occurrence if
any. -/
def regRemove (l : List Ob) (o : Ob) : List Ob := if o ∈ l then l.erase o else l

/-- A call on the task registry (`resetTasks`: QPSolver.cpp:282-283); the constraint registry has
the first two only. -/
inductive RegOp (Ob : Type) where
  | add (o : Ob)
  | remove (o : Ob)
  | reset
  deriving DecidableEq, Repr

/-- Effect of one call. -/
def regStep (l : List Ob) : RegOp Ob → List Ob
  | .add o => regAdd l o
  | .remove o => regRemove l o
  | .reset => []

/-- Effect of a history of calls, starting from the empty registry (QPSolver.cpp:33-37). -/
def regRun (h : List (RegOp Ob)) : List Ob := h.foldl regStep []

/-- The kinds of rows a constraint can have: the template arguments of `ConstraintFunction`. -/
inductive Part where
  | eq | inEq | genInEq | bound
  deriving DecidableEq, Repr

/-- The constraint registries of `QPSolver` (QPSolver.h:134-138): `constr_` and, per kind of rows,
`eqConstr_`, `inEqConstr_`, `genInEqConstr_`, `boundConstr_`. -/
structure Regs (Ob : Type) where
  constr : List Ob
  rows : Part → List Ob

/-- Empty registries (QPSolver.cpp:33-37). -/
def Regs.init : Regs Ob := ⟨[], fun _ => []⟩

/-- `add{Equality,Inequality,GenInequality,Bound}Constraint` (QPSolver.cpp:189-190, 198-199,
207-208, 216-217): unconditional `push_back`. -/
def addPart (o : Ob) (p : Part) (s : Regs Ob) : Regs Ob :=
  { s with rows := fun q => if q = p then s.rows q ++ [o] else s.rows q }

/-- `remove{Equality,Inequality,GenInequality,Bound}Constraint` (QPSolver.cpp:192-193, 201-202,
210-211, 219-220): `erase(find(...))`; erasing `end()` is undefined behaviour. -/
def removePart (o : Ob) (p : Part) (s : Regs Ob) : Out (Regs Ob) :=
  if o ∈ s.rows p then
    .ok { s with rows := fun q => if q = p then (s.rows q).erase o else s.rows q }
  else .ub

/-- `ConstraintFunction<Fun...>::addToSolver` (QPSolver.h:168-178 and 187-194).  The overload taking
`mbs` additionally calls `updateNrVars` on a newly inserted object, which does not touch the
registries. -/
def addToSolver (parts : Ob → List Part) (s : Regs Ob) (o : Ob) : Regs Ob :=
  (parts o).foldl (fun s p => addPart o p s) { s with constr := regAdd s.constr o }

/-- `ConstraintFunction<Fun...>::removeFromSolver` (QPSolver.h:180-184 and 196-203). -/
def removeFromSolver (parts : Ob → List Part) (s : Regs Ob) (o : Ob) : Out (Regs Ob) :=
  forEach (parts o) (fun p s => removePart o p s) { s with constr := regRemove s.constr o }

/-- A call adding or removing a whole constraint object. -/
inductive FunOp (Ob : Type) where
  | add (o : Ob)
  | remove (o : Ob)
  deriving DecidableEq, Repr

/-- Effect of one call. -/
def funStep (parts : Ob → List Part) (op : FunOp Ob) (s : Regs Ob) : Out (Regs Ob) :=
  match op with
  | .add o => .ok (addToSolver parts s o)
  | .remove o => removeFromSolver parts s o

/-- Effect of a history of calls. -/
def funRun (parts : Ob → List Part) (h : List (FunOp Ob)) : Out (Regs Ob) :=
  forEach h (funStep parts) Regs.init

end Verif
