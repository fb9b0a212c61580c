import Verif.Model.Registry

/-!
# The Python binding: who keeps the C++ objects alive

binding/python/tasks/qp/qp.pyx, qp.pxd.  A wrapper holds a raw pointer to the C++ object it created and deletes
it in `__dealloc__`, which Python calls when the last reference to the wrapper is gone.  No wrapper holds a
reference to another: `SetPointTask` and the other tasks built on a high-level task (qp.pyx:885-1512) and
`JointsSelector` (qp.pyx:847-856) hand the C++ pointer `impl` or `base` to the C++ constructor, `QPSolver`
(qp.pyx:2130-2240) hands it to the C++ solver, `CollisionConstr.addCollision` (qp.pyx:1892-1897) hands the
pointers of the two shapes to the C++ constraint.

Simplifications: the only references are variables (an element of a list or an attribute is a variable too, a
temporary is a variable deleted at the end of the statement); one solver, which is kept; addresses are not used
again; the program passes objects of the right classes.  The wrapper and its C++ object have the same number.
-/

set_option autoImplicit false

namespace Verif.PyLife

/-- What the C++ object points to: the high-level task a task or selector was built on
(`hlTask_`, QPTasks.h:59, 265; `hl_`, QPTasks.h:324) and the shapes of the collisions
(`CollData`, QPConstr.cpp:344-351). -/
structure CppObj where
  inner : Option ℕ
  shapes : List ℕ
  deriving DecidableEq, Repr

/-- The program. -/
structure St where
  /-- number of the next object -/
  next : ℕ
  /-- the variables and the wrappers they refer to -/
  env : List (ℕ × ℕ)
  /-- whether the class has a `__dealloc__` that deletes the object -/
  frees : ℕ → Bool
  /-- the C++ objects not deleted -/
  alive : ℕ → Bool
  objs : ℕ → CppObj
  /-- `tasks_` of the solver -/
  tasks : List ℕ
  /-- `constr_` and the lists of rows of the solver -/
  regs : Regs ℕ

/-- A program that has not done anything. -/
def St.init : St := ⟨0, [], fun _ => true, fun _ => false, fun _ => ⟨none, []⟩, [], Regs.init⟩

/-- The statements. -/
inductive Op where
  /-- `x = C(..., y, ...)`: `inner` is the variable of the high-level task among the arguments, if any;
  `frees` is `false` for `ImageConstr`, whose `__dealloc__` reads a member that does not exist
  (qp.pyx:2072-2076, qp.pxd:226-227) -/
  | make (x : ℕ) (inner : Option ℕ) (frees : Bool)
  /-- `x = y` -/
  | assign (x y : ℕ)
  /-- `del x`, or the end of the scope of `x` -/
  | del (x : ℕ)
  /-- `x.addCollision(mbs, id, ..., y, ..., z, ...)` -/
  | addCollision (x y z : ℕ)
  /-- `x.rmCollision(id)` for the collision number `i` -/
  | rmCollision (x i : ℕ)
  /-- `solver.addTask(x)` -/
  | addTask (x : ℕ)
  /-- `solver.removeTask(x)` -/
  | removeTask (x : ℕ)
  /-- `solver.resetTasks()` -/
  | resetTasks
  /-- `x.addToSolver(solver)` -/
  | addConstr (x : ℕ)
  /-- `x.removeFromSolver(solver)` -/
  | removeConstr (x : ℕ)
  /-- a method of `x` that goes to all it is built on, like `update` -/
  | call (x : ℕ)
  /-- `solver.solve(mbs, mbcs)`, `solver.nrVars(...)` and the like: go to everything registered -/
  | solve
  deriving DecidableEq, Repr

/-- The wrapper a variable refers to; an unbound variable is a `NameError`. -/
def St.lookup (s : St) (x : ℕ) : Out ℕ :=
  match s.env.lookup x with
  | some n => .ok n
  | none => .throws .runtimeError

/-- Whether some variable refers to the wrapper. -/
def named (env : List (ℕ × ℕ)) (n : ℕ) : Bool := env.any fun b => b.2 = n

/-- `__dealloc__` of the wrapper `n`, when no variable refers to it any more: `del self.impl`. -/
def St.release (s : St) (n : ℕ) : Out St :=
  if named s.env n then .ok s
  else if s.frees n then
    -- deleting twice is undefined
    if s.alive n then .ok { s with alive := fun m => if m = n then false else s.alive m } else .ub
  else .ok s

/-- `x` no longer refers to what it did. -/
def St.unbind (s : St) (x : ℕ) : Out St :=
  match s.env.lookup x with
  | some n => ({ s with env := s.env.filter fun b => b.1 ≠ x } : St).release n
  | none => .ok s

/-- `x` refers to the wrapper `n`: the reference is taken before the old one is dropped. -/
def St.bind (s : St) (x n : ℕ) : Out St :=
  match s.env.lookup x with
  | some m => ({ s with env := (x, n) :: s.env.filter fun b => b.1 ≠ x } : St).release m
  | none => .ok { s with env := (x, n) :: s.env }

/-- The C++ code goes through the object `o` and all it points to; `k` bounds the length of the chain of
high-level tasks. -/
def St.touch (s : St) : ℕ → ℕ → Out Unit
  | 0, _ => .ub
  | k + 1, o =>
    if s.alive o && (s.objs o).shapes.all s.alive then
      match (s.objs o).inner with
      | some i => s.touch k i
      | none => .ok ()
    else .ub

/-- Everything the solver has a pointer to. -/
def St.registered (s : St) : List ℕ :=
  s.tasks ++ s.regs.constr ++ s.regs.rows .eq ++ s.regs.rows .inEq ++ s.regs.rows .genInEq ++ s.regs.rows .bound

/-- One statement; `parts` are the kinds of rows of the constraints (`ConstraintFunction`). -/
def Op.run (parts : ℕ → List Part) (op : Op) (s : St) : Out St :=
  match op with
  | .make x inner fr => do
    let i ← (match inner with
      | some y => do
        let n ← s.lookup y
        -- the constructors ask the high-level task for its dimension
        s.touch s.next n
        pure (some n)
      | none => .ok none : Out (Option ℕ))
    let n := s.next
    St.bind { s with
      next := n + 1
      frees := fun m => if m = n then fr else s.frees m
      alive := fun m => if m = n then true else s.alive m
      objs := fun m => if m = n then ⟨i, []⟩ else s.objs m } x n
  | .assign x y => do
    let n ← s.lookup y
    s.bind x n
  | .del x => do
    let _ ← s.lookup x
    s.unbind x
  | .addCollision x y z => do
    let n ← s.lookup x
    let a ← s.lookup y
    let b ← s.lookup z
    pure { s with
      objs := fun m => if m = n then ⟨(s.objs n).inner, (s.objs n).shapes ++ [a, b]⟩ else s.objs m }
  | .rmCollision x i => do
    let n ← s.lookup x
    pure { s with
      objs := fun m =>
        if m = n then ⟨(s.objs n).inner, ((s.objs n).shapes.take (2 * i)) ++ (s.objs n).shapes.drop (2 * i + 2)⟩
        else s.objs m }
  | .addTask x => do
    let n ← s.lookup x
    pure { s with tasks := regAdd s.tasks n }
  | .removeTask x => do
    let n ← s.lookup x
    pure { s with tasks := regRemove s.tasks n }
  | .resetTasks => .ok { s with tasks := [] }
  | .addConstr x => do
    let n ← s.lookup x
    pure { s with regs := addToSolver parts s.regs n }
  | .removeConstr x => do
    let n ← s.lookup x
    let r ← removeFromSolver parts s.regs n
    pure { s with regs := r }
  | .call x => do
    let n ← s.lookup x
    s.touch s.next n
    pure s
  | .solve => do
    forEach s.registered (fun o _ => s.touch s.next o) ()
    pure s

/-- A program. -/
def runOps (parts : ℕ → List Part) (ops : List Op) (s : St) : Out St := forEach ops (Op.run parts) s

end Verif.PyLife
