import Verif.Base

/-!
# The Python binding: attributes of contacts and data of the solver, as copies and as views

binding/python/tasks/qp/qp.pyx:119-320 (contacts), 325-390 (`SolverData`), 2146-2152 (`nrVars`),
2233-2234 (`data`).

A wrapper of a contact or of `SolverData` holds the C++ object itself (`cdef c_qp.UnilateralContact impl`,
qp.pxd:21-22, 51-52), so it dies with the wrapper.  The getters of `contactId`, of the points and of the cones
build new Python objects (`ContactIdFromC`, `Vector3dFromC`, `FrictionConeFromC`: `ret.impl = fc`).  Those of the
two transforms return `PTransformdFromC(self.impl.X_b1_b2, copy = False)`: a wrapper with a pointer to the field,
without a reference to the contact.  The setters and constructors copy.

Simplifications: the value of an attribute is an element of a type `V` (a list of points with its points is one
value, a change of the list or of a point is a change of that value); the only references are variables; one
solver, whose state is its contacts and the rest `N` of `SolverData` (normal accelerations); an object exists as
long as a variable refers to it (sva's `PTransformd` does not delete what it does not own).
-/

set_option autoImplicit false

namespace Verif.PyValue

/-- The attributes of a contact (qp.pyx:145-185, 245-291); a bilateral contact has lists of cones. -/
inductive Attr where
  | contactId
  | r1Points
  | r2Points
  | r1Cone
  | r2Cone
  | X_b1_b2
  | X_b1_cf
  deriving DecidableEq, Repr

/-- The attributes whose getter says `copy = False` (qp.pyx:178, 183, 284, 289). -/
def Attr.isView : Attr → Bool
  | .X_b1_b2 => true
  | .X_b1_cf => true
  | _ => false

/-- The contacts and the rest of `SolverData`. -/
structure Data (V N : Type) where
  contacts : List (Attr → V)
  rest : N

/-- A Python object. -/
inductive Obj (V N : Type) where
  /-- an object with its own value -/
  | val (v : V)
  /-- a `PTransformd` that points to an attribute of a contact -/
  | view (c : ℕ) (a : Attr)
  | contact (f : Attr → V)
  | data (d : Data V N)

/-- The program and the solver. -/
structure St (V N : Type) where
  /-- number of the next object -/
  next : ℕ
  env : List (ℕ × ℕ)
  objs : ℕ → Option (Obj V N)
  solver : Data V N

/-- The statements. -/
inductive Op (V N : Type) where
  /-- `x = Vector3d(...)`, `x = PTransformd(...)`, `x = [...]`, ... -/
  | new (x : ℕ) (v : V)
  /-- `x = UnilateralContact(y0, y1, ...)`, `x = BilateralContact(...)`: `mk` is the C++ constructor -/
  | contact (x : ℕ) (ys : List ℕ) (mk : List V → Attr → V)
  /-- `x = y` -/
  | assign (x y : ℕ)
  /-- `del x`, or the end of the scope of `x` -/
  | del (x : ℕ)
  /-- `x = c.a` -/
  | get (x c : ℕ) (a : Attr)
  /-- `c.a = y` -/
  | set (c : ℕ) (a : Attr) (y : ℕ)
  /-- a change of the object itself: `x[0] = 1`, `x.r1Index = 2`, `x.append(...)` -/
  | change (x : ℕ) (g : V → V)
  /-- `solver.nrVars(mbs, [c0, c1, ...], [...])`; `g` is what it does to the rest -/
  | nrVars (cs : List ℕ) (g : N → N)
  /-- `solver.solve(mbs, mbcs)` and the like: recompute the normal accelerations -/
  | solve (g : N → N)
  /-- `x = solver.data()` -/
  | data (x : ℕ)
  /-- `x.computeNormalAccB(mbs, mbcs)` -/
  | compute (x : ℕ) (g : N → N)
  /-- `x = d.unilateralContacts()[i]` (also `bilateralContacts()`, `allContacts()`) -/
  | element (x d i : ℕ)

section
variable {V N : Type}

/-- The object a variable refers to; an unbound variable is a `NameError`. -/
def St.lookup (s : St V N) (x : ℕ) : Out ℕ :=
  match s.env.lookup x with
  | some n => .ok n
  | none => .throws .runtimeError

/-- Whether some variable refers to the object. -/
def St.held (s : St V N) (n : ℕ) : Bool := s.env.any fun b => b.2 = n

/-- `x` refers to the object `n`. -/
def St.bind (s : St V N) (x n : ℕ) : St V N :=
  { s with env := (x, n) :: s.env.filter fun b => b.1 ≠ x }

/-- `x` refers to a new object. -/
def St.make (s : St V N) (x : ℕ) (o : Obj V N) : St V N :=
  ({ s with next := s.next + 1, objs := fun m => if m = s.next then some o else s.objs m } : St V N).bind x s.next

/-- The object `n` becomes `o`. -/
def St.put (s : St V N) (n : ℕ) (o : Obj V N) : St V N :=
  { s with objs := fun m => if m = n then some o else s.objs m }

/-- The C++ value behind an object that stands for a value: reading through a pointer to an object that is gone is
undefined; an object of another class raises. -/
def St.value (s : St V N) (n : ℕ) : Out V :=
  match s.objs n with
  | some (.val v) => .ok v
  | some (.view c a) =>
    if s.held c then
      match s.objs c with
      | some (.contact f) => .ok (f a)
      | _ => .ub
    else .ub
  | _ => .throws .runtimeError

/-- The value a variable stands for. -/
def St.read (s : St V N) (x : ℕ) : Out V := do
  let n ← s.lookup x
  s.value n

/-- The contact a variable refers to. -/
def St.contactOf (s : St V N) (x : ℕ) : Out (ℕ × (Attr → V)) := do
  let n ← s.lookup x
  match s.objs n with
  | some (.contact f) => .ok (n, f)
  | _ => .throws .runtimeError

/-- The wrapper of `SolverData` a variable refers to. -/
def St.dataOf (s : St V N) (x : ℕ) : Out (ℕ × Data V N) := do
  let n ← s.lookup x
  match s.objs n with
  | some (.data d) => .ok (n, d)
  | _ => .throws .runtimeError

/-- The values of a list of arguments, from left to right. -/
def readAll {β : Type} (f : ℕ → Out β) : List ℕ → Out (List β)
  | [] => .ok []
  | x :: xs => do
    let v ← f x
    let vs ← readAll f xs
    return v :: vs

/-- The getter `c.a` of the contact number `n` with attributes `f` (qp.pyx:145-185, 245-291). -/
def getter (n : ℕ) (f : Attr → V) (a : Attr) : Obj V N :=
  if a.isView then .view n a else .val (f a)

/-- One statement. -/
def Op.run (op : Op V N) (s : St V N) : Out (St V N) :=
  match op with
  | .new x v => .ok (s.make x (.val v))
  | .contact x ys mk => do
    let vs ← readAll s.read ys
    return s.make x (.contact (mk vs))
  | .assign x y => do
    let n ← s.lookup y
    return s.bind x n
  | .del x => do
    let _ ← s.lookup x
    return { s with env := s.env.filter fun b => b.1 ≠ x }
  | .get x c a => do
    let (n, f) ← s.contactOf c
    return s.make x (getter n f a)
  | .set c a y => do
    let (n, f) ← s.contactOf c
    let v ← s.read y
    return s.put n (.contact fun b => if b = a then v else f b)
  | .change x g => do
    let n ← s.lookup x
    match s.objs n with
    | some (.val v) => return s.put n (.val (g v))
    | some (.view c a) =>
      -- the write goes through the pointer
      if s.held c then
        match s.objs c with
        | some (.contact f) => return s.put c (.contact fun b => if b = a then g (f a) else f b)
        | _ => .ub
      else .ub
    | _ => .throws .runtimeError
  | .nrVars cs g => do
    -- qp.pyx:2146-2152: the vectors are copies, and so are those of `SolverData`
    let fs ← readAll (fun x => s.contactOf x) cs
    return { s with solver := ⟨fs.map Prod.snd, g s.solver.rest⟩ }
  | .solve g => .ok { s with solver := { s.solver with rest := g s.solver.rest } }
  | .data x => .ok (s.make x (.data s.solver))
  | .compute x g => do
    let (n, d) ← s.dataOf x
    return s.put n (.data { d with rest := g d.rest })
  | .element x d i => do
    let (_, dd) ← s.dataOf d
    match dd.contacts[i]? with
    | some f => return s.make x (.contact f)
    | none => .throws .outOfRange

/-- A program. -/
def runOps (ops : List (Op V N)) (s : St V N) : Out (St V N) := forEach ops Op.run s

/-- Before the first statement; `n` is the rest of the data of a solver that has not been used. -/
def St.init (n : N) : St V N := ⟨0, [], fun _ => none, ⟨[], n⟩⟩

end

end Verif.PyValue
