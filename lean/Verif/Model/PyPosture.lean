import Verif.Model.PyAcc
import Verif.Model.Posture

/-!
# The Python binding: `PostureTask`, lists of gains, lists of joint names

binding/python/tasks/qp/qp.pyx:414-421, 449-456 (`JointStiffnessVector`, `JointGainsVector`), 543-547, 729-762
(`PostureTask`), 847-883 (`JointsSelector`); c_qp.pxd:210-222.

`std::vector<double>` is made of any Python iterable of numbers, `std::vector<std::vector<double>>` of any iterable of
those; a `str` iterates as one-character `str`s, `bytes` as numbers.  `JointStiffnessVector(x)` takes the elements of `x`
if it is a `list`, and `x` itself otherwise; an element passes the test of its class if it is of the class or `None`.

Simplifications: `mbs` is the vector of the robots the task was made for; no other iterables (vectors of Eigen,
dictionaries, generators), no subclasses written in Python; arguments by position; `eval()`, which copies what C++
returns, is left out.
-/

set_option autoImplicit false

namespace Verif.PyPosture

open PyAcc (Res)

/-- A Python value. -/
inductive PyV (K : Type) where
  | none
  | num (x : K)
  | str (cs : List Char)
  | bytes (cs : List Char)
  | list (l : List (PyV K))
  | tuple (l : List (PyV K))
  /-- a `JointStiffness` -/
  | js (name : String) (k : K)
  /-- a `JointGains` -/
  | jg (name : String) (k d : K)
  /-- a `MultiBodyVector` -/
  | mbs
  /-- an object of another class, not iterable -/
  | other

section
variable {K : Type} [CommRing K]

/-- Iteration; `none` is `TypeError`. -/
def items : PyV K → Option (List (PyV K))
  | .list l => some l
  | .tuple l => some l
  | .str cs => some (cs.map fun c => .str [c])
  | .bytes cs => some (cs.map fun c => .num c.toNat)
  | _ => none

/-- Conversion to `double`. -/
def asDouble : PyV K → Option K
  | .num x => some x
  | _ => none

/-- Conversion to `std::vector<double>`. -/
def asDoubles (v : PyV K) : Option (List K) := do
  let l ← items v
  l.mapM asDouble

/-- Conversion to `std::vector<std::vector<double>>`. -/
def asPosture (v : PyV K) : Option (List (List K)) := do
  let l ← items v
  l.mapM asDoubles

/-- Outcome of a conversion that may read `.impl` of `None`. -/
inductive Conv (A : Type) where
  | ok (a : A)
  | raises
  | ub

/-- The loop `for js in args: self.__addJS(js)`. -/
def addAll {A : Type} (impl : PyV K → Option A) : List (PyV K) → Conv (List A)
  | [] => .ok []
  | v :: l =>
    match impl v, v with
    | some a, _ =>
      match addAll impl l with
      | .ok as => .ok (a :: as)
      | .raises => .raises
      | .ub => .ub
    | none, .none => .ub
    | none, _ => .raises

/-- `JointStiffnessVector(x)`, `JointGainsVector(x)` (qp.pyx:417-421, 452-456). -/
def toVector {A : Type} (impl : PyV K → Option A) : PyV K → Conv (List A)
  | .list l => addAll impl l
  | v => addAll impl [v]

/-- `js.impl` -/
def jsImpl : PyV K → Option (String × K)
  | .js n k => some (n, k)
  | _ => none

/-- `jg.impl` -/
def jgImpl : PyV K → Option (String × K × K)
  | .jg n k d => some (n, k, d)
  | _ => none

/-- The methods of a Python `PostureTask`. -/
inductive Meth where
  | weight | stiffness | damping | gains | posture | jointsStiffness | jointsGains
  deriving DecidableEq, Repr

/-- What they return. -/
inductive Val (K : Type) where
  | num (x : K)
  | posture (q : List (List K))

/-- `def m(self, MultiBodyVector mbs, l): impl.m(deref(mbs.v), V(l).v)`: the vector is made before `mbs` is
dereferenced. -/
def withVector {A : Type} (impl : PyV K → Option A) (set : List A → Out (Posture K)) :
    List (PyV K) → Res (Posture K) (Val K)
  | [m, l] =>
    match m with
    | .mbs =>
      match toVector impl l with
      | .ok as => .ofOut (set as)
      | .raises => .raises
      | .ub => .ub
    | .none =>
      match toVector impl l with
      | .ok _ => .ub
      | .raises => .raises
      | .ub => .ub
    | _ => .raises
  | _ => .raises

/-- `t.m(args)` (qp.pyx:543-547, 738-758). -/
def call (sqrt : K → Out K) (mb : MultiBody K) (s : Posture K) (m : Meth) (args : List (PyV K)) :
    Res (Posture K) (Val K) :=
  match m, args with
  | .weight, [] => .ret (some (.num s.weight)) s
  | .weight, [.none] => .ret (some (.num s.weight)) s
  | .weight, [v] =>
    match asDouble v with
    | some w => .ret none { s with weight := w }
    | none => .raises
  | .stiffness, [] => .ret (some (.num s.stiffness)) s
  | .stiffness, [.none] => .ret (some (.num s.stiffness)) s
  | .stiffness, [v] =>
    match asDouble v with
    | some k => .ofOut (s.step sqrt mb (.stiffness k))
    | none => .raises
  | .damping, [] => .ret (some (.num s.damping)) s
  | .gains, [v] =>
    match asDouble v with
    | some k => .ofOut (s.step sqrt mb (.stiffness k))
    | none => .raises
  | .gains, [v, .none] =>
    match asDouble v with
    | some k => .ofOut (s.step sqrt mb (.stiffness k))
    | none => .raises
  | .gains, [v, w] =>
    match asDouble v, asDouble w with
    | some k, some d => .ofOut (s.step sqrt mb (.gains k d))
    | _, _ => .raises
  | .posture, [] => .ret (some (.posture s.pt.q)) s
  | .posture, [.none] => .ret (some (.posture s.pt.q)) s
  | .posture, [v] =>
    match asPosture v with
    | some q => .ofOut (s.step sqrt mb (.posture q))
    | none => .raises
  | .jointsStiffness, args => withVector jsImpl (fun l => s.step sqrt mb (.jointsStiffness l)) args
  | .jointsGains, args => withVector jgImpl (fun l => s.step sqrt mb (.jointsGains l)) args
  | _, _ => .raises

/-- A statement of a program with one `PostureTask`: a call inside `try ... except`, or what the solver calls. -/
inductive Stmt (K : Type) where
  | call (m : Meth) (args : List (PyV K))
  | updateNrVars (d : SolverData K)
  | update (env : PostureEnv K)

/-- The task after the statement; `none` when it is undefined. -/
def Stmt.run (sqrt : K → Out K) (mb : MultiBody K) (s : Posture K) : Stmt K → Option (Posture K)
  | .call m args =>
    match PyPosture.call sqrt mb s m args with
    | .ret _ s' => some s'
    | .raises => some s
    | .ub => none
  | .updateNrVars d =>
    match s.step sqrt mb (.updateNrVars d) with
    | .ok s' => some s'
    | _ => none
  | .update env =>
    match s.step sqrt mb (.update env) with
    | .ok s' => some s'
    | _ => none

/-- A program. -/
def exec (sqrt : K → Out K) (mb : MultiBody K) : List (Stmt K) → Posture K → Option (Posture K)
  | [], s => some s
  | c :: l, s => do
    let s ← c.run sqrt mb s
    exec sqrt mb l s

end

/-! ## Lists of joint names -/

section
variable {K : Type}

/-- The sequence of names given to `JointsSelector`: a `list` can be assigned to, a `tuple` cannot. -/
inductive SeqKind where
  | list | tuple
  deriving DecidableEq, Repr

/-- The loop `for i, n in enumerate(names): if isinstance(n, unicode): names[i] = n.encode(u'ascii')`
(qp.pyx:869-871, 878-880): the sequence afterwards, and whether the loop ended without an exception. -/
def encodeAll (k : SeqKind) : List (PyV K) → List (PyV K) × Bool
  | [] => ([], true)
  | .str cs :: l =>
    if k = .list ∧ cs.all (fun c => c.toNat < 128) = true then
      let r := encodeAll k l
      (.bytes cs :: r.1, r.2)
    else (.str cs :: l, false)
  | v :: l =>
    let r := encodeAll k l
    (v :: r.1, r.2)

/-- Conversion to `std::string`. -/
def asName : PyV K → Option String
  | .bytes cs => some (String.ofList cs)
  | _ => none

/-- `JointsSelector.ActiveJoints(mbs, robotIndex, hl, names)`, `UnactiveJoints` (qp.pyx:866-883): the sequence of the
caller afterwards, and the names that reach C++ (`none`: an exception). -/
def selectorNames (k : SeqKind) (l : List (PyV K)) : List (PyV K) × Option (List String) :=
  let r := encodeAll k l
  (r.1, if r.2 then r.1.mapM asName else none)

/-- `JointsSelector(mbs, robotIndex, hl, names)` (qp.pyx:850-857): a `list`, converted as it is. -/
def ctorNames : SeqKind → List (PyV K) → Option (List String)
  | .list, l => l.mapM asName
  | .tuple, _ => none

end

end Verif.PyPosture
