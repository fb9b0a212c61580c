import Verif.Model.Binding
import Verif.Model.CoM
import Verif.Model.Solver

/-!
# The Python binding: C++ exceptions

binding/python/tasks/qp/c_qp.pxd, c_tasks.pxd and the methods of qp.pyx and tasks.pyx that call the
functions declared there.

A C++ function declared `except +` is called inside `try`/`catch`, and the exception becomes a Python
exception.  A function declared without it is called directly: an exception leaves the compiled module
through the interpreter, which has no handler, and ends the process.  Only `sForce`, `sNrLambda` and
`nrLambda` of the contacts (c_qp.pxd:44-48, 62-66) and the constructors of `CoMTask` with weights
(c_qp.pxd:226, c_tasks.pxd:95) are declared `except +`.
-/

set_option autoImplicit false

namespace Verif.PyExc

open Binding

/-- The Python exceptions that are told apart; `UnicodeEncodeError` is a `ValueError`. -/
inductive PyErr where
  | indexError | valueError | runtimeError | typeError | overflowError
  deriving DecidableEq, Repr

/-- What a Python program sees of a call. -/
inductive PyRes (α : Type) where
  | ok (a : α)
  | raises (e : PyErr)
  /-- the process ends -/
  | terminated
  | ub
  deriving DecidableEq, Repr

/-- The translation of Cython for `except +`. -/
def translate : Exn → PyErr
  | .outOfRange => .indexError
  | .domainError => .valueError
  | .runtimeError => .runtimeError

/-- A call of a C++ function, declared `except +` or not. -/
def cross {α : Type} (declared : Bool) : Out α → PyRes α
  | .ok a => .ok a
  | .throws e => if declared then .raises (translate e) else .terminated
  | .ub => .ub

/-- A Python integer passed for a C `int` (Cython raises `OverflowError`). -/
def withInt {α : Type} (n : ℤ) (f : ℤ → PyRes α) : PyRes α :=
  if fitsInt n then f n else .raises .overflowError

section
variable {K : Type} [CommRing K]

/-- qp.pyx:186-187, `UnilateralContact.force(lambda, cone)` (c_qp.pxd:45). -/
def uniForce (c : UniContact K) (lambda : Vec K) (cone : FrictionCone K) : PyRes (V3 K) :=
  cross true (c.sForceTotal lambda cone)

/-- qp.pyx:188-189, `UnilateralContact.force(lambda, point, cone)` (c_qp.pxd:44). -/
def uniForceAt (c : UniContact K) (lambda : Vec K) (point : ℤ) (cone : FrictionCone K) :
    PyRes (V3 K) :=
  withInt point fun point => cross true (c.sForceAt lambda point cone)

/-- qp.pyx:190-191, `UnilateralContact.force(lambda, points, cone)` (c_qp.pxd:46). -/
def uniWrench (c : UniContact K) (lambda : Vec K) (p : List (V3 K)) (cone : FrictionCone K) :
    PyRes (FV K) :=
  cross true (c.sForceWrench lambda p cone)

/-- qp.pyx:201-205, `UnilateralContact.nrLambda(point = None)` (c_qp.pxd:47-48). -/
def uniNrLambda (c : UniContact K) : Option ℤ → PyRes ℕ
  | none => cross true c.nrLambda
  | some point => withInt point fun point => cross true (c.sNrLambda point)

/-- qp.pyx:292-293, `BilateralContact.force(lambda, cones)` (c_qp.pxd:63). -/
def biForce (c : BiContact K) (lambda : Vec K) (cones : List (FrictionCone K)) : PyRes (V3 K) :=
  cross true (c.sForceTotal lambda cones)

/-- qp.pyx:294-295, `BilateralContact.force(lambda, point, cones)` (c_qp.pxd:62). -/
def biForceAt (c : BiContact K) (lambda : Vec K) (point : ℤ) (cones : List (FrictionCone K)) :
    PyRes (V3 K) :=
  withInt point fun point => cross true (c.sForceAt lambda point cones)

/-- qp.pyx:296-297, `BilateralContact.force(lambda, points, cones)` (c_qp.pxd:64). -/
def biWrench (c : BiContact K) (lambda : Vec K) (p : List (V3 K)) (cones : List (FrictionCone K)) :
    PyRes (FV K) :=
  cross true (c.sForceWrench lambda p cones)

/-- qp.pyx:307-311, `BilateralContact.nrLambda(point = None)` (c_qp.pxd:65-66). -/
def biNrLambda (c : BiContact K) : Option ℤ → PyRes ℕ
  | none => cross true c.nrLambda
  | some point => withInt point fun point => cross true (c.sNrLambda point)

end

section
variable {K : Type} [Field K] [LinearOrder K]

/-- qp.pyx:773-778 and tasks.pyx:234-238, `CoMTask(mbs, robot, com, weight = None)`
(c_qp.pxd:225-226, c_tasks.pxd:94-95). -/
def comTask (bs : List (BodyM K)) (com : V3 K) (weight : Option (List K)) (junkA : V3 K)
    (junk : Out3 K) : PyRes (CoMT K) :=
  match weight with
  | none => cross false (CoMT.make bs com junkA junk)
  | some w => cross true (CoMT.makeW bs com w junkA junk)

/-- A name: `if isinstance(name, unicode): name = name.encode(u'ascii')`, then the conversion to
`std::string`. -/
def pyName : PyVal → PyRes String
  | .str cs => if isAscii cs then .ok (String.ofList cs) else .raises .valueError
  | .bytes cs => .ok (String.ofList cs)
  | _ => .raises .typeError

/-- qp.pyx:2215-2220, `QPSolver.solver(name = None)` (c_qp.pxd:676-677): the result, and the solver
after the call (if the process still exists). -/
def solver {Ob : Type} (hasLssol : Bool) (v : PyVal) (s : Solver K Ob) :
    PyRes (Option String) × Solver K Ob :=
  match v with
  | .none => (.ok (some s.backend.name), s)
  | v =>
    match pyName v with
    | .ok name =>
      ((match cross false (s.callSolver hasLssol name).1 with
        | .ok _ => .ok none
        | .raises e => .raises e
        | .terminated => .terminated
        | .ub => .ub), (s.callSolver hasLssol name).2)
    | .raises e => (.raises e, s)
    | .terminated => (.terminated, s)
    | .ub => (.ub, s)

end

end Verif.PyExc
