import Verif.Base

/-!
# The Python binding: how a Python call reaches a C++ overload

binding/python/tasks/qp/qp.pyx (with the declarations of qp.pxd and c_qp.pxd).

A C++ function with several overloads is one Python method `f(..., *args)` that looks at the classes
of the arguments (`check_args`, `isinstance`) and calls one of several private methods with declared
parameter types, each of which calls one overload.  This file models the values a Python program can
pass, the conversions Cython inserts for declared parameter types, and the tables of tests of the
methods of qp.pyx that choose between overloads.

Simplifications: keyword arguments, subclasses written in Python, `bool`, `numpy` numbers and other
number-like objects are left out; a float is a rational; the value held by an object of an extension
class is an identifier, with `0` standing for what `Identity()` or `Zero()` of the class returns.
`Vector3dVector(l).v` and `Matrix3dVector(l).v` belong to another package; they are taken to behave
like the vector classes of qp.pyx (47-54, 212-219, 318-325).
-/

set_option autoImplicit false

namespace Verif.Binding

/-- The extension classes that the tests and the declared parameters of qp.pyx and tasks.pyx mention. -/
inductive PyClass where
  | multiBodyVector | vector2d | vector3d | vectorXd | matrix3d | quaterniond | ptransformd
  | frictionCone | contactId | unilateralContact | bilateralContact
  | qpSolver | task | constraint
  | highLevelTask
  | positionTask | orientationTask | surfaceOrientationTask | gazeTask | visServoTask | comTask
  | linVelocityTask | orientationTrackingTask | momentumTask | jointsSelector | transformTask
  | surfaceTransformTask
  | multiBody | matrixXd | forceVecd | sObject | springJoint
  | qBound | alphaBound | torqueBound | torqueDBound | polyTorqueBound
  deriving DecidableEq, Repr

/-- The base class, for the classes of qp.pxd that are declared with one of the classes above
(qp.pxd:86-130; the subclasses of `Task` and `Constraint` are not told apart by any test). -/
def PyClass.base : PyClass → Option PyClass
  | .positionTask | .orientationTask | .surfaceOrientationTask | .gazeTask | .visServoTask
  | .comTask | .linVelocityTask | .orientationTrackingTask | .momentumTask | .jointsSelector
  | .transformTask | .surfaceTransformTask => some .highLevelTask
  | _ => none

/-- `issubclass(d, c)` -/
def PyClass.isA (d c : PyClass) : Bool := d = c || d.base = some c

/-- A Python value. -/
inductive PyVal where
  | none
  | int (n : ℤ)
  | float (q : ℚ)
  /-- `unicode` in the source, `str` in Python 3 -/
  | str (cs : List Char)
  | bytes (cs : List Char)
  | list (l : List PyVal)
  | obj (c : PyClass) (i : ℕ)

/-- A class that appears in a test. -/
inductive PyTy where
  | list
  | cls (c : PyClass)
  deriving DecidableEq, Repr

/-- `isinstance(v, t)` -/
def isinstance : PyVal → PyTy → Bool
  | .list _, .list => true
  | .obj d _, .cls c => d.isA c
  | _, _ => false

/-- Outcome of a Python call: a value, a Python exception, or undefined behaviour (an attribute of
an extension class read from an object that is not one). -/
inductive Py (α : Type) where
  | ok (a : α)
  | raises
  | ub
  deriving DecidableEq, Repr

namespace Py

variable {α β : Type}

/-- Sequencing. -/
def bind (x : Py α) (f : α → Py β) : Py β :=
  match x with
  | ok a => f a
  | raises => raises
  | ub => ub

instance : Monad Py where
  pure := ok
  bind := bind

@[simp] theorem pure_eq (a : α) : (pure a : Py α) = ok a := rfl
@[simp] theorem ok_bind (a : α) (f : α → Py β) : (ok a >>= f) = f a := rfl
@[simp] theorem raises_bind (f : α → Py β) : ((raises : Py α) >>= f) = raises := rfl
@[simp] theorem ub_bind (f : α → Py β) : ((ub : Py α) >>= f) = ub := rfl

end Py

/-- qp.pyx:20-26, `check_args`; `none` in the list of types is Python's `None`, no test. -/
def checkArgs : List PyVal → List (Option PyTy) → Bool
  | [], [] => true
  | a :: as, t :: ts =>
    (match t with
      | some ty => isinstance a ty
      | none => true) && checkArgs as ts
  | _, _ => false

/-- The declared type of a parameter of a Cython function. -/
inductive ParamTy where
  /-- no type -/
  | any
  | cint
  | cdouble
  /-- an extension class; `None` is accepted too -/
  | ext (c : PyClass)
  deriving DecidableEq, Repr

/-- Whether a Python integer fits the C type `int` (Cython raises `OverflowError` if not). -/
def fitsInt (n : ℤ) : Bool := -2147483648 ≤ n && n < 2147483648

/-- Whether Cython accepts the value for a parameter of that type. -/
def ParamTy.accepts : ParamTy → PyVal → Bool
  | .any, _ => true
  | .cint, .int n => fitsInt n
  | .cdouble, .int _ => true
  | .cdouble, .float _ => true
  | .ext _, .none => true
  | .ext c, .obj d _ => d.isA c
  | _, _ => false

/-- A declared parameter, with its default value if it has one. -/
structure Param where
  ty : ParamTy
  dflt : Option PyVal := none

/-- The unpacking of positional arguments: number, defaults and declared types. -/
def bindParams : List Param → List PyVal → Py (List PyVal)
  | [], [] => .ok []
  | [], _ :: _ => .raises
  | p :: ps, [] =>
    match p.dflt with
    | none => .raises
    | some d => do
      let vs ← bindParams ps []
      return d :: vs
  | p :: ps, a :: as =>
    if p.ty.accepts a then do
      let vs ← bindParams ps as
      return a :: vs
    else .raises

/-- An argument of a C++ function. -/
inductive CArg where
  | int (n : ℤ)
  | dbl (q : ℚ)
  | str (cs : List Char)
  | ref (c : PyClass) (i : ℕ)
  | vec (c : PyClass) (l : List ℕ)
  deriving DecidableEq, Repr

/-- How a parameter is written in the call of the C++ function. -/
inductive Use where
  /-- `x`, of C type `int` -/
  | int
  /-- `x`, of C type `double` -/
  | dbl
  /-- `x` after `if isinstance(x, unicode): x = x.encode(u'ascii')` -/
  | name
  /-- `x` without that line, converted to `std::string` -/
  | rawName
  /-- `x.impl`, `deref(x.impl)`, `deref(x.v)` or `x.base` -/
  | impl (c : PyClass)
  /-- `CVector(x).v` -/
  | vec (c : PyClass)
  deriving DecidableEq, Repr

/-- qp.pyx:47-54 (and 212-219, 318-325): one element added to a vector. -/
def element (c : PyClass) : PyVal → Py ℕ
  | .obj d i => if d.isA c then .ok i else .raises
  | .none => .ub
  | _ => .raises

/-- The elements of the vector, in order. -/
def elements (c : PyClass) : List PyVal → Py (List ℕ)
  | [] => .ok []
  | v :: vs => do
    let i ← element c v
    let is ← elements c vs
    return i :: is

/-- qp.pyx:47-54, `FrictionConeVector(x)`: the elements of `x` if `x` is a list, else `x` itself. -/
def toVector (c : PyClass) : PyVal → Py CArg
  | .list l => do
    let is ← elements c l
    return .vec c is
  | v => do
    let is ← elements c [v]
    return .vec c is

/-- Whether `encode(u'ascii')` succeeds. -/
def isAscii (cs : List Char) : Bool := cs.all fun ch => ch.toNat < 128

/-- The C++ argument made of a parameter. -/
def Use.pass : Use → PyVal → Py CArg
  | .int, .int n => if fitsInt n then .ok (.int n) else .raises
  | .dbl, .int n => .ok (.dbl n)
  | .dbl, .float q => .ok (.dbl q)
  | .name, .str cs => if isAscii cs then .ok (.str cs) else .raises
  | .name, .bytes cs => .ok (.str cs)
  | .rawName, .bytes cs => .ok (.str cs)
  | .impl c, .obj d i => if d.isA c then .ok (.ref c i) else .raises
  | .impl _, .none => .ub
  | .vec c, v => toVector c v
  | _, _ => .raises

/-- The C++ functions reached. -/
inductive CFn where
  | frictionCone | contactId | unilateralContact | unilateralForce | bilateralContact
  | bilateralForce
  | orientationTask | surfaceOrientationTask | gazeTask | jointsSelector
  | setPointTask | trackingTask | trajectoryTask | targetObjectiveTask | pidTask | multiCoMTask
  | imageAddPoint | imageUpdatePoint | addConstraint | addTask | addToSolver
  | positionTask | transformTask | surfaceTransformTask | visServoTask | momentumTask
  | linVelocityTask | multiRobotTransformTask | contactTask | gripperTorqueTask
  | motionConstr | motionPolyConstr | motionSpringConstr | positiveLambda
  | contactAccConstr | contactSpeedConstr | contactPosConstr | collisionConstr | comIncPlaneConstr
  | jointLimitsConstr | damperJointLimitsConstr | gripperTorqueConstr | boundedSpeedConstr
  | imageConstr | jointStiffness | jointGains | springJoint
  | addCollision | addPlane | addGripper | addBoundedSpeed | setLimits
  | tPositionTask | tOrientationTask | tSurfaceOrientationTask | tGazeTask | tVisServoTask
  | tMultiRobotTransformTask | tMomentumTask | tLinVelocityTask | tTransformTask
  | tSurfaceTransformTask | tGazeError
  deriving DecidableEq, Repr

/-- A call of a C++ function; the types of the arguments tell the overload. -/
structure CCall where
  fn : CFn
  args : List CArg
  deriving DecidableEq, Repr

/-- A private method of the binding: declared parameters, and the C++ call of its body, given by
the position of each argument among the parameters and the way it is written. -/
structure Method where
  params : List Param
  fn : CFn
  uses : List (ℕ × Use)

/-- The C++ arguments, from the bound parameters. -/
def passAll (vs : List PyVal) : List (ℕ × Use) → Py (List CArg)
  | [] => .ok []
  | (i, u) :: us => do
    let a ← match vs[i]? with
      | some v => u.pass v
      | none => .raises
    let as ← passAll vs us
    return a :: as

/-- A call of a private method. -/
def Method.run (m : Method) (args : List PyVal) : Py CCall := do
  let vs ← bindParams m.params args
  let as ← passAll vs m.uses
  return ⟨m.fn, as⟩

/-- One `if check_args(args, ...) or check_args(args, ...): self.__method__(..., *args)`. -/
structure Branch where
  alts : List (List (Option PyTy))
  body : Method

/-- What the method does when no test succeeds. -/
inductive Otherwise where
  /-- `raise TypeError(...)` -/
  | raise
  /-- nothing: the C++ object made by its default constructor is kept -/
  | keep (c : CCall)
  /-- `self.__method__(args[0])` -/
  | first (m : Method)

/-- A method that chooses an overload: the parameters before `*args`, the call made when there is
no further argument, the branches in order, and the last `else`. -/
structure Entry where
  fixed : List Param
  zero : Option CCall
  branches : List Branch
  otherwise : Otherwise

/-- The chain of tests. -/
def runBranches (o : Otherwise) (args rest : List PyVal) : List Branch → Py CCall
  | [] =>
    match o with
    | .raise => .raises
    | .keep c => .ok c
    | .first m =>
      match rest with
      | [] => .raises
      | a :: _ => m.run [a]
  | b :: bs => if b.alts.any (checkArgs rest) then b.body.run args else runBranches o args rest bs

/-- A call of such a method. -/
def Entry.run (e : Entry) (args : List PyVal) : Py CCall := do
  let _ ← bindParams e.fixed (args.take e.fixed.length)
  let rest := args.drop e.fixed.length
  match e.zero, rest with
  | some c, [] => return c
  | _, _ => runBranches e.otherwise args rest e.branches

/-! ## The tables -/

/-- `PTransformd.Identity()` as a default value -/
def identity : PyVal := .obj .ptransformd 0

/-- `Vector2d.Zero()` as a default value -/
def zero2 : PyVal := .obj .vector2d 0

/-- The body `self.impl = C(p0, p1, ...)` where the parameters are passed in the order in which
they are declared. -/
def inOrder (us : List Use) : List (ℕ × Use) := us.zipIdx.map fun p => (p.2, p.1)

private abbrev anyP : Param := ⟨.any, none⟩
private abbrev intP : Param := ⟨.cint, none⟩
private abbrev dblP : Param := ⟨.cdouble, none⟩
private abbrev extP (c : PyClass) : Param := ⟨.ext c, none⟩
private abbrev T (c : PyClass) : Option PyTy := some (.cls c)
private abbrev L : Option PyTy := some .list
private abbrev N : Option PyTy := none

/-- qp.pyx:28-37, `FrictionCone` -/
def frictionCone : Entry where
  fixed := []
  zero := some ⟨.frictionCone, []⟩
  branches := [
    ⟨[[T .matrix3d, N, N], [T .matrix3d, N, N, N]],
      ⟨[extP .matrix3d, intP, dblP, ⟨.cdouble, some (.int 1)⟩], .frictionCone,
        inOrder [.impl .matrix3d, .int, .dbl, .dbl]⟩⟩]
  otherwise := .raise

/-- qp.pyx:62-78, `ContactId`: four or five arguments, converted when they are passed -/
def contactId : Entry where
  fixed := []
  zero := some ⟨.contactId, []⟩
  branches := [
    ⟨[[N, N, N, N], [N, N, N, N, N]],
      ⟨[anyP, anyP, anyP, anyP, ⟨.any, some (.int (-1))⟩], .contactId,
        inOrder [.int, .int, .name, .name, .int]⟩⟩]
  otherwise := .raise

/-- qp.pyx:119-144, `UnilateralContact` -/
def unilateralContact : Entry where
  fixed := []
  zero := some ⟨.unilateralContact, []⟩
  branches := [
    ⟨[[N, N, N, N, L, T .matrix3d, T .ptransformd, N, N],
      [N, N, N, N, L, T .matrix3d, T .ptransformd, N, N, T .ptransformd]],
      ⟨[intP, intP, anyP, anyP, anyP, extP .matrix3d, extP .ptransformd, intP, dblP,
          ⟨.ext .ptransformd, some identity⟩], .unilateralContact,
        inOrder [.int, .int, .name, .name, .vec .vector3d, .impl .matrix3d, .impl .ptransformd,
          .int, .dbl, .impl .ptransformd]⟩⟩,
    ⟨[[N, N, N, N, N, L, T .matrix3d, T .ptransformd, N, N],
      [N, N, N, N, N, L, T .matrix3d, T .ptransformd, N, N, T .ptransformd]],
      ⟨[intP, intP, anyP, anyP, intP, anyP, extP .matrix3d, extP .ptransformd, intP, dblP,
          ⟨.ext .ptransformd, some identity⟩], .unilateralContact,
        inOrder [.int, .int, .name, .name, .int, .vec .vector3d, .impl .matrix3d,
          .impl .ptransformd, .int, .dbl, .impl .ptransformd]⟩⟩,
    ⟨[[T .contactId, L, T .matrix3d, T .ptransformd, N, N],
      [T .contactId, L, T .matrix3d, T .ptransformd, N, N, T .ptransformd]],
      ⟨[extP .contactId, anyP, extP .matrix3d, extP .ptransformd, intP, dblP,
          ⟨.ext .ptransformd, some identity⟩], .unilateralContact,
        inOrder [.impl .contactId, .vec .vector3d, .impl .matrix3d, .impl .ptransformd, .int, .dbl,
          .impl .ptransformd]⟩⟩]
  otherwise := .raise

/-- qp.pyx:186-200, `UnilateralContact.force` -/
def unilateralForce : Entry where
  fixed := [extP .vectorXd]
  zero := none
  branches := [
    ⟨[[T .frictionCone]],
      ⟨[extP .vectorXd, extP .frictionCone], .unilateralForce,
        inOrder [.impl .vectorXd, .impl .frictionCone]⟩⟩,
    ⟨[[N, T .frictionCone]],
      ⟨[extP .vectorXd, intP, extP .frictionCone], .unilateralForce,
        inOrder [.impl .vectorXd, .int, .impl .frictionCone]⟩⟩,
    ⟨[[L, T .frictionCone]],
      ⟨[extP .vectorXd, anyP, extP .frictionCone], .unilateralForce,
        inOrder [.impl .vectorXd, .vec .vector3d, .impl .frictionCone]⟩⟩]
  otherwise := .raise

/-- qp.pyx:221-244, `BilateralContact`; there is no final `else` -/
def bilateralContact : Entry where
  fixed := []
  zero := some ⟨.bilateralContact, []⟩
  branches := [
    ⟨[[N, N, N, N, L, L, T .ptransformd, N, N],
      [N, N, N, N, L, L, T .ptransformd, N, N, T .ptransformd]],
      ⟨[intP, intP, anyP, anyP, anyP, anyP, extP .ptransformd, intP, dblP,
          ⟨.ext .ptransformd, some identity⟩], .bilateralContact,
        inOrder [.int, .int, .name, .name, .vec .vector3d, .vec .matrix3d, .impl .ptransformd,
          .int, .dbl, .impl .ptransformd]⟩⟩,
    ⟨[[N, N, N, N, N, L, L, T .ptransformd, N, N],
      [N, N, N, N, L, L, T .ptransformd, N, N, T .ptransformd]],
      ⟨[intP, intP, anyP, anyP, intP, anyP, anyP, extP .ptransformd, intP, dblP,
          ⟨.ext .ptransformd, some identity⟩], .bilateralContact,
        inOrder [.int, .int, .name, .name, .int, .vec .vector3d, .vec .matrix3d,
          .impl .ptransformd, .int, .dbl, .impl .ptransformd]⟩⟩,
    ⟨[[T .contactId, L, L, T .ptransformd, N, N],
      [T .contactId, L, L, T .ptransformd, N, N, T .ptransformd]],
      ⟨[extP .contactId, anyP, anyP, extP .ptransformd, intP, dblP,
          ⟨.ext .ptransformd, some identity⟩], .bilateralContact,
        inOrder [.impl .contactId, .vec .vector3d, .vec .matrix3d, .impl .ptransformd, .int, .dbl,
          .impl .ptransformd]⟩⟩]
  otherwise := .keep ⟨.bilateralContact, []⟩

/-- qp.pyx:292-306, `BilateralContact.force` -/
def bilateralForce : Entry where
  fixed := [extP .vectorXd]
  zero := none
  branches := [
    ⟨[[L]],
      ⟨[extP .vectorXd, anyP], .bilateralForce,
        inOrder [.impl .vectorXd, .vec .frictionCone]⟩⟩,
    ⟨[[L, L]],
      ⟨[extP .vectorXd, anyP, anyP], .bilateralForce,
        inOrder [.impl .vectorXd, .vec .vector3d, .vec .frictionCone]⟩⟩,
    ⟨[[N, L]],
      ⟨[extP .vectorXd, intP, anyP], .bilateralForce,
        inOrder [.impl .vectorXd, .int, .vec .frictionCone]⟩⟩]
  otherwise := .raise

/-- qp.pyx:582-598, the constructor of `OrientationTask`; the tests on the last argument are
written as `check_args` tests -/
def orientationTask : Entry where
  fixed := [extP .multiBodyVector, intP, anyP]
  zero := none
  branches := [
    ⟨[[T .matrix3d]],
      ⟨[extP .multiBodyVector, intP, anyP, extP .matrix3d], .orientationTask,
        inOrder [.impl .multiBodyVector, .int, .name, .impl .matrix3d]⟩⟩,
    ⟨[[T .quaterniond]],
      ⟨[extP .multiBodyVector, intP, anyP, extP .quaterniond], .orientationTask,
        inOrder [.impl .multiBodyVector, .int, .name, .impl .quaterniond]⟩⟩]
  otherwise := .raise

/-- qp.pyx:659-675, the constructor of `SurfaceOrientationTask` -/
def surfaceOrientationTask : Entry where
  fixed := [extP .multiBodyVector, intP, anyP]
  zero := none
  branches := [
    ⟨[[T .quaterniond, N]],
      ⟨[extP .multiBodyVector, intP, anyP, extP .quaterniond, extP .ptransformd],
        .surfaceOrientationTask,
        inOrder [.impl .multiBodyVector, .int, .name, .impl .quaterniond, .impl .ptransformd]⟩⟩,
    ⟨[[T .matrix3d, N]],
      ⟨[extP .multiBodyVector, intP, anyP, extP .matrix3d, extP .ptransformd],
        .surfaceOrientationTask,
        inOrder [.impl .multiBodyVector, .int, .name, .impl .matrix3d, .impl .ptransformd]⟩⟩]
  otherwise := .raise

/-- qp.pyx:691-705, the constructor of `GazeTask` -/
def gazeTask : Entry where
  fixed := [extP .multiBodyVector, intP, anyP]
  zero := none
  branches := [
    ⟨[[T .vector2d, N, T .ptransformd], [T .vector2d, N, T .ptransformd, T .vector2d]],
      ⟨[extP .multiBodyVector, intP, anyP, extP .vector2d, dblP, extP .ptransformd,
          ⟨.ext .vector2d, some zero2⟩], .gazeTask,
        inOrder [.impl .multiBodyVector, .int, .rawName, .impl .vector2d, .dbl, .impl .ptransformd,
          .impl .vector2d]⟩⟩,
    ⟨[[T .vector3d, T .ptransformd], [T .vector3d, T .ptransformd, T .vector3d]],
      ⟨[extP .multiBodyVector, intP, anyP, extP .vector3d, extP .ptransformd,
          ⟨.ext .vector2d, some zero2⟩], .gazeTask,
        inOrder [.impl .multiBodyVector, .int, .rawName, .impl .vector3d, .impl .ptransformd,
          .impl .vector2d]⟩⟩]
  otherwise := .raise

/-- qp.pyx:2083-2097, `ImageConstr.addPoint` -/
def imageAddPoint : Entry where
  fixed := []
  zero := none
  branches := [
    ⟨[[T .vector2d, N]],
      ⟨[extP .vector2d, dblP], .imageAddPoint, inOrder [.impl .vector2d, .dbl]⟩⟩,
    ⟨[[T .vector3d]],
      ⟨[extP .vector3d], .imageAddPoint, inOrder [.impl .vector3d]⟩⟩,
    ⟨[[T .multiBodyVector, N, T .ptransformd]],
      ⟨[extP .multiBodyVector, anyP, ⟨.ext .ptransformd, some identity⟩], .imageAddPoint,
        inOrder [.impl .multiBodyVector, .rawName, .impl .ptransformd]⟩⟩]
  otherwise := .raise

/-- qp.pyx:2100-2114, `ImageConstr.updatePoint` -/
def imageUpdatePoint : Entry where
  fixed := [intP]
  zero := none
  branches := [
    ⟨[[T .vector2d]],
      ⟨[intP, extP .vector2d], .imageUpdatePoint, inOrder [.int, .impl .vector2d]⟩⟩,
    ⟨[[T .vector2d, N]],
      ⟨[intP, extP .vector2d, dblP], .imageUpdatePoint, inOrder [.int, .impl .vector2d, .dbl]⟩⟩,
    ⟨[[T .vector3d]],
      ⟨[intP, extP .vector3d], .imageUpdatePoint, inOrder [.int, .impl .vector3d]⟩⟩]
  otherwise := .raise

/-- qp.pyx:2183-2193, `QPSolver.addConstraint` -/
def addConstraint : Entry where
  fixed := []
  zero := none
  branches := [
    ⟨[[T .constraint]],
      ⟨[extP .constraint], .addConstraint, inOrder [.impl .constraint]⟩⟩,
    ⟨[[N, T .constraint]],
      ⟨[extP .multiBodyVector, extP .constraint], .addConstraint,
        inOrder [.impl .multiBodyVector, .impl .constraint]⟩⟩]
  otherwise := .raise

/-- qp.pyx:2198-2208, `QPSolver.addTask` -/
def addTask : Entry where
  fixed := []
  zero := none
  branches := [
    ⟨[[T .task]],
      ⟨[extP .task], .addTask, inOrder [.impl .task]⟩⟩,
    ⟨[[N, T .task]],
      ⟨[extP .multiBodyVector, extP .task], .addTask,
        inOrder [.impl .multiBodyVector, .impl .task]⟩⟩]
  otherwise := .raise

/-- qp.pyx:1637-1645, `addToSolver` of `MotionConstr`; the other constraints have the same code
(1676-1684, 1718-1726, 1744-1752, 1790-1798, 1825-1833, 1860-1868, 1906-1914, 1942-1950, 1965-1973,
1994-2002, 2026-2034, 2060-2068, 2118-2126) -/
def addToSolver : Entry where
  fixed := []
  zero := none
  branches := [
    ⟨[[T .multiBodyVector, T .qpSolver]],
      ⟨[extP .multiBodyVector, extP .qpSolver], .addToSolver,
        inOrder [.impl .multiBodyVector, .impl .qpSolver]⟩⟩]
  otherwise := .first ⟨[extP .qpSolver], .addToSolver, inOrder [.impl .qpSolver]⟩

/-! ## Tasks that hold a high-level task -/

/-- The classes tried by the constructors, in order (qp.pyx:958-983 and the same chain in 1076-1101,
1197-1222, 1316-1341, 1453-1478). -/
def heldKinds : List PyClass :=
  [.positionTask, .orientationTask, .surfaceOrientationTask, .gazeTask, .visServoTask, .comTask,
    .linVelocityTask, .orientationTrackingTask, .momentumTask, .jointsSelector, .transformTask,
    .surfaceTransformTask]

/-- A gain of such a task: a `double` or a `VectorXd` parameter. -/
inductive Gain where
  | dbl
  | vec
  deriving DecidableEq, Repr

/-- The declared type of the gain. -/
def Gain.param : Gain → Param
  | .dbl => ⟨.cdouble, none⟩
  | .vec => ⟨.ext .vectorXd, none⟩

/-- The way the gain is passed. -/
def Gain.use : Gain → Use
  | .dbl => .dbl
  | .vec => .impl .vectorXd

/-- qp.pyx:888-892 (and the eleven methods after it, and those of the four other classes): the
method for one class of high-level task; its arguments are the robots, the robot index, the task,
the gains, the weight and the weights of the dimensions or `None`. -/
def heldCtor (fn : CFn) (gains : List Gain) (k : PyClass) (args : List PyVal) : Py CCall := do
  let n := gains.length
  let vs ← bindParams ([⟨.ext .multiBodyVector, none⟩, ⟨.cint, none⟩, ⟨.ext k, none⟩]
    ++ gains.map Gain.param ++ [⟨.cdouble, none⟩, ⟨.ext .vectorXd, some .none⟩]) args
  let first := [(0, Use.impl .multiBodyVector), (1, Use.int), (2, Use.impl k)]
    ++ gains.zipIdx.map fun g => (3 + g.2, g.1.use)
  match vs[n + 4]? with
  | some .none => do
    let as ← passAll vs (first ++ [(n + 3, .dbl)])
    return ⟨fn, as⟩
  | _ => do
    let as ← passAll vs (first ++ [(n + 4, .impl .vectorXd), (n + 3, .dbl)])
    return ⟨fn, as⟩

/-- qp.pyx:948-957: the weights after the gains, as `(dimWeight, weight)`. -/
def heldWeights : List PyVal → Py (PyVal × PyVal)
  | rest =>
    if checkArgs rest [some (.cls .vectorXd), none] then
      match rest with
      | [d, w] => if ParamTy.cdouble.accepts w then .ok (d, w) else .raises
      | _ => .raises
    else if checkArgs rest [none] then
      match rest with
      | [w] => if ParamTy.cdouble.accepts w then .ok (.none, w) else .raises
      | _ => .raises
    else .raises

/-- The chain of tests on the class of the high-level task. -/
def heldChoose (fn : CFn) (gains : List Gain) (task : PyVal) (args : List PyVal) :
    List PyClass → Py CCall
  | [] => .raises
  | k :: ks =>
    if isinstance task (.cls k) then heldCtor fn gains k args
    else heldChoose fn gains task args ks

/-- qp.pyx:948-984 (1066-1102, 1187-1223, 1306-1342, 1443-1479): the constructor of a task that
holds a high-level task. -/
def heldTask (fn : CFn) (gains : List Gain) (args : List PyVal) : Py CCall := do
  let k := 3 + gains.length
  let vs ← bindParams ([⟨.ext .multiBodyVector, none⟩, ⟨.cint, none⟩, ⟨.any, none⟩]
    ++ gains.map Gain.param) (args.take k)
  let (d, w) ← heldWeights (args.drop k)
  match vs[2]? with
  | some task => heldChoose fn gains task (vs ++ [w, d]) heldKinds
  | none => .raises

/-- qp.pyx:948, `SetPointTask` -/
def setPointTask : List PyVal → Py CCall := heldTask .setPointTask [.dbl]
/-- qp.pyx:1066, `TrackingTask` -/
def trackingTask : List PyVal → Py CCall := heldTask .trackingTask [.dbl, .dbl]
/-- qp.pyx:1187, `TrajectoryTask` -/
def trajectoryTask : List PyVal → Py CCall := heldTask .trajectoryTask [.dbl, .dbl]
/-- qp.pyx:1306, `TargetObjectiveTask` -/
def targetObjectiveTask : List PyVal → Py CCall := heldTask .targetObjectiveTask [.dbl, .dbl, .vec]
/-- qp.pyx:1443, `PIDTask` -/
def pidTask : List PyVal → Py CCall := heldTask .pidTask [.dbl, .dbl, .dbl]

/-- qp.pyx:1514-1533, `MultiCoMTask`; the list of robot indices is passed on as it is and is left
out.  The weights of the dimensions are looked for as a `VectorXd` and handed to a parameter declared
`Vector3d`. -/
def multiCoMTask (args : List PyVal) : Py CCall := do
  let vs ← bindParams [⟨.ext .multiBodyVector, none⟩, ⟨.ext .vector3d, none⟩, ⟨.cdouble, none⟩]
    (args.take 3)
  let (d, w) ← heldWeights (args.drop 3)
  let vs ← bindParams [⟨.ext .multiBodyVector, none⟩, ⟨.ext .vector3d, none⟩, ⟨.cdouble, none⟩,
    ⟨.cdouble, none⟩, ⟨.ext .vector3d, some .none⟩] (vs ++ [w, d])
  let first := [(0, Use.impl .multiBodyVector), (1, Use.impl .vector3d), (2, Use.dbl)]
  match vs[4]? with
  | some .none => do
    let as ← passAll vs (first ++ [(3, .dbl)])
    return ⟨.multiCoMTask, as⟩
  | _ => do
    let as ← passAll vs (first ++ [(4, .impl .vector3d), (3, .dbl)])
    return ⟨.multiCoMTask, as⟩

end Verif.Binding
