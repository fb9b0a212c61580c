import Verif.Model.Binding

/-!
# The Python binding: the other constructors, and what is behind a Python object

binding/python/tasks/qp/qp.pyx and binding/python/tasks/tasks.pyx: the constructors that call one C++
constructor, the methods with many parameters, and the constructors that can end without having called any.

The Python object holds a pointer `impl`, which is null until the constructor sets it.  Values, conversions and
simplifications are those of `Model/Binding`; `False` is the number 0.  Left out: the constructors with a
`std::vector` of numbers or of strings (`PostureTask`, `CoMTask`, `OrientationTrackingTask`).
-/

set_option autoImplicit false

namespace Verif.PyCtor

open Verif.Binding

/-- What is behind the object the constructor leaves. -/
inductive Made where
  /-- the C++ object made by this call -/
  | built (c : CCall)
  /-- the null pointer -/
  | empty
  deriving DecidableEq, Repr

/-- `if v:` -/
def truthy : PyVal → Bool
  | .none => false
  | .int n => n ≠ 0
  | .float q => q ≠ 0
  | .str cs => !cs.isEmpty
  | .bytes cs => !cs.isEmpty
  | .list l => !l.isEmpty
  | .obj _ _ => true

/-- A constructor `__cinit__(self, params)` with the body `self.impl = new C(params)`; the constructors of some
constraints have a last parameter `skip_alloc = False` and do nothing when it is true. -/
structure Ctor where
  params : List Param
  fn : CFn
  uses : List Use
  skip : Bool := false

/-- The parameter `skip_alloc = False`. -/
def skipParam : Param := ⟨.any, some (.int 0)⟩

/-- A call of the constructor. -/
def Ctor.run (k : Ctor) (vs : List PyVal) : Py Made := do
  let ws ← bindParams (k.params ++ if k.skip then [skipParam] else []) vs
  if k.skip && (ws[k.params.length]?).any truthy then return .empty
  let as ← passAll ws (inOrder k.uses)
  return .built ⟨k.fn, as⟩

private abbrev anyP : Param := ⟨.any, none⟩
private abbrev intP : Param := ⟨.cint, none⟩
private abbrev dblP : Param := ⟨.cdouble, none⟩
private abbrev extP (c : PyClass) : Param := ⟨.ext c, none⟩
private abbrev T (c : PyClass) : Option PyTy := some (.cls c)
private abbrev N : Option PyTy := none

/-- `Vector3d.Zero()` as a default value -/
def zero3 : PyVal := .obj .vector3d 0

/-- `Matrix3d.Identity()` as a default value -/
def identity3 : PyVal := .obj .matrix3d 0

/-! ## qp.pyx -/

/-- qp.pyx:566-570 -/
def positionTask : Ctor where
  params := [extP .multiBodyVector, intP, anyP, extP .vector3d, ⟨.ext .vector3d, some zero3⟩]
  fn := .positionTask
  uses := [.impl .multiBodyVector, .int, .name, .impl .vector3d, .impl .vector3d]

/-- qp.pyx:617-621 -/
def transformTask : Ctor where
  params := [extP .multiBodyVector, intP, anyP, extP .ptransformd, ⟨.ext .ptransformd, some identity⟩,
    ⟨.ext .matrix3d, some identity3⟩]
  fn := .transformTask
  uses := [.impl .multiBodyVector, .int, .name, .impl .ptransformd, .impl .ptransformd, .impl .matrix3d]

/-- qp.pyx:642-646 -/
def surfaceTransformTask : Ctor where
  params := [extP .multiBodyVector, intP, anyP, extP .ptransformd, ⟨.ext .ptransformd, some identity⟩]
  fn := .surfaceTransformTask
  uses := [.impl .multiBodyVector, .int, .name, .impl .ptransformd, .impl .ptransformd]

/-- qp.pyx:721-725 -/
def visServoTask : Ctor where
  params := [extP .multiBodyVector, intP, anyP, extP .ptransformd, ⟨.ext .ptransformd, some identity⟩]
  fn := .visServoTask
  uses := [.impl .multiBodyVector, .int, .name, .impl .ptransformd, .impl .ptransformd]

/-- qp.pyx:790-792 -/
def momentumTask : Ctor where
  params := [extP .multiBodyVector, intP, extP .forceVecd]
  fn := .momentumTask
  uses := [.impl .multiBodyVector, .int, .impl .forceVecd]

/-- qp.pyx:802-806 -/
def linVelocityTask : Ctor where
  params := [extP .multiBodyVector, intP, anyP, extP .vector3d, ⟨.ext .vector3d, some zero3⟩]
  fn := .linVelocityTask
  uses := [.impl .multiBodyVector, .int, .name, .impl .vector3d, .impl .vector3d]

/-- qp.pyx:1561-1567 -/
def multiRobotTransformTask : Ctor where
  params := [extP .multiBodyVector, anyP, anyP, anyP, anyP, extP .ptransformd, extP .ptransformd, dblP, dblP]
  fn := .multiRobotTransformTask
  uses := [.impl .multiBodyVector, .int, .int, .name, .name, .impl .ptransformd, .impl .ptransformd, .dbl, .dbl]

/-- qp.pyx:1598-1600 -/
def contactTask : Ctor where
  params := [extP .contactId, dblP, dblP]
  fn := .contactTask
  uses := [.impl .contactId, .dbl, .dbl]

/-- qp.pyx:1609-1611 -/
def gripperTorqueTask : Ctor where
  params := [extP .contactId, extP .vector3d, extP .vector3d, dblP]
  fn := .gripperTorqueTask
  uses := [.impl .contactId, .impl .vector3d, .impl .vector3d, .dbl]

/-- qp.pyx:1659-1665 -/
def motionPolyConstr : Ctor where
  params := [extP .multiBodyVector, intP, extP .polyTorqueBound]
  fn := .motionPolyConstr
  uses := [.impl .multiBodyVector, .int, .impl .polyTorqueBound]
  skip := true

/-- qp.pyx:1740-1743 -/
def positiveLambda : Ctor where
  params := []
  fn := .positiveLambda
  uses := []
  skip := true

/-- qp.pyx:1780-1787 -/
def contactAccConstr : Ctor where
  params := []
  fn := .contactAccConstr
  uses := []
  skip := true

/-- qp.pyx:1815-1822 -/
def contactSpeedConstr : Ctor where
  params := [dblP]
  fn := .contactSpeedConstr
  uses := [.dbl]
  skip := true

/-- qp.pyx:1850-1857 -/
def contactPosConstr : Ctor where
  params := [dblP]
  fn := .contactPosConstr
  uses := [.dbl]
  skip := true

/-- qp.pyx:1885-1891 -/
def collisionConstr : Ctor where
  params := [extP .multiBodyVector, dblP]
  fn := .collisionConstr
  uses := [.impl .multiBodyVector, .dbl]
  skip := true

/-- qp.pyx:1927-1931 -/
def comIncPlaneConstr : Ctor where
  params := [extP .multiBodyVector, intP, dblP]
  fn := .comIncPlaneConstr
  uses := [.impl .multiBodyVector, .int, .dbl]

/-- qp.pyx:1958-1964 -/
def jointLimitsConstr : Ctor where
  params := [extP .multiBodyVector, intP, extP .qBound, dblP]
  fn := .jointLimitsConstr
  uses := [.impl .multiBodyVector, .int, .impl .qBound, .dbl]
  skip := true

/-- qp.pyx:1987-1993 -/
def damperJointLimitsConstr : Ctor where
  params := [extP .multiBodyVector, intP, extP .qBound, extP .alphaBound, dblP, dblP, dblP, dblP]
  fn := .damperJointLimitsConstr
  uses := [.impl .multiBodyVector, .int, .impl .qBound, .impl .alphaBound, .dbl, .dbl, .dbl, .dbl]
  skip := true

/-- qp.pyx:2015-2019 -/
def gripperTorqueConstr : Ctor where
  params := []
  fn := .gripperTorqueConstr
  uses := []

/-- qp.pyx:2041-2045 -/
def boundedSpeedConstr : Ctor where
  params := [extP .multiBodyVector, intP, dblP]
  fn := .boundedSpeedConstr
  uses := [.impl .multiBodyVector, .int, .dbl]

/-- qp.pyx:2076-2080; the name of the body is passed as it is -/
def imageConstr : Ctor where
  params := [extP .multiBodyVector, intP, anyP, extP .ptransformd, dblP, ⟨.cdouble, some (.int 1)⟩]
  fn := .imageConstr
  uses := [.impl .multiBodyVector, .int, .rawName, .impl .ptransformd, .dbl, .dbl]

/-- qp.pyx:1892-1897, `CollisionConstr.addCollision` -/
def addCollision : Ctor where
  params := [extP .multiBodyVector, intP, intP, anyP, extP .sObject, extP .ptransformd, intP, anyP,
    extP .sObject, extP .ptransformd, dblP, dblP, dblP, ⟨.cdouble, some (.int 0)⟩]
  fn := .addCollision
  uses := [.impl .multiBodyVector, .int, .int, .name, .impl .sObject, .impl .ptransformd, .int, .name,
    .impl .sObject, .impl .ptransformd, .dbl, .dbl, .dbl, .dbl]

/-- qp.pyx:1932-1933, `CoMIncPlaneConstr.addPlane` -/
def addPlane : Ctor where
  params := [intP, extP .vector3d, dblP, dblP, dblP, dblP, ⟨.cdouble, some (.int 0)⟩]
  fn := .addPlane
  uses := [.int, .impl .vector3d, .dbl, .dbl, .dbl, .dbl, .dbl]

/-- qp.pyx:2020-2021, `GripperTorqueConstr.addGripper` -/
def addGripper : Ctor where
  params := [extP .contactId, dblP, extP .vector3d, extP .vector3d]
  fn := .addGripper
  uses := [.impl .contactId, .dbl, .impl .vector3d, .impl .vector3d]

/-- qp.pyx:2046-2049, `BoundedSpeedConstr.addBoundedSpeed` -/
def addBoundedSpeed : Ctor where
  params := [extP .multiBodyVector, anyP, extP .vector3d, extP .matrixXd, extP .vectorXd]
  fn := .addBoundedSpeed
  uses := [.impl .multiBodyVector, .name, .impl .vector3d, .impl .matrixXd, .impl .vectorXd]

/-- qp.pyx:2081-2082, `ImageConstr.setLimits` -/
def setLimits : Ctor where
  params := [extP .vector2d, extP .vector2d, dblP, dblP, dblP, dblP]
  fn := .setLimits
  uses := [.impl .vector2d, .impl .vector2d, .dbl, .dbl, .dbl, .dbl]

/-- qp.pyx:391-402, `JointStiffness` -/
def jointStiffness : Entry where
  fixed := []
  zero := some ⟨.jointStiffness, []⟩
  branches := [⟨[[N, N]], ⟨[anyP, anyP], .jointStiffness, inOrder [.name, .dbl]⟩⟩]
  otherwise := .raise

/-- qp.pyx:423-432, `JointGains`; the name of the joint is passed as it is -/
def jointGains : Entry where
  fixed := []
  zero := some ⟨.jointGains, []⟩
  branches := [
    ⟨[[N, N]], ⟨[anyP, anyP], .jointGains, inOrder [.rawName, .dbl]⟩⟩,
    ⟨[[N, N, N]], ⟨[anyP, anyP, anyP], .jointGains, inOrder [.rawName, .dbl, .dbl]⟩⟩]
  otherwise := .raise

/-- qp.pyx:458-465, `SpringJoint`; the name of the joint is passed as it is -/
def springJoint : Entry where
  fixed := []
  zero := some ⟨.springJoint, []⟩
  branches := [
    ⟨[[N, N, N, N]], ⟨[anyP, anyP, anyP, anyP], .springJoint, inOrder [.rawName, .dbl, .dbl, .dbl]⟩⟩]
  otherwise := .raise

/-- qp.pyx:1617-1626, `MotionConstr` -/
def motionConstr (vs : List PyVal) : Py Made := do
  let ws ← bindParams [extP .multiBodyVector, intP, extP .torqueBound, ⟨.ext .torqueDBound, some .none⟩,
    ⟨.any, some .none⟩, skipParam] vs
  if (ws[5]?).any truthy then return .empty
  let as ← match ws[3]? with
    | some .none => passAll ws (inOrder [.impl .multiBodyVector, .int, .impl .torqueBound])
    | _ => passAll ws (inOrder [.impl .multiBodyVector, .int, .impl .torqueBound, .impl .torqueDBound, .dbl])
  return .built ⟨.motionConstr, as⟩

/-- qp.pyx:1698-1707, `MotionSpringConstr`; in Python the springs come before the bound on the derivative of
the torques, in C++ after the time step -/
def motionSpringConstr (vs : List PyVal) : Py Made := do
  let ws ← bindParams [extP .multiBodyVector, intP, extP .torqueBound, anyP, ⟨.ext .torqueDBound, some .none⟩,
    ⟨.any, some .none⟩, skipParam] vs
  if (ws[6]?).any truthy then return .empty
  let as ← match ws[4]? with
    | some .none => passAll ws (inOrder [.impl .multiBodyVector, .int, .impl .torqueBound, .vec .springJoint])
    | _ => passAll ws [(0, .impl .multiBodyVector), (1, .int), (2, .impl .torqueBound), (4, .impl .torqueDBound),
        (5, .dbl), (3, .vec .springJoint)]
  return .built ⟨.motionSpringConstr, as⟩

/-- qp.pyx:852-859, `JointsSelector` without arguments: the pointer is set to null -/
def jointsSelectorNoArgs : Py Made := return .empty

/-! ## tasks.pyx -/

/-- tasks.pyx:41-42 -/
def tPositionTask : Ctor where
  params := [extP .multiBody, anyP, extP .vector3d, ⟨.ext .vector3d, some zero3⟩]
  fn := .tPositionTask
  uses := [.impl .multiBody, .rawName, .impl .vector3d, .impl .vector3d]

/-- tasks.pyx:68-78 -/
def tOrientationTask : Entry where
  fixed := [extP .multiBody, anyP]
  zero := none
  branches := [
    ⟨[[T .matrix3d]],
      ⟨[extP .multiBody, anyP, extP .matrix3d], .tOrientationTask,
        inOrder [.impl .multiBody, .rawName, .impl .matrix3d]⟩⟩,
    ⟨[[T .quaterniond]],
      ⟨[extP .multiBody, anyP, extP .quaterniond], .tOrientationTask,
        inOrder [.impl .multiBody, .rawName, .impl .quaterniond]⟩⟩]
  otherwise := .raise

/-- tasks.pyx:107-117 -/
def tSurfaceOrientationTask : Entry where
  fixed := [extP .multiBody, anyP]
  zero := none
  branches := [
    ⟨[[T .matrix3d, N]],
      ⟨[extP .multiBody, anyP, extP .matrix3d, extP .ptransformd], .tSurfaceOrientationTask,
        inOrder [.impl .multiBody, .rawName, .impl .matrix3d, .impl .ptransformd]⟩⟩,
    ⟨[[T .quaterniond, N]],
      ⟨[extP .multiBody, anyP, extP .quaterniond, extP .ptransformd], .tSurfaceOrientationTask,
        inOrder [.impl .multiBody, .rawName, .impl .quaterniond, .impl .ptransformd]⟩⟩]
  otherwise := .raise

/-- tasks.pyx:146-147 -/
def gazeV2 : Method where
  params := [extP .multiBody, anyP, extP .vector2d, dblP, extP .ptransformd, extP .vector2d]
  fn := .tGazeTask
  uses := inOrder [.impl .multiBody, .rawName, .impl .vector2d, .dbl, .impl .ptransformd, .impl .vector2d]

/-- tasks.pyx:148-149 -/
def gazeV3 : Method where
  params := [extP .multiBody, anyP, extP .vector3d, extP .ptransformd, extP .vector2d]
  fn := .tGazeTask
  uses := inOrder [.impl .multiBody, .rawName, .impl .vector3d, .impl .ptransformd, .impl .vector2d]

/-- The C++ object made by a private method. -/
def build (p : Py CCall) : Py Made := do
  let c ← p
  return .built c

/-- tasks.pyx:150-164, `GazeTask`: the inner tests have no `else` -/
def tGazeTask (vs : List PyVal) : Py Made := do
  let ws ← bindParams [extP .multiBody, anyP, anyP] (vs.take 3)
  let args := vs.drop 3
  match ws with
  | [mb, name, point] =>
    if isinstance point (.cls .vector3d) then
      if checkArgs args [T .ptransformd, T .vector2d] then build (gazeV3.run (mb :: name :: point :: args))
      else if checkArgs args [T .ptransformd] then build (gazeV3.run (mb :: name :: point :: args ++ [zero2]))
      else return .empty
    else if isinstance point (.cls .vector2d) then
      if checkArgs args [N, T .ptransformd] then build (gazeV2.run (mb :: name :: point :: args ++ [zero2]))
      else if checkArgs args [N, T .ptransformd, T .vector2d] then
        build (gazeV2.run (mb :: name :: point :: args))
      else return .empty
    else .raises
  | _ => .raises

/-- tasks.pyx:165-173, `GazeTask.error` -/
def tGazeError : Entry where
  fixed := []
  zero := none
  branches := [
    ⟨[[T .vector3d], [T .vector3d, N]],
      ⟨[extP .vector3d, ⟨.ext .vector2d, some zero2⟩], .tGazeError, inOrder [.impl .vector3d, .impl .vector2d]⟩⟩,
    ⟨[[N], [N, N]],
      ⟨[extP .vector2d, ⟨.ext .vector2d, some zero2⟩], .tGazeError, inOrder [.impl .vector2d, .impl .vector2d]⟩⟩]
  otherwise := .raise

/-- tasks.pyx:191-192 -/
def tVisServoTask : Ctor where
  params := [extP .multiBody, anyP, extP .ptransformd, extP .ptransformd]
  fn := .tVisServoTask
  uses := [.impl .multiBody, .rawName, .impl .ptransformd, .impl .ptransformd]

/-- tasks.pyx:284-285 -/
def tMultiRobotTransformTask : Ctor where
  params := [extP .multiBodyVector, intP, intP, anyP, anyP, extP .ptransformd, extP .ptransformd]
  fn := .tMultiRobotTransformTask
  uses := [.impl .multiBodyVector, .int, .int, .rawName, .rawName, .impl .ptransformd, .impl .ptransformd]

/-- tasks.pyx:314-315 -/
def tMomentumTask : Ctor where
  params := [extP .multiBody, extP .forceVecd]
  fn := .tMomentumTask
  uses := [.impl .multiBody, .impl .forceVecd]

/-- tasks.pyx:336-337 -/
def tLinVelocityTask : Ctor where
  params := [extP .multiBody, anyP, extP .vector3d, ⟨.ext .vector3d, some zero3⟩]
  fn := .tLinVelocityTask
  uses := [.impl .multiBody, .rawName, .impl .vector3d, .impl .vector3d]

/-- tasks.pyx:395-396 -/
def tTransformTask : Ctor where
  params := [extP .multiBody, anyP, extP .ptransformd, ⟨.ext .ptransformd, some identity⟩,
    ⟨.ext .matrix3d, some identity3⟩]
  fn := .tTransformTask
  uses := [.impl .multiBody, .rawName, .impl .ptransformd, .impl .ptransformd, .impl .matrix3d]

/-- tasks.pyx:427-428 -/
def tSurfaceTransformTask : Ctor where
  params := [extP .multiBody, anyP, extP .ptransformd, ⟨.ext .ptransformd, some identity⟩]
  fn := .tSurfaceTransformTask
  uses := [.impl .multiBody, .rawName, .impl .ptransformd, .impl .ptransformd]

/-- Any method that uses `self.impl` (for instance tasks.pyx:181-182). -/
def Made.use {α : Type} (m : Made) (f : CCall → Py α) : Py α :=
  match m with
  | .built c => f c
  | .empty => .ub

end Verif.PyCtor
