import Verif.Model.Wrappers

/-!
# Getters of the tasks, attributes of the bounds in Python

The getters of src/Tasks.cpp, to which those of `namespace tasks::qp` (src/Tasks/QPTasks.h) go, and the bounds of
binding/python/tasks/tasks.pyx:437-568.
-/

set_option autoImplicit false

namespace Verif

/-- The getters of the tasks (`eval`, `speed`, `normalAcc`, `jac` and `dim` are in `HLTask.hl`, `HLTask.dim`). -/
inductive HLGet where
  | position | bodyPoint | orientation | target | X_b_p | E_0_c | com | momentum | velocity | trackedPoint
  | bodyAxis | bodyVector | targetVector
  deriving DecidableEq, Repr

/-- What a getter returns. -/
inductive HLVal (K : Type) where
  | v3 (v : V3 K)
  | m3 (m : M3 K)
  | pt (X : PT K)
  | fv (f : FV K)

variable {K : Type}

/-- The getters; `none` when the class does not have it.  `PositionTask` (Tasks.cpp:36-37, 42-43),
`OrientationTask` (112-113), `TransformTaskCommon` (174-175, 180-181), `TransformTask` (254-255),
`SurfaceOrientationTask` (409-410), `CoMTask` (763-764), `MomentumTask` (962-963), `LinVelocityTask` (1028-1029,
1034-1035), `OrientationTrackingTask` (1111-1112, 1117-1118, 1123-1124), `VectorOrientationTask` (1332-1333,
1338-1339). -/
def HLTask.get : HLTask K → HLGet → Option (HLVal K)
  | .position t, .position => some (.v3 t.pos)
  | .position t, .bodyPoint => some (.v3 t.jac.point)
  | .orientation t, .orientation => some (.m3 t.ori)
  | .surfaceOrientation t, .orientation => some (.m3 t.ori)
  | .surfaceTransform t, .target => some (.pt t.X_0_t)
  | .surfaceTransform t, .X_b_p => some (.pt t.X_b_p)
  | .transform t, .target => some (.pt t.c.X_0_t)
  | .transform t, .X_b_p => some (.pt t.c.X_b_p)
  | .transform t, .E_0_c => some (.m3 t.E_0_c)
  | .com t, .com => some (.v3 t.com)
  | .momentum t, .momentum => some (.fv t.momentum)
  | .linVelocity t, .velocity => some (.v3 t.vel)
  | .linVelocity t, .bodyPoint => some (.v3 t.jac.point)
  | .tracking t, .trackedPoint => some (.v3 t.trackedPoint)
  | .tracking t, .bodyPoint => some (.v3 t.bodyPoint)
  | .tracking t, .bodyAxis => some (.v3 t.bodyAxis)
  | .vectorOrientation t, .bodyVector => some (.v3 t.bodyVector)
  | .vectorOrientation t, .targetVector => some (.v3 t.target)
  | _, _ => none

namespace PyBound

/-- The classes of bounds of the Python module (tasks.pyx:437-568); `AlphaDBound` and `AlphaDDBound` are not
bound. -/
inductive Cls where
  | q | alpha | torque | torqueD | polyTorque
  deriving DecidableEq, Repr

/-- The two members of the C++ object (Bounds.h). -/
structure Bnd (α : Type) where
  lower : α
  upper : α
  deriving DecidableEq, Repr

/-- The two attributes. -/
inductive Attr where
  | l | u
  deriving DecidableEq, Repr

variable {α : Type}

/-- `b.lXBound`, `b.uXBound`.  `uPolyTorqueBound` reads the lower bound (tasks.pyx:555-561). -/
def get (c : Cls) (b : Bnd α) : Attr → α
  | .l => b.lower
  | .u => if c = .polyTorque then b.lower else b.upper

/-- `b.lXBound = v`, `b.uXBound = v`.  `uPolyTorqueBound` writes the lower bound (tasks.pyx:562-566). -/
def set (c : Cls) (b : Bnd α) (a : Attr) (v : α) : Bnd α :=
  match a with
  | .l => { b with lower := v }
  | .u => if c = .polyTorque then { b with lower := v } else { b with upper := v }

/-- A program that writes the attributes of one object. -/
def sets (c : Cls) (b : Bnd α) (l : List (Attr × α)) : Bnd α := l.foldl (fun b w => set c b w.1 w.2) b

end PyBound

end Verif
