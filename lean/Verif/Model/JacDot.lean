import Verif.Model.CoM
import Verif.Model.Momentum

/-!
# Model of `updateDot` of the tasks of `src/Tasks.cpp`

`updateDot` writes the matrix `jacDot()` returns.  What RBDyn's `Jacobian::jacobianDot`,
`Jacobian::bodyJacobianDot`, `CoMJacobian::jacobianDot` and `CentroidalMomentumMatrix::matrixDot` return
is the parameter `Jd`; the theorems state what is assumed of it.  `PostureTask::updateDot` does nothing
(Tasks.cpp:734); `GazeTask` and `PositionBasedVisServoTask` have no `updateDot`, their `jacDot()` is never
written.
-/

set_option autoImplicit false

namespace Verif

section
variable {K : Type} [CommRing K]

/-- `PositionTask::updateDot` (Tasks.cpp:67-71); `Jd` is `jac_.jacobianDot(mb, mbc)`, `res` the content
of `jacDotMat_`. -/
def positionUpdateDot (mb : MultiBody K) (J : Jac K) (Jd res : Mat K) : Out (Mat K) := do
  let sh ← Jd.block 3 0 3 (pathDof mb J.path)
  fullJacobian mb J.path sh res

/-- `OrientationTask::updateDot` (Tasks.cpp:137-141); `Jd` is `jac_.jacobianDot(mb, mbc)`. -/
def orientationUpdateDot (mb : MultiBody K) (J : Jac K) (Jd res : Mat K) : Out (Mat K) := do
  let sh ← Jd.block 0 0 3 (pathDof mb J.path)
  fullJacobian mb J.path sh res

/-- `SurfaceOrientationTask::updateDot` (Tasks.cpp:440-444); `Jd` is `jac_.bodyJacobianDot(mb, mbc)`. -/
def surfaceOriUpdateDot (mb : MultiBody K) (J : Jac K) (Jd res : Mat K) : Out (Mat K) := do
  let sh ← Jd.block 0 0 3 (pathDof mb J.path)
  fullJacobian mb J.path sh res

/-- `LinVelocityTask::updateDot` (Tasks.cpp:1057-1061); `Jd` is `jac_.jacobianDot(mb, mbc)`. -/
def linVelUpdateDot (mb : MultiBody K) (J : Jac K) (Jd res : Mat K) : Out (Mat K) := do
  let sh ← Jd.block 3 0 3 (pathDof mb J.path)
  fullJacobian mb J.path sh res

/-- `CoMTask::updateDot` (Tasks.cpp:795-796); `Jd` is `jac_.jacobianDot(mb, mbc)`. -/
def comUpdateDot (Jd _res : Mat K) : Out (Mat K) := .ok Jd

/-- `MomentumTask::updateDot` (Tasks.cpp:989-993); `Jd` is `momentumMatrix_.matrixDot()` after
`computeMatrixDot`. -/
def momentumUpdateDot (Jd _res : Mat K) : Out (Mat K) := .ok Jd

end

end Verif
