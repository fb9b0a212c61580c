import Verif.Model.Rotation

/-!
# The error of the orientation tracking task

`OrientationTrackingTask::update` (Tasks.cpp:1126-1138) up to the Jacobian.  The functions of Eigen it calls
(`normalize`, `Quaterniond::FromTwoVectors`, `inverse`, `matrix`) are not part of `/repo`: their formulas are
written here over the reals and belong to the trusted base.  For directions that are opposite up to the
precision of Eigen `FromTwoVectors` takes an axis from a singular value decomposition; this is a parameter.
-/

set_option autoImplicit false

namespace Verif

/-- `v.normalize()`, `v.normalized()` of Eigen: the zero vector stays. -/
noncomputable def V3.normalized (v : V3 ℝ) : V3 ℝ :=
  if 0 < v.dot v then (Real.sqrt (v.dot v))⁻¹ • v else v

/-- `Eigen::Quaterniond`: `w()` and `vec()`. -/
structure Quat where
  w : ℝ
  v : V3 ℝ

/-- `Quaterniond::FromTwoVectors(a, b)` (`setFromTwoVectors`); `opposite` is the branch with the singular value
decomposition, `prec` the precision of the comparison. -/
noncomputable def Quat.fromTwo (prec : ℝ) (opposite : V3 ℝ → V3 ℝ → Quat) (a b : V3 ℝ) : Quat :=
  let v0 := a.normalized
  let v1 := b.normalized
  let c := v1.dot v0
  if c < -1 + prec then opposite v0 v1
  else
    let axis := v0.cross v1
    let s := Real.sqrt ((1 + c) * 2)
    ⟨s * (1 / 2), (1 / s) • axis⟩

/-- `q.inverse()`: the conjugate divided by the squared norm, zero for zero. -/
noncomputable def Quat.inverse (q : Quat) : Quat :=
  let n2 := q.w * q.w + q.v.dot q.v
  if 0 < n2 then ⟨q.w / n2, (1 / n2) • (-q.v)⟩ else ⟨0, 0⟩

/-- `q.matrix()` (`toRotationMatrix`). -/
def Quat.matrix (q : Quat) : M3 ℝ :=
  let tx := 2 * q.v.x
  let ty := 2 * q.v.y
  let tz := 2 * q.v.z
  ⟨⟨1 - (ty * q.v.y + tz * q.v.z), ty * q.v.x - tz * q.w, tz * q.v.x + ty * q.w⟩,
    ⟨ty * q.v.x + tz * q.w, 1 - (tx * q.v.x + tz * q.v.z), tz * q.v.y - tx * q.w⟩,
    ⟨tz * q.v.x - ty * q.w, tz * q.v.y + tx * q.w, 1 - (tx * q.v.x + ty * q.v.y)⟩⟩

/-- `eval_` of `OrientationTrackingTask` (Tasks.cpp:1129-1138) for the body at `X`: the body point, the body
axis and the tracked point. -/
noncomputable def trackErr (prec : ℝ) (opposite : V3 ℝ → V3 ℝ → Quat) (bodyPoint bodyAxis trackedPoint : V3 ℝ)
    (X : PT ℝ) : V3 ℝ :=
  let desDir := (trackedPoint - ((PT.ofTrans bodyPoint).mul X).r).normalized
  let curDir := (X.E.transpose.mulVec bodyAxis).normalized
  let targetOri := (Quat.fromTwo prec opposite curDir desDir).inverse.matrix
  rotationErrorOf svaRotVel X.E (targetOri.mul X.E)

end Verif
