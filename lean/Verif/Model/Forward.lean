import Verif.Model.NormalAcc
import Verif.Model.Kine
import Mathlib.Analysis.SpecialFunctions.Trigonometric.Basic

/-!
# Forward kinematics and velocity of RBDyn

RBDyn is not part of `/repo`; the definitions below are the formulas of its `Joint`,
`forwardKinematics`, `forwardVelocity` and of the constructor of `Jacobian`, and belong to the trusted
base (see DESIGN.md).  They say what the configuration holds that the solver (`computeNormalAccB`) and
the tasks (`update`) read.  Planar joints and joints given with `forward = false` are left out.
-/

set_option autoImplicit false

namespace Verif

/-- `rbd::Joint::Type` with the axis of the joint. -/
inductive JType
  | fixed
  | rev (a : V3 ℝ)
  | prism (a : V3 ℝ)
  | cyl (a : V3 ℝ)
  | spherical
  | free

/-- `Eigen::AngleAxisd(θ, a).matrix()`. -/
noncomputable def angleAxisMat (θ : ℝ) (a : V3 ℝ) : M3 ℝ :=
  let c := Real.cos θ
  let s := Real.sin θ
  ⟨⟨c + (1 - c) * a.x * a.x, (1 - c) * a.x * a.y - s * a.z, (1 - c) * a.x * a.z + s * a.y⟩,
   ⟨(1 - c) * a.x * a.y + s * a.z, c + (1 - c) * a.y * a.y, (1 - c) * a.y * a.z - s * a.x⟩,
   ⟨(1 - c) * a.x * a.z - s * a.y, (1 - c) * a.y * a.z + s * a.x, c + (1 - c) * a.z * a.z⟩⟩

/-- `rbd::QuaternionToE` (RBDyn): the transpose of `Eigen::Quaterniond(w, x, y, z).matrix()`. -/
def quatE (w x y z : ℝ) : M3 ℝ :=
  ⟨⟨1 - 2 * (y * y + z * z), 2 * (x * y + w * z), 2 * (x * z - w * y)⟩,
   ⟨2 * (x * y - w * z), 1 - 2 * (x * x + z * z), 2 * (y * z + w * x)⟩,
   ⟨2 * (x * z + w * y), 2 * (y * z - w * x), 1 - 2 * (x * x + y * y)⟩⟩

namespace JType

/-- `joint.dof()`. -/
def dof : JType → ℕ
  | fixed => 0
  | rev _ => 1
  | prism _ => 1
  | cyl _ => 2
  | spherical => 3
  | free => 6

/-- `joint.params()`. -/
def params : JType → ℕ
  | fixed => 0
  | rev _ => 1
  | prism _ => 1
  | cyl _ => 2
  | spherical => 4
  | free => 7

/-- `joint.motionSubspace()`: its columns. -/
def subspace : JType → List (MV ℝ)
  | fixed => []
  | rev a => [⟨a, 0⟩]
  | prism a => [⟨0, a⟩]
  | cyl a => [⟨a, 0⟩, ⟨0, a⟩]
  | spherical => [⟨⟨1, 0, 0⟩, 0⟩, ⟨⟨0, 1, 0⟩, 0⟩, ⟨⟨0, 0, 1⟩, 0⟩]
  | free => [⟨⟨1, 0, 0⟩, 0⟩, ⟨⟨0, 1, 0⟩, 0⟩, ⟨⟨0, 0, 1⟩, 0⟩,
      ⟨0, ⟨1, 0, 0⟩⟩, ⟨0, ⟨0, 1, 0⟩⟩, ⟨0, ⟨0, 0, 1⟩⟩]

/-- `joint.pose(q)`: unchecked reads of `q`. -/
noncomputable def pose (ty : JType) (q : List ℝ) : Out (PT ℝ) :=
  match ty with
  | fixed => .ok PT.one
  | rev a => do
    let q0 ← vecAt q 0
    pure (PT.ofRot (angleAxisMat (-q0) a))
  | prism a => do
    let q0 ← vecAt q 0
    pure (PT.ofTrans (q0 • a))
  | cyl a => do
    let q0 ← vecAt q 0
    let q1 ← vecAt q 1
    pure ⟨angleAxisMat (-q0) a, q1 • a⟩
  | spherical => do
    let w ← vecAt q 0
    let x ← vecAt q 1
    let y ← vecAt q 2
    let z ← vecAt q 3
    pure (PT.ofRot (quatE w x y z))
  | free => do
    let w ← vecAt q 0
    let x ← vecAt q 1
    let y ← vecAt q 2
    let z ← vecAt q 3
    let px ← vecAt q 4
    let py ← vecAt q 5
    let pz ← vecAt q 6
    pure ⟨quatE w x y z, ⟨px, py, pz⟩⟩

/-- `joint.motion(alpha)`: the motion subspace times `alpha`. -/
noncomputable def motion (ty : JType) (alpha : List ℝ) : Out (MV ℝ) :=
  forRange ty.dof (fun d m => do
    let s ← vecAt ty.subspace d
    let a ← vecAt alpha d
    pure ⟨m.ang + a • s.ang, m.lin + a • s.lin⟩) 0

end JType

/-- A robot with the geometry of its joints: types, and `Xt`, the static transforms from the
predecessor body (`mb.transforms()`). -/
structure RbdRobot where
  mb : MultiBody ℝ
  types : List JType
  Xt : List (PT ℝ)

namespace RbdRobot

/-- `mbc.parentToSon[i] = joint(i).pose(q[i]) * Xt[i]` (`rbd::forwardKinematics`). -/
noncomputable def jointPoses (g : RbdRobot) (q : List (List ℝ)) : Out (List (PT ℝ)) :=
  forRange g.mb.nrJoints (fun i acc => do
    let ty ← vecAt g.types i
    let qi ← vecAt q i
    let J ← ty.pose qi
    let X ← vecAt g.Xt i
    pure (acc ++ [J.mul X])) []

/-- `mbc.bodyPosW[succ[i]] = parentToSon[i] * bodyPosW[pred[i]]` (`rbd::forwardKinematics`); in RBDyn
the two loops are one. -/
noncomputable def bodyPoses (g : RbdRobot) (P : List (PT ℝ)) (acc : List (PT ℝ)) : Out (List (PT ℝ)) :=
  forRange g.mb.nrJoints (fun i acc => do
    let X ← vecAt P i
    let p ← vecAt g.mb.pred i
    let s ← vecAt g.mb.succ i
    if p ≠ -1 then do
      let W ← vecAtI acc p
      vecSet acc s (X.mul W)
    else vecSet acc s X) acc

/-- `mbc.jointVelocity[i] = joint(i).motion(alpha[i])` (`rbd::forwardVelocity`). -/
noncomputable def jointVels (g : RbdRobot) (alpha : List (List ℝ)) : Out (List (MV ℝ)) :=
  forRange g.mb.nrJoints (fun i acc => do
    let ty ← vecAt g.types i
    let ai ← vecAt alpha i
    let m ← ty.motion ai
    pure (acc ++ [m])) []

/-- `mbc.bodyVelB[succ[i]] = parentToSon[i] * bodyVelB[pred[i]] + jointVelocity[i]`
(`rbd::forwardVelocity`). -/
noncomputable def bodyVels (g : RbdRobot) (P : List (PT ℝ)) (vj : List (MV ℝ)) (acc : List (MV ℝ)) :
    Out (List (MV ℝ)) :=
  forRange g.mb.nrJoints (fun i acc => do
    let X ← vecAt P i
    let v ← vecAt vj i
    let p ← vecAt g.mb.pred i
    let s ← vecAt g.mb.succ i
    if p ≠ -1 then do
      let vp ← vecAtI acc p
      vecSet acc s (X.mulM vp + v)
    else vecSet acc s v) acc

/-- `rbd::forwardKinematics` and `rbd::forwardVelocity` on a configuration that holds `q`, `alpha` and
`alphaD`; `W0`, `V0` are the old contents of `bodyPosW` and `bodyVelB`.  The member `rest` of the result is
`bodyPosW`. -/
noncomputable def forward (g : RbdRobot) (W0 : List (PT ℝ)) (V0 : List (MV ℝ))
    (q alpha alphaD : List (List ℝ)) : Out (Mbc ℝ (List (PT ℝ))) := do
  let P ← g.jointPoses q
  let W ← g.bodyPoses P W0
  let vj ← g.jointVels alpha
  let V ← g.bodyVels P vj V0
  pure ⟨alphaD, P, vj, V, W⟩

/-- What a task reads when the solver passes it the configuration `mbc` and the robot's normal
accelerations `acc`. -/
def kState (g : RbdRobot) (alpha : List (List ℝ)) (mbc : Mbc ℝ (List (PT ℝ))) (acc : List (MV ℝ)) :
    KState ℝ :=
  ⟨mbc.rest, mbc.bodyVelB, g.types.map JType.subspace, alpha, acc⟩

end RbdRobot

/-- The joints from the root to the body of index `index`: the loop of the constructor of
`rbd::Jacobian` follows the predecessors up to the world (`-1`).  `fuel` bounds the number of
iterations. -/
def jacPath {K : Type} (mb : MultiBody K) : ℕ → ℤ → List ℕ → Out (List ℕ)
  | 0, _, _ => .ub
  | n + 1, index, acc =>
    if index = -1 then .ok acc
    else do
      let p ← vecAtI mb.pred index
      jacPath mb n p (index.toNat :: acc)

end Verif
