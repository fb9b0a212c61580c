import Verif.Model.Forward
import Verif.Model.Momentum

/-!
# The overloads of `update` without `normalAccB`

PositionTask, OrientationTask, SurfaceOrientationTask, LinVelocityTask, CoMTask, MultiCoMTask and
MomentumTask can be updated with the robot and its configuration alone.  RBDyn then computes the normal
accelerations itself: along the path of the Jacobian for the first four, for all the bodies for the others.
`mbc` gives `parentToSon`, `jointVelocity` and `bodyVelB`; the member `normalAccB` of `st` is not read.
-/

set_option autoImplicit false

namespace Verif

section
variable {K R : Type} [CommRing K]

namespace Jac

/-- The loop of `rbd::Jacobian::normalAcceleration(mb, mbc, X_b_p, V_b_p)` (RBDyn) over the path. -/
def ownAcc (mbc : Mbc K R) (path : List ℕ) (a : MV K) : Out (MV K) :=
  forEach path (fun i a => do
    let X ← vecAt mbc.parentToSon i
    let vj ← vecAt mbc.jointVelocity i
    let vb ← vecAt mbc.bodyVelB i
    pure (X.mulM a + vb.cross vj)) a

/-- `jac.normalAcceleration(mb, mbc, X_b_p, V_b_p)` (RBDyn). -/
def normalAccAtOwn (st : KState K) (mbc : Mbc K R) (J : Jac K) (X : PT K) (W : MV K) : Out (MV K) := do
  let N ← J.body
  let V ← vecAt st.bodyVelB N
  let A ← ownAcc mbc J.path 0
  pure (X.mulM A + W.cross (X.mulM V))

/-- `jac.normalAcceleration(mb, mbc)` (RBDyn). -/
def normalAccOwn (st : KState K) (mbc : Mbc K R) (J : Jac K) : Out (MV K) := do
  let N ← J.body
  let X ← vecAt st.bodyPosW N
  let V ← vecAt st.bodyVelB N
  J.normalAccAtOwn st mbc ((PT.ofRot X.E.transpose).mul (PT.ofTrans J.point))
    ⟨X.E.transpose.mulVec V.ang, 0⟩

end Jac

/-- `PositionTask::update(mb, mbc)` (Tasks.cpp:45-53). -/
def PositionT.updateOwn (mb : MultiBody K) (st : KState K) (mbc : Mbc K R) (s : PositionT K) :
    Out (PositionT K) := do
  let X ← vecAt st.bodyPosW s.bodyIndex
  let v ← s.jac.velocity st
  let n ← s.jac.normalAccOwn st mbc
  let J ← s.jac.jacobian mb st
  let sh ← J.block 3 0 3 (pathDof mb s.jac.path)
  let M ← fullJacobian mb s.jac.path sh s.out.jacMat
  pure { s with
    out := ⟨s.pos - ((PT.ofTrans s.point).mul X).r, v.lin, n.lin, M⟩ }

/-- `LinVelocityTask::update(mb, mbc)` (Tasks.cpp:1037-1044). -/
def LinVelT.updateOwn (mb : MultiBody K) (st : KState K) (mbc : Mbc K R) (s : LinVelT K) :
    Out (LinVelT K) := do
  let v ← s.jac.velocity st
  let n ← s.jac.normalAccOwn st mbc
  let J ← s.jac.jacobian mb st
  let sh ← J.block 3 0 3 (pathDof mb s.jac.path)
  let M ← fullJacobian mb s.jac.path sh s.out.jacMat
  pure { s with
    out := { s.out with eval := s.vel - v.lin, normalAcc := n.lin, jacMat := M } }

/-- `OrientationTask::update(mb, mbc)` (Tasks.cpp:115-123). -/
def orientationUpdateOwn (rotErr : M3 K → M3 K → V3 K) (mb : MultiBody K) (st : KState K) (mbc : Mbc K R)
    (bodyIndex : ℕ) (J : Jac K) (ori : M3 K) (res : Mat K) : Out (Out3 K) := do
  let X ← vecAt st.bodyPosW bodyIndex
  let v ← J.velocity st
  let n ← J.normalAccOwn st mbc
  let M ← J.jacobian mb st
  let sh ← M.block 0 0 3 (pathDof mb J.path)
  let M ← fullJacobian mb J.path sh res
  pure ⟨rotErr X.E ori, v.ang, n.ang, M⟩

/-- `SurfaceOrientationTask::update(mb, mbc)` (Tasks.cpp:411-423). -/
def surfaceOriUpdateOwn (rotVel : M3 K → V3 K) (mb : MultiBody K) (st : KState K) (mbc : Mbc K R)
    (bodyIndex : ℕ) (J : Jac K) (ori : M3 K) (X_b_s : PT K) (res : Mat K) : Out (Out3 K) := do
  let X ← vecAt st.bodyPosW bodyIndex
  let v ← J.velocityAt st X_b_s
  let n ← J.normalAccAtOwn st mbc X_b_s 0
  let M ← J.jacobianAt mb st (X_b_s.mul X)
  let sh ← M.block 0 0 3 (pathDof mb J.path)
  let M ← fullJacobian mb J.path sh res
  pure ⟨rotVel ((ori.mul X.E.transpose).mul X_b_s.E.transpose), v.ang, n.ang, M⟩

/-- The loop over the joints of `rbd::CoMJacobian::normalAcceleration(mb, mbc)` and of
`rbd::CentroidalMomentumMatrix::normalMomentumDot(mb, mbc, com, comDot)` (RBDyn): the body of the solver's
loop; `scratch` is what the member `normalAcc_` held before. -/
def ownAccs (mb : MultiBody K) (mbc : Mbc K R) (scratch : List (MV K)) : Out (List (MV K)) :=
  forRange mb.nrJoints (normalAccJoint mb mbc) scratch

end

section
variable {K R : Type} [Field K] [LinearOrder K]

/-- `rbd::CoMJacobian::normalAcceleration(mb, mbc)` (RBDyn). -/
def ComJac.normalAccOwn (mb : MultiBody K) (st : KState K) (mbc : Mbc K R) (scratch : List (MV K))
    (J : ComJac K) : Out (V3 K) := do
  let A ← ownAccs mb mbc scratch
  J.normalAcc { st with normalAccB := A }

/-- `CoMTask::update(mb, mbc)` (Tasks.cpp:771-779). -/
def CoMT.updateOwn (bs : List (BodyM K)) (mb : MultiBody K) (st : KState K) (mbc : Mbc K R)
    (scratch : List (MV K)) (s : CoMT K) : Out (CoMT K) := do
  let c ← computeCoM bs st
  let v ← s.jac.velocity st
  let n ← s.jac.normalAccOwn mb st mbc scratch
  let M ← s.jac.jacobian mb st
  pure { s with
    actual := c, out := ⟨s.com - c, v, n, M⟩ }

/-- What `MultiCoMTask::update(mbs, mbcs)` (Tasks.cpp:859-875) gets from RBDyn for one robot. -/
def comEnvOwn (bs : List (BodyM K)) (mb : MultiBody K) (st : KState K) (mbc : Mbc K R)
    (scratch : List (MV K)) : Out (CoMEnv K) := do
  let c ← computeCoM bs st
  let J ← ComJac.make bs (List.replicate bs.length 1)
  let v ← J.velocity st
  let n ← J.normalAccOwn mb st mbc scratch
  let M ← J.jacobian mb st
  pure ⟨c, v, n, M⟩

/-- `MomentumTask::update(mb, mbc)` (Tasks.cpp:965-974). -/
def MomentumT.updateOwn (bs : List (BodyI K)) (mb : MultiBody K) (st : KState K) (mbc : Mbc K R)
    (scratch : List (MV K)) (s : MomentumT K) : Out (MomentumT K) := do
  let com ← computeCoM (bs.map BodyI.b) st
  let h ← centroidalMomentum bs st com
  let comDot ← computeCoMVelocity (bs.map BodyI.b) st
  let A ← ownAccs mb mbc scratch
  let n ← normalMomentumDot bs { st with normalAccB := A } com comDot
  let M ← momentumMatrix bs mb st com
  pure { s with eval := s.momentum - h, normalAcc := n, jacMat := M }

end

end Verif
