import Verif.Model.Geometry
import Verif.Model.Jacobian
import Verif.Model.Limits

/-!
# Model of the kinematic tasks of `src/Tasks.cpp`

The tasks on a frame, point or vector carried by a body.  `rbd::Jacobian` and
`rbd::MultiBodyConfig` are RBDyn's (trusted base): their documented formulas are the first part of
this file.  The functions of SpaceVecAlg and RBDyn that go through trigonometry (`rotationError`,
`rotationVelocity`, `transformError`, image and pose Jacobians) are parameters.
-/

set_option autoImplicit false

namespace Verif

/-- The part of `rbd::MultiBodyConfig` (RBDyn) the tasks read, for one robot: `bodyPosW`, `bodyVelB`,
`motionSubspace` (columns of each joint) and `alpha`; and the robot's normal accelerations the solver
passes to `update`. -/
structure KState (K : Type) where
  bodyPosW : List (PT K)
  bodyVelB : List (MV K)
  motionSubspace : List (List (MV K))
  alpha : List (List K)
  normalAccB : List (MV K)

/-- `rbd::Jacobian(mb, bodyName, point)` (RBDyn): the joints from the root to the body and the point
in the body frame. -/
structure Jac (K : Type) where
  path : List ℕ
  point : V3 K

section
variable {K : Type} [CommRing K]

/-- Entry of `m.vector()`: angular part first. -/
def MV.get (m : MV K) (a : ℕ) : K := if a < 3 then m.ang.get a else m.lin.get (a - 3)

namespace Jac

/-- Index of the body (RBDyn: `jointsPath_.back()`, the body carried by the last joint). -/
def body (J : Jac K) : Out ℕ :=
  match J.path.getLast? with
  | some i => .ok i
  | none => .ub

/-- Columns of `jac.jacobian(mb, mbc, X_0_p)` (RBDyn): for each dof of each joint `i` of the path
`X_0_p * X_0_i⁻¹ * S_i`. -/
def cols (mb : MultiBody K) (st : KState K) (path : List ℕ) (X : PT K) : Out (List (MV K)) :=
  forEach path (fun i acc => do
    let Xi ← vecAt st.bodyPosW i
    let j ← vecAt mb.joints i
    let S ← vecAt st.motionSubspace i
    forRange j.dof (fun d acc => do
      let s ← vecAt S d
      pure (acc ++ [(X.mul Xi.inv).mulM s])) acc) []

/-- `jac.jacobian(mb, mbc, X_0_p)` (RBDyn). -/
def jacobianAt (mb : MultiBody K) (st : KState K) (J : Jac K) (X : PT K) : Out (Mat K) := do
  let c ← cols mb st J.path X
  pure ⟨6, c.length, fun a k => (c.getD k 0).get a⟩

/-- `jac.jacobian(mb, mbc)` (RBDyn): at the point of the body, in the orientation of the world. -/
def jacobian (mb : MultiBody K) (st : KState K) (J : Jac K) : Out (Mat K) := do
  let N ← J.body
  let X ← vecAt st.bodyPosW N
  J.jacobianAt mb st (PT.ofTrans ((PT.ofTrans J.point).mul X).r)

/-- `jac.bodyJacobian(mb, mbc)` (RBDyn): at the point of the body, in the orientation of the body. -/
def bodyJacobian (mb : MultiBody K) (st : KState K) (J : Jac K) : Out (Mat K) := do
  let N ← J.body
  let X ← vecAt st.bodyPosW N
  J.jacobianAt mb st ((PT.ofTrans J.point).mul X)

/-- `jac.velocity(mb, mbc, X_b_p)` (RBDyn). -/
def velocityAt (st : KState K) (J : Jac K) (X : PT K) : Out (MV K) := do
  let N ← J.body
  let V ← vecAt st.bodyVelB N
  pure (X.mulM V)

/-- `jac.velocity(mb, mbc)` (RBDyn): at the point of the body, in the orientation of the world. -/
def velocity (st : KState K) (J : Jac K) : Out (MV K) := do
  let N ← J.body
  let X ← vecAt st.bodyPosW N
  J.velocityAt st ((PT.ofRot X.E.transpose).mul (PT.ofTrans J.point))

/-- `jac.bodyVelocity(mb, mbc)` (RBDyn). -/
def bodyVelocity (st : KState K) (J : Jac K) : Out (MV K) := J.velocityAt st (PT.ofTrans J.point)

/-- `jac.normalAcceleration(mb, mbc, normalAccB, X_b_p, V_b_p)` (RBDyn). -/
def normalAccAt (st : KState K) (J : Jac K) (X : PT K) (W : MV K) : Out (MV K) := do
  let N ← J.body
  let V ← vecAt st.bodyVelB N
  let A ← vecAt st.normalAccB N
  pure (X.mulM A + W.cross (X.mulM V))

/-- `jac.normalAcceleration(mb, mbc, normalAccB)` (RBDyn): the frame of the point keeps the
orientation of the world. -/
def normalAcc (st : KState K) (J : Jac K) : Out (MV K) := do
  let N ← J.body
  let X ← vecAt st.bodyPosW N
  let V ← vecAt st.bodyVelB N
  J.normalAccAt st ((PT.ofRot X.E.transpose).mul (PT.ofTrans J.point))
    ⟨X.E.transpose.mulVec V.ang, 0⟩

/-- `jac.bodyNormalAcceleration(mb, mbc, normalAccB)` (RBDyn). -/
def bodyNormalAcc (st : KState K) (J : Jac K) : Out (MV K) :=
  J.normalAccAt st (PT.ofTrans J.point) 0

end Jac

/-- `M.col(i).head<6>() -= err.cross(MotionVecd(M.col(i).head<3>(), 0)).vector()` for all columns
(Tasks.cpp:229-233, 359-362). -/
def subCross (err : MV K) (M : Mat K) (n : ℕ) : Out (Mat K) :=
  forRange n (fun i (M : Mat K) =>
    if i < M.cols ∧ M.rows = 6 then
      .ok ⟨M.rows, M.cols, fun a k =>
        if k = i then
          M.get a i - (err.cross ⟨⟨M.get 0 i, M.get 1 i, M.get 2 i⟩, 0⟩).get a
        else M.get a k⟩
    else .ub) M

/-! ## The tasks -/

/-- Results every task keeps: `eval_`, `speed_`, `normalAcc_` (three entries each) and `jacMat_`. -/
structure Out3 (K : Type) where
  eval : V3 K
  speed : V3 K
  normalAcc : V3 K
  jacMat : Mat K

/-- Same with six entries. -/
structure Out6 (K : Type) where
  eval : MV K
  speed : MV K
  normalAcc : MV K
  jacMat : Mat K

/-- `PositionTask` (Tasks.h:32-70). -/
structure PositionT (K : Type) where
  pos : V3 K
  point : V3 K
  bodyIndex : ℕ
  jac : Jac K
  out : Out3 K

namespace PositionT

/-- Constructor (Tasks.cpp:24-31); `path` leads to the body of index `bodyIndex`; `junk` is the
uninitialised content of the results. -/
def make (bodyIndex : ℕ) (path : List ℕ) (pos bodyPoint : V3 K) (junk : Out3 K) : PositionT K :=
  ⟨pos, bodyPoint, bodyIndex, ⟨path, bodyPoint⟩, junk⟩

/-- `position(pos)` (Tasks.cpp:33-34). -/
def setPosition (p : V3 K) (s : PositionT K) : PositionT K := { s with pos := p }

/-- `bodyPoint(point)` (Tasks.cpp:39-40): only the Jacobian. -/
def setBodyPoint (p : V3 K) (s : PositionT K) : PositionT K :=
  { s with jac := { s.jac with point := p } }

/-- `bodyPoint()` (Tasks.cpp:42-43). -/
def bodyPoint (s : PositionT K) : V3 K := s.jac.point

/-- `update(mb, mbc, normalAccB)` (Tasks.cpp:55-65). -/
def update (mb : MultiBody K) (st : KState K) (s : PositionT K) : Out (PositionT K) := do
  let X ← vecAt st.bodyPosW s.bodyIndex
  let v ← s.jac.velocity st
  let n ← s.jac.normalAcc st
  let J ← s.jac.jacobian mb st
  let sh ← J.block 3 0 3 (pathDof mb s.jac.path)
  let M ← fullJacobian mb s.jac.path sh s.out.jacMat
  pure { s with
    out := ⟨s.pos - ((PT.ofTrans s.point).mul X).r, v.lin, n.lin, M⟩ }

end PositionT

/-- `LinVelocityTask` (Tasks.h:512-550); `speed_` is set to zero by the constructor and never changed. -/
structure LinVelT (K : Type) where
  vel : V3 K
  bodyIndex : ℕ
  jac : Jac K
  out : Out3 K

namespace LinVelT

/-- Constructor (Tasks.cpp:1014-1023). -/
def make (bodyIndex : ℕ) (path : List ℕ) (v bodyPoint : V3 K) (junk : Out3 K) : LinVelT K :=
  ⟨v, bodyIndex, ⟨path, bodyPoint⟩, { junk with speed := 0 }⟩

/-- `velocity(v)` (Tasks.cpp:1025-1026). -/
def setVelocity (v : V3 K) (s : LinVelT K) : LinVelT K := { s with vel := v }

/-- `bodyPoint(point)` (Tasks.cpp:1031-1032). -/
def setBodyPoint (p : V3 K) (s : LinVelT K) : LinVelT K :=
  { s with jac := { s.jac with point := p } }

/-- `update(mb, mbc, normalAccB)` (Tasks.cpp:1046-1055). -/
def update (mb : MultiBody K) (st : KState K) (s : LinVelT K) : Out (LinVelT K) := do
  let v ← s.jac.velocity st
  let n ← s.jac.normalAcc st
  let J ← s.jac.jacobian mb st
  let sh ← J.block 3 0 3 (pathDof mb s.jac.path)
  let M ← fullJacobian mb s.jac.path sh s.out.jacMat
  pure { s with
    out := { s.out with eval := s.vel - v.lin, normalAcc := n.lin, jacMat := M } }

end LinVelT

/-- `OrientationTask::update(mb, mbc, normalAccB)` (Tasks.cpp:125-135); `rotErr` is
`sva::rotationError`, `res` the previous content of `jacMat_`. -/
def orientationUpdate (rotErr : M3 K → M3 K → V3 K) (mb : MultiBody K) (st : KState K)
    (bodyIndex : ℕ) (J : Jac K) (ori : M3 K) (res : Mat K) : Out (Out3 K) := do
  let X ← vecAt st.bodyPosW bodyIndex
  let v ← J.velocity st
  let n ← J.normalAcc st
  let M ← J.jacobian mb st
  let sh ← M.block 0 0 3 (pathDof mb J.path)
  let M ← fullJacobian mb J.path sh res
  pure ⟨rotErr X.E ori, v.ang, n.ang, M⟩

/-- `SurfaceOrientationTask::update(mb, mbc, normalAccB)` (Tasks.cpp:425-438); `rotVel` is
`sva::rotationVelocity`. -/
def surfaceOriUpdate (rotVel : M3 K → V3 K) (mb : MultiBody K) (st : KState K)
    (bodyIndex : ℕ) (J : Jac K) (ori : M3 K) (X_b_s : PT K) (res : Mat K) : Out (Out3 K) := do
  let X ← vecAt st.bodyPosW bodyIndex
  let v ← J.velocityAt st X_b_s
  let n ← J.normalAccAt st X_b_s 0
  let M ← J.jacobianAt mb st (X_b_s.mul X)
  let sh ← M.block 0 0 3 (pathDof mb J.path)
  let M ← fullJacobian mb J.path sh res
  pure ⟨rotVel ((ori.mul X.E.transpose).mul X_b_s.E.transpose), v.ang, n.ang, M⟩

/-- `TransformTask::update` (Tasks.cpp:257-273); `transErr` is `sva::transformError`. -/
def transformUpdate (transErr : PT K → PT K → MV K) (mb : MultiBody K) (st : KState K)
    (bodyIndex : ℕ) (J : Jac K) (X_0_t X_b_p : PT K) (E_0_c : M3 K) (res : Mat K) :
    Out (Out6 K) := do
  let X ← vecAt st.bodyPosW bodyIndex
  let X_0_p := X_b_p.mul X
  let E_p_c := PT.ofRot (E_0_c.mul X_0_p.E.transpose)
  let X_b_p_c := E_p_c.mul X_b_p
  let V ← J.velocityAt st X_b_p_c
  let n ← J.normalAccAt st X_b_p_c ⟨V.ang, 0⟩
  let M ← J.jacobianAt mb st (E_p_c.mul X_0_p)
  let M ← fullJacobian mb J.path M res
  pure ⟨(PT.ofRot E_0_c).mulM (transErr X_0_p X_0_t), V, n, M⟩

/-- `SurfaceTransformTask::update` (Tasks.cpp:207-236); `transVel` is `sva::transformVelocity`. -/
def surfaceUpdate (transVel : PT K → MV K) (mb : MultiBody K) (st : KState K)
    (bodyIndex : ℕ) (J : Jac K) (X_0_t X_b_p : PT K) (res : Mat K) : Out (Out6 K) := do
  let X ← vecAt st.bodyPosW bodyIndex
  let X_0_p := X_b_p.mul X
  let err := transVel (X_0_t.mul X_0_p.inv)
  let V ← J.velocityAt st X_b_p
  let w : MV K := ⟨V.ang, 0⟩
  let AN ← J.normalAccAt st X_b_p 0
  let wAN : MV K := ⟨AN.ang, 0⟩
  let Verr := err.cross w - V
  let M ← J.jacobianAt mb st X_0_p
  let M ← subCross err M (pathDof mb J.path)
  let M ← fullJacobian mb J.path M res
  pure ⟨err, 0 - Verr, 0 - (Verr.cross w + err.cross wAN - AN), M⟩

/-- `MultiRobotTransformTask::update` (Tasks.cpp:312-367), for the two robots of the task. -/
def multiTransformUpdate (transVel : PT K → MV K) (mb1 mb2 : MultiBody K) (st1 st2 : KState K)
    (b1 b2 : ℕ) (J1 J2 : Jac K) (X1 X2 : PT K) (res1 res2 : Mat K) :
    Out (Out6 K × Mat K) := do
  let B1 ← vecAt st1.bodyPosW b1
  let B2 ← vecAt st2.bodyPosW b2
  let S1 := X1.mul B1
  let S2 := X2.mul B2
  let X12 := S2.mul S1.inv
  let E21 := PT.ofRot X12.E.transpose
  let X221 := E21.mul X2
  let err := transVel X12
  let V1 ← J1.velocityAt st1 X1
  let V2 ← J2.velocityAt st2 X221
  let Vs := V2 - V1
  let w : MV K := ⟨V1.ang, 0⟩
  let Verr := err.cross w + Vs
  let AN1 ← J1.normalAccAt st1 X1 0
  let wAN : MV K := ⟨AN1.ang, 0⟩
  let AN2 ← J2.normalAccAt st2 X221 ⟨Vs.ang, 0⟩
  let ANs := AN2 - AN1
  let ANerr := Verr.cross w + err.cross wAN + ANs
  let M1 ← J1.jacobianAt mb1 st1 S1
  let M1 ← subCross err M1 (pathDof mb1 J1.path)
  let M2 ← J2.jacobianAt mb2 st2 (E21.mul S2)
  let R1 ← fullJacobian mb1 J1.path M1 res1
  let R2 ← fullJacobian mb2 J2.path M2.neg res2
  pure (⟨err, 0 - Verr, 0 - ANerr, R1⟩, R2)

/-- `VectorOrientationTask::skewMatrix` (Tasks.cpp:1322-1327). -/
def skewMatrix (v : V3 K) : M3 K := ⟨⟨0, -v.z, v.y⟩, ⟨v.z, 0, -v.x⟩, ⟨-v.y, v.x, 0⟩⟩

/-- `m * J` for a 3×3 and a 3×n matrix. -/
def M3.mulMat (m : M3 K) (J : Mat K) : Mat K :=
  ⟨3, J.cols, fun a k => (m.mulVec ⟨J.get 0 k, J.get 1 k, J.get 2 k⟩).get a⟩

/-- `VectorOrientationTask::update` (Tasks.cpp:1298-1320); `junk` is the uninitialised content of the
local `fullJac`.  The second result is `actual()`. -/
def vectorOriUpdate (mb : MultiBody K) (st : KState K) (bodyIndex : ℕ) (J : Jac K)
    (bodyVector target : V3 K) (junk : ℕ → ℕ → K) : Out (Out3 K × V3 K) := do
  let X ← vecAt st.bodyPosW bodyIndex
  let E := X.E.transpose
  let actual := E.mulVec bodyVector
  let sm ← J.bodyJacobian mb st
  let sh ← sm.block 0 0 3 (pathDof mb J.path)
  let full ← fullJacobian mb J.path sh ⟨3, mb.nrDof, junk⟩
  let M := (E.neg.mul (skewMatrix bodyVector)).mulMat full
  let vb ← J.bodyVelocity st
  let w := vb.ang
  let nb ← J.bodyNormalAcc st
  let n := w.cross (w.cross bodyVector) + nb.ang.cross bodyVector
  pure (⟨target - actual, E.mulVec (w.cross bodyVector), E.mulVec n, M⟩, actual)

/-- `L * M` for an `r`×6 matrix given by its entries and a 6×n matrix. -/
def lMul (r : ℕ) (L : ℕ → ℕ → K) (M : Mat K) : Mat K :=
  ⟨r, M.cols, fun a k => ∑ j ∈ Finset.range 6, L a j * M.get j k⟩

/-- The part of `GazeTask::update` and `PositionBasedVisServoTask::update` after the computation of
`eval_` and of the interaction matrix `L` (`r`×6) from the error (Tasks.cpp:553-568, 648-664); `Ldot`
gives the time derivative of `L` from the speed and the surface velocity.  The results are `speed_`,
`normalAcc_` and `jacMat_`. -/
def visualUpdate (r : ℕ) (L : ℕ → ℕ → K) (Ldot : (ℕ → K) → (ℕ → K) → ℕ → ℕ → K)
    (mb : MultiBody K) (st : KState K) (bodyIndex : ℕ) (J : Jac K) (X_b_s : PT K) (res : Mat K) :
    Out (Vec K × Vec K × Mat K) := do
  let X ← vecAt st.bodyPosW bodyIndex
  let V ← J.velocityAt st X_b_s
  let speed : Vec K := ⟨r, fun a => ∑ j ∈ Finset.range 6, L a j * V.get j⟩
  let n ← J.normalAccAt st X_b_s 0
  let Ld := Ldot speed.get V.get
  let nacc : Vec K := ⟨r, fun a => ∑ j ∈ Finset.range 6, L a j * n.get j
    + ∑ j ∈ Finset.range 6, Ld a j * V.get j⟩
  let M ← J.jacobianAt mb st (X_b_s.mul X)
  let sh ← M.block 0 0 6 (pathDof mb J.path)
  let M ← fullJacobian mb J.path (lMul r L sh) res
  pure (speed, nacc, M)

/-! ## `OrientationTrackingTask` -/

/-- `OrientationTrackingTask` (Tasks.h:552-593); `speed` and `normalAcc` belong to the QP task. -/
structure TrackT (K : Type) where
  bodyIndex : ℕ
  jac : Jac K
  zeroJacIndex : List ℕ
  eval : V3 K
  shortJac : Mat K
  jacMat : Mat K
  jacDotMat : Mat K

/-- Constructor loop (Tasks.cpp:1095-1105). -/
def zeroIndexLoop (mb : MultiBody K) (path tracking : List ℕ) : Out (List ℕ) := do
  let s ← forEach path (fun i (s : List ℕ × ℕ) => do
    let j ← vecAt mb.joints i
    pure (if i ∈ tracking then s.1 else s.1 ++ (List.range j.dof).map (s.2 + ·), s.2 + j.dof)) ([], 0)
  pure s.1

/-- Constructor (Tasks.cpp:1082-1106); the results start uninitialised. -/
def TrackT.make (mb : MultiBody K) (bodyIndex : ℕ) (path : List ℕ) (tracking : List String)
    (junkEval : V3 K) (junkS junkJ junkD : ℕ → ℕ → K) : Out (TrackT K) := do
  let idx ← forEach tracking (fun n (l : List ℕ) => do
    let i ← mb.jointIndexByName n
    pure (i :: l)) []
  let z ← zeroIndexLoop mb path idx
  pure ⟨bodyIndex, ⟨path, 0⟩, z, junkEval, ⟨3, pathDof mb path, junkS⟩, ⟨3, mb.nrDof, junkJ⟩,
    ⟨3, mb.nrDof, junkD⟩⟩

/-- `zeroJacobian(jac)` (Tasks.cpp:1161-1164). -/
def zeroJacobian (z : List ℕ) (M : Mat K) : Out (Mat K) :=
  forEach z (fun i (M : Mat K) =>
    if i < M.cols then .ok ⟨M.rows, M.cols, fun a k => if k = i then 0 else M.get a k⟩ else .ub) M

/-- `update(mb, mbc)` (Tasks.cpp:1126-1143); `err` is the rotation error computed by Eigen and
SpaceVecAlg from the body pose. -/
def TrackT.update (mb : MultiBody K) (st : KState K) (err : PT K → V3 K) (s : TrackT K) :
    Out (TrackT K) := do
  let X ← vecAt st.bodyPosW s.bodyIndex
  let J ← s.jac.jacobian mb st
  let sh ← J.block 0 0 3 s.shortJac.cols
  let sh ← zeroJacobian s.zeroJacIndex sh
  let M ← fullJacobian mb s.jac.path sh s.jacMat
  pure { s with
    eval := err X, shortJac := sh, jacMat := M }

/-- `updateDot(mb, mbc)` (Tasks.cpp:1145-1150); `Jd` is what `jac.jacobianDot(mb, mbc)` of RBDyn
returns. -/
def TrackT.updateDot (mb : MultiBody K) (Jd : Mat K) (s : TrackT K) : Out (TrackT K) := do
  let sh ← Jd.block 0 0 3 s.shortJac.cols
  let sh ← zeroJacobian s.zeroJacIndex sh
  let M ← fullJacobian mb s.jac.path sh s.jacDotMat
  pure { s with
    shortJac := sh, jacDotMat := M }

/-- `qp::OrientationTrackingTask::update` (QPTasks.cpp:1441-1450): updates the task, then
`speed_ = jac * alpha` and `normalAcc_ = jacDot * alpha`.  `alphaVec` has `nrDof` entries. -/
def TrackT.qpUpdate (mb : MultiBody K) (st : KState K) (err : PT K → V3 K) (alphaVec : Vec K)
    (s : TrackT K) : Out (TrackT K × V3 K × V3 K × Vec K) := do
  let s' ← s.update mb st err
  let av ← paramToVector st.alpha alphaVec
  if s'.jacMat.cols = av.size ∧ s'.jacDotMat.cols = av.size then
    pure (s', ⟨s'.jacMat.rowMul 0 av.get, s'.jacMat.rowMul 1 av.get, s'.jacMat.rowMul 2 av.get⟩,
      ⟨s'.jacDotMat.rowMul 0 av.get, s'.jacDotMat.rowMul 1 av.get, s'.jacDotMat.rowMul 2 av.get⟩, av)
  else .ub

end

end Verif
