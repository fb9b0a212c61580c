import Verif.Model.Kine
import Verif.Model.Visual
import Verif.Model.RelDist
import Verif.Model.Momentum
import Verif.Model.SetPoint

/-!
# Model of the high-level tasks of `src/QPTasks.cpp`

The classes `qp::PositionTask`, … pair a task of `Tasks.cpp` with the index of its robot: constructor,
setters, `dim()`, `update(mbs, mbcs, data)`, `jac()`, `eval()`, `speed()` and `normalAcc()`
(QPTasks.cpp:757-1033, 1233-1259, 1393-1530, QPTasks.h:558-640).  The constructors and setters of the
tasks of `Tasks.cpp` that the other files do not have are here too.

The overloads with a quaternion store its matrix (Tasks.cpp:93-98, 107-108): they are the overloads with a
matrix.
-/

set_option autoImplicit false

namespace Verif

/-- A robot of `mbs`: structure, names, and the inertia of the bodies. -/
structure RobotDesc (K : Type) where
  rb : RobotBodies K
  bodies : List (BodyI K)

/-- The structure of the robot. -/
def RobotDesc.mb {K : Type} (R : RobotDesc K) : MultiBody K := R.rb.kin.mb

/-- The functions of SpaceVecAlg, RBDyn and Eigen that are parameters of the model; `trackErr bodyPoint
bodyAxis trackedPoint pose` is the error of `OrientationTrackingTask` (Tasks.cpp:1128-1138). -/
structure Fns (K : Type) where
  rotErr : M3 K → M3 K → V3 K
  rotVel : M3 K → V3 K
  transErr : PT K → PT K → MV K
  transVel : PT K → MV K
  depthDot : (ℕ → K) → K → ℕ → K
  angleAxis : M3 K → V3 K
  poseJac : M3 K → ℕ → ℕ → K
  trackErr : V3 K → V3 K → V3 K → PT K → V3 K
  sqrt : K → Out K

/-! ## The tasks of `Tasks.cpp` without a model of their own -/

/-- `OrientationTask` (Tasks.h:72-105). -/
structure OriT (K : Type) where
  ori : M3 K
  bodyIndex : ℕ
  jac : Jac K
  out : Out3 K

/-- `SurfaceOrientationTask` (Tasks.h:227-267). -/
structure SurfOriT (K : Type) where
  ori : M3 K
  bodyIndex : ℕ
  jac : Jac K
  X_b_s : PT K
  out : Out3 K

/-- `TransformTaskCommon` (Tasks.h:107-137), which is also all of `SurfaceTransformTask` except for its
scratch matrix. -/
structure TransCT (K : Type) where
  X_0_t : PT K
  X_b_p : PT K
  bodyIndex : ℕ
  jac : Jac K
  out : Out6 K

/-- `TransformTask` (Tasks.h:158-182). -/
structure TransT (K : Type) where
  c : TransCT K
  E_0_c : M3 K

/-- `VectorOrientationTask` (Tasks.h:649-685). -/
structure VecOriT (K : Type) where
  actual : V3 K
  bodyVector : V3 K
  target : V3 K
  bodyIndex : ℕ
  jac : Jac K
  out : Out3 K

/-- `qp::OrientationTrackingTask` (QPTasks.h:1007-1047): the settings the error is computed from, the task, and what
the wrapper keeps itself. -/
structure TrackQ (K : Type) where
  bodyPoint : V3 K
  bodyAxis : V3 K
  trackedPoint : V3 K
  t : TrackT K
  alphaVec : Vec K
  speed : V3 K
  normalAcc : V3 K

/-- `MultiRobotTransformTask` (Tasks.h:184-225). -/
structure MultiTransT (K : Type) where
  r1Index : ℕ
  r2Index : ℕ
  r1BodyIndex : ℕ
  r2BodyIndex : ℕ
  X_r1b_r1s : PT K
  X_r2b_r2s : PT K
  jacR1B : Jac K
  jacR2B : Jac K
  out : Out6 K
  jacMat2 : Mat K

section
variable {K : Type} [CommRing K]

/-- The uninitialised content of three vectors of three entries and of a matrix `3 × n`. -/
def junk3 (n : ℕ) (junk : ℕ → ℕ → ℕ → K) : Out3 K :=
  ⟨⟨junk 0 0 0, junk 0 0 1, junk 0 0 2⟩, ⟨junk 1 0 0, junk 1 0 1, junk 1 0 2⟩,
    ⟨junk 2 0 0, junk 2 0 1, junk 2 0 2⟩, ⟨3, n, junk 3⟩⟩

/-- The same with six entries and six rows. -/
def junk6 (n : ℕ) (junk : ℕ → ℕ → ℕ → K) : Out6 K :=
  ⟨⟨⟨junk 0 0 0, junk 0 0 1, junk 0 0 2⟩, ⟨junk 0 0 3, junk 0 0 4, junk 0 0 5⟩⟩,
    ⟨⟨junk 1 0 0, junk 1 0 1, junk 1 0 2⟩, ⟨junk 1 0 3, junk 1 0 4, junk 1 0 5⟩⟩,
    ⟨⟨junk 2 0 0, junk 2 0 1, junk 2 0 2⟩, ⟨junk 2 0 3, junk 2 0 4, junk 2 0 5⟩⟩, ⟨6, n, junk 3⟩⟩

/-- The uninitialised content of a wrench. -/
def junkF (junk : ℕ → K) : FV K := ⟨⟨junk 0, junk 1, junk 2⟩, ⟨junk 3, junk 4, junk 5⟩⟩

/-- `mb.bodyIndexByName(name)` and `rbd::Jacobian(mb, name)`: throw when there is no such body. -/
def RobotDesc.find (R : RobotDesc K) (name : String) : Out (ℕ × List ℕ) := do
  let b ← R.rb.bodyIndex name
  let p ← R.rb.kin.path name
  pure (b, p)

/-- `OrientationTask::OrientationTask` (Tasks.cpp:100-104). -/
def OriT.make (R : RobotDesc K) (body : String) (ori : M3 K) (junk : ℕ → ℕ → ℕ → K) : Out (OriT K) := do
  let (b, p) ← R.find body
  pure ⟨ori, b, ⟨p, 0⟩, junk3 R.mb.nrDof junk⟩

/-- `OrientationTask::orientation(ori)` (Tasks.cpp:109-110). -/
def OriT.setOrientation (m : M3 K) (s : OriT K) : OriT K := { s with ori := m }

/-- `OrientationTask::update` (Tasks.cpp:125-135). -/
def OriT.update (f : Fns K) (mb : MultiBody K) (st : KState K) (s : OriT K) : Out (OriT K) := do
  let o ← orientationUpdate f.rotErr mb st s.bodyIndex s.jac s.ori s.out.jacMat
  pure { s with out := o }

/-- `SurfaceOrientationTask::SurfaceOrientationTask` (Tasks.cpp:395-402). -/
def SurfOriT.make (R : RobotDesc K) (body : String) (ori : M3 K) (X_b_s : PT K)
    (junk : ℕ → ℕ → ℕ → K) : Out (SurfOriT K) := do
  let (b, p) ← R.find body
  pure ⟨ori, b, ⟨p, 0⟩, X_b_s, junk3 R.mb.nrDof junk⟩

/-- `SurfaceOrientationTask::orientation(ori)` (Tasks.cpp:407-408). -/
def SurfOriT.setOrientation (m : M3 K) (s : SurfOriT K) : SurfOriT K := { s with ori := m }

/-- `SurfaceOrientationTask::update` (Tasks.cpp:425-438). -/
def SurfOriT.update (f : Fns K) (mb : MultiBody K) (st : KState K) (s : SurfOriT K) :
    Out (SurfOriT K) := do
  let o ← surfaceOriUpdate f.rotVel mb st s.bodyIndex s.jac s.ori s.X_b_s s.out.jacMat
  pure { s with out := o }

/-- `TransformTaskCommon::TransformTaskCommon` (Tasks.cpp:160-167), also the constructor of
`SurfaceTransformTask` (Tasks.cpp:199-205). -/
def TransCT.make (R : RobotDesc K) (body : String) (X_0_t X_b_p : PT K) (junk : ℕ → ℕ → ℕ → K) :
    Out (TransCT K) := do
  let (b, p) ← R.find body
  pure ⟨X_0_t, X_b_p, b, ⟨p, 0⟩, junk6 R.mb.nrDof junk⟩

/-- `target(X_0_t)` (Tasks.cpp:169-170). -/
def TransCT.setTarget (X : PT K) (s : TransCT K) : TransCT K := { s with X_0_t := X }

/-- `X_b_p(X_b_p)` (Tasks.cpp:175-176). -/
def TransCT.setX_b_p (X : PT K) (s : TransCT K) : TransCT K := { s with X_b_p := X }

/-- `SurfaceTransformTask::update` (Tasks.cpp:207-236). -/
def TransCT.update (f : Fns K) (mb : MultiBody K) (st : KState K) (s : TransCT K) :
    Out (TransCT K) := do
  let o ← surfaceUpdate f.transVel mb st s.bodyIndex s.jac s.X_0_t s.X_b_p s.out.jacMat
  pure { s with out := o }

/-- `TransformTask::TransformTask` (Tasks.cpp:242-249); `qp::TransformTask` sets `E_0_c` right after
(QPTasks.cpp:852-859). -/
def TransT.make (R : RobotDesc K) (body : String) (X_0_t X_b_p : PT K) (E_0_c : M3 K)
    (junk : ℕ → ℕ → ℕ → K) : Out (TransT K) := do
  let c ← TransCT.make R body X_0_t X_b_p junk
  pure ⟨c, E_0_c⟩

/-- `E_0_c(E_0_c)` (Tasks.cpp:251-252). -/
def TransT.setE_0_c (m : M3 K) (s : TransT K) : TransT K := { s with E_0_c := m }

/-- `TransformTask::update` (Tasks.cpp:257-273). -/
def TransT.update (f : Fns K) (mb : MultiBody K) (st : KState K) (s : TransT K) : Out (TransT K) := do
  let o ← transformUpdate f.transErr mb st s.c.bodyIndex s.c.jac s.c.X_0_t s.c.X_b_p s.E_0_c
    s.c.out.jacMat
  pure { s with c := { s.c with out := o } }

/-- `VectorOrientationTask::VectorOrientationTask` (Tasks.cpp:1288-1296). -/
def VecOriT.make (R : RobotDesc K) (body : String) (v target : V3 K) (junk : ℕ → ℕ → ℕ → K) :
    Out (VecOriT K) := do
  let (b, p) ← R.find body
  pure ⟨0, v, target, b, ⟨p, 0⟩, junk3 R.mb.nrDof junk⟩

/-- `bodyVector(vector)` (Tasks.cpp:1329-1330). -/
def VecOriT.setBodyVector (v : V3 K) (s : VecOriT K) : VecOriT K := { s with bodyVector := v }

/-- `target(vector)` (Tasks.cpp:1335-1336). -/
def VecOriT.setTarget (v : V3 K) (s : VecOriT K) : VecOriT K := { s with target := v }

/-- `VectorOrientationTask::update` (Tasks.cpp:1298-1320). -/
def VecOriT.update (mb : MultiBody K) (st : KState K) (junk : ℕ → ℕ → K) (s : VecOriT K) :
    Out (VecOriT K) := do
  let (o, a) ← vectorOriUpdate mb st s.bodyIndex s.jac s.bodyVector s.target junk
  pure { s with out := o, actual := a }

/-- `qp::OrientationTrackingTask::OrientationTrackingTask` (QPTasks.cpp:1426-1436, Tasks.cpp:1082-1106). -/
def TrackQ.make (R : RobotDesc K) (body : String) (bodyPoint bodyAxis : V3 K) (joints : List String)
    (trackedPoint : V3 K) (junk : ℕ → ℕ → ℕ → K) : Out (TrackQ K) := do
  let (b, p) ← R.find body
  let t ← TrackT.make R.mb b p joints ⟨junk 0 0 0, junk 0 0 1, junk 0 0 2⟩ (junk 1) (junk 2) (junk 3)
  pure ⟨bodyPoint, bodyAxis, trackedPoint, t, ⟨R.mb.nrDof, junk 4 0⟩,
    ⟨junk 5 0 0, junk 5 0 1, junk 5 0 2⟩, ⟨junk 6 0 0, junk 6 0 1, junk 6 0 2⟩⟩

/-- `trackedPoint(tp)` (Tasks.cpp:1108-1109). -/
def TrackQ.setTrackedPoint (p : V3 K) (s : TrackQ K) : TrackQ K := { s with trackedPoint := p }

/-- `bodyPoint(bp)` (Tasks.cpp:1114-1115). -/
def TrackQ.setBodyPoint (p : V3 K) (s : TrackQ K) : TrackQ K := { s with bodyPoint := p }

/-- `bodyAxis(ba)` (Tasks.cpp:1120-1121). -/
def TrackQ.setBodyAxis (v : V3 K) (s : TrackQ K) : TrackQ K := { s with bodyAxis := v }

/-- `qp::OrientationTrackingTask::update` (QPTasks.cpp:1441-1450). -/
def TrackQ.update (f : Fns K) (mb : MultiBody K) (st : KState K) (s : TrackQ K) : Out (TrackQ K) := do
  let (t, v, n, a) ← s.t.qpUpdate mb st (f.trackErr s.bodyPoint s.bodyAxis s.trackedPoint) s.alphaVec
  pure { s with t := t, alphaVec := a, speed := v, normalAcc := n }

/-- `MultiRobotTransformTask::MultiRobotTransformTask` (Tasks.cpp:279-292): the full Jacobians start at
zero. -/
def MultiTransT.make (mbs : List (RobotDesc K)) (r1 r2 : ℕ) (body1 body2 : String) (X1 X2 : PT K)
    (junk : ℕ → ℕ → ℕ → K) : Out (MultiTransT K) := do
  let R1 ← vecAt mbs r1
  let (b1, p1) ← R1.find body1
  let R2 ← vecAt mbs r2
  let (b2, p2) ← R2.find body2
  pure ⟨r1, r2, b1, b2, X1, X2, ⟨p1, 0⟩, ⟨p2, 0⟩,
    { junk6 R1.mb.nrDof junk with jacMat := Mat.zero 6 R1.mb.nrDof }, Mat.zero 6 R2.mb.nrDof⟩

/-- `X_r1b_r1s(X)` (Tasks.cpp:300-301). -/
def MultiTransT.setX1 (X : PT K) (s : MultiTransT K) : MultiTransT K := { s with X_r1b_r1s := X }

/-- `X_r2b_r2s(X)` (Tasks.cpp:306-307). -/
def MultiTransT.setX2 (X : PT K) (s : MultiTransT K) : MultiTransT K := { s with X_r2b_r2s := X }

/-- `MultiRobotTransformTask::update` (Tasks.cpp:312-367): robots and accelerations of all of them are
passed, those of the two robots are used. -/
def MultiTransT.update (f : Fns K) (mbs : List (RobotDesc K)) (mbcs : List (KState K))
    (normalAccB : List (List (MV K))) (s : MultiTransT K) : Out (MultiTransT K) := do
  let R1 ← vecAt mbs s.r1Index
  let R2 ← vecAt mbs s.r2Index
  let st1 ← vecAt mbcs s.r1Index
  let st2 ← vecAt mbcs s.r2Index
  let n1 ← vecAt normalAccB s.r1Index
  let n2 ← vecAt normalAccB s.r2Index
  let (o, M2) ← multiTransformUpdate f.transVel R1.mb R2.mb { st1 with normalAccB := n1 }
    { st2 with normalAccB := n2 } s.r1BodyIndex s.r2BodyIndex s.jacR1B s.jacR2B s.X_r1b_r1s s.X_r2b_r2s
    s.out.jacMat s.jacMat2
  pure { s with out := o, jacMat2 := M2 }

end

/-! ## The high-level tasks -/

/-- The task inside a high-level task. -/
inductive HLTask (K : Type)
  | position (t : PositionT K)
  | orientation (t : OriT K)
  | surfaceOrientation (t : SurfOriT K)
  | surfaceTransform (t : TransCT K)
  | transform (t : TransT K)
  | gaze (t : GazeT K)
  | pbvs (t : PbvsT K)
  | com (t : CoMT K)
  | momentum (t : MomentumT K)
  | linVelocity (t : LinVelT K)
  | tracking (t : TrackQ K)
  | relDist (t : RelDistT K)
  | vectorOrientation (t : VecOriT K)

/-- A high-level task: the robot index and the task. -/
structure QPTask (K : Type) where
  robotIndex : ℕ
  task : HLTask K

/-- The constructors and their arguments. -/
inductive HLArgs (K : Type)
  | position (body : String) (pos bodyPoint : V3 K)
  | orientation (body : String) (ori : M3 K)
  | surfaceOrientation (body : String) (ori : M3 K) (X_b_s : PT K)
  | surfaceTransform (body : String) (X_0_t X_b_p : PT K)
  | transform (body : String) (X_0_t X_b_p : PT K) (E_0_c : M3 K)
  | gaze2 (body : String) (p : K × K) (depth : K) (X_b_gaze : PT K) (ref : K × K)
  | gaze3 (body : String) (p : V3 K) (X_b_gaze : PT K) (ref : K × K)
  | pbvs (body : String) (X_t_s X_b_s : PT K)
  | com (c : V3 K)
  | comW (c : V3 K) (weight : List K)
  | momentum (m : FV K)
  | linVelocity (body : String) (v bodyPoint : V3 K)
  | tracking (body : String) (bodyPoint bodyAxis : V3 K) (joints : List String) (trackedPoint : V3 K)
  | relDist (timestep : K) (body1 body2 : String) (r1 e1 r2 e2 u1 u2 : V3 K)
  | vectorOrientation (body : String) (v target : V3 K)

/-- The setters. -/
inductive HLSet (K : Type)
  | position (p : V3 K)
  | bodyPoint (p : V3 K)
  | orientation (m : M3 K)
  | target (X : PT K)
  | X_b_p (X : PT K)
  | E_0_c (m : M3 K)
  | error2 (p ref : K × K)
  | error3 (p : V3 K) (ref : K × K)
  | errorX (X : PT K)
  | com (c : V3 K)
  | updateInertial (mbs : List (RobotDesc K))
  | momentum (m : FV K)
  | velocity (v : V3 K)
  | trackedPoint (p : V3 K)
  | bodyAxis (v : V3 K)
  | robotPoint (bIndex : ℕ) (p : V3 K)
  | envPoint (bIndex : ℕ) (p : V3 K)
  | vector (bIndex : ℕ) (u : V3 K)
  | bodyVector (v : V3 K)
  | targetVector (v : V3 K)

namespace HLTask
variable {K : Type}

/-- `dim()` (QPTasks.cpp:770-771, 810-811, 894-895, 939-940, 972-973, 1012-1013, 1241-1242, 1402-1403,
1438-1439, 1479-1480, 1512-1513; QPTasks.h:582). -/
def dim : HLTask K → ℕ
  | position _ => 3
  | orientation _ => 3
  | surfaceOrientation _ => 3
  | surfaceTransform _ => 6
  | transform _ => 6
  | gaze _ => 2
  | pbvs _ => 6
  | com _ => 3
  | momentum _ => 6
  | linVelocity _ => 3
  | tracking _ => 3
  | relDist _ => 1
  | vectorOrientation _ => 3

variable [Field K] [LinearOrder K]

/-- Three results as `jac()`, `eval()`, `speed()`, `normalAcc()`. -/
def hl3 (o : Out3 K) : HL K := ⟨o.jacMat, ⟨3, o.eval.get⟩, ⟨3, o.speed.get⟩, ⟨3, o.normalAcc.get⟩⟩

/-- Six results. -/
def hl6 (o : Out6 K) : HL K := ⟨o.jacMat, ⟨6, o.eval.get⟩, ⟨6, o.speed.get⟩, ⟨6, o.normalAcc.get⟩⟩

/-- `jac()`, `eval()`, `speed()` and `normalAcc()` (QPTasks.cpp:778-788 and the same for the others). -/
def hl : HLTask K → HL K
  | position t => hl3 t.out
  | orientation t => hl3 t.out
  | surfaceOrientation t => hl3 t.out
  | surfaceTransform t => hl6 t.out
  | transform t => hl6 t.c.out
  | gaze t => ⟨t.jacMat, ⟨2, fun a => if a = 0 then t.eval.1 else t.eval.2⟩, t.speed, t.normalAcc⟩
  | pbvs t => ⟨t.jacMat, ⟨6, t.eval.get⟩, t.speed, t.normalAcc⟩
  | com t => hl3 t.out
  | momentum t => t.hl
  | linVelocity t => hl3 t.out
  | tracking t => ⟨t.t.jacMat, ⟨3, t.t.eval.get⟩, ⟨3, t.speed.get⟩, ⟨3, t.normalAcc.get⟩⟩
  | relDist t => ⟨t.jacMat, ⟨1, fun _ => t.eval⟩, ⟨1, fun _ => t.speed⟩, ⟨1, fun _ => t.normalAcc⟩⟩
  | vectorOrientation t => hl3 t.out

/-- The task built by the constructor for the robot `R`. -/
def make (R : RobotDesc K) (junk : ℕ → ℕ → ℕ → K) : HLArgs K → Out (HLTask K)
  | .position body pos pt => do
    let (b, p) ← R.find body
    pure (position (PositionT.make b p pos pt (junk3 R.mb.nrDof junk)))
  | .orientation body m => do
    let t ← OriT.make R body m junk
    pure (orientation t)
  | .surfaceOrientation body m X => do
    let t ← SurfOriT.make R body m X junk
    pure (surfaceOrientation t)
  | .surfaceTransform body X Y => do
    let t ← TransCT.make R body X Y junk
    pure (surfaceTransform t)
  | .transform body X Y m => do
    let t ← TransT.make R body X Y m junk
    pure (transform t)
  | .gaze2 body q d X ref => do
    let (b, p) ← R.find body
    pure (gaze (GazeT.make2 R.mb b p q d X ref (junk 0)))
  | .gaze3 body q X ref => do
    let (b, p) ← R.find body
    let t ← GazeT.make3 R.mb b p q X ref (junk 0)
    pure (gaze t)
  | .pbvs body X Y => do
    let (b, p) ← R.find body
    pure (pbvs (PbvsT.make R.mb b p X Y (junk 0)))
  | .com c => do
    let t ← CoMT.make (R.bodies.map BodyI.b) c ⟨junk 4 0 0, junk 4 0 1, junk 4 0 2⟩ (junk3 R.mb.nrDof junk)
    pure (com t)
  | .comW c w => do
    let t ← CoMT.makeW (R.bodies.map BodyI.b) c w ⟨junk 4 0 0, junk 4 0 1, junk 4 0 2⟩
      (junk3 R.mb.nrDof junk)
    pure (com t)
  | .momentum m =>
    let o := junk6 R.mb.nrDof junk
    pure (momentum (MomentumT.make m ⟨junkF (junk 4 0), ⟨o.eval.ang, o.eval.lin⟩, junkF (junk 5 0),
      ⟨o.normalAcc.ang, o.normalAcc.lin⟩, o.jacMat⟩))
  | .linVelocity body v pt => do
    let (b, p) ← R.find body
    pure (linVelocity (LinVelT.make b p v pt (junk3 R.mb.nrDof junk)))
  | .tracking body pt ax js tp => do
    let t ← TrackQ.make R body pt ax js tp junk
    pure (tracking t)
  | .relDist dt body1 body2 r1 e1 r2 e2 u1 u2 => do
    let (b1, p1) ← R.find body1
    let (b2, p2) ← R.find body2
    pure (relDist (RelDistT.make R.mb dt (RelBody.make b1 p1 r1 e1 u1) (RelBody.make b2 p2 r2 e2 u2)
      (junk 0 0 0, junk 1 0 0, junk 2 0 0) (junk 3)))
  | .vectorOrientation body v t => do
    let t ← VecOriT.make R body v t junk
    pure (vectorOrientation t)

/-- The setters, for the robot of index `r`; a class without the setter is left as it is (there is no such
call in C++). -/
def set (r : ℕ) : HLSet K → HLTask K → Out (HLTask K)
  | .position p, position t => .ok (position (t.setPosition p))
  | .bodyPoint p, position t => .ok (position (t.setBodyPoint p))
  | .bodyPoint p, linVelocity t => .ok (linVelocity (t.setBodyPoint p))
  | .bodyPoint p, tracking t => .ok (tracking (t.setBodyPoint p))
  | .orientation m, orientation t => .ok (orientation (t.setOrientation m))
  | .orientation m, surfaceOrientation t => .ok (surfaceOrientation (t.setOrientation m))
  | .target X, surfaceTransform t => .ok (surfaceTransform (t.setTarget X))
  | .target X, transform t => .ok (transform { t with c := t.c.setTarget X })
  | .X_b_p X, surfaceTransform t => .ok (surfaceTransform (t.setX_b_p X))
  | .X_b_p X, transform t => .ok (transform { t with c := t.c.setX_b_p X })
  | .E_0_c m, transform t => .ok (transform (t.setE_0_c m))
  | .error2 p ref, gaze t => .ok (gaze (t.error2 p ref))
  | .error3 p ref, gaze t => do
    let t ← t.error3 p ref
    pure (gaze t)
  | .errorX X, pbvs t => .ok (pbvs (t.error X))
  | .com c, com t => .ok (com (t.setCom c))
  | .updateInertial mbs, com t => do
    let R ← vecAt mbs r
    let t ← t.updateInertial (R.bodies.map BodyI.b)
    pure (com t)
  | .momentum m, momentum t => .ok (momentum (t.setMomentum m))
  | .velocity v, linVelocity t => .ok (linVelocity (t.setVelocity v))
  | .trackedPoint p, tracking t => .ok (tracking (t.setTrackedPoint p))
  | .bodyAxis v, tracking t => .ok (tracking (t.setBodyAxis v))
  | .robotPoint i p, relDist t => .ok (relDist (t.robotPoint i p))
  | .envPoint i p, relDist t => .ok (relDist (t.envPoint i p))
  | .vector i u, relDist t => .ok (relDist (t.vector i u))
  | .bodyVector v, vectorOrientation t => .ok (vectorOrientation (t.setBodyVector v))
  | .targetVector v, vectorOrientation t => .ok (vectorOrientation (t.setTarget v))
  | _, t => .ok t

/-- `update(mb, mbc, normalAccB)` of the task. -/
def updateOn (f : Fns K) (R : RobotDesc K) (st : KState K) (junk : ℕ → ℕ → ℕ → K) :
    HLTask K → Out (HLTask K)
  | position t => do
    let t ← t.update R.mb st
    pure (position t)
  | orientation t => do
    let t ← t.update f R.mb st
    pure (orientation t)
  | surfaceOrientation t => do
    let t ← t.update f R.mb st
    pure (surfaceOrientation t)
  | surfaceTransform t => do
    let t ← t.update f R.mb st
    pure (surfaceTransform t)
  | transform t => do
    let t ← t.update f R.mb st
    pure (transform t)
  | gaze t => do
    let t ← t.update f.depthDot R.mb st
    pure (gaze t)
  | pbvs t => do
    let t ← t.update f.angleAxis f.poseJac R.mb st
    pure (pbvs t)
  | com t => do
    let t ← t.update (R.bodies.map BodyI.b) R.mb st
    pure (com t)
  | momentum t => do
    let t ← t.update R.bodies R.mb st
    pure (momentum t)
  | linVelocity t => do
    let t ← t.update R.mb st
    pure (linVelocity t)
  | tracking t => do
    let t ← t.update f R.mb st
    pure (tracking t)
  | relDist t => do
    let t ← t.update f.sqrt R.mb st (junk 0) (junk 1 0)
    pure (relDist t)
  | vectorOrientation t => do
    let t ← t.update R.mb st (junk 0)
    pure (vectorOrientation t)

end HLTask

namespace QPTask
variable {K : Type} [Field K] [LinearOrder K]

/-- The constructors (QPTasks.cpp:761-768, 794-808, 834-841, 852-859, 876-892, 918-937, 963-970, 996-1007,
1236-1239, 1393-1400, 1426-1436, 1468-1477, 1503-1510): the task is built for `mbs[rI]`. -/
def make (mbs : List (RobotDesc K)) (rI : ℕ) (junk : ℕ → ℕ → ℕ → K) (a : HLArgs K) : Out (QPTask K) := do
  let R ← vecAt mbs rI
  let t ← HLTask.make R junk a
  pure ⟨rI, t⟩

/-- The setters go to the task. -/
def set (o : HLSet K) (s : QPTask K) : Out (QPTask K) := do
  let t ← s.task.set s.robotIndex o
  pure { s with task := t }

/-- `update(mbs, mbcs, data)` (QPTasks.cpp:773-776, 813-816, 843-846, 867-870, 897-900, 942-945, 975-978,
1015-1021, 1244-1247, 1405-1408, 1441-1450, 1482-1485, 1515-1518): structure, configuration and normal
accelerations of the robot of the task.  (`OrientationTrackingTask` does not read the latter.) -/
def update (f : Fns K) (mbs : List (RobotDesc K)) (mbcs : List (KState K))
    (normalAccB : List (List (MV K))) (junk : ℕ → ℕ → ℕ → K) (s : QPTask K) : Out (QPTask K) := do
  let R ← vecAt mbs s.robotIndex
  let st ← vecAt mbcs s.robotIndex
  let n ← vecAt normalAccB s.robotIndex
  let t ← s.task.updateOn f R { st with normalAccB := n } junk
  pure { s with task := t }

/-- What the weighted tasks read. -/
def hl (s : QPTask K) : HL K := s.task.hl

/-- `dim()`. -/
def dim (s : QPTask K) : ℕ := s.task.dim

end QPTask

end Verif
