import Verif.Model.Limits
import Verif.Model.Utils

/-!
# Model of `CollisionConstr` and `CoMIncPlaneConstr` (`src/QPConstr.cpp:313-811`)

sch-core (distance computation) and RBDyn (Jacobians) are parameters: see `CollEnv`, `PointKin`.
-/

set_option autoImplicit false

namespace Verif

section
variable {K : Type} [Field K] [LinearOrder K]

/-- `assert(p)`: compiled out in release, the code behind relies on it. -/
def guardUB (p : Prop) [Decidable p] : Out Unit := if p then .ok () else .ub

/-- Division of a vector by a `double`; see `fdiv`. -/
def fdivV (v : V3 K) (c : K) : Out (V3 K) := if c = 0 then .ub else .ok ((1 / c) • v)

/-- `n.transpose() * M.block(r, 0, 3, cols)`: entry of column `c`, for the three rows of `M` from row
`r` on. -/
def rows3Dot (n : V3 K) (M : Mat K) (r c : ℕ) : K :=
  n.x * M.get r c + n.y * M.get (r + 1) c + n.z * M.get (r + 2) c

/-- `DampingType` (QPConstr.h:395-400, 562-567). -/
inductive DampType
  | hard
  | soft
  | free
  deriving DecidableEq, Repr

/-- What RBDyn computes for one robot at the current configuration: body poses, and for a body (by
name) and a point of that body the 6-row Jacobian in world axes (`Jacobian::jacobian`, columns along
the body's joint path), the linear velocity (`velocity(...).linear()`) and normal acceleration
(`normalAcceleration(...).linear()`) of the point. -/
structure PointKin (K : Type) where
  bodyPosW : List (PT K)
  jac : String → V3 K → Mat K
  vel : String → V3 K → V3 K
  normalAcc : String → V3 K → V3 K

/-- A robot as `CollisionConstr` sees it when a pair is added: structure, joint paths
(`rbd::Jacobian(mb, name)`), `bodyIndexByName`. -/
structure RobotBodies (K : Type) where
  kin : RobotKin K
  bodyIndex : String → Out ℕ

/-- `sch::Matrix4x4` as far as `tosch` fills it: rotation and translation part. -/
structure SchPose (K : Type) where
  R : M3 K
  t : V3 K

/-- `tosch` (QPConstr.cpp:315-331): `m(i, j) = rot(j, i)`. -/
def tosch (X : PT K) : SchPose K := ⟨X.E.transpose, X.r⟩

/-- The environment of `CollisionConstr::update`: the robots, sch-core's `getClosestPoints` (signed
squared distance and points, from the two hulls and their poses), `std::sqrt`, `sch::epsilon`. -/
structure CollEnv (K : Type) where
  robots : List (PointKin K)
  closest : ℕ → SchPose K → ℕ → SchPose K → K × V3 K × V3 K
  sqrt : K → K
  eps : K

/-- `CollisionConstr::BodyCollData` (QPConstr.h:376-391).  Hulls are identified by a number.  `point`
is the end point stored in `jac` (initially zero, RBDyn). -/
structure BodyColl (K : Type) where
  hull : ℕ
  path : List ℕ
  point : V3 K
  X_op_o : PT K
  rIndex : ℕ
  bIndex : ℕ
  body : String
  selector : Vec K

/-- `CollisionConstr::CollData` (QPConstr.h:393-426).  `p1`, `p2` are uninitialised before the first
update; they are only read by `getCollisionData`. -/
structure CollData (K : Type) where
  hull1 : ℕ
  hull2 : ℕ
  distance : K
  p1 : V3 K
  p2 : V3 K
  normal : V3 K
  di : K
  ds : K
  damping : K
  bodies : List (BodyColl K)
  dtype : DampType
  off : K
  collId : ℤ

/-- `CollisionConstr` (QPConstr.h:441-455).  `nrVars` is uninitialised and `totalAlphaD` is -1 before
the first `updateNrVars`: `none`. -/
structure Coll (K : Type) where
  data : List (CollData K)
  step : K
  nrAct : ℕ
  totalAlphaD : Option ℕ
  A : Mat K
  b : Vec K
  fullJac : Mat K
  distJac : Mat K
  nrVars : Option ℕ

/-- Largest number of dofs (QPConstr.cpp:360, QPContactConstr.cpp:125); dereferences the end iterator when
there is no robot. -/
def maxDof (mbs : List (MultiBody K)) : Out ℕ := do
  let mb ← maxElement compareDof mbs
  pure mb.nrDof

/-- Constructor (QPConstr.cpp:357-363).  `junk` is the uninitialised content of the buffers. -/
def Coll.make (mbs : List (MultiBody K)) (step : K) (junk : ℕ → ℕ → K) : Out (Coll K) := do
  let n ← maxDof mbs
  pure ⟨[], step, 0, none, ⟨0, 0, fun _ _ => 0⟩, ⟨0, fun _ => 0⟩, ⟨1, n, junk⟩, ⟨1, n, junk⟩, none⟩

/-- Arguments of `addCollision`. -/
structure CollArgs (K : Type) where
  collId : ℤ
  r1 : ℕ
  body1 : String
  hull1 : ℕ
  X1 : PT K
  r2 : ℕ
  body2 : String
  hull2 : ℕ
  X2 : PT K
  di : K
  ds : K
  damping : K
  off : K
  sel1 : Vec K
  sel2 : Vec K

/-- `BodyCollData::BodyCollData` (QPConstr.cpp:333-341). -/
def BodyColl.make (rb : RobotBodies K) (r : ℕ) (name : String) (hull : ℕ) (X : PT K) (sel : Vec K) :
    Out (BodyColl K) := do
  let path ← rb.kin.path name
  let bI ← rb.bodyIndex name
  pure ⟨hull, path, 0, X, r, bI, name, sel⟩

/-- `addCollision` (QPConstr.cpp:365-396) with the `CollData` constructor (QPConstr.cpp:343-355); a
failing assertion on the size of a selector is undefined behaviour.
`junk` is the uninitialised content of `p1`, `p2`. -/
def Coll.add (rbs : List (RobotBodies K)) (a : CollArgs K) (junk : V3 K) (s : Coll K) :
    Out (Coll K) := do
  let rb1 ← vecAt rbs a.r1
  let rb2 ← vecAt rbs a.r2
  let l1 ← (if 0 < rb1.kin.mb.nrDof then do
      guardUB (a.sel1.size = 0 ∨ a.sel1.size = rb1.kin.mb.nrDof)
      let b ← BodyColl.make rb1 a.r1 a.body1 a.hull1 a.X1 a.sel1
      pure [b]
    else pure [])
  let l2 ← (if 0 < rb2.kin.mb.nrDof then do
      guardUB (a.sel2.size = 0 ∨ a.sel2.size = rb2.kin.mb.nrDof)
      let b ← BodyColl.make rb2 a.r2 a.body2 a.hull2 a.X2 (if a.r1 = a.r2 then a.sel1 else a.sel2)
      pure [b]
    else pure [])
  pure { s with
    data := s.data ++ [⟨a.hull1, a.hull2, 2 * a.di, junk, junk, 0, a.di, a.ds, a.damping, l1 ++ l2,
      if 0 < a.damping then .hard else .free, a.off, a.collId⟩] }

/-- `rmCollision` (QPConstr.cpp:398-409): erases the first pair with this id. -/
def Coll.rm (collId : ℤ) (s : Coll K) : Bool × Coll K :=
  if s.data.any (fun d => decide (d.collId = collId)) then
    (true, { s with data := s.data.eraseP fun d => decide (d.collId = collId) })
  else (false, s)

/-- `getCollisionData` (QPConstr.cpp:411-417). -/
def Coll.get (collId : ℤ) (s : Coll K) : Out (CollData K) :=
  match s.data.find? (fun d => decide (d.collId = collId)) with
  | some d => .ok d
  | none => .throws .runtimeError

/-- `nrCollisions` (QPConstr.cpp:419-420). -/
def Coll.nrCollisions (s : Coll K) : ℕ := s.data.length

/-- `reset` (QPConstr.cpp:422-423). -/
def Coll.reset (s : Coll K) : Coll K := { s with data := [] }

/-- `updateNrCollisions` (QPConstr.cpp:425-429): reads `nrVars_`. -/
def Coll.updateNrCollisions (s : Coll K) : Out (Coll K) :=
  match s.nrVars with
  | none => .ub
  | some n => .ok { s with A := Mat.zero s.data.length n, b := ⟨s.data.length, fun _ => 0⟩ }

/-- `updateNrVars` (QPConstr.cpp:431-436). -/
def Coll.updateNrVars (d : SolverData K) (s : Coll K) : Out (Coll K) :=
  ({ s with totalAlphaD := some d.totalAlphaD, nrVars := some d.nrVars } : Coll K).updateNrCollisions

/-- `setTransformation` on the hull of each movable body (QPConstr.cpp:450-455). -/
def moveHulls (env : CollEnv K) (bodies : List (BodyColl K)) (poses : ℕ → SchPose K) :
    Out (ℕ → SchPose K) :=
  forEach bodies (fun b poses => do
    let r ← vecAt env.robots b.rIndex
    let X ← vecAt r.bodyPosW b.bIndex
    pure fun h => if h = b.hull then tosch (b.X_op_o.mul X) else poses h) poses

/-- `d >= 0 ? sqrt(d) : -sqrt(-d)` (QPConstr.cpp:458). -/
def signedRoot (env : CollEnv K) (d : K) : K := if 0 ≤ d then env.sqrt d else -env.sqrt (-d)

/-- `nearestPoint` in body coordinates (QPConstr.cpp:470-472). -/
def toBody (X : PT K) (p : V3 K) : V3 K := ((PT.ofTrans p).mul X.inv).r

/-- The loop setting the end points of the Jacobians (QPConstr.cpp:465-477): `p1` for the first entry
of `bodies`, `p2` for the following ones. -/
def setPoints (env : CollEnv K) (p1 p2 : V3 K) (bodies : List (BodyColl K)) :
    Out (List (BodyColl K)) := do
  let s ← forEach bodies (fun b (s : List (BodyColl K) × V3 K) => do
    let r ← vecAt env.robots b.rIndex
    let X ← vecAt r.bodyPosW b.bIndex
    pure (s.1 ++ [{ b with point := toBody X s.2 }], p2)) ([], p1)
  pure s.1

/-- `CollisionConstr::computeDamping` (QPConstr.cpp:590-619). -/
def collDamping (env : CollEnv K) (d : CollData K) (n : V3 K) (dist : K) : Out K := do
  let s ← forEach d.bodies (fun b (s : V3 K × K) => do
    let r ← vecAt env.robots b.rIndex
    pure (s.1 + s.2 • r.vel b.body b.point, -1)) (0, 1)
  let distDot := |s.1.dot n|
  let fixedDist := if dist ≤ d.ds then d.ds + (d.di - d.ds) * (1 / 5) else dist
  let f ← fdiv (d.di - d.ds) (fixedDist - d.ds)
  pure (f * distDot + d.off)

/-- State of the loop on the bodies of an active pair: `sign`, `A`, `b`, buffers. -/
structure CollRow (K : Type) where
  sign : K
  A : Mat K
  b : Vec K
  distJac : Mat K
  fullJac : Mat K

/-- Contribution of one body to the row (QPConstr.cpp:499-531).  `nf` is the normal, `dn` the vector
`dnf * step_`. -/
def collBody (mbs : List (MultiBody K)) (data : SolverData K) (env : CollEnv K) (step : K)
    (row : ℕ) (nf dn : V3 K) (b : BodyColl K) (s : CollRow K) : Out (CollRow K) := do
  let mb ← vecAt mbs b.rIndex
  let r ← vecAt env.robots b.rIndex
  let jac := r.jac b.body b.point
  let dof := pathDof mb b.path
  let j3 ← jac.block 3 0 3 dof
  let dj ← s.distJac.setBlock 0 0 ⟨1, dof, fun _ c => rows3Dot ((step * s.sign) • nf) j3 0 c⟩
  let djb ← dj.block 0 0 1 dof
  let fj ← fullJacobian mb b.path djb s.fullJac
  let v := r.vel b.body b.point
  let na := r.normalAcc b.body b.point
  let jqdn := v.dot nf
  let jqdnd := v.dot dn
  let jdqdn := na.dot (step • nf)
  let aB ← vecAt data.alphaDBegin b.rIndex
  let fb ← fj.block 0 0 1 mb.nrDof
  let A ← (if b.selector.size = 0 then
      s.A.addBlock row aB (-1) fb
    else if b.selector.size = mb.nrDof then
      s.A.addBlock row aB (-1) ⟨1, mb.nrDof, fun i c => fb.get i c * b.selector.get c⟩
    else .ub)
  let b0 ← s.b.at' row
  let bb ← s.b.set row (b0 + s.sign * (jqdn + jqdnd + jdqdn))
  pure ⟨-1, A, bb, dj, fj⟩

/-- Everything `update` computes for a pair before the test on the distance
(QPConstr.cpp:450-477): hull poses, distance, closest points, end points, normal. -/
def collGeom (env : CollEnv K) (d : CollData K) (poses : ℕ → SchPose K) :
    Out ((ℕ → SchPose K) × CollData K × V3 K) := do
  let poses ← moveHulls env d.bodies poses
  let c := env.closest d.hull1 (poses d.hull1) d.hull2 (poses d.hull2)
  let dist := signedRoot env c.1
  let n ← fdivV (c.2.1 - c.2.2) (if dist ≠ 0 then dist else env.eps)
  let bodies ← setPoints env c.2.1 c.2.2 d.bodies
  pure (poses, { d with distance := dist, p1 := c.2.1, p2 := c.2.2, bodies := bodies }, n)

/-- Damping when the pair is active (QPConstr.cpp:481-486). -/
def collActivate (env : CollEnv K) (d : CollData K) (n : V3 K) : Out (CollData K) :=
  if d.dtype = .free then do
    let c ← collDamping env d n d.distance
    pure { d with dtype := .soft, damping := c }
  else pure d

/-- The row of an active pair (QPConstr.cpp:488-533). -/
def collRow (mbs : List (MultiBody K)) (data : SolverData K) (env : CollEnv K) (d : CollData K)
    (n : V3 K) (s : Coll K) : Out (Coll K) := do
  let f ← fdiv (d.distance - d.ds) (d.di - d.ds)
  let dnf ← fdivV (n - d.normal) s.step
  let tot ← (match s.totalAlphaD with
    | none => .ub
    | some t => .ok t)
  let b ← s.b.set s.nrAct (d.damping * f)
  let A ← s.A.setBlock s.nrAct 0 (Mat.zero 1 tot)
  let r ← forEach d.bodies (collBody mbs data env s.step s.nrAct n (s.step • dnf))
    ⟨1, A, b, s.distJac, s.fullJac⟩
  pure { s with
    A := r.A, b := r.b, distJac := r.distJac, fullJac := r.fullJac, nrAct := s.nrAct + 1 }

/-- Body of the loop of `CollisionConstr::update` (QPConstr.cpp:448-541). -/
def Coll.pairStep (mbs : List (MultiBody K)) (data : SolverData K) (env : CollEnv K) (i : ℕ)
    (st : Coll K × (ℕ → SchPose K)) : Out (Coll K × (ℕ → SchPose K)) := do
  let d ← vecAt st.1.data i
  let (poses, d1, n) ← collGeom env d st.2
  if d1.distance < d1.di then do
    let d2 ← collActivate env d1 n
    let s1 ← collRow mbs data env d2 n st.1
    let l ← vecSet s1.data i { d2 with normal := n }
    pure ({ s1 with data := l }, poses)
  else do
    let l ← vecSet st.1.data i { d1 with
      normal := n, dtype := if d1.dtype = .soft then .free else d1.dtype }
    pure ({ st.1 with data := l }, poses)

/-- `CollisionConstr::update` (QPConstr.cpp:438-542).  `poses` are the poses of the sch objects, which
the update changes. -/
def Coll.update (mbs : List (MultiBody K)) (data : SolverData K) (env : CollEnv K)
    (poses : ℕ → SchPose K) (s : Coll K) : Out (Coll K × (ℕ → SchPose K)) :=
  forRange s.data.length (Coll.pairStep mbs data env) ({ s with nrAct := 0 }, poses)

/-- What the QP assembly reads (QPConstr.cpp:578-589). -/
def Coll.inEq (s : Coll K) : InEqC K :=
  ⟨s.data.length, s.nrAct, s.A, ⟨s.b.size, fun i => .fin (s.b.get i)⟩⟩

/-- `descInEq` (QPConstr.cpp:547-576): the pair the description is about (`none`: empty string).  The
distance is computed again from the current poses of the hulls. -/
def Coll.descInEq (env : CollEnv K) (poses : ℕ → SchPose K) (line : ℕ) (s : Coll K) :
    Option (CollData K) :=
  (s.data.filter fun d => decide
    (signedRoot env (env.closest d.hull1 (poses d.hull1) d.hull2 (poses d.hull2)).1 < d.di))[line]?

/-! ## CoMIncPlaneConstr -/

/-- `CoMIncPlaneConstr::PlaneData` (QPConstr.h:560-587). -/
structure PlaneData (K : Type) where
  normal : V3 K
  normalDot : V3 K
  offset : K
  dist : K
  di : K
  ds : K
  damping : K
  planeId : ℤ
  dtype : DampType
  off : K
  speed : V3 K

/-- `CoMIncPlaneConstr` (QPConstr.h:589-601); `alphaDBegin` is -1 before `updateNrVars`: `none`.
`activated_` is empty between calls and is local to `update` here. -/
structure ComPlane (K : Type) where
  robotIndex : ℕ
  alphaDBegin : Option ℕ
  data : List (PlaneData K)
  step : K
  nrVars : ℕ
  nrAct : ℕ
  selector : Vec K
  A : Mat K
  b : Vec K

/-- What RBDyn computes for the CoM of the robot: position, 3-row Jacobian (one column per dof),
velocity and normal acceleration. -/
structure ComEnv (K : Type) where
  com : V3 K
  jac : Mat K
  vel : V3 K
  normalAcc : V3 K

/-- Constructor (QPConstr.cpp:639-644). -/
def ComPlane.make (mb : MultiBody K) (robotIndex : ℕ) (step : K) : ComPlane K :=
  ⟨robotIndex, none, [], step, 0, 0, ⟨mb.nrDof, fun _ => 1⟩, ⟨0, 0, fun _ _ => 0⟩, ⟨0, fun _ => 0⟩⟩

/-- `addPlane` (QPConstr.cpp:646-671) and the constructor of `PlaneData` (QPConstr.cpp:625-637); the
first overload passes zero for `speed` and `normalDot`. -/
def ComPlane.add (planeId : ℤ) (normal : V3 K) (offset di ds damping : K) (speed normalDot : V3 K)
    (off : K) (s : ComPlane K) : ComPlane K :=
  { s with
    data := s.data ++ [⟨normal, normalDot, offset, 0, di, ds, damping, planeId,
      if 0 < damping then .hard else .free, off, speed⟩] }

/-- `rmPlane` (QPConstr.cpp:673-686). -/
def ComPlane.rm (planeId : ℤ) (s : ComPlane K) : Bool × ComPlane K :=
  if s.data.any (fun d => decide (d.planeId = planeId)) then
    (true, { s with data := s.data.eraseP fun d => decide (d.planeId = planeId) })
  else (false, s)

/-- `nrPlanes` (QPConstr.cpp:688-689). -/
def ComPlane.nrPlanes (s : ComPlane K) : ℕ := s.data.length

/-- `reset` (QPConstr.cpp:691-692). -/
def ComPlane.reset (s : ComPlane K) : ComPlane K := { s with data := [] }

/-- `updateNrPlanes` (QPConstr.cpp:694-698). -/
def ComPlane.updateNrPlanes (s : ComPlane K) : ComPlane K :=
  { s with A := Mat.zero s.data.length s.nrVars, b := ⟨s.data.length, fun _ => 0⟩ }

/-- `updateNrVars` (QPConstr.cpp:700-705). -/
def ComPlane.updateNrVars (d : SolverData K) (s : ComPlane K) : Out (ComPlane K) := do
  let a ← vecAt d.alphaDBegin s.robotIndex
  pure ({ s with alphaDBegin := some a, nrVars := d.nrVars } : ComPlane K).updateNrPlanes

/-- First loop of `update` (QPConstr.cpp:715-730): distances, indices of the active planes. -/
def planeScan (com : V3 K) (l : List (PlaneData K)) : List (PlaneData K) × List ℕ :=
  (l.map fun d =>
    let dist := d.normal.dot com + d.offset
    { d with
      dist := dist,
      dtype := if dist ≤ d.di then d.dtype else if d.dtype = .soft then .free else d.dtype },
   (List.range l.length).filter fun i =>
    (l[i]?).any fun d => decide (d.normal.dot com + d.offset ≤ d.di))

/-- Damping of an active plane (QPConstr.cpp:745-753). -/
def planeActivate (distDot : K) (d : PlaneData K) : Out (PlaneData K) :=
  if d.dtype = .free then do
    let fixedDist := if d.dist ≤ d.ds then d.ds + (d.di - d.ds) * (1 / 5) else d.dist
    let f ← fdiv (d.di - d.ds) (fixedDist - d.ds)
    pure { d with dtype := .soft, damping := -f * distDot + d.off }
  else pure d

/-- Body of the second loop (QPConstr.cpp:739-765).  The first of the two assignments to `AInEq_` is
overwritten by the second. -/
def ComPlane.row (mb : MultiBody K) (env : ComEnv K) (i : ℕ) (s : ComPlane K) :
    Out (ComPlane K) := do
  let d0 ← vecAt s.data i
  let distDot := d0.normal.dot (env.vel - d0.speed)
  let distDDot := d0.normalDot.dot (env.vel - d0.speed)
  let d ← planeActivate distDot d0
  let f ← fdiv (d.dist - d.ds) (d.di - d.ds)
  let a ← (match s.alphaDBegin with
    | none => .ub
    | some a => .ok a)
  guardUB (env.jac.rows = 3 ∧ env.jac.cols = mb.nrDof)
  let A ← s.A.setBlock s.nrAct a ⟨1, mb.nrDof, fun _ c =>
    rows3Dot (-(s.step • d.normal)) env.jac 0 c * s.selector.get c⟩
  let b ← s.b.set s.nrAct (d.damping * f + distDot + s.step * (d.normal.dot env.normalAcc + distDDot))
  let l ← vecSet s.data i d
  pure { s with A := A, b := b, data := l, nrAct := s.nrAct + 1 }

/-- `CoMIncPlaneConstr::update` (QPConstr.cpp:707-769). -/
def ComPlane.update (mbs : List (MultiBody K)) (env : ComEnv K) (s : ComPlane K) :
    Out (ComPlane K) := do
  let mb ← vecAt mbs s.robotIndex
  guardUB (s.selector.size = mb.nrDof)
  let sc := planeScan env.com s.data
  forEach sc.2 (ComPlane.row mb env) { s with data := sc.1, nrAct := 0 }

/-- What the QP assembly reads (QPConstr.cpp:801-811). -/
def ComPlane.inEq (s : ComPlane K) : InEqC K :=
  ⟨s.data.length, s.nrAct, s.A, ⟨s.b.size, fun i => .fin (s.b.get i)⟩⟩

/-- `descInEq` (QPConstr.cpp:774-799): the plane the description is about (`none`: empty string). -/
def ComPlane.descInEq (line : ℕ) (s : ComPlane K) : Option (PlaneData K) :=
  (s.data.filter fun d => decide (d.dist < d.di))[line]?

end

end Verif
