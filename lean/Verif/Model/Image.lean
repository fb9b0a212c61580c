import Verif.Model.BoundedSpeed

/-!
# `ImageConstr` (QPConstr.cpp:1046-1346, QPConstr.h:780-925)

RBDyn's image Jacobians and body kinematics are parameters (`ImageEnv`).  `Vector2d` values are functions
read at 0 and 1.
-/

set_option autoImplicit false

namespace Verif

/-- What RBDyn computes: `imagePointJacobian(point, depth)` (2×6), `depthDotJacobian(speed, depth)` (1×6),
`imagePointJacobianDot(point, speed, depth, depthDot)` (2×6); and for the camera frame at the current
configuration the velocity, the normal acceleration (6 entries) and the Jacobian (6 rows, columns along
the joint path). -/
structure ImageEnv (K : Type) where
  imgJac : (ℕ → K) → K → ℕ → ℕ → K
  depthDot : (ℕ → K) → K → ℕ → K
  imgJacDot : (ℕ → K) → (ℕ → K) → K → K → ℕ → ℕ → K
  vel : ℕ → K
  nacc : ℕ → K
  jac : Mat K

/-- `ImageConstr::PointData` (QPConstr.h:884-890). -/
structure ImgPoint (K : Type) where
  p : ℕ → K
  depth : K

/-- The fields of `ImageConstr` that survive from a call to the next (QPConstr.h:901-924).
`robotPoints` are the names of the bodies in `dataVecRob_`.  `alphaDBegin_` is -1 before the first
`updateNrVars`: `none`. -/
structure Image (K : Type) where
  points : List (ImgPoint K)
  robotPoints : List String
  robotIndex : ℕ
  path : List ℕ
  alphaDBegin : Option ℕ
  nrVars : ℕ
  step : K
  accel : K
  nrAct : ℕ
  jacMat : Mat K
  iMin : ℕ → K
  iMax : ℕ → K
  sMin : ℕ → K
  sMax : ℕ → K
  damping : K
  off : K
  inv : K
  dir : K
  A : Mat K
  b : Vec K

section
variable {K : Type} [Field K] [LinearOrder K]

/-- Constructor (QPConstr.cpp:1057-1078); `junk` is the uninitialised content of `jacMat_`. -/
def Image.make (rks : List (RobotKin K)) (robotIndex : ℕ) (body : String) (step dir : K)
    (junk : ℕ → ℕ → K) : Out (Image K) := do
  let rk ← vecAt rks robotIndex
  let path ← rk.path body
  pure ⟨[], [], robotIndex, path, none, 0, step, 1 / 2 * step * step, 0, ⟨2, rk.mb.nrDof, junk⟩,
    fun _ => 0, fun _ => 0, fun _ => 0, fun _ => 0, 0, 0, 1, dir, ⟨0, 0, fun _ _ => 0⟩, ⟨0, fun _ => 0⟩⟩

/-- `addPoint(point2d, depth)` (QPConstr.cpp:1131-1135): the new state and the id. -/
def Image.addPoint (p : ℕ → K) (depth : K) (s : Image K) : Image K × ℕ :=
  ({ s with points := s.points ++ [⟨p, depth⟩] }, s.points.length)

/-- `addPoint(point3d)` (QPConstr.cpp:1137-1142). -/
def Image.addPoint3 (p : V3 K) (s : Image K) : Out (Image K × ℕ) := do
  let u ← fdiv p.x p.z
  let v ← fdiv p.y p.z
  pure (s.addPoint (fun i => if i = 0 then u else v) p.z)

/-- `addPoint(mbs, bName, X_b_p)` (QPConstr.cpp:1144-1147), for a body of the robot: for another name the
constructor of `rbd::Jacobian` throws (`RobotKin.path`) and the state is unchanged. -/
def Image.addRobotPoint (body : String) (s : Image K) : Image K :=
  { s with robotPoints := s.robotPoints ++ [body] }

/-- `reset` (QPConstr.cpp:1149-1153). -/
def Image.reset (s : Image K) : Image K :=
  { s with
    points := []
    robotPoints := [] }

/-- `updatePoint(id, point2d)` (QPConstr.cpp:1155-1156). -/
def Image.updatePoint (id : ℕ) (p : ℕ → K) (s : Image K) : Out (Image K) := do
  let d ← vecAt s.points id
  pure { s with points := s.points.set id ⟨p, d.depth⟩ }

/-- `updatePoint(id, point2d, depth)` (QPConstr.cpp:1158-1159). -/
def Image.updatePointD (id : ℕ) (p : ℕ → K) (depth : K) (s : Image K) : Out (Image K) := do
  let _ ← vecAt s.points id
  pure { s with points := s.points.set id ⟨p, depth⟩ }

/-- `updatePoint(id, point3d)` (QPConstr.cpp:1161-1165). -/
def Image.updatePoint3 (id : ℕ) (p : V3 K) (s : Image K) : Out (Image K) := do
  let u ← fdiv p.x p.z
  let v ← fdiv p.y p.z
  s.updatePointD id (fun i => if i = 0 then u else v) p.z

/-- `setLimits` (QPConstr.cpp:1167-1183). -/
def Image.setLimits (min max : ℕ → K) (iPct sPct damping offPct : K) (s : Image K) : Image K :=
  { s with
    iMin := fun i => min i + s.dir * iPct * (max i - min i)
    iMax := fun i => max i - s.dir * iPct * (max i - min i)
    sMin := fun i => min i + s.dir * sPct * (max i - min i)
    sMax := fun i => max i - s.dir * sPct * (max i - min i)
    damping := damping
    off := s.dir * offPct * damping }

/-- The product of a row with 6 entries and a vector with 6 entries. -/
def dot6 (a v : ℕ → K) : K := ∑ k ∈ Finset.range 6, a k * v k

/-- `computeComponents` (QPConstr.cpp:1185-1217): the full Jacobian and `bCommonTerm`. -/
def Image.components (mb : MultiBody K) (env : ImageEnv K) (pt : ImgPoint K) (path : List ℕ)
    (s : Image K) : Out (Mat K × (ℕ → K)) := do
  let L := env.imgJac pt.p pt.depth
  let speed := fun i => dot6 (L i) env.vel
  let zdot := dot6 (env.depthDot speed pt.depth) env.vel
  let Ld := env.imgJacDot pt.p speed pt.depth zdot
  let nacc := fun i => dot6 (L i) env.nacc + dot6 (Ld i) env.vel
  let J ← env.jac.block 0 0 6 (pathDof mb path)
  let short : Mat K := ⟨2, J.cols, fun i c => ∑ k ∈ Finset.range 6, (s.accel * L i k) * J.get k c⟩
  let full ← fullJacobian mb path short s.jacMat
  pure (full, fun i => -s.step * speed i - s.accel * nacc i)

/-- "fill the needed QP constraint data" for an active axis (QPConstr.cpp:1296-1302). -/
def Image.fill (mb : MultiBody K) (i : ℕ) (s : Image K) : Out (Image K) := do
  let a ← (match s.alphaDBegin with | some a => Out.ok a | none => .ub)
  let r ← s.jacMat.block i 0 1 mb.nrDof
  let A ← s.A.setBlock s.nrAct a ⟨1, mb.nrDof, fun x c => s.inv * r.get x c⟩
  pure { s with
    A := A
    nrAct := s.nrAct + 1 }

/-- One axis of one point (QPConstr.cpp:1246-1303); `bc` is `bCommonTerm`. -/
def Image.axis (mb : MultiBody K) (p bc : ℕ → K) (i : ℕ) (s : Image K) : Out (Image K) :=
  let o := if i = 0 then 1 else 0
  if s.dir = 1 ∨ (s.iMin o < p o ∧ p o < s.iMax o) then
    if s.dir * p i < s.dir * s.iMin i ∧ (s.dir = 1 ∨ p i < 0) then
      if s.dir * s.sMin i < s.dir * p i then do
        let inv := -1 * s.dir
        let q ← fdiv (p i - s.sMin i) (s.iMin i - s.sMin i)
        let b ← s.b.set s.nrAct (s.dir * (s.damping * q - s.off) + inv * bc i)
        Image.fill mb i { s with
          inv := inv
          b := b }
      else do
        let b ← s.b.set s.nrAct (-s.dir * s.off + s.inv * bc i)
        pure { s with b := b }
    else if s.dir * s.iMax i < s.dir * p i ∧ (s.dir = 1 ∨ 0 < p i) then
      if s.dir * p i < s.dir * s.sMax i then do
        let inv := 1 * s.dir
        let q ← fdiv (p i - s.sMax i) (s.iMax i - s.sMax i)
        let b ← s.b.set s.nrAct (s.dir * (s.damping * q - s.off) + inv * bc i)
        Image.fill mb i { s with
          inv := inv
          b := b }
      else do
        let b ← s.b.set s.nrAct (-s.dir * s.off + s.inv * bc i)
        pure { s with b := b }
    else pure s
  else pure s

/-- One point (QPConstr.cpp:1238-1304). -/
def Image.point (mb : MultiBody K) (env : ImageEnv K) (pt : ImgPoint K) (s : Image K) : Out (Image K) := do
  let c ← s.components mb env pt s.path
  forRange 2 (Image.axis mb pt.p c.2) { s with jacMat := c.1 }

/-- `updateNrVars` (QPConstr.cpp:1219-1226). -/
def Image.updateNrVars (d : SolverData K) (s : Image K) : Out (Image K) := do
  let a ← vecAt d.alphaDBegin s.robotIndex
  let n := 2 * (s.points.length + s.robotPoints.length)
  pure { s with
    alphaDBegin := some a
    nrVars := d.nrVars
    A := Mat.zero n d.nrVars
    b := ⟨n, fun _ => 0⟩ }

/-- `update` (QPConstr.cpp:1228-1305). -/
def Image.update (mbs : List (MultiBody K)) (env : ImageEnv K) (s : Image K) : Out (Image K) := do
  let mb ← vecAt mbs s.robotIndex
  forEach s.points (Image.point mb env) { s with nrAct := 0 }

/-- The loops of `descInEq` (QPConstr.cpp:1310-1334) from point `i` and line `cur` on. -/
def imgDesc (line : ℕ) : List (ImgPoint K) → ℕ → ℕ → Option (ℕ × ℕ)
  | [], _, _ => none
  | _ :: t, i, cur =>
    if cur = line then some (i, 0)
    else if cur + 1 = line then some (i, 1)
    else imgDesc line t (i + 1) (cur + 2)

/-- `descInEq` (QPConstr.cpp:1310-1334): the point and the axis (0 or 1) the description is about;
`none` is the empty string. -/
def Image.desc (line : ℕ) (s : Image K) : Option (ℕ × ℕ) := imgDesc line s.points 0 0

/-- What the QP assembly reads (QPConstr.cpp:1336-1346). -/
def Image.inEq (s : Image K) : InEqC K :=
  ⟨2 * (s.points.length + s.robotPoints.length), s.nrAct, s.A, ⟨s.b.size, fun i => .fin (s.b.get i)⟩⟩

end

end Verif
