import Verif.Model.Jacobian
import Verif.Model.Collision

/-!
# `BoundedSpeedConstr` (QPConstr.cpp:917-1045, QPConstr.h:647-776)

RBDyn's Jacobian, velocity and normal acceleration of a body point are parameters (`BodyKin6`).
-/

set_option autoImplicit false

namespace Verif

/-- What RBDyn computes for a point of a body at the current configuration, in body axes: the body
Jacobian (`bodyJacobian`, 6 rows, columns along the joint path), `bodyVelocity(...).vector()` and
`bodyNormalAcceleration(...).vector()` (6 entries each). -/
structure BodyKin6 (K : Type) where
  jac : Mat K
  vel : ℕ → K
  nacc : ℕ → K

/-- `BoundedSpeedData` (QPConstr.h:744-760); `path` and `point` stand for the `rbd::Jacobian`. -/
structure SpeedData (K : Type) where
  bodyName : String
  point : V3 K
  path : List ℕ
  dof : Mat K
  l : Vec (Ext K)
  u : Vec (Ext K)
  body : ℕ

/-- The fields of `BoundedSpeedConstr` (QPConstr.h:765-775); `alphaDBegin_` is uninitialised before the
first `updateNrVars`: `none`. -/
structure BoundedSpeed (K : Type) where
  robotIndex : ℕ
  alphaDBegin : Option ℕ
  cont : List (SpeedData K)
  fullJac : Mat K
  A : Mat K
  lower : Vec (Ext K)
  upper : Vec (Ext K)
  nrVars : ℕ
  step : K

section
variable {K : Type} [Field K] [LinearOrder K]

/-- The matrix product `a * b`; Eigen asserts that the sizes match. -/
def Mat.mul (a b : Mat K) : Out (Mat K) :=
  if a.cols = b.rows then
    .ok ⟨a.rows, b.cols, fun i j => ∑ k ∈ Finset.range a.cols, a.get i k * b.get k j⟩
  else .ub

/-- The product of a matrix and a vector with 6 entries. -/
def Mat.mulVec6 (a : Mat K) (v : ℕ → K) : Out (Vec K) :=
  if a.cols = 6 then .ok ⟨a.rows, fun i => ∑ k ∈ Finset.range 6, a.get i k * v k⟩ else .ub

/-- Constructor (QPConstr.cpp:921-925); `junk` is the uninitialised content of `fullJac_`. -/
def BoundedSpeed.make (mbs : List (MultiBody K)) (robotIndex : ℕ) (step : K) (junk : ℕ → ℕ → K) :
    Out (BoundedSpeed K) := do
  let mb ← vecAt mbs robotIndex
  pure ⟨robotIndex, none, [], ⟨6, mb.nrDof, junk⟩, ⟨0, 0, fun _ _ => 0⟩, ⟨0, fun _ => .fin 0⟩,
    ⟨0, fun _ => .fin 0⟩, 0, step⟩

/-- `addBoundedSpeed` with two bounds (QPConstr.cpp:934-943). -/
def BoundedSpeed.add (rk : RobotKin K) (name : String) (point : V3 K) (dof : Mat K)
    (l u : Vec (Ext K)) (s : BoundedSpeed K) : Out (BoundedSpeed K) := do
  let path ← rk.path name
  match path.getLast? with
  | none => .ub
  | some body => pure { s with cont := s.cont ++ [⟨name, point, path, dof, l, u, body⟩] }

/-- `addBoundedSpeed` with one speed (QPConstr.cpp:927-932). -/
def BoundedSpeed.add1 (rk : RobotKin K) (name : String) (point : V3 K) (dof : Mat K)
    (speed : Vec (Ext K)) (s : BoundedSpeed K) : Out (BoundedSpeed K) := s.add rk name point dof speed speed

/-- `removeBoundedSpeed` (QPConstr.cpp:945-957). -/
def BoundedSpeed.remove (name : String) (s : BoundedSpeed K) : Bool × BoundedSpeed K :=
  if s.cont.any (fun c => c.bodyName == name) then
    (true, { s with cont := s.cont.eraseP fun c => c.bodyName == name })
  else (false, s)

/-- `resetBoundedSpeeds` (QPConstr.cpp:959-960). -/
def BoundedSpeed.reset (s : BoundedSpeed K) : BoundedSpeed K := { s with cont := [] }

/-- `nrBoundedSpeeds` (QPConstr.cpp:962-963). -/
def BoundedSpeed.count (s : BoundedSpeed K) : ℕ := s.cont.length

/-- `updateNrEq` (QPConstr.cpp:1035-1043), also `updateBoundedSpeeds` (QPConstr.cpp:965-966). -/
def BoundedSpeed.updateNrEq (s : BoundedSpeed K) : BoundedSpeed K :=
  let n := (s.cont.map fun c => c.dof.rows).sum
  { s with A := Mat.zero n s.nrVars, lower := ⟨n, fun _ => .fin 0⟩, upper := ⟨n, fun _ => .fin 0⟩ }

/-- `updateNrVars` (QPConstr.cpp:968-973). -/
def BoundedSpeed.updateNrVars (d : SolverData K) (s : BoundedSpeed K) : Out (BoundedSpeed K) := do
  let a ← vecAt d.alphaDBegin s.robotIndex
  pure (BoundedSpeed.updateNrEq { s with alphaDBegin := some a, nrVars := d.nrVars })

/-- Body of the loop of `update` (QPConstr.cpp:990-1010); the state is the object and `index`. -/
def speedStep (mb : MultiBody K) (kin : String → V3 K → BodyKin6 K) (c : SpeedData K)
    (t : BoundedSpeed K × ℕ) : Out (BoundedSpeed K × ℕ) := do
  let s := t.1
  let index := t.2
  let rows := c.dof.rows
  let k := kin c.bodyName c.point
  let J ← fullJacobian mb c.path k.jac s.fullJac
  let P ← c.dof.mul J
  let a ← (match s.alphaDBegin with | some a => Out.ok a | none => .ub)
  guardUB (P.cols = mb.nrDof)
  let A ← s.A.setBlock index a P
  guardUB (s.step ≠ 0)
  let v ← c.dof.mulVec6 fun q => -k.nacc q - k.vel q / s.step
  guardUB (c.l.size = rows)
  guardUB (c.u.size = rows)
  let lo ← s.lower.setSegment index ⟨rows, fun i => ((c.l.get i).divBy s.step).addFin (v.get i)⟩
  let up ← s.upper.setSegment index ⟨rows, fun i => ((c.u.get i).divBy s.step).addFin (v.get i)⟩
  pure ({ s with fullJac := J, A := A, lower := lo, upper := up }, index + rows)

/-- `update` (QPConstr.cpp:975-1012). -/
def BoundedSpeed.update (mbs : List (MultiBody K)) (kin : String → V3 K → BodyKin6 K)
    (s : BoundedSpeed K) : Out (BoundedSpeed K) := do
  let mb ← vecAt mbs s.robotIndex
  let r ← forEach s.cont (speedStep mb kin) (s, 0)
  pure r.1

/-- `descGenInEq` (QPConstr.cpp:1017-1026): the loop from `curRow`; `none` is the empty string. -/
def speedDesc (bodyNames : List String) (line : ℕ) : List (SpeedData K) → ℕ → Out (Option String)
  | [], _ => .ok none
  | c :: t, cur =>
    if line < cur + c.dof.rows then do
      let n ← vecAt bodyNames c.body
      pure (some n)
    else speedDesc bodyNames line t (cur + c.dof.rows)

/-- `descGenInEq` (QPConstr.cpp:1017-1026); `bodyNames` are the names of the bodies of the robot. -/
def BoundedSpeed.desc (bodyNames : List String) (line : ℕ) (s : BoundedSpeed K) : Out (Option String) :=
  speedDesc bodyNames line s.cont 0

/-- What the QP assembly reads (QPConstr.cpp:1028-1038; `nrGenInEq` is `maxGenInEq` by default). -/
def BoundedSpeed.gen (s : BoundedSpeed K) : GenC K := ⟨s.A.rows, s.A.rows, s.A, s.lower, s.upper⟩

end

end Verif
