import Verif.Model.Kine
import Verif.Model.Limits

/-!
# Visual servoing tasks

`GazeTask` and `PositionBasedVisServoTask` (Tasks.cpp:461-680).  The part of `update` that follows the
computation of the interaction matrix is `visualUpdate` (`Model/Kine`).

`rbd::imagePointJacobian` and `rbd::imagePointJacobianDot` are RBDyn functions: the classical interaction
matrix of a point of the image and its derivative, rotation columns first.  `rbd::depthDotJacobian`,
`rbd::getAngleAxis` and `rbd::poseJacobian` are parameters.
-/

set_option autoImplicit false

namespace Verif

section
variable {K : Type} [Field K]

/-- Entries of the interaction matrix of the image point `p` at depth `Z`. -/
def imgL (p : K × K) (Z : K) : ℕ → ℕ → K
  | 0, 0 => p.1 * p.2
  | 0, 1 => -(1 + p.1 ^ 2)
  | 0, 2 => p.2
  | 0, 3 => -(1 / Z)
  | 0, 4 => 0
  | 0, 5 => p.1 / Z
  | 1, 0 => 1 + p.2 ^ 2
  | 1, 1 => -(p.1 * p.2)
  | 1, 2 => -p.1
  | 1, 3 => 0
  | 1, 4 => -(1 / Z)
  | 1, 5 => p.2 / Z
  | _, _ => 0

/-- Entries of its derivative, when the point moves with `u` and the depth changes at the rate `Zd`. -/
def imgLdot (p : K × K) (u : ℕ → K) (Z Zd : K) : ℕ → ℕ → K
  | 0, 0 => u 0 * p.2 + p.1 * u 1
  | 0, 1 => -(2 * p.1 * u 0)
  | 0, 2 => u 1
  | 0, 3 => Zd / Z ^ 2
  | 0, 4 => 0
  | 0, 5 => u 0 / Z - p.1 * Zd / Z ^ 2
  | 1, 0 => 2 * p.2 * u 1
  | 1, 1 => -(u 0 * p.2 + p.1 * u 1)
  | 1, 2 => -u 0
  | 1, 3 => 0
  | 1, 4 => Zd / Z ^ 2
  | 1, 5 => u 1 / Z - p.2 * Zd / Z ^ 2
  | _, _ => 0

/-- `GazeTask` (Tasks.h:269-325); the scratch matrices are recomputed by every `update`. -/
structure GazeT (K : Type) where
  point2d : K × K
  ref : K × K
  depth : K
  bodyIndex : ℕ
  jac : Jac K
  X_b_gaze : PT K
  eval : K × K
  speed : Vec K
  normalAcc : Vec K
  jacMat : Mat K

/-- `GazeTask::error(point2d, ref)` (Tasks.cpp:532-536): the depth estimate stays. -/
def GazeT.error2 (s : GazeT K) (p ref : K × K) : GazeT K := { s with point2d := p, ref := ref }

variable [DecidableEq K]

/-- `point3d[0] / point3d[2], point3d[1] / point3d[2]` (Tasks.cpp:494, 540). -/
def project (p : V3 K) : Out (K × K) := do
  let a ← fdiv p.x p.z
  let b ← fdiv p.y p.z
  pure (a, b)

/-- `GazeTask::GazeTask` from a point of the image and a depth (Tasks.cpp:465-479); the memory of the
results is not initialised (`junk`). -/
def GazeT.make2 (mb : MultiBody K) (bodyIndex : ℕ) (path : List ℕ) (p : K × K) (depth : K) (X_b_gaze : PT K)
    (ref : K × K) (junk : ℕ → ℕ → K) : GazeT K :=
  ⟨p, ref, depth, bodyIndex, ⟨path, 0⟩, X_b_gaze, (junk 0 0, junk 0 1), ⟨2, junk 1⟩, ⟨2, junk 2⟩,
    ⟨2, mb.nrDof, junk⟩⟩

/-- `GazeTask::error(point3d, ref)` (Tasks.cpp:538-543). -/
def GazeT.error3 (s : GazeT K) (p : V3 K) (ref : K × K) : Out (GazeT K) := do
  let q ← project p
  pure { s with point2d := q, depth := p.z, ref := ref }

/-- `GazeTask::GazeTask` from a point of space (Tasks.cpp:481-496). -/
def GazeT.make3 (mb : MultiBody K) (bodyIndex : ℕ) (path : List ℕ) (p : V3 K) (X_b_gaze : PT K)
    (ref : K × K) (junk : ℕ → ℕ → K) : Out (GazeT K) := do
  let q ← project p
  pure (GazeT.make2 mb bodyIndex path q p.z X_b_gaze ref junk)

/-- `rbd::imagePointJacobian`: divides by the depth. -/
def imagePointJacobian (p : K × K) (Z : K) : Out (ℕ → ℕ → K) :=
  if Z = 0 then .ub else .ok (imgL p Z)

/-- `GazeTask::update` (Tasks.cpp:545-569).  `depthDot speed depth` is `rbd::depthDotJacobian`, a row of
six entries. -/
def GazeT.update (depthDot : (ℕ → K) → K → ℕ → K) (mb : MultiBody K) (st : KState K) (s : GazeT K) :
    Out (GazeT K) := do
  let e : K × K := (s.ref.1 - s.point2d.1, s.ref.2 - s.point2d.2)
  let L ← imagePointJacobian s.point2d s.depth
  let r ← visualUpdate 2 L
    (fun u V => imgLdot s.point2d u s.depth (∑ j ∈ Finset.range 6, depthDot u s.depth j * V j))
    mb st s.bodyIndex s.jac s.X_b_gaze s.jacMat
  pure { s with eval := e, speed := r.1, normalAcc := r.2.1, jacMat := r.2.2 }

end

section
variable {K : Type} [CommRing K]

/-- `PositionBasedVisServoTask` (Tasks.h:327-377). -/
structure PbvsT (K : Type) where
  X_t_s : PT K
  X_b_s : PT K
  bodyIndex : ℕ
  jac : Jac K
  eval : MV K
  speed : Vec K
  normalAcc : Vec K
  jacMat : Mat K

/-- `PositionBasedVisServoTask::PositionBasedVisServoTask` (Tasks.cpp:590-601). -/
def PbvsT.make (mb : MultiBody K) (bodyIndex : ℕ) (path : List ℕ) (X_t_s X_b_s : PT K)
    (junk : ℕ → ℕ → K) : PbvsT K :=
  ⟨X_t_s, X_b_s, bodyIndex, ⟨path, 0⟩, ⟨⟨junk 0 0, junk 0 1, junk 0 2⟩, ⟨junk 0 3, junk 0 4, junk 0 5⟩⟩,
    ⟨6, junk 1⟩, ⟨6, junk 2⟩, ⟨6, mb.nrDof, junk⟩⟩

/-- `PositionBasedVisServoTask::error` (Tasks.cpp:635-636). -/
def PbvsT.error (s : PbvsT K) (X : PT K) : PbvsT K := { s with X_t_s := X }

/-- Entry of a 3×3 matrix. -/
def M3.entry (m : M3 K) (a j : ℕ) : K :=
  match a with
  | 0 => m.r0.get j
  | 1 => m.r1.get j
  | _ => m.r2.get j

/-- `L_pbvs_dot_` (Tasks.cpp:655-656): only the lower right block is not zero. -/
def pbvsLdot (E : M3 K) (w : V3 K) (a j : ℕ) : K :=
  if 3 ≤ a ∧ 3 ≤ j then -((E.transpose.mul (skewMatrix w)).entry (a - 3) (j - 3)) else 0

/-- `PositionBasedVisServoTask::update` (Tasks.cpp:638-665).  `angleAxis m` is the product of the angle
and of the axis given by `rbd::getAngleAxis`, `poseJac m` the 6×6 matrix `rbd::poseJacobian` gives. -/
def PbvsT.update (angleAxis : M3 K → V3 K) (poseJac : M3 K → ℕ → ℕ → K) (mb : MultiBody K) (st : KState K)
    (s : PbvsT K) : Out (PbvsT K) := do
  let e : MV K := ⟨angleAxis s.X_t_s.E.transpose, -s.X_t_s.r⟩
  let r ← visualUpdate 6 (poseJac s.X_t_s.E)
    (fun _ V => pbvsLdot s.X_t_s.E ⟨V 0, V 1, V 2⟩)
    mb st s.bodyIndex s.jac s.X_b_s s.jacMat
  pure { s with eval := e, speed := r.1, normalAcc := r.2.1, jacMat := r.2.2 }

end

end Verif
