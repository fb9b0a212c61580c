import Verif.Model.Layout
import Verif.Model.Fill

/-!
# `GripperTorqueConstr` (QPConstr.cpp:812-915, QPConstr.h:603-646)
-/

set_option autoImplicit false

namespace Verif

/-- `m(i, j) = v` -/
def Mat.setAt {K : Type} (m : Mat K) (i j : ℕ) (v : K) : Out (Mat K) :=
  if i < m.rows ∧ j < m.cols then
    .ok ⟨m.rows, m.cols, fun a c => if a = i ∧ c = j then v else m.get a c⟩
  else .ub

/-- `GripperTorqueConstr::GripperData` (QPConstr.h:631-639, QPConstr.cpp:817-823). -/
structure GripperData (K : Type) where
  id : ContactId
  limit : K
  origin : V3 K
  axis : V3 K

/-- The fields of `GripperTorqueConstr` (QPConstr.h:641-645). -/
structure Gripper (K : Type) where
  data : List (GripperData K)
  A : Mat K
  b : Vec K

section
variable {K : Type} [Field K] [LinearOrder K] [IsStrictOrderedRing K]

/-- Constructor (QPConstr.cpp:825). -/
def Gripper.make : Gripper K := ⟨[], ⟨0, 0, fun _ _ => 0⟩, ⟨0, fun _ => 0⟩⟩

/-- `addGripper` (QPConstr.cpp:827-831). -/
def Gripper.add (g : GripperData K) (s : Gripper K) : Gripper K := { s with data := s.data ++ [g] }

/-- `rmGripper` (QPConstr.cpp:833-845). -/
def Gripper.rm (id : ContactId) (s : Gripper K) : Bool × Gripper K :=
  if s.data.any (fun g => g.id.eq id) then
    (true, { s with data := s.data.eraseP fun g => g.id.eq id })
  else (false, s)

/-- `reset` (QPConstr.cpp:847-848). -/
def Gripper.reset (s : Gripper K) : Gripper K := { s with data := [] }

/-- Inner loop of `updateNrVars` (QPConstr.cpp:872-878): the generators of one point, `T` being
`T_o_p`. -/
def gripGens (axis T : V3 K) (line : ℕ) (gens : List (V3 K)) (s : Mat K × ℕ) : Out (Mat K × ℕ) :=
  forEach gens (fun g (s : Mat K × ℕ) => do
    let A ← s.1.setAt line s.2 |axis.dot (T.cross g)|
    pure (A, s.2 + 1)) s

/-- Middle loop (QPConstr.cpp:869-879): the points of the contact. -/
def gripPoints (g : GripperData K) (c : BiContact K) (line : ℕ) (s : Mat K × ℕ) : Out (Mat K × ℕ) :=
  forRange c.r1Cones.length (fun i s => do
    let p ← vecAt c.r1Points i
    let cone ← vecAt c.r1Cones i
    gripGens g.axis (p - g.origin) line cone.generators s) s

/-- The search of the contact of a gripper (QPConstr.cpp:860-865): the first one with its id. -/
def gripFind (id : ContactId) : List (BiContact K) → ℕ → Option (ℕ × BiContact K)
  | [], _ => none
  | c :: t, k => if c.id.eq id then some (k, c) else gripFind id t (k + 1)

/-- State of the loop over the grippers. -/
structure GripSt (K : Type) where
  A : Mat K
  b : Vec K
  line : ℕ

/-- Body of the loop over the grippers (QPConstr.cpp:858-886). -/
def gripStep (d : SolverData K) (g : GripperData K) (s : GripSt K) : Out (GripSt K) :=
  match gripFind g.id d.biCont 0 with
  | none => .ok s
  | some (bi, c) => do
    let col ← vecAt d.lambdaBegin (bi + d.uniCont.length)
    let r ← gripPoints g c s.line (s.A, col)
    let b ← s.b.set s.line g.limit
    pure ⟨r.1, b, s.line + 1⟩

/-- `updateNrVars` (QPConstr.cpp:850-887). -/
def Gripper.updateNrVars (d : SolverData K) (s : Gripper K) : Out (Gripper K) := do
  let r ← forEach s.data (gripStep d) ⟨Mat.zero s.data.length d.nrVars, ⟨s.data.length, fun _ => 0⟩, 0⟩
  pure { s with A := r.A, b := r.b }

/-- `update` (QPConstr.cpp:889-893) does nothing. -/
def Gripper.update (s : Gripper K) : Gripper K := s

/-- `descInEq` (QPConstr.cpp:898-906): the gripper the description is about. -/
def Gripper.descInEq (line : ℕ) (s : Gripper K) : Out (GripperData K) := vecAt s.data line

/-- What the QP assembly reads (QPConstr.cpp:908-915; `nrInEq` is `maxInEq` by default,
QPSolver.h:385). -/
def Gripper.inEq (s : Gripper K) : InEqC K :=
  ⟨s.data.length, s.data.length, s.A, ⟨s.b.size, fun i => .fin (s.b.get i)⟩⟩

end

end Verif
