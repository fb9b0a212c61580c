import Verif.Model.Multi
import Verif.Model.Gripper

/-!
# Model of `qp::ContactTask` (QPTasks.cpp:1265-1323, QPTasks.h:911-943) and
`qp::GripperTorqueTask` (QPTasks.cpp:1329-1387, QPTasks.h:945-971)
-/

set_option autoImplicit false

namespace Verif

open Finset

/-- `m.col(j) = v` on a matrix with three rows. -/
def Mat.setCol3 {K : Type} (m : Mat K) (j : ℕ) (v : V3 K) : Out (Mat K) :=
  if m.rows = 3 ∧ j < m.cols then
    .ok ⟨m.rows, m.cols, fun a c => if c = j then v.toVec.get a else m.get a c⟩
  else .ub

/-- The members of `ContactTask`; `stiffness_` and `stiffnessSqrt_` are never read. -/
structure ContactT (K : Type) where
  id : ContactId
  weight : K
  begin' : ℕ
  conesJac : Mat K
  error : V3 K
  errorD : V3 K
  Q : Mat K
  C : Vec K

section
variable {K : Type} [CommRing K]

/-- Constructor (QPTasks.h:914-918). -/
def ContactT.make (id : ContactId) (weight : K) : ContactT K :=
  ⟨id, weight, 0, Mat.zero 0 0, 0, 0, Mat.zero 0 0, Vec.const 0 0⟩

/-- `error` (QPTasks.cpp:1265-1266). -/
def ContactT.setError (e : V3 K) (s : ContactT K) : ContactT K := { s with error := e }

/-- `errorD` (QPTasks.cpp:1268-1269). -/
def ContactT.setErrorD (e : V3 K) (s : ContactT K) : ContactT K := { s with errorD := e }

/-- The search loop (QPTasks.cpp:1278-1292): the begin, `nrLambda` and cones.  `nrLambda` of each
contact up to the searched one is evaluated. -/
def contactFind (id : ContactId) : List (BiContact K) → ℕ → Out (ℕ × ℕ × List (FrictionCone K))
  | [], b => .ok (b, 0, [])
  | c :: t, b => do
    let cur ← c.nrLambda
    if c.id.eq id then pure (b, cur, c.r1Cones) else contactFind id t (b + cur)

/-- The loops filling `conesJac_` (QPTasks.cpp:1295-1303). -/
def conesLoop (cones : List (FrictionCone K)) (s : Mat K × ℕ) : Out (Mat K × ℕ) :=
  forEach cones (fun fc s =>
    forEach fc.generators (fun g (s : Mat K × ℕ) => do
      let m ← s.1.setCol3 s.2 g
      pure (m, s.2 + 1)) s) s

/-- `updateNrVars` (QPTasks.cpp:1271-1308); `junk` is what `resize` leaves in `conesJac_`. -/
def ContactT.updateNrVars (d : SolverData K) (junk : ℕ → ℕ → K) (s : ContactT K) :
    Out (ContactT K) := do
  let f ← contactFind s.id d.allCont d.lambdaBegin0
  let g ← conesLoop f.2.2 (⟨3, f.2.1, junk⟩, 0)
  let q ← g.1.trMul g.1
  pure { s with
    begin' := f.1, conesJac := g.1, Q := q, C := Vec.const f.2.1 0 }

/-- `update` (QPTasks.cpp:1310-1317); before `updateNrVars` the product has mismatched sizes. -/
def ContactT.update (s : ContactT K) : Out (ContactT K) := do
  let c ← s.conesJac.negTrMulVec s.error.toVec
  pure { s with
    C := c }

/-- What the QP assembly reads (QPTasks.h:920, QPTasks.cpp:1319-1323). -/
def ContactT.task (s : ContactT K) : TaskQC K := ⟨s.Q, s.C, (s.begin', s.begin'), s.weight⟩

end

/-- The members of `GripperTorqueTask`. -/
structure GripperT (K : Type) where
  id : ContactId
  origin : V3 K
  axis : V3 K
  weight : K
  begin' : ℕ
  Q : Mat K
  C : Vec K

section
variable {K : Type} [Field K] [LinearOrder K] [IsStrictOrderedRing K]

/-- Constructor (QPTasks.h:948-951). -/
def GripperT.make (id : ContactId) (origin axis : V3 K) (weight : K) : GripperT K :=
  ⟨id, origin, axis, weight, 0, Mat.zero 0 0, Vec.const 0 0⟩

/-- Inner loop of `updateNrVars` (QPTasks.cpp:1353-1359). -/
def gripTaskGens (axis T : V3 K) (gens : List (V3 K)) (s : Vec K × ℕ) : Out (Vec K × ℕ) :=
  forEach gens (fun g (s : Vec K × ℕ) => do
    let C ← s.1.set s.2 |axis.dot (T.cross g)|
    pure (C, s.2 + 1)) s

/-- The loop over the cones (QPTasks.cpp:1350-1360). -/
def gripTaskPoints (origin axis : V3 K) (c : BiContact K) (s : Vec K × ℕ) : Out (Vec K × ℕ) :=
  forRange c.r1Cones.length (fun i s => do
    let p ← vecAt c.r1Points i
    let cone ← vecAt c.r1Cones i
    gripTaskGens axis (p - origin) cone.generators s) s

/-- The loop over the bilateral contacts (QPTasks.cpp:1335-1365): begin, `Q_` and `C_` if the contact
is found; `curLambda` of each contact up to it is evaluated. -/
def gripTaskFind (s : GripperT K) (junk : ℕ → K) :
    List (BiContact K) → ℕ → Out (Option (ℕ × Mat K × Vec K))
  | [], _ => .ok none
  | c :: t, b => do
    let cur ← c.nrLambda
    if c.id.eq s.id then do
      let r ← gripTaskPoints s.origin s.axis c (⟨cur, junk⟩, 0)
      pure (some (b, Mat.zero cur cur, r.1))
    else gripTaskFind s junk t (b + cur)

/-- `updateNrVars` (QPTasks.cpp:1329-1375); `junk` is what `resize` leaves in `C_`. -/
def GripperT.updateNrVars (d : SolverData K) (junk : ℕ → K) (s : GripperT K) :
    Out (GripperT K) := do
  match ← gripTaskFind s junk d.biCont d.bilateralBegin with
  | some r => pure { s with
      begin' := r.1, Q := r.2.1, C := r.2.2 }
  | none => pure { s with
      begin' := 0, Q := Mat.zero 0 0, C := Vec.const 0 0 }

/-- `update` (QPTasks.cpp:1377-1381) does nothing. -/
def GripperT.update (s : GripperT K) : GripperT K := s

/-- What the QP assembly reads (QPTasks.h:953, QPTasks.cpp:1383-1387). -/
def GripperT.task (s : GripperT K) : TaskQC K := ⟨s.Q, s.C, (s.begin', s.begin'), s.weight⟩

end

end Verif
