import Verif.Model.SetPoint
import Verif.Model.Limits

/-!
# Model of the tasks on several robots

`qp::MultiCoMTask` (QPTasks.cpp:1039-1124, QPTasks.h:770-828), `qp::MultiRobotTransformTask`
(QPTasks.cpp:1130-1218, QPTasks.h:830-893) and the high-level `tasks::MultiCoMTask`
(Tasks.cpp:817-948).  The two QP tasks share one state type; the dimension (3 or 6) is the size of
`dimWeight`.
-/

set_option autoImplicit false

namespace Verif

open Finset

/-- What the QP tasks read from the high-level task: `jac(i)`, `eval()`, `speed()`, `normalAcc()`. -/
structure MultiHL (K : Type) where
  jac : List (Mat K)
  eval : Vec K
  speed : Vec K
  normalAcc : Vec K

/-- The members of `qp::MultiCoMTask` and `qp::MultiRobotTransformTask`; `preCols` is
`preQ_.cols()`; `ready` records whether `updateNrVars` has run. -/
structure MultiT (K : Type) where
  weight : K
  alphaDBegin : ℕ
  stiffness : K
  stiffnessSqrt : K
  dimWeight : Vec K
  robots : List ℕ
  posInQ : List ℕ
  preCols : ℕ
  ready : Bool
  Q : Mat K
  C : Vec K

section
variable {K : Type} [CommRing K]

/-- Constructors and `init` (QPTasks.cpp:1039-1056, 1119-1124, 1130-1147). -/
def MultiT.make (sqrt : K → Out K) (mbs : List (MultiBody K)) (robots : List ℕ) (stiffness : K)
    (dimWeight : Vec K) (weight : K) : Out (MultiT K) := do
  let r ← sqrt stiffness
  let m ← forEach robots (fun r (m : ℕ) => do
    let mb ← vecAt mbs r
    pure (max m mb.nrDof)) 0
  pure ⟨weight, 0, stiffness, 2 * r, dimWeight, robots, [], m, false, Mat.zero 0 0, Vec.const 0 0⟩

/-- `stiffness(k)` (QPTasks.cpp:1061-1065, 1161-1165). -/
def MultiT.setStiffness (sqrt : K → Out K) (k : K) (s : MultiT K) : Out (MultiT K) := do
  let r ← sqrt k
  pure { s with
    stiffness := k, stiffnessSqrt := 2 * r }

/-- `updateNrVars` (QPTasks.cpp:1070-1083, 1170-1183).  `minmax_element` of an empty list and
negative sizes are undefined behaviour. -/
def MultiT.updateNrVars (d : SolverData K) (s : MultiT K) : Out (MultiT K) := do
  match s.robots with
  | [] => .ub
  | r0 :: rs => do
    let b ← vecAt d.alphaDBegin (rs.foldl min r0)
    let lb ← vecAt d.alphaDBegin (rs.foldl max r0)
    let la ← vecAt d.alphaD (rs.foldl max r0)
    if lb + la < b then .ub else
    let size := lb + la - b
    let pos ← forEach s.robots (fun r (acc : List ℕ) => do
      let br ← vecAt d.alphaDBegin r
      if br < b then .ub else pure (acc ++ [br - b])) []
    pure { s with
      alphaDBegin := b, Q := Mat.zero size size, C := Vec.const size 0, posInQ := pos,
      ready := true }

/-- `CSum_` (QPTasks.cpp:1090-1092, 1190-1192). -/
def MultiT.cSum (hl : MultiHL K) (s : MultiT K) : Out (Vec K) := do
  let e ← (Vec.scale s.stiffness hl.eval).subV (Vec.scale s.stiffnessSqrt hl.speed)
  e.subV hl.normalAcc

/-- The Hessian block and linear term of robot number `i` (QPTasks.cpp:1095-1103, 1206-1216): its
position, its dof count, `J' W J` and `-J' W CSum`. -/
def MultiT.blocks (d : SolverData K) (hl : MultiHL K) (e : Vec K) (s : MultiT K) (i : ℕ) :
    Out (ℕ × ℕ × Mat K × Vec K) := do
  let r ← vecAt s.robots i
  let b ← vecAt s.posInQ i
  let dof ← vecAt d.alphaD r
  let J ← vecAt hl.jac i
  if s.preCols < dof ∨ J.cols ≠ dof then .ub else
  let pre ← Mat.diagMul s.dimWeight J
  let q ← J.trMul pre
  let we ← s.dimWeight.diagMul e
  let c ← J.negTrMulVec we
  pure (b, dof, q, c)

/-- Loop body of `MultiCoMTask::update` (QPTasks.cpp:1093-1104). -/
def MultiT.comStep (d : SolverData K) (hl : MultiHL K) (e : Vec K) (s : MultiT K) (i : ℕ)
    (st : Mat K × Vec K) : Out (Mat K × Vec K) := do
  let p ← s.blocks d hl e i
  let Q ← st.1.setBlock p.1 p.1 p.2.2.1
  let C ← st.2.setSegment p.1 p.2.2.2
  pure (Q, C)

/-- `MultiCoMTask::update` (QPTasks.cpp:1085-1105).  An update before `updateNrVars` is undefined
behaviour (it writes blocks of an empty matrix). -/
def MultiT.updateCoM (d : SolverData K) (hl : MultiHL K) (s : MultiT K) : Out (MultiT K) := do
  if s.ready = false then .ub else
  let e ← s.cSum hl
  let st ← forRange s.posInQ.length (MultiT.comStep d hl e s) (s.Q, s.C)
  pure { s with
    Q := st.1, C := st.2 }

/-- First loop of `MultiRobotTransformTask::update` (QPTasks.cpp:1195-1202). -/
def MultiT.zeroStep (d : SolverData K) (s : MultiT K) (i : ℕ)
    (st : Mat K × Vec K) : Out (Mat K × Vec K) := do
  let r ← vecAt s.robots i
  let b ← vecAt s.posInQ i
  let dof ← vecAt d.alphaD r
  let Q ← st.1.setBlock b b (Mat.zero dof dof)
  let C ← st.2.setSegment b (Vec.const dof 0)
  pure (Q, C)

/-- Second loop (QPTasks.cpp:1204-1217). -/
def MultiT.addStep (d : SolverData K) (hl : MultiHL K) (e : Vec K) (s : MultiT K) (i : ℕ)
    (st : Mat K × Vec K) : Out (Mat K × Vec K) := do
  let p ← s.blocks d hl e i
  let q0 ← st.1.block p.1 p.1 p.2.1 p.2.1
  let Q ← st.1.setBlock p.1 p.1 ⟨p.2.1, p.2.1, fun a b => q0.get a b + p.2.2.1.get a b⟩
  let c0 ← st.2.segment p.1 p.2.1
  let C ← st.2.setSegment p.1 ⟨p.2.1, fun a => c0.get a + p.2.2.2.get a⟩
  pure (Q, C)

/-- `MultiRobotTransformTask::update` (QPTasks.cpp:1185-1218). -/
def MultiT.updateTransform (d : SolverData K) (hl : MultiHL K) (s : MultiT K) :
    Out (MultiT K) := do
  if s.ready = false then .ub else
  let e ← s.cSum hl
  let st ← forRange s.posInQ.length (MultiT.zeroStep d s) (s.Q, s.C)
  let st ← forRange s.posInQ.length (MultiT.addStep d hl e s) st
  pure { s with
    Q := st.1, C := st.2 }

/-- What the QP assembly reads (QPTasks.h:801, 859). -/
def MultiT.task (s : MultiT K) : TaskQC K := ⟨s.Q, s.C, (s.alphaDBegin, s.alphaDBegin), s.weight⟩

end

/-! ## The high-level MultiCoMTask -/

/-- `tasks::MultiCoMTask`: `com_`, `robotIndexes_`, `robotsWeight_` and the results. -/
structure MultiCoMHL (K : Type) where
  com : V3 K
  robots : List ℕ
  weights : List K
  eval : V3 K
  speed : V3 K
  normalAcc : V3 K
  jac : List (Mat K)

/-- What RBDyn gives for one robot: its CoM, and velocity, normal acceleration and Jacobian of its
CoM.  `CoMJacobian(mb, weights)` with the same weight `w` for all bodies gives `w` times these
(RBDyn's `CoMJacobian` scales every body term by its weight). -/
structure CoMEnv (K : Type) where
  com : V3 K
  vel : V3 K
  nacc : V3 K
  jac : Mat K

/-- A 3-vector as an Eigen vector. -/
def V3.toVec {K : Type} (v : V3 K) : Vec K :=
  ⟨3, fun i => if i = 0 then v.x else if i = 1 then v.y else v.z⟩

section
variable {K : Type} [Field K] [DecidableEq K]

/-- `MultiCoMTask::computeRobotsWeight` (Tasks.cpp:918-936); `masses` gives for each robot the masses
of its bodies.  A division by a zero total mass is `ub` (the code gets NaN). -/
def computeRobotsWeight (masses : List (List K)) (robots : List ℕ) : Out (List K) := do
  let st ← forEach robots (fun r (st : List K × K) => do
    let l ← vecAt masses r
    let rm := l.foldl (· + ·) 0
    pure (st.1 ++ [rm], st.2 + rm)) ([], 0)
  forEach st.1 (fun w (acc : List K) => do
    let q ← fdiv w st.2
    pure (acc ++ [q])) []

/-- Constructor (Tasks.cpp:817-834). -/
def MultiCoMHL.make (masses : List (List K)) (robots : List ℕ) (com : V3 K) : Out (MultiCoMHL K) := do
  let w ← computeRobotsWeight masses robots
  pure ⟨com, robots, w, 0, 0, 0, []⟩

/-- `com(com)` (Tasks.cpp:836-837). -/
def MultiCoMHL.setCom (c : V3 K) (s : MultiCoMHL K) : MultiCoMHL K := { s with com := c }

/-- `updateInertialParameters` (Tasks.cpp:845-857). -/
def MultiCoMHL.updateInertial (masses : List (List K)) (s : MultiCoMHL K) : Out (MultiCoMHL K) := do
  let w ← computeRobotsWeight masses s.robots
  pure { s with
    weights := w }

/-- Loop body of `MultiCoMTask::update` (Tasks.cpp:864-874, 884-894). -/
def MultiCoMHL.robotStep (env : List (CoMEnv K)) (s : MultiCoMHL K) (i : ℕ)
    (st : V3 K × V3 K × V3 K × List (Mat K)) : Out (V3 K × V3 K × V3 K × List (Mat K)) := do
  let r ← vecAt s.robots i
  let e ← vecAt env r
  let w ← vecAt s.weights i
  pure (st.1 - w • e.com, st.2.1 + w • e.vel, st.2.2.1 + w • e.nacc,
    st.2.2.2 ++ [⟨3, e.jac.cols, fun a b => w * e.jac.get a b⟩])

/-- `MultiCoMTask::update` (Tasks.cpp:859-895). -/
def MultiCoMHL.update (env : List (CoMEnv K)) (s : MultiCoMHL K) : Out (MultiCoMHL K) := do
  let st ← forRange s.robots.length (MultiCoMHL.robotStep env s) (s.com, 0, 0, [])
  pure { s with
    eval := st.1, speed := st.2.1, normalAcc := st.2.2.1, jac := st.2.2.2 }

/-- What the QP task reads. -/
def MultiCoMHL.hl (s : MultiCoMHL K) : MultiHL K :=
  ⟨s.jac, s.eval.toVec, s.speed.toVec, s.normalAcc.toVec⟩

end

end Verif
