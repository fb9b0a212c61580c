import Verif.Model.SetPoint
import Verif.Model.Jacobian
import Verif.Model.Geometry

/-!
# Model of the posture task

`tasks::PostureTask` (Tasks.cpp:682-741, Tasks.h:373-394) and `tasks::qp::PostureTask`
(QPTasks.cpp:656-755, QPTasks.h:406-488).  The robot `mb` is `mbs[robotIndex_]`.
-/

set_option autoImplicit false

namespace Verif

open Finset

/-- What the task reads from the robot's configuration: `mbc.q`, `mbc.alpha`, and
`sva::rotationError(mbc.jointConfig[i].rotation(), Quaterniond(w, x, y, z).matrix())` for a joint
and a quaternion. -/
structure PostureEnv (K : Type) where
  q : List (List K)
  alpha : List (List K)
  rotErr : ℕ → K → K → K → K → V3 K

/-- `tasks::PostureTask`: `q_`, `eval_`, `jacMat_`. -/
structure PostureHL (K : Type) where
  q : List (List K)
  eval : Vec K
  jac : Mat K

section
variable {K : Type} [CommRing K]

/-- `tasks::PostureTask::PostureTask` (Tasks.cpp:686-697).  `free` tells whether the type of joint 0 is
`Free`; the writes to the diagonal need 6 dofs. -/
def PostureHL.make (mb : MultiBody K) (free : Bool) (q : List (List K)) : Out (PostureHL K) :=
  if 0 < mb.nrDof ∧ free = true then
    if mb.nrDof < 6 then .ub else
    .ok ⟨q, Vec.const mb.nrDof 0,
      ⟨mb.nrDof, mb.nrDof, fun i j => if i = j then (if i < 6 then 0 else 1) else 0⟩⟩
  else .ok ⟨q, Vec.const mb.nrDof 0, ⟨mb.nrDof, mb.nrDof, fun i j => if i = j then 1 else 0⟩⟩

/-- Body of the joint loop of `tasks::PostureTask::update` (Tasks.cpp:711-731); state: `eval_`,
`pos`. -/
def PostureHL.jointStep (mb : MultiBody K) (env : PostureEnv K) (q : List (List K)) (i : ℕ)
    (s : Vec K × ℕ) : Out (Vec K × ℕ) := do
  let j ← vecAt mb.joints i
  if j.dof = 1 then do
    let a ← nested q i 0
    let b ← nested env.q i 0
    let e ← s.1.set s.2 (a - b)
    pure (e, s.2 + 1)
  else if j.dof = 3 then do
    let q0 ← nested q i 0
    let q1 ← nested q i 1
    let q2 ← nested q i 2
    let q3 ← nested q i 3
    let err := env.rotErr i q0 q1 q2 q3
    let e ← s.1.setSegment s.2 ⟨3, fun k => if k = 0 then err.x else if k = 1 then err.y else err.z⟩
    pure (e, s.2 + 3)
  else pure s

/-- `tasks::PostureTask::update` (Tasks.cpp:705-732). -/
def PostureHL.update (mb : MultiBody K) (env : PostureEnv K) (s : PostureHL K) :
    Out (PostureHL K) := do
  let pos ← mb.jointPosInDof 1
  let r ← forRange (mb.nrJoints - 1) (fun k => PostureHL.jointStep mb env s.q (k + 1)) (s.eval, pos)
  pure { s with
    eval := r.1 }

/-- `qp::PostureTask::JointData` (QPTasks.h:468-472). -/
structure JointGain (K : Type) where
  stiffness : K
  damping : K
  start : ℕ
  size : ℕ

/-- `qp::PostureTask` (QPTasks.h:474-487). -/
structure Posture (K : Type) where
  pt : PostureHL K
  weight : K
  stiffness : K
  damping : K
  robotIndex : ℕ
  alphaDBegin : ℕ
  jd : List (JointGain K)
  Q : Mat K
  C : Vec K
  alphaVec : Vec K
  refVel : Vec K
  refAccel : Vec K
  dimWeight : Vec K

/-- `qp::PostureTask::PostureTask` (QPTasks.cpp:656-668). -/
def Posture.make (sqrt : K → Out K) (mb : MultiBody K) (free : Bool) (rI : ℕ) (q : List (List K))
    (stiffness weight : K) (junk : ℕ → ℕ → K) : Out (Posture K) := do
  let pt ← PostureHL.make mb free q
  let r ← sqrt stiffness
  let n := mb.nrDof
  pure ⟨pt, weight, stiffness, 2 * r, rI, 0, [], ⟨n, n, junk⟩, ⟨n, junk 0⟩, ⟨n, junk 1⟩,
    Vec.const n 0, Vec.const n 0, Vec.const n 1⟩

/-- Calls on a `qp::PostureTask`.  A joint gain is given as stiffness, damping; `jointsStiffness`
computes the damping. -/
inductive PostureOp (K : Type) where
  | posture (q : List (List K))
  | stiffness (k : K)
  | gains (k d : K)
  | jointsStiffness (l : List (String × K))
  | jointsGains (l : List (String × K × K))
  | refVel (v : Vec K)
  | refAccel (a : Vec K)
  | dimWeight (w : Vec K)
  | updateNrVars (d : SolverData K)
  | update (env : PostureEnv K)

/-- `jointDatas_.push_back({k, d, mb.jointPosInDof(jointIndex), mb.joint(jointIndex).dof()})`
(QPTasks.cpp:697-698, 711). -/
def JointGain.make (mb : MultiBody K) (name : String) (k d : K) : Out (JointGain K) := do
  let i ← mb.jointIndexByName name
  let p ← mb.jointPosInDof i
  let j ← vecAt mb.joints i
  pure ⟨k, d, p, j.dof⟩

/-- `qp::PostureTask::jointsStiffness` (QPTasks.cpp:688-700). -/
def Posture.jointsStiffness (sqrt : K → Out K) (mb : MultiBody K) (l : List (String × K)) :
    Out (List (JointGain K)) :=
  forEach l (fun e acc => do
    let r ← sqrt e.2
    let g ← JointGain.make mb e.1 e.2 (2 * r)
    pure (acc ++ [g])) []

/-- `qp::PostureTask::jointsGains` (QPTasks.cpp:702-713). -/
def Posture.jointsGains (mb : MultiBody K) (l : List (String × K × K)) :
    Out (List (JointGain K)) :=
  forEach l (fun e acc => do
    let g ← JointGain.make mb e.1 e.2.1 e.2.2
    pure (acc ++ [g])) []

/-- `-k * eval.segment + d * (alpha.segment - refVel.segment) - refAccel.segment`
(QPTasks.cpp:734-736, 740-743). -/
def Posture.seg (s : Posture K) (eval alpha : Vec K) (k d : K) (b n : ℕ) : Out (Vec K) := do
  let e ← eval.segment b n
  let a ← alpha.segment b n
  let v ← s.refVel.segment b n
  let r ← s.refAccel.segment b n
  pure ⟨n, fun i => -k * e.get i + d * (a.get i - v.get i) - r.get i⟩

/-- `qp::PostureTask::update` (QPTasks.cpp:718-746). -/
def Posture.update (mb : MultiBody K) (env : PostureEnv K) (s : Posture K) : Out (Posture K) := do
  let pt ← s.pt.update mb env
  let alpha ← paramToVector env.alpha s.alphaVec
  let Q ← Mat.diagMul s.dimWeight pt.jac
  let C0 : Vec K := ⟨s.C.size, fun _ => 0⟩
  let deb ← mb.jointPosInDof 1
  let g ← s.seg pt.eval alpha s.stiffness s.damping deb (mb.nrDof - deb)
  let C1 ← C0.setSegment deb g
  let C2 ← forEach s.jd (fun p (C : Vec K) => do
    let g ← s.seg pt.eval alpha p.stiffness p.damping p.start p.size
    C.setSegment p.start g) C1
  let C ← s.dimWeight.diagMul C2
  pure { s with
    pt := pt, alphaVec := alpha, Q := Q, C := C }

/-- One call on a `qp::PostureTask` (QPTasks.cpp:670-716, QPTasks.h:421, 450-465); a failing
assertion is `ub`. -/
def Posture.step (sqrt : K → Out K) (mb : MultiBody K) (o : PostureOp K) (s : Posture K) :
    Out (Posture K) :=
  match o with
  | .posture q => .ok { s with
      pt := { s.pt with
        q := q } }
  | .stiffness k => do
    let r ← sqrt k
    pure { s with
      stiffness := k, damping := 2 * r }
  | .gains k d => .ok { s with
      stiffness := k, damping := d }
  | .jointsStiffness l => do
    let jd ← Posture.jointsStiffness sqrt mb l
    pure { s with
      jd := jd }
  | .jointsGains l => do
    let jd ← Posture.jointsGains mb l
    pure { s with
      jd := jd }
  | .refVel v => .ok { s with
      refVel := v }
  | .refAccel a => if a.size = s.refAccel.size then .ok { s with
      refAccel := a } else .ub
  | .dimWeight w => if w.size = s.dimWeight.size then .ok { s with
      dimWeight := w } else .ub
  | .updateNrVars d => do
    let b ← vecAt d.alphaDBegin s.robotIndex
    pure { s with
      alphaDBegin := b }
  | .update env => s.update mb env

/-- What the QP assembly reads (QPTasks.h:438, QPTasks.cpp:748-752). -/
def Posture.task (s : Posture K) : TaskQC K := ⟨s.Q, s.C, (s.alphaDBegin, s.alphaDBegin), s.weight⟩

end

end Verif
