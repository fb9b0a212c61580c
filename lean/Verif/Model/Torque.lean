import Verif.Model.Motion
import Verif.Model.SetPoint

/-!
# Model of the torque task

`TorqueTask` (QPTasks.cpp:567-650, QPTasks.h:348-408).  It owns a `MotionConstr` (Model/Motion) of
which it only reads `matrix()` and `fd().C()`.  The members `alphaDBegin_` and `lambdaBegin_` are
written and never read; they are left out.
-/

set_option autoImplicit false

namespace Verif

open Finset

/-- Which of the three families of constructors is used (QPTasks.cpp:587-632): every dof, a vector of
weights, or the joints on the way to a named body. -/
inductive TorqueSel (K : Type) where
  | all
  | vec (v : Vec K)
  | body (name : String)

/-- `TorqueTask` (QPTasks.h:402-407). -/
structure TorqueT (K : Type) where
  weight : K
  robotIndex : ℕ
  mc : MotionConstr K
  sel : Vec K
  Q : Mat K
  C : Vec K

section
variable {K : Type} [CommRing K] [LinearOrder K]

/-- Body of the path loop of the third constructor (QPTasks.cpp:627-631). -/
def TorqueT.selStep (mb : MultiBody K) (i : ℕ) (sel : Vec K) : Out (Vec K) := do
  if i ≠ 0 then do
    let p ← mb.jointPosInDof i
    let j ← vecAt mb.joints i
    sel.setSegment p ⟨j.dof, fun _ => 1⟩
  else pure sel

/-- `jointSelector_` after construction. -/
def TorqueT.makeSel (rk : RobotKin K) : TorqueSel K → Out (Vec K)
  | .all => .ok (Vec.const rk.mb.nrDof 1)
  | .vec v => .ok v
  | .body name => do
    let path ← rk.path name
    forEach path (TorqueT.selStep rk.mb) (Vec.const rk.mb.nrDof 0)

/-- The constructors (QPTasks.cpp:567-632); `junk`, `junkQ` are the contents of uninitialised
memory. -/
def TorqueT.make (rk : RobotKin K) (rI : ℕ) (junk : ℕ → Ext K) (junkQ : ℕ → ℕ → K)
    (lT uT lTD uTD : List (List (Ext K))) (dt : K) (k : TorqueSel K) (weight : K) :
    Out (TorqueT K) := do
  let mc ← MotionConstr.make rk.mb rI junk lT uT lTD uTD dt
  let sel ← TorqueT.makeSel rk k
  let n := rk.mb.nrDof
  pure ⟨weight, rI, mc, sel, ⟨n, n, junkQ⟩, ⟨n, junkQ 0⟩⟩

/-- `TorqueTask::updateNrVars` (QPTasks.cpp:634-641). -/
def TorqueT.updateNrVars (rk : RobotKin K) (d : SolverData K) (s : TorqueT K) : Out (TorqueT K) := do
  let c ← s.mc.common.updateNrVars rk d
  let _ ← vecAt d.alphaDBegin s.robotIndex
  pure { s with
    mc := { s.mc with
      common := c },
    Q := ⟨d.nrVars, d.nrVars, s.Q.get⟩, C := ⟨d.nrVars, s.C.get⟩ }

/-- `TorqueTask::update` (QPTasks.cpp:643-651).  The diagonal product needs matching sizes. -/
def TorqueT.update (mb : MultiBody K) (env : MotionEnv K) (s : TorqueT K) : Out (TorqueT K) := do
  let mc ← s.mc.update mb env
  let A := mc.common.A
  if s.sel.size ≠ A.rows ∨ mc.common.fdC.size ≠ s.sel.size then .ub else
  pure { s with
    mc := mc,
    Q := ⟨A.cols, A.cols, fun j k => ∑ i ∈ range A.rows, A.get i j * (s.sel.get i * A.get i k)⟩,
    C := ⟨A.cols, fun j => ∑ i ∈ range A.rows,
      mc.common.fdC.get i * s.sel.get i * A.get i j⟩ }

/-- What the QP assembly reads (QPTasks.h:393-397). -/
def TorqueT.task (s : TorqueT K) : TaskQC K := ⟨s.Q, s.C, (0, 0), s.weight⟩

end

end Verif
