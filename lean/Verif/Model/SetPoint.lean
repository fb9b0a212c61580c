import Verif.Model.Fill
import Verif.Model.Layout
import Verif.Model.Limits

/-!
# Model of the set-point tasks of `src/QPTasks.cpp`

`SetPointTaskCommon`, `SetPointTask`, `TrackingTask`, `TrajectoryTask`, `PIDTask` and
`TargetObjectiveTask` (QPTasks.cpp:35-452, QPTasks.h:34-280).

The wrapped `HighLevelTask` is an object with virtual methods; the model takes the values its
methods return right after `hlTask_->update(mbs, mbcs, data)` (`HL`).  The scratch members `preQ_`,
`preC_`, `CVecSum_` are assigned whole before being read and are not kept.  Size mismatches in Eigen
expressions are undefined behaviour (`Out.ub`).
-/

set_option autoImplicit false

namespace Verif

open Finset

/-- `HighLevelTask` after `update` (QPSolver.h, `class HighLevelTask`): `jac()`, `eval()`,
`speed()`, `normalAcc()`. -/
structure HL (K : Type) where
  jac : Mat K
  eval : Vec K
  speed : Vec K
  normalAcc : Vec K

section
variable {K : Type} [CommRing K]

/-- `a + b` on Eigen vectors. -/
def Vec.addV (a b : Vec K) : Out (Vec K) :=
  if a.size = b.size then .ok ⟨a.size, fun i => a.get i + b.get i⟩ else .ub

/-- `a - b` on Eigen vectors. -/
def Vec.subV (a b : Vec K) : Out (Vec K) :=
  if a.size = b.size then .ok ⟨a.size, fun i => a.get i - b.get i⟩ else .ub

/-- `c * a` -/
def Vec.scale (c : K) (a : Vec K) : Vec K := ⟨a.size, fun i => c * a.get i⟩

/-- `w.asDiagonal() * a` for a vector. -/
def Vec.diagMul (w a : Vec K) : Out (Vec K) :=
  if w.size = a.size then .ok ⟨a.size, fun i => w.get i * a.get i⟩ else .ub

/-- `w.asDiagonal() * m` for a matrix. -/
def Mat.diagMul (w : Vec K) (m : Mat K) : Out (Mat K) :=
  if w.size = m.rows then .ok ⟨m.rows, m.cols, fun i j => w.get i * m.get i j⟩ else .ub

/-- `-a.transpose() * v` -/
def Mat.negTrMulVec (a : Mat K) (v : Vec K) : Out (Vec K) :=
  if a.rows = v.size then .ok ⟨a.cols, fun j => ∑ i ∈ range a.rows, -a.get i j * v.get i⟩ else .ub

/-- `a.transpose() * b` -/
def Mat.trMul (a b : Mat K) : Out (Mat K) :=
  if a.rows = b.rows then
    .ok ⟨a.cols, b.cols, fun j k => ∑ i ∈ range a.rows, a.get i j * b.get i k⟩
  else .ub

/-- `SetPointTaskCommon` (QPTasks.h:34-71). -/
structure SPCommon (K : Type) where
  weight : K
  dimWeight : Vec K
  robotIndex : ℕ
  alphaDBegin : ℕ
  Q : Mat K
  C : Vec K
  error : Vec K

/-- `SetPointTaskCommon::SetPointTaskCommon` (QPTasks.cpp:35-53).  `dim` is `hlTask->dim()`; `dw` is
the given `dimWeight`, absent in the first overload; `junk` is the content of the uninitialised
`Q_`, `C_`, `error_`. -/
def SPCommon.make (mbs : List (MultiBody K)) (rI dim : ℕ) (dw : Option (Vec K)) (weight : K)
    (junk : ℕ → ℕ → K) : Out (SPCommon K) := do
  let mb ← vecAt mbs rI
  pure ⟨weight, dw.getD (Vec.const dim 1), rI, 0, ⟨mb.nrDof, mb.nrDof, junk⟩, ⟨mb.nrDof, junk 0⟩,
    ⟨dim, junk 1⟩⟩

/-- `SetPointTaskCommon::dimWeight` (QPTasks.cpp:55-56). -/
def SPCommon.setDimWeight (w : Vec K) (s : SPCommon K) : SPCommon K := { s with dimWeight := w }

/-- `SetPointTaskCommon::updateNrVars` (QPTasks.cpp:58-59). -/
def SPCommon.updateNrVars (d : SolverData K) (s : SPCommon K) : Out (SPCommon K) := do
  let b ← vecAt d.alphaDBegin s.robotIndex
  pure { s with alphaDBegin := b }

/-- `SetPointTaskCommon::computeQC(error)` (QPTasks.cpp:61-72); the argument is passed by reference
and modified: the new value is returned with the new state. -/
def SPCommon.computeQC (hl : HL K) (error : Vec K) (s : SPCommon K) : Out (Vec K × SPCommon K) := do
  let error ← error.subV hl.normalAcc
  let preC ← s.dimWeight.diagMul error
  let C ← hl.jac.negTrMulVec preC
  let preQ ← Mat.diagMul s.dimWeight hl.jac
  let Q ← hl.jac.trMul preQ
  pure (error, { s with
    Q := Q, C := C })

/-- What the QP assembly reads: `Q()`, `C()`, `begin()`, `weight()` (QPTasks.h:44, 52-53,
QPTasks.cpp:74-78). -/
def SPCommon.task (s : SPCommon K) : TaskQC K := ⟨s.Q, s.C, (s.alphaDBegin, s.alphaDBegin), s.weight⟩

/-! ## SetPointTask -/

/-- `SetPointTask` (QPTasks.h:73-99). -/
structure SetPoint (K : Type) where
  c : SPCommon K
  stiffness : K
  stiffnessSqrt : K

/-- `SetPointTask::SetPointTask` (QPTasks.cpp:84-102).  `sqrt` is `std::sqrt`; `ub` where it returns
NaN. -/
def SetPoint.make (sqrt : K → Out K) (mbs : List (MultiBody K)) (rI dim : ℕ) (stiffness : K)
    (dw : Option (Vec K)) (weight : K) (junk : ℕ → ℕ → K) : Out (SetPoint K) := do
  let c ← SPCommon.make mbs rI dim dw weight junk
  let r ← sqrt stiffness
  pure ⟨c, stiffness, 2 * r⟩

/-- `SetPointTask::stiffness(stiffness)` (QPTasks.cpp:104-108). -/
def SetPoint.setStiffness (sqrt : K → Out K) (k : K) (s : SetPoint K) : Out (SetPoint K) := do
  let r ← sqrt k
  pure { s with
    stiffness := k, stiffnessSqrt := 2 * r }

/-- `SetPointTask::update` (QPTasks.cpp:110-122). -/
def SetPoint.update (hl : HL K) (s : SetPoint K) : Out (SetPoint K) := do
  let e ← (Vec.scale s.stiffness hl.eval).subV (Vec.scale s.stiffnessSqrt hl.speed)
  let (e, c) ← s.c.computeQC hl e
  pure { s with
    c := { c with
      error := e } }

/-! ## TrackingTask -/

/-- `TrackingTask` (QPTasks.h:101-132). -/
structure Tracking (K : Type) where
  c : SPCommon K
  gainPos : K
  gainVel : K
  errorPos : Vec K
  errorVel : Vec K
  refAccel : Vec K

/-- `TrackingTask::TrackingTask` (QPTasks.cpp:128-151). -/
def Tracking.make (mbs : List (MultiBody K)) (rI dim : ℕ) (gainPos gainVel : K)
    (dw : Option (Vec K)) (weight : K) (junk : ℕ → ℕ → K) : Out (Tracking K) := do
  let c ← SPCommon.make mbs rI dim dw weight junk
  pure ⟨c, gainPos, gainVel, Vec.const dim 0, Vec.const dim 0, Vec.const dim 0⟩

/-- `TrackingTask::update` (QPTasks.cpp:168-178). -/
def Tracking.update (hl : HL K) (s : Tracking K) : Out (Tracking K) := do
  let e ← (Vec.scale s.gainPos s.errorPos).addV (Vec.scale s.gainVel s.errorVel)
  let e ← e.addV s.refAccel
  let (e, c) ← s.c.computeQC hl e
  pure { s with
    c := { c with
      error := e } }

/-! ## TrajectoryTask -/

/-- `TrajectoryTask` (QPTasks.h:134-173). -/
structure Trajectory (K : Type) where
  c : SPCommon K
  stiffness : Vec K
  damping : Vec K
  refVel : Vec K
  refAccel : Vec K

/-- `TrajectoryTask::TrajectoryTask` (QPTasks.cpp:184-207). -/
def Trajectory.make (mbs : List (MultiBody K)) (rI dim : ℕ) (gainPos gainVel : K)
    (dw : Option (Vec K)) (weight : K) (junk : ℕ → ℕ → K) : Out (Trajectory K) := do
  let c ← SPCommon.make mbs rI dim dw weight junk
  pure ⟨c, Vec.const dim (gainPos * 1), Vec.const dim (gainVel * 1), Vec.const dim 0,
    Vec.const dim 0⟩

/-- `TrajectoryTask::setGains(gainPos, gainVel)` (QPTasks.cpp:209-213); `dim` is `hlTask_->dim()`. -/
def Trajectory.setGains (dim : ℕ) (gainPos gainVel : K) (s : Trajectory K) : Trajectory K :=
  { s with
    stiffness := Vec.const dim (gainPos * 1), damping := Vec.const dim (gainVel * 1) }

/-- `TrajectoryTask::setGains(stiffness, damping)` (QPTasks.cpp:215-221); a failing assertion is
`ub`. -/
def Trajectory.setGainsV (k d : Vec K) (s : Trajectory K) : Out (Trajectory K) :=
  if k.size = s.stiffness.size ∧ d.size = s.damping.size then
    .ok { s with
      stiffness := k, damping := d }
  else .ub

/-- `TrajectoryTask::stiffness(gainPos)` (QPTasks.cpp:223-224); `dim` is `hlTask_->dim()`. -/
def Trajectory.setStiffness (dim : ℕ) (k : K) (s : Trajectory K) : Trajectory K :=
  { s with
    stiffness := Vec.const dim (k * 1) }

/-- `TrajectoryTask::stiffness(stiffness)` (QPTasks.cpp:226-230). -/
def Trajectory.setStiffnessV (k : Vec K) (s : Trajectory K) : Out (Trajectory K) :=
  if k.size = s.stiffness.size then
    .ok { s with
      stiffness := k }
  else .ub

/-- `TrajectoryTask::damping(gainVel)` (QPTasks.cpp:235-236). -/
def Trajectory.setDamping (dim : ℕ) (d : K) (s : Trajectory K) : Trajectory K :=
  { s with
    damping := Vec.const dim (d * 1) }

/-- `TrajectoryTask::damping(damping)` (QPTasks.cpp:238-242). -/
def Trajectory.setDampingV (d : Vec K) (s : Trajectory K) : Out (Trajectory K) :=
  if d.size = s.damping.size then
    .ok { s with
      damping := d }
  else .ub

/-- `TrajectoryTask::update` (QPTasks.cpp:259-272). -/
def Trajectory.update (hl : HL K) (s : Trajectory K) : Out (Trajectory K) := do
  let e ← s.stiffness.diagMul hl.eval
  let dv ← s.refVel.subV hl.speed
  let dd ← s.damping.diagMul dv
  let e ← e.addV dd
  let e ← e.addV s.refAccel
  let (e, c) ← s.c.computeQC hl e
  pure { s with
    c := { c with
      error := e } }

/-! ## PIDTask -/

/-- `PIDTask` (QPTasks.h:176-214).  Its member `error_` hides the one of the base class. -/
structure Pid (K : Type) where
  c : SPCommon K
  P : K
  I : K
  D : K
  error : Vec K
  errorD : Vec K
  errorI : Vec K

/-- `PIDTask::PIDTask` (QPTasks.cpp:278-302). -/
def Pid.make (mbs : List (MultiBody K)) (rI dim : ℕ) (P I D : K)
    (dw : Option (Vec K)) (weight : K) (junk : ℕ → ℕ → K) : Out (Pid K) := do
  let c ← SPCommon.make mbs rI dim dw weight junk
  pure ⟨c, P, I, D, Vec.const dim 0, Vec.const dim 0, Vec.const dim 0⟩

/-- `PIDTask::update` (QPTasks.cpp:331-341): the stored error itself is scaled, and `computeQC`
subtracts the normal acceleration from it in place. -/
def Pid.update (hl : HL K) (s : Pid K) : Out (Pid K) := do
  let e ← (Vec.scale s.P s.error).subV (Vec.scale s.D s.errorD)
  let e ← e.subV (Vec.scale s.I s.errorI)
  let (e, c) ← s.c.computeQC hl e
  pure { s with
    c := c, error := e }

end

/-! ## The calls a user can make on these tasks -/

section
variable {K : Type} [CommRing K]

/-- Calls on a `SetPointTask`. -/
inductive SetPointOp (K : Type) where
  | dimWeight (w : Vec K)
  | stiffness (k : K)
  | updateNrVars (d : SolverData K)
  | update (hl : HL K)

/-- One call on a `SetPointTask`. -/
def SetPoint.step (sqrt : K → Out K) (o : SetPointOp K) (s : SetPoint K) : Out (SetPoint K) :=
  match o with
  | .dimWeight w => .ok { s with
      c := s.c.setDimWeight w }
  | .stiffness k => s.setStiffness sqrt k
  | .updateNrVars d => do
    let c ← s.c.updateNrVars d
    pure { s with
      c := c }
  | .update hl => s.update hl

/-- Calls on a `TrackingTask` (setters: QPTasks.cpp:153-166). -/
inductive TrackingOp (K : Type) where
  | dimWeight (w : Vec K)
  | setGains (gp gv : K)
  | errorPos (e : Vec K)
  | errorVel (e : Vec K)
  | refAccel (a : Vec K)
  | updateNrVars (d : SolverData K)
  | update (hl : HL K)

/-- One call on a `TrackingTask`. -/
def Tracking.step (o : TrackingOp K) (s : Tracking K) : Out (Tracking K) :=
  match o with
  | .dimWeight w => .ok { s with
      c := s.c.setDimWeight w }
  | .setGains gp gv => .ok { s with
      gainPos := gp, gainVel := gv }
  | .errorPos e => .ok { s with
      errorPos := e }
  | .errorVel e => .ok { s with
      errorVel := e }
  | .refAccel a => .ok { s with
      refAccel := a }
  | .updateNrVars d => do
    let c ← s.c.updateNrVars d
    pure { s with
      c := c }
  | .update hl => s.update hl

/-- Calls on a `TrajectoryTask` (`refVel`, `refAccel`: QPTasks.cpp:247-257). -/
inductive TrajectoryOp (K : Type) where
  | dimWeight (w : Vec K)
  | setGains (k d : K)
  | setGainsV (k d : Vec K)
  | stiffness (k : K)
  | stiffnessV (k : Vec K)
  | damping (d : K)
  | dampingV (d : Vec K)
  | refVel (v : Vec K)
  | refAccel (a : Vec K)
  | updateNrVars (d : SolverData K)
  | update (hl : HL K)

/-- One call on a `TrajectoryTask`; `dim` is `hlTask_->dim()`. -/
def Trajectory.step (dim : ℕ) (o : TrajectoryOp K) (s : Trajectory K) : Out (Trajectory K) :=
  match o with
  | .dimWeight w => .ok { s with
      c := s.c.setDimWeight w }
  | .setGains k d => .ok (s.setGains dim k d)
  | .setGainsV k d => s.setGainsV k d
  | .stiffness k => .ok (s.setStiffness dim k)
  | .stiffnessV k => s.setStiffnessV k
  | .damping d => .ok (s.setDamping dim d)
  | .dampingV d => s.setDampingV d
  | .refVel v => .ok { s with
      refVel := v }
  | .refAccel a => .ok { s with
      refAccel := a }
  | .updateNrVars d => do
    let c ← s.c.updateNrVars d
    pure { s with
      c := c }
  | .update hl => s.update hl

/-- Calls on a `PIDTask` (setters: QPTasks.cpp:304-329). -/
inductive PidOp (K : Type) where
  | dimWeight (w : Vec K)
  | P (p : K)
  | I (i : K)
  | D (d : K)
  | error (e : Vec K)
  | errorD (e : Vec K)
  | errorI (e : Vec K)
  | updateNrVars (d : SolverData K)
  | update (hl : HL K)

/-- One call on a `PIDTask`. -/
def Pid.step (o : PidOp K) (s : Pid K) : Out (Pid K) :=
  match o with
  | .dimWeight w => .ok { s with
      c := s.c.setDimWeight w }
  | .P p => .ok { s with
      P := p }
  | .I i => .ok { s with
      I := i }
  | .D d => .ok { s with
      D := d }
  | .error e => .ok { s with
      error := e }
  | .errorD e => .ok { s with
      errorD := e }
  | .errorI e => .ok { s with
      errorI := e }
  | .updateNrVars d => do
    let c ← s.c.updateNrVars d
    pure { s with
      c := c }
  | .update hl => s.update hl

end

/-! ## TargetObjectiveTask -/

/-- `TargetObjectiveTask` (QPTasks.h:216-280); `iter` and `nrIter` are signed. -/
structure TargetObj (K : Type) where
  weight : K
  iter : ℤ
  nrIter : ℤ
  dt : K
  objDot : Vec K
  dimWeight : Vec K
  robotIndex : ℕ
  alphaDBegin : ℕ
  phi : Vec K
  psi : Vec K
  Q : Mat K
  C : Vec K

section
variable {K : Type} [Field K] [LinearOrder K]

/-- `TargetObjectiveTask::duration(d)` (QPTasks.cpp:375-379); `round` is
`static_cast<int>(std::round(·))`. -/
def TargetObj.setDuration (round : K → Out ℤ) (d : K) (s : TargetObj K) : Out (TargetObj K) := do
  let r ← fdiv d s.dt
  let n ← round r
  pure { s with
    nrIter := n, iter := 0 }

/-- `TargetObjectiveTask::duration()` (QPTasks.cpp:372-373). -/
def TargetObj.duration (s : TargetObj K) : K := ((s.nrIter - s.iter : ℤ) : K) * s.dt

/-- `TargetObjectiveTask::TargetObjectiveTask` (QPTasks.cpp:347-370). -/
def TargetObj.make (round : K → Out ℤ) (mbs : List (MultiBody K)) (rI dim : ℕ) (dt dur : K)
    (objDot : Vec K) (dw : Option (Vec K)) (weight : K) (junk : ℕ → ℕ → K) :
    Out (TargetObj K) := do
  let mb ← vecAt mbs rI
  TargetObj.setDuration round dur ⟨weight, 0, 0, dt, objDot, dw.getD (Vec.const dim 1), rI, 0,
    ⟨dim, junk 0⟩, ⟨dim, junk 1⟩, ⟨mb.nrDof, mb.nrDof, junk⟩, ⟨mb.nrDof, junk 2⟩⟩

/-- `TargetObjectiveTask::updateNrVars` (QPTasks.cpp:381-382). -/
def TargetObj.updateNrVars (d : SolverData K) (s : TargetObj K) : Out (TargetObj K) := do
  let b ← vecAt d.alphaDBegin s.robotIndex
  pure { s with
    alphaDBegin := b }

/-- Body of the loop of `TargetObjectiveTask::update` (QPTasks.cpp:430-436): `phi_(i)`, `psi_(i)`
from the rows of `MI`. -/
def TargetObj.dimStep (hl : HL K) (d m00 m01 m10 m11 : K) (objDot : Vec K) (i : ℕ)
    (pp : Vec K × Vec K) : Out (Vec K × Vec K) := do
  let e ← hl.eval.at' i
  let v ← hl.speed.at' i
  let o ← objDot.at' i
  let phi ← pp.1.set i (m00 * (e - d * v) + m01 * (o - v))
  let psi ← pp.2.set i (m10 * (e - d * v) + m11 * (o - v))
  pure (phi, psi)

/-- `TargetObjectiveTask::update` (QPTasks.cpp:384-446); `dim` is `hlTask_->dim()`.  The four
divisions (l. 428) are undefined (infinite or NaN entries) when the remaining duration is zero. -/
def TargetObj.update (dim : ℕ) (hl : HL K) (s : TargetObj K) : Out (TargetObj K) := do
  let d := ((s.nrIter - s.iter : ℤ) : K) * s.dt
  let ds := d ^ 2
  let m00 ← fdiv 6 ds
  let m01 ← fdiv 2 (-d)
  let m10 ← fdiv 6 (-ds)
  let m11 ← fdiv 4 d
  let pp ← forRange dim (TargetObj.dimStep hl d m00 m01 m10 m11 s.objDot) (s.phi, s.psi)
  let preQ ← Mat.diagMul s.dimWeight hl.jac
  let Q ← hl.jac.trMul preQ
  let sum ← pp.1.subV hl.normalAcc
  let preC ← s.dimWeight.diagMul sum
  let C ← hl.jac.negTrMulVec preC
  pure { s with
    phi := pp.1, psi := pp.2, Q := Q, C := C, iter := s.iter + 1 }

/-- What the QP assembly reads (QPTasks.h:270, 277-278). -/
def TargetObj.task (s : TargetObj K) : TaskQC K :=
  ⟨s.Q, s.C, (s.alphaDBegin, s.alphaDBegin), s.weight⟩

end

end Verif
