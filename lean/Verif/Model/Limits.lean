import Verif.Model.Motion

/-!
# Model of the joint limit constraints (`src/QPConstr.cpp:35-311`)
-/

set_option autoImplicit false

namespace Verif

section
variable {K : Type} [Field K]

/-- Division of `double`s.  A zero divisor gives an infinity or a NaN, which the field `K` does not
have: a distinct outcome. -/
def fdiv [DecidableEq K] (a b : K) : Out K := if b = 0 then .ub else .ok (a / b)

end

/-! ## JointLimitsConstr -/

/-- `JointLimitsConstr` (QPConstr.h:56-135).  `qSize` is the size of `qVec_` (`nrParams`), `n` that of
`alphaVec_` and of the acceleration and jerk limits (`nrDof`). -/
structure JointLimits (K : Type) where
  robotIndex : ℕ
  alphaDBegin : ℕ
  offset : ℕ
  step : K
  qMin : Vec (Ext K)
  qMax : Vec (Ext K)
  qVec : Vec K
  alphaVec : Vec K
  lower : Vec (Ext K)
  upper : Vec (Ext K)
  alphaDL : Vec (Ext K)
  alphaDU : Vec (Ext K)
  alphaDDL : Vec (Ext K)
  alphaDDU : Vec (Ext K)
  prev : Vec K

section
variable {K : Type} [Field K] [LinearOrder K]

/-- `bound.lQBound[0] = {}` (QPConstr.cpp:84-88): unchecked index. -/
def clearFirst (l : List (List (Ext K))) : Out (List (List (Ext K))) :=
  match l with
  | [] => .ub
  | _ :: t => .ok ([] :: t)

/-- `JointLimitsConstr::JointLimitsConstr` (QPConstr.cpp:50-103).  `nrParams` is `mb.nrParams()`,
`junk` the uninitialised contents of `qMin_` and `qMax_`. -/
def JointLimits.make (mb : MultiBody K) (nrParams robotIndex : ℕ) (junk : ℕ → Ext K)
    (lQ uQ lAD uAD lADD uADD : List (List (Ext K))) (step : K) : Out (JointLimits K) := do
  let j0 ← vecAt mb.joints 0
  let offset := if 1 < j0.dof then j0.dof else 0
  let n := mb.nrDof
  let nrVars := n - offset
  let lQ' ← (if offset ≠ 0 then clearFirst lQ else .ok lQ)
  let uQ' ← (if offset ≠ 0 then clearFirst uQ else .ok uQ)
  let qMin ← paramToVector lQ' ⟨nrVars, junk⟩
  let qMax ← paramToVector uQ' ⟨nrVars, junk⟩
  let aL ← paramToVector lAD (Vec.const n .negInf)
  let aU ← paramToVector uAD (Vec.const n .posInf)
  let dL ← paramToVector lADD (Vec.const n .negInf)
  let dU ← paramToVector uADD (Vec.const n .posInf)
  pure ⟨robotIndex, 0, offset, step, qMin, qMax, Vec.const nrParams 0, Vec.const n 0,
    Vec.const nrVars .negInf, Vec.const nrVars .posInf, aL, aU,
    ⟨n, fun i => (dL.get i).mulPos step⟩, ⟨n, fun i => (dU.get i).mulPos step⟩, Vec.const n 0⟩

/-- `JointLimitsConstr::updateNrVars` (QPConstr.cpp:105-106). -/
def JointLimits.updateNrVars (d : SolverData K) (s : JointLimits K) : Out (JointLimits K) := do
  let b ← vecAt d.alphaDBegin s.robotIndex
  pure { s with alphaDBegin := b + s.offset }

/-- `v.tail(n)`. -/
def Vec.tail' {α : Type} (v : Vec α) (n : ℕ) : Out (Vec α) :=
  if n ≤ v.size then .ok ⟨n, fun i => v.get (v.size - n + i)⟩ else .ub

/-- `(b - q.tail - alpha.tail * step) / dts` (QPConstr.cpp:122-126). -/
def limitVec (b : Vec (Ext K)) (q a : Vec K) (step dts : K) : Out (Vec (Ext K)) :=
  if dts = 0 then .ub else
  .ok ⟨b.size, fun i => ((b.get i).addFin (-(q.get i) - a.get i * step)).divBy dts⟩

/-- `JointLimitsConstr::update` (QPConstr.cpp:108-130), from the nested `q`, `alpha`, `alphaD` of the
robot's configuration. -/
def JointLimits.update (q alpha alphaD : List (List K)) (s : JointLimits K) :
    Out (JointLimits K) := do
  let dts := s.step * s.step * (1 / 2)
  let vars := s.qMin.size
  let qVec ← paramToVector q s.qVec
  let alphaVec ← paramToVector alpha s.alphaVec
  let prev ← paramToVector alphaD s.prev
  let qt ← qVec.tail' vars
  let at' ← alphaVec.tail' vars
  let l0 ← limitVec s.qMin qt at' s.step dts
  let u0 ← limitVec s.qMax qt at' s.step dts
  let l1 ← cwiseMax l0 s.alphaDL
  let ddL ← addVec s.alphaDDL prev
  let l2 ← cwiseMax l1 ddL
  let u1 ← cwiseMin u0 s.alphaDU
  let ddU ← addVec s.alphaDDU prev
  let u2 ← cwiseMin u1 ddU
  pure { s with qVec := qVec, alphaVec := alphaVec, prev := prev, lower := l2, upper := u2 }

/-- The bound read by the QP assembly (QPConstr.cpp:141-148). -/
def JointLimits.bound (s : JointLimits K) : BoundC K := ⟨s.alphaDBegin, s.lower, s.upper⟩

/-- `descBound` (QPConstr.cpp:135-139). -/
def JointLimits.descBound (mb : MultiBody K) (line : ℤ) : Out String := descJoint mb line false

end

/-! ## DamperJointLimitsConstr -/

/-- `DampData::State` (QPConstr.h:239-244). -/
inductive DampState
  | low
  | upp
  | free
  deriving DecidableEq, Repr

/-- `DamperJointLimitsConstr::DampData` (QPConstr.h:237-259).  `iDist` is infinite when one of the
position limits is; `sDist` is only used when `iDist` is finite. -/
structure DampData (K : Type) where
  min : Ext K
  max : Ext K
  minVel : Ext K
  maxVel : Ext K
  iDist : Ext K
  sDist : K
  jointIndex : ℕ
  alphaDBegin : ℕ
  damping : K
  state : DampState

/-- `DamperJointLimitsConstr` (QPConstr.h:151-272). -/
structure DamperLimits (K : Type) where
  robotIndex : ℕ
  alphaDBegin : ℕ
  data : List (DampData K)
  lower : Vec (Ext K)
  upper : Vec (Ext K)
  alphaDL : Vec (Ext K)
  alphaDU : Vec (Ext K)
  alphaDDL : Vec (Ext K)
  alphaDDU : Vec (Ext K)
  prev : Vec K
  step : K
  off : K

section
variable {K : Type} [Field K] [LinearOrder K]

/-- `dist * interPercent` and `dist * securityPercent` with `dist = upper - lower`
(QPConstr.cpp:210-212).  A lower limit `+∞`, an upper limit `-∞`, or an infinite range with a
non-positive percentage give NaN or senseless values: distinct outcome. -/
def dampDists (u l : Ext K) (inter sec : K) : Out (Ext K × K) :=
  match u, l with
  | .fin u, .fin l => .ok (.fin ((u - l) * inter), (u - l) * sec)
  | .posInf, .fin _ => if 0 < inter then .ok (.posInf, 0) else .ub
  | .posInf, .negInf => if 0 < inter then .ok (.posInf, 0) else .ub
  | .fin _, .negInf => if 0 < inter then .ok (.posInf, 0) else .ub
  | _, _ => .ub

/-- Constructor loop (QPConstr.cpp:206-214). -/
def dampInit (mb : MultiBody K) (lQ uQ lA uA : List (List (Ext K))) (inter sec : K) (i : ℕ)
    (acc : List (DampData K)) : Out (List (DampData K)) := do
  let j ← vecAt mb.joints i
  if j.dof = 1 then do
    let u ← nested uQ i 0
    let l ← nested lQ i 0
    let vl ← nested lA i 0
    let vu ← nested uA i 0
    let d ← dampDists u l inter sec
    let p ← mb.jointPosInDof i
    pure (acc ++ [⟨l, u, vl, vu, d.1, d.2, i, p, 0, .free⟩])
  else pure acc

/-- `DamperJointLimitsConstr::DamperJointLimitsConstr` (QPConstr.cpp:188-229).  `junk` is the
uninitialised contents of `lower_`, `upper_`. The jerk bounds are scaled by `Ext.mulPos`,
which is the product with `step` for `0 < step`, the only steps the theorems speak about. -/
def DamperLimits.make (mb : MultiBody K) (robotIndex : ℕ) (junk : ℕ → Ext K)
    (lQ uQ lA uA lAD uAD lADD uADD : List (List (Ext K))) (inter sec off step : K) :
    Out (DamperLimits K) := do
  let n := mb.nrDof
  let data ← forRange mb.nrJoints (dampInit mb lQ uQ lA uA inter sec) []
  let lo ← paramToVector lA ⟨n, junk⟩
  let up ← paramToVector uA ⟨n, junk⟩
  let aL ← paramToVector lAD (Vec.const n .negInf)
  let aU ← paramToVector uAD (Vec.const n .posInf)
  let dL ← paramToVector lADD (Vec.const n .negInf)
  let dU ← paramToVector uADD (Vec.const n .posInf)
  pure ⟨robotIndex, 0, data, lo, up, aL, aU, ⟨n, fun i => (dL.get i).mulPos step⟩,
    ⟨n, fun i => (dU.get i).mulPos step⟩, Vec.const n 0, step, off⟩

/-- `DamperJointLimitsConstr::updateNrVars` (QPConstr.cpp:231-232). -/
def DamperLimits.updateNrVars (d : SolverData K) (s : DamperLimits K) : Out (DamperLimits K) := do
  let b ← vecAt d.alphaDBegin s.robotIndex
  pure { s with alphaDBegin := b }

/-- `computeDamping` (QPConstr.cpp:305-306). -/
def computeDamping (alpha dist iDist sDist : K) : Out K := do
  let f ← fdiv (iDist - sDist) (dist - sDist)
  pure (f * alpha)

/-- `computeDamper` (QPConstr.cpp:308-309). -/
def computeDamper (dist iDist sDist damping : K) : Out K := do
  let f ← fdiv (dist - sDist) (iDist - sDist)
  pure (damping * f)

/-- `q - d.min` and, with the roles exchanged, `d.max - q` (QPConstr.cpp:243-244). -/
def distTo (q : K) : Ext K → Ext K
  | .fin m => .fin (q - m)
  | .negInf => .posInf
  | .posInf => .negInf

/-- See `distTo`. -/
def distFrom (q : K) : Ext K → Ext K
  | .fin m => .fin (m - q)
  | .negInf => .negInf
  | .posInf => .posInf

/-- The damping after the test of the state (QPConstr.cpp:255-259, 269-273). -/
def newDamping (target : DampState) (alpha dist iDist sDist off : K) (d : DampData K) : Out K :=
  if d.state ≠ target then do
    let c ← computeDamping alpha dist iDist sDist
    pure (|c| + off)
  else pure d.damping

/-- The values written for one joint (QPConstr.cpp:243-281): new data, lower and upper bound.
Computing a damper with an infinite distance gives a NaN: distinct outcome. -/
def dampJoint (step off : K) (q alpha : K) (d : DampData K) :
    Out (DampData K × Ext K × Ext K) := do
  if step = 0 then .ub else
  let ld := distTo q d.min
  let ud := distFrom q d.max
  let l0 := (d.minVel.addFin (-alpha)).divBy step
  let u0 := (d.maxVel.addFin (-alpha)).divBy step
  if ld.lt d.iDist then
    match ld, d.iDist with
    | .fin ld, .fin iD => do
      let c ← newDamping .low alpha ld iD d.sDist off d
      let damper ← computeDamper ld iD d.sDist c
      pure ({ d with damping := c, state := .low },
        (Ext.fin ((-damper - alpha) / step)).max l0, u0)
    | _, _ => .ub
  else if ud.lt d.iDist then
    match ud, d.iDist with
    | .fin ud, .fin iD => do
      let c ← newDamping .upp alpha ud iD d.sDist off d
      let damper ← computeDamper ud iD d.sDist c
      pure ({ d with damping := c, state := .upp }, l0,
        (Ext.fin ((damper - alpha) / step)).min u0)
    | _, _ => .ub
  else pure ({ d with state := .free }, l0, u0)

/-- Body of the loop of `DamperJointLimitsConstr::update` (QPConstr.cpp:241-282). -/
def DamperLimits.jointStep (q alpha : List (List K)) (i : ℕ) (s : DamperLimits K) :
    Out (DamperLimits K) := do
  let d ← vecAt s.data i
  let qi ← nested q d.jointIndex 0
  let ai ← nested alpha d.jointIndex 0
  let (d', l, u) ← dampJoint s.step s.off qi ai d
  let lo ← s.lower.set d.alphaDBegin l
  let up ← s.upper.set d.alphaDBegin u
  let data ← vecSet s.data i d'
  pure { s with lower := lo, upper := up, data := data }

/-- `DamperJointLimitsConstr::update` (QPConstr.cpp:234-285). -/
def DamperLimits.update (q alpha alphaD : List (List K)) (s : DamperLimits K) :
    Out (DamperLimits K) := do
  let prev ← paramToVector alphaD s.prev
  let s1 ← forRange s.data.length (DamperLimits.jointStep q alpha) { s with prev := prev }
  let l1 ← cwiseMax s1.lower s1.alphaDL
  let ddL ← addVec s1.alphaDDL prev
  let l2 ← cwiseMax l1 ddL
  let u1 ← cwiseMin s1.upper s1.alphaDU
  let ddU ← addVec s1.alphaDDU prev
  let u2 ← cwiseMin u1 ddU
  pure { s1 with lower := l2, upper := u2 }

/-- The bound read by the QP assembly (QPConstr.cpp:296-303). -/
def DamperLimits.bound (s : DamperLimits K) : BoundC K := ⟨s.alphaDBegin, s.lower, s.upper⟩

end

end Verif
