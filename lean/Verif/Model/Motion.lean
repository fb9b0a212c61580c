import Verif.Model.Fill
import Verif.Model.Jacobian
import Verif.Model.Utils

/-!
# Model of `src/QPMotionConstr.cpp`
-/

set_option autoImplicit false

namespace Verif

open Finset

/-! ## PositiveLambda -/

section
variable {K : Type} [CommRing K]

/-- `PositiveLambda` (QPMotionConstr.h:34-78); `cont` is the vector of `ContactData`. -/
structure PositiveLambda (K : Type) where
  lambdaBegin : ℤ
  XL : Vec (Ext K)
  XU : Vec (Ext K)
  cont : List (ContactId × ℕ × ℕ)

/-- `PositiveLambda::PositiveLambda` (QPMotionConstr.cpp:31). -/
def PositiveLambda.init : PositiveLambda K := ⟨-1, ⟨0, fun _ => .negInf⟩, ⟨0, fun _ => .negInf⟩, []⟩

/-- `PositiveLambda::updateNrVars` (QPMotionConstr.cpp:33-46). -/
def PositiveLambda.updateNrVars (d : SolverData K) (_s : PositiveLambda K) :
    Out (PositiveLambda K) := do
  let cont ← forRange d.allCont.length (fun i (l : List (ContactId × ℕ × ℕ)) => do
    let c ← vecAt d.allCont i
    let b ← vecAt d.lambdaBegin i
    let n ← c.nrLambda
    pure (l ++ [(c.id, b, n)])) []
  pure ⟨d.lambdaBegin0, Vec.const d.totalLambda (.fin 0), Vec.const d.totalLambda .posInf, cont⟩

/-- `PositiveLambda::descBound` (QPMotionConstr.cpp:57-74): the id of the contact printed. -/
def PositiveLambda.descBound (s : PositiveLambda K) (line : ℤ) : Option ContactId :=
  (s.cont.find? fun cd =>
    let b := (cd.2.1 : ℤ) - s.lambdaBegin
    decide (line ≥ b ∧ line < b + cd.2.2)).map Prod.fst

/-- The bound read by the QP assembly (QPMotionConstr.cpp:76-83).  `beginVar()` is only read after
`updateNrVars`, when it is not negative. -/
def PositiveLambda.bound (s : PositiveLambda K) : BoundC K := ⟨s.lambdaBegin.toNat, s.XL, s.XU⟩

end

/-! ## MotionConstrCommon -/

/-- What the robot provides at construction: its structure and the joint path from the base to a
named body (`rbd::Jacobian(mb, name).jointsPath()`; RBDyn throws when the body does not exist). -/
structure RobotKin (K : Type) where
  mb : MultiBody K
  path : String → Out (List ℕ)

/-- What RBDyn computes from the current configuration: mass matrix and bias
(`ForwardDynamics::computeH/computeC`), and the 6-row body Jacobian of a named body translated to a
point of that body (`bodyJacobian` then `translateBodyJacobian`), columns along the body's path. -/
structure MotionEnv (K : Type) where
  H : Mat K
  C : Vec K
  jac : String → V3 K → Mat K
  q : List (List K)
  alpha : List (List K)

/-- `MotionConstrCommon::ContactData` (QPMotionConstr.h:124-141). -/
structure MContact (K : Type) where
  body : String
  path : List ℕ
  lambdaBegin : ℕ
  points : List (V3 K)
  minusGenerators : List (List (V3 K))

/-- `MotionConstrCommon` (QPMotionConstr.h:84-160).  `fdH`, `fdC` are the members `fd_.H()`,
`fd_.C()`; `scratch` is the row count of `jacLambda_` and `fullJacLambda_`. -/
structure MotionCommon (K : Type) where
  robotIndex : ℕ
  alphaDBegin : ℕ
  nrDof : ℕ
  lambdaBegin : ℕ
  scratch : ℕ
  fdH : Mat K
  fdC : Vec K
  cont : List (MContact K)
  curTorque : Vec K
  A : Mat K
  AL : Vec (Ext K)
  AU : Vec (Ext K)

section
variable {K : Type} [CommRing K]

/-- `ContactData::ContactData` (QPMotionConstr.cpp:89-102); `jointsPath().back()` of an empty path is
undefined behaviour. -/
def MContact.make (rk : RobotKin K) (body : String) (lB : ℕ) (pts : List (V3 K))
    (cones : List (FrictionCone K)) : Out (MContact K) := do
  let path ← rk.path body
  if path = [] then .ub else
  pure ⟨body, path, lB, pts, cones.map fun c => c.generators.map fun g => -g⟩

/-- `MotionConstrCommon::MotionConstrCommon` (QPMotionConstr.cpp:104-111).  Members left
uninitialised get arbitrary contents here (zero); none is read before being written. -/
def MotionCommon.make (mb : MultiBody K) (robotIndex : ℕ) : MotionCommon K :=
  let n := mb.nrDof
  ⟨robotIndex, 0, n, 0, 0, Mat.zero n n, Vec.const n 0, [], Vec.const n 0, Mat.zero 0 0,
    Vec.const n (.fin 0), Vec.const n (.fin 0)⟩

/-- `MotionConstrCommon::computeTorque` (QPMotionConstr.cpp:113-118).  The product with `lambda`
needs matching sizes. -/
def MotionCommon.computeTorque (alphaD lambda : Vec K) (s : MotionCommon K) :
    Out (MotionCommon K) := do
  let a ← alphaD.segment s.alphaDBegin s.nrDof
  if s.fdH.cols ≠ s.nrDof ∨ s.fdC.size ≠ s.fdH.rows ∨ s.fdH.rows ≠ s.nrDof then .ub else
  if s.A.cols < s.lambdaBegin ∨ s.A.rows < s.nrDof ∨ lambda.size ≠ s.A.cols - s.lambdaBegin then .ub
  else
  pure { s with curTorque := ⟨s.fdH.rows, fun i =>
    s.fdH.rowMul i a.get + s.fdC.get i
      + ∑ k ∈ range lambda.size, s.A.get i (s.lambdaBegin + k) * lambda.get k⟩ }

/-- Inner loop of `MotionConstrCommon::torque` (QPMotionConstr.cpp:131-135). -/
def torqueInner (cur : Vec K) : List K → ℕ → Out (List K × ℕ)
  | [], p => .ok ([], p)
  | _ :: t, p => do
    let a ← cur.at' p
    let (t', p') ← torqueInner cur t (p + 1)
    pure (a :: t', p')

/-- Outer loop of `MotionConstrCommon::torque` (QPMotionConstr.cpp:129-136). -/
def torqueOuter (cur : Vec K) : List (List K) → ℕ → Out (List (List K))
  | [], _ => .ok []
  | l :: t, p => do
    let (l', p') ← torqueInner cur l p
    let t' ← torqueOuter cur t p'
    pure (l' :: t')

/-- `MotionConstrCommon::torque(mbs, mbcs)` (QPMotionConstr.cpp:123-137): the new `jointTorque` of
the robot; the entry of joint 0 is left alone. -/
def MotionCommon.torque (mb : MultiBody K) (jointTorque : List (List K)) (s : MotionCommon K) :
    Out (List (List K)) := do
  let j0 ← vecAt mb.joints 0
  match jointTorque with
  | [] => pure []
  | t0 :: t => do
    let t' ← torqueOuter s.curTorque t j0.dof
    pure (t0 :: t')

/-- Body of the contact loop of `updateNrVars` (QPMotionConstr.cpp:148-160). -/
def MotionCommon.contStep (rk : RobotKin K) (d : SolverData K) (robotIndex : ℕ) (i : ℕ)
    (cont : List (MContact K)) : Out (List (MContact K)) := do
  let c ← vecAt d.allCont i
  let cont1 ← (if (robotIndex : ℤ) = c.id.r1Index then do
      let b ← vecAt d.lambdaBegin i
      let m ← MContact.make rk c.id.r1BodyName b c.r1Points c.r1Cones
      pure (cont ++ [m])
    else pure cont)
  (if (robotIndex : ℤ) = c.id.r2Index then do
      let b ← vecAt d.lambdaBegin i
      let m ← MContact.make rk c.id.r2BodyName b c.r2Points c.r2Cones
      pure (cont1 ++ [m])
    else pure cont1)

/-- `MotionConstrCommon::updateNrVars` (QPMotionConstr.cpp:139-167). -/
def MotionCommon.updateNrVars (rk : RobotKin K) (d : SolverData K) (s : MotionCommon K) :
    Out (MotionCommon K) := do
  let aB ← vecAt d.alphaDBegin s.robotIndex
  let cont ← forRange d.allCont.length (MotionCommon.contStep rk d s.robotIndex) []
  pure { s with
    alphaDBegin := aB, lambdaBegin := d.lambdaBegin0, cont := cont,
    A := Mat.zero s.nrDof d.nrVars, scratch := d.totalLambda }

/-- `jacLambda_ = minusGenerators^T * jacTrans_.block(3, 0, 3, dof)` (QPMotionConstr.cpp:199-200). -/
def jacLambdaBlock (gens : List (V3 K)) (J : Mat K) (dof : ℕ) : Mat K :=
  ⟨gens.length, dof, fun k c =>
    (gens.getD k 0).x * J.get 3 c + (gens.getD k 0).y * J.get 4 c + (gens.getD k 0).z * J.get 5 c⟩

/-- Body of the point loop of `computeMatrix` (QPMotionConstr.cpp:191-207); state: `A_`,
`lambdaOffset`.  `jacTrans_` has `nrDof` columns, `jacLambda_` and `fullJacLambda_` have
`totalLambda` rows and `nrDof` columns. -/
def MotionCommon.pointStep (mb : MultiBody K) (env : MotionEnv K) (s : MotionCommon K)
    (cd : MContact K) (j : ℕ) (st : Mat K × ℕ) : Out (Mat K × ℕ) := do
  let gens ← vecAt cd.minusGenerators j
  let p ← vecAt cd.points j
  let dof := pathDof mb cd.path
  if s.nrDof < dof ∨ s.scratch < gens.length then .ub else
  let jl := jacLambdaBlock gens (env.jac cd.body p) dof
  let full ← fullJacobian mb cd.path jl (Mat.zero s.scratch s.nrDof)
  let blk ← full.block 0 0 gens.length s.nrDof
  let A ← st.1.setBlock 0 (cd.lambdaBegin + st.2) ⟨blk.cols, blk.rows, fun a b => blk.get b a⟩
  pure (A, st.2 + gens.length)

/-- Body of the contact loop of `computeMatrix` (QPMotionConstr.cpp:185-208). -/
def MotionCommon.contactStep (mb : MultiBody K) (env : MotionEnv K) (s : MotionCommon K)
    (cd : MContact K) (A : Mat K) : Out (Mat K) := do
  let st ← forRange cd.points.length (MotionCommon.pointStep mb env s cd) (A, 0)
  pure st.1

/-- `MotionConstrCommon::computeMatrix` (QPMotionConstr.cpp:169-213).  `AL_`, `AU_` are set to
`-C`. -/
def MotionCommon.computeMatrix (mb : MultiBody K) (env : MotionEnv K) (s : MotionCommon K) :
    Out (MotionCommon K) := do
  if env.H.rows ≠ s.nrDof ∨ env.H.cols ≠ s.nrDof then .ub else
  let A0 ← s.A.setBlock 0 s.alphaDBegin env.H
  let A ← forEach s.cont (MotionCommon.contactStep mb env s) A0
  pure { s with
    fdH := env.H, fdC := env.C, A := A,
    AL := ⟨env.C.size, fun i => .fin (-env.C.get i)⟩,
    AU := ⟨env.C.size, fun i => .fin (-env.C.get i)⟩ }

/-- `descGenInEq` (QPMotionConstr.cpp:230-234). -/
def MotionCommon.descGenInEq (mb : MultiBody K) (line : ℤ) : Out String := descJoint mb line true

/-- The lines read by the QP assembly: `maxGenInEq() = A_.rows()` (QPMotionConstr.cpp:215-225),
`nrGenInEq()` defaults to `maxGenInEq()` (QPSolver.h:248). -/
def MotionCommon.gen (s : MotionCommon K) : GenC K := ⟨s.A.rows, s.A.rows, s.A, s.AL, s.AU⟩

end

/-! ## MotionConstr -/

/-- `MotionConstr` (QPMotionConstr.h:162-200). -/
structure MotionConstr (K : Type) where
  common : MotionCommon K
  torqueL : Vec (Ext K)
  torqueU : Vec (Ext K)
  torqueDtL : Vec (Ext K)
  torqueDtU : Vec (Ext K)
  updateIter : ℕ

section
variable {K : Type} [CommRing K] [LinearOrder K]

/-- `a.cwiseMax(b)`: sizes must match. -/
def cwiseMax (a b : Vec (Ext K)) : Out (Vec (Ext K)) :=
  if a.size = b.size then .ok ⟨a.size, fun i => (a.get i).max (b.get i)⟩ else .ub

/-- `a.cwiseMin(b)`: sizes must match. -/
def cwiseMin (a b : Vec (Ext K)) : Out (Vec (Ext K)) :=
  if a.size = b.size then .ok ⟨a.size, fun i => (a.get i).min (b.get i)⟩ else .ub

/-- `a + v` with finite `v`: sizes must match. -/
def addVec (a : Vec (Ext K)) (v : Vec K) : Out (Vec (Ext K)) :=
  if a.size = v.size then .ok ⟨a.size, fun i => (a.get i).addFin (v.get i)⟩ else .ub

/-- `a.head(w.size()) += w` where `a` holds the finite values `-C`. -/
def addHead (a w : Vec (Ext K)) : Out (Vec (Ext K)) :=
  if w.size ≤ a.size then
    .ok ⟨a.size, fun i => if i < w.size then
      (match a.get i with | .fin c => (w.get i).addFin c | e => e) else a.get i⟩
  else .ub

/-- `MotionConstr::MotionConstr` (QPMotionConstr.cpp:245-261).  `junk` is the uninitialised contents
of `torqueL_`, `torqueU_`. The torque derivative bounds are scaled by `Ext.mulPos`, which is the
product with `dt` for `0 < dt`, the only time steps the theorems speak about. -/
def MotionConstr.make (mb : MultiBody K) (robotIndex : ℕ) (junk : ℕ → Ext K)
    (lT uT lTD uTD : List (List (Ext K))) (dt : K) : Out (MotionConstr K) := do
  let n := mb.nrDof
  let tL ← paramToVector lT ⟨n, junk⟩
  let tU ← paramToVector uT ⟨n, junk⟩
  let dL ← paramToVector lTD (Vec.const n .negInf)
  let dU ← paramToVector uTD (Vec.const n .posInf)
  pure ⟨MotionCommon.make mb robotIndex, tL, tU,
    ⟨n, fun i => (dL.get i).mulPos dt⟩, ⟨n, fun i => (dU.get i).mulPos dt⟩, 0⟩

/-- The common end of `MotionConstr::update` (QPMotionConstr.cpp:270-279) and
`MotionSpringConstr::update` (332-341). -/
def MotionConstr.addTorque (s : MotionConstr K) : Out (MotionConstr K) := do
  if 0 < s.updateIter then do
    let dL ← addVec s.torqueDtL s.common.curTorque
    let dU ← addVec s.torqueDtU s.common.curTorque
    let l ← cwiseMax s.torqueL dL
    let u ← cwiseMin s.torqueU dU
    let AL ← addHead s.common.AL l
    let AU ← addHead s.common.AU u
    pure { s with common := { s.common with AL := AL, AU := AU }, updateIter := s.updateIter + 1 }
  else do
    let AL ← addHead s.common.AL s.torqueL
    let AU ← addHead s.common.AU s.torqueU
    pure { s with common := { s.common with AL := AL, AU := AU }, updateIter := s.updateIter + 1 }

/-- `MotionConstr::update` (QPMotionConstr.cpp:263-280). -/
def MotionConstr.update (mb : MultiBody K) (env : MotionEnv K) (s : MotionConstr K) :
    Out (MotionConstr K) := do
  let c ← s.common.computeMatrix mb env
  MotionConstr.addTorque { s with common := c }

/-- `MotionConstr::contactMatrix` (QPMotionConstr.cpp:282-283). -/
def MotionConstr.contactMatrix (s : MotionConstr K) : Out (Mat K) :=
  if s.common.A.cols < s.common.nrDof then .ub else
  s.common.A.block 0 s.common.nrDof s.common.A.rows (s.common.A.cols - s.common.nrDof)

/-! ## MotionSpringConstr -/

/-- `SpringJoint` (QPMotionConstr.h:202-209). -/
structure SpringJoint (K : Type) where
  jointName : String
  K' : K
  C : K
  O : K

/-- `MotionSpringConstr::SpringJointData` (QPMotionConstr.h:233-240). -/
structure SpringData (K : Type) where
  index : ℕ
  posInDof : ℕ
  K' : K
  C : K
  O : K

/-- Constructor loop of `MotionSpringConstr` (QPMotionConstr.cpp:309-314). -/
def springsMake (mb : MultiBody K) (l : List (SpringJoint K)) : Out (List (SpringData K)) :=
  forEach l (fun sj acc => do
    let i ← mb.jointIndexByName sj.jointName
    let p ← mb.jointPosInDof i
    pure (acc ++ [⟨i, p, sj.K', sj.C, sj.O⟩])) []

/-- Spring loop of `MotionSpringConstr::update` (QPMotionConstr.cpp:325-330). -/
def springStep (env : MotionEnv K) (sj : SpringData K) (s : MotionConstr K) :
    Out (MotionConstr K) := do
  let q ← nested env.q sj.index 0
  let a ← nested env.alpha sj.index 0
  let spring := q * sj.K' + a * sj.C + sj.O
  let tL ← s.torqueL.set sj.posInDof (.fin (-spring))
  let tU ← s.torqueU.set sj.posInDof (.fin (-spring))
  pure { s with torqueL := tL, torqueU := tU }

/-- `MotionSpringConstr::update` (QPMotionConstr.cpp:317-342). -/
def MotionConstr.updateSpring (mb : MultiBody K) (env : MotionEnv K) (springs : List (SpringData K))
    (s : MotionConstr K) : Out (MotionConstr K) := do
  let c ← s.common.computeMatrix mb env
  let s1 ← forEach springs (springStep env) { s with common := c }
  MotionConstr.addTorque s1

end

/-! ## MotionPolyConstr -/

/-- `MotionPolyConstr` (QPMotionConstr.h:242-270). -/
structure MotionPoly (K : Type) where
  common : MotionCommon K
  torqueL : List (List K)
  torqueU : List (List K)
  jointIndex : List ℕ

section
variable {K : Type} [Field K] [LinearOrder K]

/-- Horner's scheme from the highest coefficient (Eigen `poly_eval_horner`), coefficients in
increasing order. -/
def hornerEval (cs : List K) (x : K) : K := cs.foldr (fun c v => v * x + c) 0

/-- `Eigen::poly_eval` (Eigen unsupported): Horner when `|x|² ≤ 1`, otherwise evaluation of the
reversed polynomial at `1/x` times `x^deg`; no coefficient at all is undefined behaviour. -/
def polyEval (cs : List K) (x : K) : Out K :=
  if cs = [] then .ub
  else if x * x ≤ 1 then .ok (hornerEval cs x)
  else .ok (x ^ (cs.length - 1) * hornerEval cs.reverse (1 / x))

/-- `MotionPolyConstr::MotionPolyConstr` (QPMotionConstr.cpp:348-362). -/
def MotionPoly.make (mb : MultiBody K) (robotIndex : ℕ) (lP uP : List (List (List K))) :
    Out (MotionPoly K) := do
  forRange mb.nrJoints (fun i (s : MotionPoly K) => do
    let j ← vecAt mb.joints i
    if j.dof = 1 then do
      let l ← nested lP i 0
      let u ← nested uP i 0
      pure { s with
        torqueL := s.torqueL ++ [l], torqueU := s.torqueU ++ [u], jointIndex := s.jointIndex ++ [i] }
    else pure s) ⟨MotionCommon.make mb robotIndex, [], [], []⟩

/-- `v(i) += c` on a vector holding a finite value at `i`. -/
def addAt (v : Vec (Ext K)) (i : ℕ) (c : K) : Out (Vec (Ext K)) := do
  let e ← v.at' i
  v.set i (e.addFin c)

/-- Loop of `MotionPolyConstr::update` (QPMotionConstr.cpp:373-379). -/
def MotionPoly.step (mb : MultiBody K) (env : MotionEnv K) (i : ℕ) (s : MotionPoly K) :
    Out (MotionPoly K) := do
  let index ← vecAt s.jointIndex i
  let dofPos ← mb.jointPosInDof index
  let tl ← vecAt s.torqueL i
  let tu ← vecAt s.torqueU i
  let q ← nested env.q index 0
  let l ← polyEval tl q
  let u ← polyEval tu q
  let AL ← addAt s.common.AL dofPos l
  let AU ← addAt s.common.AU dofPos u
  pure { s with common := { s.common with AL := AL, AU := AU } }

/-- `MotionPolyConstr::update` (QPMotionConstr.cpp:364-380). -/
def MotionPoly.update (mb : MultiBody K) (env : MotionEnv K) (s : MotionPoly K) :
    Out (MotionPoly K) := do
  let c ← s.common.computeMatrix mb env
  forRange s.jointIndex.length (MotionPoly.step mb env) { s with common := c }

end

end Verif
