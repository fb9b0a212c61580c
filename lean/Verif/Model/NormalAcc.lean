import Verif.Model.Layout

/-!
# Model of `SolverData::computeNormalAccB` (src/QPSolverData.cpp:25-50)
-/

set_option autoImplicit false

namespace Verif

/-- The part of `rbd::MultiBodyConfig` the solver itself reads or writes; `rest` stands for all the
other members. -/
structure Mbc (K R : Type) where
  alphaD : List (List K)
  parentToSon : List (PT K)
  jointVelocity : List (MV K)
  bodyVelB : List (MV K)
  rest : R

section
variable {K R : Type} [CommRing K]

/-- Body of the joint loop (QPSolverData.cpp:38-48).  All the indexings are unchecked. -/
def normalAccJoint (mb : MultiBody K) (mbc : Mbc K R) (i : ℕ) (acc : List (MV K)) :
    Out (List (MV K)) := do
  let X ← vecAt mbc.parentToSon i
  let vj ← vecAt mbc.jointVelocity i
  let vb ← vecAt mbc.bodyVelB i
  let p ← vecAt mb.pred i
  let s ← vecAt mb.succ i
  if p ≠ -1 then do
    let ap ← vecAtI acc p
    vecSet acc s (X.mulM ap + vb.cross vj)
  else vecSet acc s (vb.cross vj)

/-- Body of the robot loop (QPSolverData.cpp:29-49). -/
def normalAccRobot (mbs : List (MultiBody K)) (mbcs : List (Mbc K R)) (r : ℕ) (d : SolverData K) :
    Out (SolverData K) := do
  let mb ← vecAt mbs r
  let mbc ← vecAt mbcs r
  let acc ← vecAt d.normalAccB r
  let acc' ← forRange mb.nrJoints (normalAccJoint mb mbc) acc
  let nB ← vecSet d.normalAccB r acc'
  pure { d with normalAccB := nB }

/-- `SolverData::computeNormalAccB` (QPSolverData.cpp:25-50): only the robots listed in
`mobileRobotIndex_`. -/
def computeNormalAccB (mbs : List (MultiBody K)) (mbcs : List (Mbc K R)) (d : SolverData K) :
    Out (SolverData K) :=
  forEach d.mobileRobotIndex (normalAccRobot mbs mbcs) d

end

end Verif
