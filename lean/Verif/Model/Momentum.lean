import Verif.Model.CoM

/-!
# Model of `MomentumTask` (src/Tasks.cpp:950-1009, src/QPTasks.cpp:1233-1259)

`rbd::computeCentroidalMomentum`, `rbd::computeCoMVelocity` and `rbd::CentroidalMomentumMatrix` are RBDyn's
(trusted base): their documented formulas are the first part of this file.  `updateDot` and `jacDot` are in
`Model/JacDot.lean`.
-/

set_option autoImplicit false

namespace Verif

/-- A body with its spatial inertia at the origin of the body frame: mass, first moment, path and
rotational inertia. -/
structure BodyI (K : Type) where
  b : BodyM K
  I : M3 K

section
variable {K : Type} [CommRing K]

/-- `f - g` on force vectors. -/
instance : Sub (FV K) := ⟨fun a b => ⟨a.couple - b.couple, a.force - b.force⟩⟩

/-- `RBInertia * MotionVec` (SpaceVecAlg): `(I ω + h × v, m v - h × ω)`. -/
def BodyI.mul (B : BodyI K) (v : MV K) : FV K :=
  ⟨B.I.mulVec v.ang + B.b.h.cross v.lin, B.b.mass • v.lin - B.b.h.cross v.ang⟩

/-- `v.crossDual(f)` (SpaceVecAlg): `(ω × n + v × f, ω × f)`. -/
def MV.crossDual (v : MV K) (f : FV K) : FV K :=
  ⟨v.ang.cross f.couple + v.lin.cross f.force, v.ang.cross f.force⟩

/-- Entry of `f.vector()`: the couple first. -/
def FV.get (f : FV K) (a : ℕ) : K := if a < 3 then f.couple.get a else f.force.get (a - 3)

/-- Column of a matrix with six rows as a motion vector. -/
def Mat.colMV (M : Mat K) (k : ℕ) : MV K :=
  ⟨⟨M.get 0 k, M.get 1 k, M.get 2 k⟩, ⟨M.get 3 k, M.get 4 k, M.get 5 k⟩⟩

/-- `bodyPosW[i] * PTransform(-com)` (RBDyn): from the frame at the centre of mass, with the orientation of
the world, to the body. -/
def atCom (X : PT K) (com : V3 K) : PT K := X.mul (PT.ofTrans (-com))

/-- `rbd::computeCentroidalMomentum(mb, mbc, com)` (RBDyn). -/
def centroidalMomentum (bs : List (BodyI K)) (st : KState K) (com : V3 K) : Out (FV K) :=
  forRange bs.length (fun i (a : FV K) => do
    let B ← vecAt bs i
    let X ← vecAt st.bodyPosW i
    let V ← vecAt st.bodyVelB i
    pure (a + (atCom X com).transMul (B.mul V))) 0

/-- `CentroidalMomentumMatrix::normalMomentumDot(mb, mbc, com, comDot, normalAccB)` (RBDyn). -/
def normalMomentumDot (bs : List (BodyI K)) (st : KState K) (com comDot : V3 K) : Out (FV K) :=
  forRange bs.length (fun i (a : FV K) => do
    let B ← vecAt bs i
    let X ← vecAt st.bodyPosW i
    let V ← vecAt st.bodyVelB i
    let A ← vecAt st.normalAccB i
    pure (a + ((atCom X com).transMul (B.mul A + V.crossDual (B.mul V))
      - MV.crossDual ⟨0, comDot⟩ ((atCom X com).transMul (B.mul V))))) 0

/-- `CentroidalMomentumMatrix::computeMatrix(mb, mbc, com)` (RBDyn): the Jacobians of the bodies through
inertia and transform, added at the dofs of their paths. -/
def momentumMatrix (bs : List (BodyI K)) (mb : MultiBody K) (st : KState K) (com : V3 K) : Out (Mat K) :=
  forRange bs.length (fun i (M : Mat K) => do
    let B ← vecAt bs i
    let X ← vecAt st.bodyPosW i
    let J ← Jac.bodyJacobian mb st ⟨B.b.path, 0⟩
    let F ← fullJacobian mb B.b.path
      ⟨6, J.cols, fun a k => ((atCom X com).transMul (B.mul (J.colMV k))).get a⟩ (Mat.zero 6 mb.nrDof)
    pure ⟨6, mb.nrDof, fun a k => M.get a k + F.get a k⟩) (Mat.zero 6 mb.nrDof)

end

section
variable {K : Type} [Field K] [LinearOrder K]

/-- `rbd::computeCoMVelocity(mb, mbc)` (RBDyn): the sum over the bodies of `Eᵀ (m v - h × ω)`, divided by
the total mass. -/
def computeCoMVelocity (bs : List (BodyM K)) (st : KState K) : Out (V3 K) := do
  let a ← forRange bs.length (fun i (a : V3 K × K) => do
    let b ← vecAt bs i
    let X ← vecAt st.bodyPosW i
    let V ← vecAt st.bodyVelB i
    pure (a.1 + X.E.transpose.mulVec (b.mass • V.lin - b.h.cross V.ang), a.2 + b.mass)) (0, 0)
  fdivV a.1 a.2

/-- `MomentumTask` (Tasks.h:481-513): target and results; `speed_` is set to zero by the constructor and
never changed, the other results are uninitialised before the first update. -/
structure MomentumT (K : Type) where
  momentum : FV K
  eval : FV K
  speed : FV K
  normalAcc : FV K
  jacMat : Mat K

namespace MomentumT

/-- Constructor (Tasks.cpp:954-957). -/
def make (mom : FV K) (junk : MomentumT K) : MomentumT K := { junk with momentum := mom, speed := 0 }

/-- `momentum(mom)` (Tasks.cpp:959-960). -/
def setMomentum (mom : FV K) (s : MomentumT K) : MomentumT K := { s with momentum := mom }

/-- `update(mb, mbc, normalAccB)` (Tasks.cpp:976-987), the one `qp::MomentumTask::update` calls
(QPTasks.cpp:1244-1247). -/
def update (bs : List (BodyI K)) (mb : MultiBody K) (st : KState K) (s : MomentumT K) :
    Out (MomentumT K) := do
  let com ← computeCoM (bs.map BodyI.b) st
  let h ← centroidalMomentum bs st com
  let comDot ← computeCoMVelocity (bs.map BodyI.b) st
  let n ← normalMomentumDot bs st com comDot
  let M ← momentumMatrix bs mb st com
  pure { s with eval := s.momentum - h, normalAcc := n, jacMat := M }

/-- What `SetPointTask` and `TrajectoryTask` read of `qp::MomentumTask` (QPTasks.cpp:1249-1259). -/
def hl (s : MomentumT K) : HL K :=
  ⟨s.jacMat, ⟨6, s.eval.get⟩, ⟨6, s.speed.get⟩, ⟨6, s.normalAcc.get⟩⟩

end MomentumT

end

end Verif
