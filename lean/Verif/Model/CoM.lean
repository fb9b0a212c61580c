import Verif.Model.Collision
import Verif.Model.Kine
import Verif.Model.Multi

/-!
# Model of `CoMTask` (src/Tasks.cpp:748-806, src/QPTasks.cpp:993-1033)

`rbd::computeCoM` and `rbd::CoMJacobian` are RBDyn's (trusted base): their documented formulas are the
first part of this file.
-/

set_option autoImplicit false

namespace Verif

/-- What RBDyn knows of one body: mass and first moment of its inertia, and the joints from the root to
it. -/
structure BodyM (K : Type) where
  mass : K
  h : V3 K
  path : List ℕ

/-- `rbd::CoMJacobian` (RBDyn): per body the coefficient, the CoM in the body frame and the path; and the
weights. -/
structure ComJac (K : Type) where
  coeff : List K
  jac : List (Jac K)
  weight : List K

section
variable {K : Type} [Field K] [LinearOrder K]

/-- `rbd::computeCoM(mb, mbc)` (RBDyn): the sum over the bodies of `mass r + Eᵀ h`, divided by the total
mass. -/
def computeCoM (bs : List (BodyM K)) (st : KState K) : Out (V3 K) := do
  let a ← forRange bs.length (fun i (a : V3 K × K) => do
    let b ← vecAt bs i
    let X ← vecAt st.bodyPosW i
    pure (a.1 + (b.mass • X.r + X.E.transpose.mulVec b.h), a.2 + b.mass)) (0, 0)
  fdivV a.1 a.2

namespace ComJac

/-- `CoMJacobian::updateInertialParameters(mb)` (RBDyn): the coefficient of a body is
`mass * weight / total mass`, its point `h / mass`; a body without mass has coefficient and point zero. -/
def updateInertial (bs : List (BodyM K)) (J : ComJac K) : Out (ComJac K) := do
  let total := ∑ i ∈ Finset.range bs.length, (bs.getD i ⟨0, 0, []⟩).mass
  let l ← forRange bs.length (fun i (l : List K × List (Jac K)) => do
    let b ← vecAt bs i
    let w ← vecAt J.weight i
    if 0 < b.mass then do
      let c ← fdiv (b.mass * w) total
      pure (l.1 ++ [c], l.2 ++ [⟨b.path, (1 / b.mass) • b.h⟩])
    else pure (l.1 ++ [0], l.2 ++ [⟨b.path, 0⟩])) ([], [])
  pure { J with coeff := l.1, jac := l.2 }

/-- `CoMJacobian(mb, weight)` (RBDyn): a weight vector of the wrong size is rejected. -/
def make (bs : List (BodyM K)) (weight : List K) : Out (ComJac K) :=
  if weight.length ≠ bs.length then .throws .domainError
  else updateInertial bs ⟨[], [], weight⟩

/-- `CoMJacobian::velocity(mb, mbc)` (RBDyn). -/
def velocity (st : KState K) (J : ComJac K) : Out (V3 K) :=
  forRange J.jac.length (fun i (a : V3 K) => do
    let j ← vecAt J.jac i
    let c ← vecAt J.coeff i
    let v ← j.velocity st
    pure (a + c • v.lin)) 0

/-- `CoMJacobian::normalAcceleration(mb, mbc, normalAccB)` (RBDyn). -/
def normalAcc (st : KState K) (J : ComJac K) : Out (V3 K) :=
  forRange J.jac.length (fun i (a : V3 K) => do
    let j ← vecAt J.jac i
    let c ← vecAt J.coeff i
    let v ← j.normalAcc st
    pure (a + c • v.lin)) 0

/-- `CoMJacobian::jacobian(mb, mbc)` (RBDyn): the combination of the Jacobians of the points.  (RBDyn
exchanges the sums over the bodies and over the joints.) -/
def jacobian (mb : MultiBody K) (st : KState K) (J : ComJac K) : Out (Mat K) :=
  forRange J.jac.length (fun i (M : Mat K) => do
    let j ← vecAt J.jac i
    let c ← vecAt J.coeff i
    let s ← j.jacobian mb st
    let sh ← s.block 3 0 3 (pathDof mb j.path)
    let F ← fullJacobian mb j.path sh (Mat.zero 3 mb.nrDof)
    pure ⟨3, mb.nrDof, fun a k => M.get a k + c * F.get a k⟩) (Mat.zero 3 mb.nrDof)

end ComJac

/-- `CoMTask` (Tasks.h:396-432); `actual_` and the results are uninitialised before the first update. -/
structure CoMT (K : Type) where
  com : V3 K
  actual : V3 K
  jac : ComJac K
  out : Out3 K

namespace CoMT

/-- Constructor with weights (Tasks.cpp:753-757). -/
def makeW (bs : List (BodyM K)) (com : V3 K) (weight : List K) (junkA : V3 K) (junk : Out3 K) :
    Out (CoMT K) := do
  let J ← ComJac.make bs weight
  pure ⟨com, junkA, J, junk⟩

/-- Constructor without weights (Tasks.cpp:748-751): all of them one. -/
def make (bs : List (BodyM K)) (com : V3 K) (junkA : V3 K) (junk : Out3 K) : Out (CoMT K) :=
  makeW bs com (List.replicate bs.length 1) junkA junk

/-- `com(com)` (Tasks.cpp:759-760). -/
def setCom (c : V3 K) (s : CoMT K) : CoMT K := { s with com := c }

/-- `updateInertialParameters(mb)` (Tasks.cpp:768-769). -/
def updateInertial (bs : List (BodyM K)) (s : CoMT K) : Out (CoMT K) := do
  let J ← s.jac.updateInertial bs
  pure { s with jac := J }

/-- `update(mb, mbc, com, normalAccB)` (Tasks.cpp:781-792). -/
def updateAt (mb : MultiBody K) (st : KState K) (com : V3 K) (s : CoMT K) : Out (CoMT K) := do
  let v ← s.jac.velocity st
  let n ← s.jac.normalAcc st
  let M ← s.jac.jacobian mb st
  pure { s with
    actual := com, out := ⟨s.com - com, v, n, M⟩ }

/-- `qp::CoMTask::update` (QPTasks.cpp:1015-1021); the overload Tasks.cpp:771-779 does the same with the
normal accelerations RBDyn computes itself. -/
def update (bs : List (BodyM K)) (mb : MultiBody K) (st : KState K) (s : CoMT K) : Out (CoMT K) := do
  let c ← computeCoM bs st
  s.updateAt mb st c

end CoMT

/-- What `MultiCoMTask` gets from RBDyn for one robot (Model/Multi), from the formulas above. -/
def comEnv (bs : List (BodyM K)) (mb : MultiBody K) (st : KState K) : Out (CoMEnv K) := do
  let c ← computeCoM bs st
  let J ← ComJac.make bs (List.replicate bs.length 1)
  let v ← J.velocity st
  let n ← J.normalAcc st
  let M ← J.jacobian mb st
  pure ⟨c, v, n, M⟩

end

end Verif
