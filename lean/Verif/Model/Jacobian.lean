import Verif.Model.Layout

/-!
# The RBDyn functions on nested parameters and Jacobians

Not part of `/repo`: the documented behaviour of the RBDyn functions the library calls (trusted base,
see DESIGN.md).
-/

set_option autoImplicit false

namespace Verif

section
variable {α : Type}

/-- `rbd::paramToVector(v, e)` (RBDyn): writes the nested values one after the other into `e`; the
size of `e` is not checked. -/
def paramToVector (v : List (List α)) (e : Vec α) : Out (Vec α) :=
  if v.flatten.length ≤ e.size then
    .ok ⟨e.size, fun i => (v.flatten[i]?).getD (e.get i)⟩
  else .ub

/-- `v[i][j]` on nested vectors, unchecked. -/
def nested (v : List (List α)) (i j : ℕ) : Out α := do
  let l ← vecAt v i
  vecAt l j

end

section
variable {K : Type} [Zero K]

/-- `rbd::Jacobian::fullJacobian(mb, jac, res)` (RBDyn): clears the first `jac.rows()` rows of `res`
and copies the columns of each joint of the path to the position of the joint in the robot's dof
vector. -/
def fullJacobian (mb : MultiBody K) (path : List ℕ) (jac res : Mat K) : Out (Mat K) := do
  let r0 ← res.setBlock 0 0 (Mat.zero jac.rows mb.nrDof)
  let s ← forEach path (fun i (s : Mat K × ℕ) => do
    let j ← vecAt mb.joints i
    let p ← mb.jointPosInDof i
    let b ← jac.block 0 s.2 jac.rows j.dof
    let r ← s.1.setBlock 0 p b
    pure (r, s.2 + j.dof)) (r0, 0)
  pure s.1

/-- `jac.dof()` (RBDyn): dofs of the joints of the path. -/
def pathDof (mb : MultiBody K) (path : List ℕ) : ℕ :=
  (path.map fun i => ((mb.joints[i]?).map Joint.dof).getD 0).sum

end

end Verif
