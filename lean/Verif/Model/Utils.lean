import Verif.Model.Layout

/-!
# Model of `src/utils.h` and of the callers that turn a line into a joint name
-/

set_option autoImplicit false

namespace Verif

/-- The loop of `findJointFromVector` (utils.h:16-20) from joint `j` on, `dofs` being the dofs of the
joints from `j` on. -/
def findJointLoop : List ℕ → ℕ → ℤ → ℤ → ℤ
  | [], _, _, _ => -1
  | d :: ds, j, start, line =>
    if line ≥ start ∧ line ≤ start + d then (j : ℤ)
    else findJointLoop ds (j + 1) (start + d) line

/-- `findJointFromVector(mb, line, withBase)` (utils.h:13-22).  The variable `start` initialises both
the joint index and the dof count, as in the code. -/
def findJointFromVector {K : Type} (mb : MultiBody K) (line : ℤ) (withBase : Bool) : ℤ :=
  let start : ℕ := if withBase then 0 else 1
  findJointLoop ((mb.joints.map Joint.dof).drop start) start start line

/-- `compareDof` (utils.h:24-25). -/
def compareDof {K : Type} (mb1 mb2 : MultiBody K) : Bool := decide (mb1.nrDof < mb2.nrDof)

/-- `*std::max_element(begin, end, lt)`: the first element not smaller than any later one; the end iterator
is dereferenced when the vector is empty. -/
def maxElement {α : Type} (lt : α → α → Bool) : List α → Out α
  | [] => .ub
  | a :: t => .ok (t.foldl (fun b x => if lt b x then x else b) a)

/-- The joint name printed by `JointLimitsConstr::descBound` (QPConstr.cpp:135-139),
`DamperJointLimitsConstr::descBound` (QPConstr.cpp:290-294), both with `withBase = false`, and
`MotionConstrCommon::descGenInEq` (QPMotionConstr.cpp:230-234) with `withBase = true`:
`mb.joint(findJointFromVector(...)).name()`, an unchecked access. -/
def descJoint {K : Type} (mb : MultiBody K) (line : ℤ) (withBase : Bool) : Out String := do
  let j ← vecAtI mb.joints (findJointFromVector mb line withBase)
  pure j.name

end Verif
