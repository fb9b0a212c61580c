import Verif.Model.SetPoint
import Mathlib.Data.List.Sort

/-!
# Model of `JointsSelector` (QPTasks.cpp:454-564, QPTasks.h:282-325)

A `std::map<std::string, std::vector<std::array<int, 2>>>` is an association list with distinct keys.
Dof ranges are natural numbers (a negative start would make an Eigen block out of range).  The order
in which `std::set` lists the names, and the one in which `std::sort` leaves joints with equal
positions, is not modelled: neither affects the Jacobian.
-/

set_option autoImplicit false

namespace Verif

open Finset

/-- `std::map<std::string, std::vector<std::array<int, 2>>>`: first dof and number of dofs. -/
abbrev DofMap := List (String × List (ℕ × ℕ))

/-- `JointsSelector` (QPTasks.h:320-324): `jac_`, `selectedJoints_` (`posInDof`, `dof`). -/
structure Selector (K : Type) where
  jac : Mat K
  sel : List (ℕ × ℕ)

section
variable {K : Type} [CommRing K]

/-- Body of the joint loop of the constructor (QPTasks.cpp:517-533).  `asserts` tells whether
assertions are compiled in; a failing one aborts (`ub`). -/
def Selector.nameStep (asserts : Bool) (mb : MultiBody K) (activeDofs : DofMap) (name : String)
    (sel : List (ℕ × ℕ)) : Out (List (ℕ × ℕ)) := do
  let index ← mb.jointIndexByName name
  match activeDofs.lookup name with
  | some l => do
    let p ← mb.jointPosInDof index
    forEach l (fun jdof (sel : List (ℕ × ℕ)) => do
      let j ← vecAt mb.joints index
      if asserts && !decide (jdof.1 + jdof.2 < j.dof) then .ub else
      pure (sel ++ [(p + jdof.1, jdof.2)])) sel
  | none => do
    let p ← mb.jointPosInDof index
    let j ← vecAt mb.joints index
    pure (sel ++ [(p, j.dof)])

/-- `JointsSelector::JointsSelector` (QPTasks.cpp:508-537); `dim` is `hl->dim()`. -/
def Selector.make (asserts : Bool) (mbs : List (MultiBody K)) (rI dim : ℕ) (names : List String)
    (activeDofs : DofMap) : Out (Selector K) := do
  let mb ← vecAt mbs rI
  let sel ← forEach names (Selector.nameStep asserts mb activeDofs) []
  pure ⟨Mat.zero dim mb.nrDof, sel.insertionSort (fun a b => a.1 ≤ b.1)⟩

/-- `JointsSelector::ActiveJoints` (QPTasks.cpp:458-463). -/
def Selector.activeJoints (asserts : Bool) (mbs : List (MultiBody K)) (rI dim : ℕ)
    (names : List String) (activeDofs : DofMap) : Out (Selector K) :=
  Selector.make asserts mbs rI dim names activeDofs

/-- The loop over the ranges of one joint (QPTasks.cpp:494-500): the ranges between the unactive
ones. -/
def gapRanges : List (ℕ × ℕ) → ℕ → List (ℕ × ℕ)
  | [], _ => []
  | (st, n) :: t, ji =>
    (if ji < st then [(ji, st - ji)] else []) ++ gapRanges t (st + n)

/-- Body of the loop over `unactiveDofs` (QPTasks.cpp:489-503); `jDofs.back()` of an empty vector is
undefined. -/
def unactiveStep (mb : MultiBody K) (uad : String × List (ℕ × ℕ)) (m : DofMap) : Out DofMap := do
  let index ← mb.jointIndexByName uad.1
  let j ← vecAt mb.joints index
  match uad.2.getLast? with
  | none => .ub
  | some last =>
    let fin := last.1 + last.2
    let r := gapRanges uad.2 0 ++ (if fin < j.dof then [(fin, j.dof - fin)] else [])
    pure (if r = [] then m else m ++ [(uad.1, r)])

/-- `JointsSelector::UnactiveJoints` (QPTasks.cpp:465-506): the active dofs are computed and not
passed on. -/
def Selector.unactiveJoints (asserts : Bool) (mbs : List (MultiBody K)) (rI dim : ℕ)
    (names : List String) (unactiveDofs : DofMap) : Out (Selector K) := do
  let mb ← vecAt mbs rI
  let active := (mb.joints.map Joint.name).dedup.filter (fun n => decide (n ∉ names))
  let _ ← forEach unactiveDofs (unactiveStep mb) []
  Selector.make asserts mbs rI dim active []

/-- Body of the loop of `JointsSelector::update` (QPTasks.cpp:548-551). -/
def Selector.copyStep (jac : Mat K) (sd : ℕ × ℕ) (m : Mat K) : Out (Mat K) := do
  let b ← jac.block 0 sd.1 m.rows sd.2
  m.setBlock 0 sd.1 b

/-- `JointsSelector::update` (QPTasks.cpp:542-552). -/
def Selector.update (hl : HL K) (s : Selector K) : Out (Selector K) := do
  let m ← forEach s.sel (Selector.copyStep hl.jac) s.jac
  pure { s with
    jac := m }

/-- What the selector returns as a high-level task (QPTasks.cpp:539-540, 554-564). -/
def Selector.hl (hl : HL K) (s : Selector K) : HL K := ⟨s.jac, hl.eval, hl.speed, hl.normalAcc⟩

end

end Verif
