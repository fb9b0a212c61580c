import Verif.Model.Fill

/-! # Diagnostics of `LSSOLQPSolver::errorMsg`

The text is reduced to the list of entries printed: which constraint object (kind of list and
position in it) and which of its lines.  Names and descriptions are a function of these. -/

set_option autoImplicit false

namespace Verif

/-- The list a constraint is registered in. -/
inductive LineKind
  | eq | inEq | gen
  deriving DecidableEq, Repr

/-- One entry of the message. -/
inductive DiagEntry
  /-- `nameBound() violated at line` (LSSOLQPSolver.cpp:150-152): bound number, its line. -/
  | bound (idx line : ℕ)
  /-- `name violated at line` (GenQPUtils.h:387-389): list, number in the list, its line. -/
  | line (kind : LineKind) (idx line : ℕ)
  deriving DecidableEq, Repr

/-- What the diagnostics need from a constraint: `nrLines` and the columns of its matrix
(`printConstr` multiplies a row by the result, GenQPUtils.h:348-371). -/
structure DiagC where
  nrLines : ℕ
  cols : ℕ

/-- `constrErrorMsg` (GenQPUtils.h:373-397): scan one list, from constraint number `idx`, with the
running `start`/`end` shared by the three calls.  Undefined if the printed row and the result do
not have the same size. -/
def constrErrorMsg (kind : LineKind) (resSize aLine : ℕ) :
    List DiagC → ℕ → ℕ × ℕ → Out (List DiagEntry × ℕ × ℕ)
  | [], _, se => .ok ([], se)
  | c :: t, idx, (start, stop) =>
    let stop' := stop + c.nrLines
    if start ≤ aLine ∧ aLine < stop' then
      if c.cols = resSize then .ok ([.line kind idx (aLine - start)], stop', stop')
      else .ub
    else constrErrorMsg kind resSize aLine t (idx + 1) (stop', stop')

/-- The three calls for one violated QP line (LSSOLQPSolver.cpp:165-170). -/
def lineMsg (resSize aLine : ℕ) (eq inEq gen : List DiagC) : Out (List DiagEntry) := do
  let (l1, se1) ← constrErrorMsg .eq resSize aLine eq 0 (0, 0)
  let (l2, se2) ← constrErrorMsg .inEq resSize aLine inEq 0 se1
  let (l3, _) ← constrErrorMsg .gen resSize aLine gen 0 se2
  pure (l1 ++ l2 ++ l3)

/-- First bound constraint covering variable `i` (LSSOLQPSolver.cpp:143-155): bounds are given by
`beginVar` and number of lines of `Lower()`. -/
def boundMsg (i : ℕ) : List (ℕ × ℕ) → ℕ → List DiagEntry
  | [], _ => []
  | (b, len) :: t, idx =>
    if b ≤ i ∧ i < b + len then [.bound idx (i - b)] else boundMsg i t (idx + 1)

/-- Bound loop body (LSSOLQPSolver.cpp:139-157); `XL_(i)`, `XU_(i)` and `result()(i)` are read when
an entry is printed. -/
def boundStep (istate : Vec ℤ) (xSize resSize : ℕ) (bounds : List (ℕ × ℕ)) (i : ℕ)
    (out : List DiagEntry) : Out (List DiagEntry) := do
  let st ← istate.at' i
  if st < 0 then
    let m := boundMsg i bounds 0
    if m ≠ [] ∧ ¬ (i < xSize ∧ i < resSize) then .ub else pure (out ++ m)
  else pure out

/-- Line loop body (LSSOLQPSolver.cpp:160-173). -/
def lineStep (istate : Vec ℤ) (nrVars resSize : ℕ) (eq inEq gen : List DiagC) (i : ℕ)
    (out : List DiagEntry) : Out (List DiagEntry) := do
  let st ← istate.at' (i + nrVars)
  if st < 0 then do
    let m ← lineMsg resSize i eq inEq gen
    pure (out ++ m)
  else pure out

/-- `LSSOLQPSolver::errorMsg` (LSSOLQPSolver.cpp:123-175).  `qRows` is `Q_.rows()`: the *reduced*
Hessian, never sized when there is no dependency (LSSOLQPSolver.cpp:44-61). -/
def errorMsg (qRows nrALines xSize resSize : ℕ) (istate : Vec ℤ) (bounds : List (ℕ × ℕ))
    (eq inEq gen : List DiagC) : Out (List DiagEntry) := do
  let o1 ← forRange qRows (boundStep istate xSize resSize bounds) []
  forRange nrALines (lineStep istate qRows resSize eq inEq gen) o1

/-- The call made by `QPSolver::solve` on a backend in state `s` after a failed solve. -/
def Lssol.errorMsg {K : Type} (s : Lssol K) (istate : Vec ℤ) (inp : QPInput K) :
    Out (List DiagEntry) :=
  Verif.errorMsg s.Q.rows s.nrALines s.XL.size s.res.size istate
    (inp.bound.map fun b => (b.beginVar, b.lower.size))
    (inp.eq.map fun c => ⟨c.nrEq, c.A.cols⟩) (inp.inEq.map fun c => ⟨c.nrInEq, c.A.cols⟩)
    (inp.gen.map fun c => ⟨c.nrGen, c.A.cols⟩)

end Verif
