import Verif.Model.Contacts

/-!
# Model of the decision-vector layout

`SolverData` (src/Tasks/QPSolverData.h), the layout part of `QPSolver::nrVars`
(src/QPSolver.cpp:85-160) and the accessors that slice the result (src/QPSolver.cpp:294-318).
-/

set_option autoImplicit false

namespace Verif

/-- The part of `rbd::Joint` the library reads: name, dof and mimic information
(`isMimic`, `mimicName`, `mimicMultiplier`). -/
structure Joint (K : Type) where
  name : String
  dof : ℕ
  mimic : Option (String × K)
  deriving Repr, DecidableEq

/-- The part of `rbd::MultiBody` the library reads here.  `pred i` and `succ i` are the bodies joint
`i` links (`predecessors()`, `successors()`; -1 for the world). -/
structure MultiBody (K : Type) where
  joints : List (Joint K)
  nrBodies : ℕ
  pred : List ℤ := []
  succ : List ℕ := []
  deriving Repr, DecidableEq

namespace MultiBody
variable {K : Type}

/-- `mb.nrDof()` (RBDyn): sum of the joint dofs. -/
def nrDof (mb : MultiBody K) : ℕ := (mb.joints.map Joint.dof).sum

/-- `mb.nrJoints()` (RBDyn). -/
def nrJoints (mb : MultiBody K) : ℕ := mb.joints.length

/-- `mb.jointPosInDof(i)` (RBDyn): dofs of the joints before `i`; unchecked index. -/
def jointPosInDof (mb : MultiBody K) (i : ℕ) : Out ℕ :=
  if i < mb.joints.length then .ok ((mb.joints.take i).map Joint.dof).sum else .ub

/-- `mb.jointIndexByName(name)` (RBDyn, unchecked `find`): undefined behaviour when absent. -/
def jointIndexByName (mb : MultiBody K) (name : String) : Out ℕ :=
  match mb.joints.findIdx? (fun j => j.name == name) with
  | some i => .ok i
  | none => .ub

end MultiBody

/-- `SolverData` (QPSolverData.h:27-90). -/
structure SolverData (K : Type) where
  alphaD : List ℕ
  alphaDBegin : List ℕ
  lambda : List ℕ
  lambdaBegin : List ℕ
  totalAlphaD : ℕ
  totalLambda : ℕ
  nrUniLambda : ℕ
  nrBiLambda : ℕ
  nrVars : ℕ
  uniCont : List (UniContact K)
  biCont : List (BiContact K)
  allCont : List (BiContact K)
  mobileRobotIndex : List ℕ
  normalAccB : List (List (MV K))

namespace SolverData
variable {K : Type}

/-- `SolverData::SolverData()` (QPSolverData.cpp:19-23). -/
def init : SolverData K := ⟨[], [], [], [], 0, 0, 0, 0, 0, [], [], [], [], []⟩

/-- `lambdaBegin()` (QPSolverData.h:48). -/
def lambdaBegin0 (d : SolverData K) : ℕ := d.totalAlphaD
/-- `unilateralBegin()` (QPSolverData.h:56). -/
def unilateralBegin (d : SolverData K) : ℕ := d.lambdaBegin0
/-- `bilateralBegin()` (QPSolverData.h:58). -/
def bilateralBegin (d : SolverData K) : ℕ := d.unilateralBegin + d.nrUniLambda
/-- `nrContacts()` (QPSolverData.h:60). -/
def nrContacts (d : SolverData K) : ℕ := d.uniCont.length + d.biCont.length

end SolverData

/-- A mimic dependency `(leader index, replica index, multiplier)` in the decision vector. -/
abbrev Dep (K : Type) := ℕ × ℕ × K

section NrVars
variable {K : Type} [CommRing K]

/-- The mimic loop over the joints of one robot (QPSolver.cpp:115-123). -/
def mimicLoop (mb : MultiBody K) (begin' : ℕ) (deps : List (Dep K)) : Out (List (Dep K)) :=
  forEach mb.joints (fun j deps =>
    match j.mimic with
    | none => pure deps
    | some (leader, mult) => do
      let li ← mb.jointIndexByName leader
      let lp ← mb.jointPosInDof li
      let ri ← mb.jointIndexByName j.name
      let rp ← mb.jointPosInDof ri
      pure (deps ++ [(begin' + lp, begin' + rp, mult)])) deps

/-- State of the robot loop of `nrVars`: data, `cumAlphaD`, `dependencies`. -/
structure AlphaSt (K : Type) where
  data : SolverData K
  cum : ℕ
  deps : List (Dep K)

/-- Body of the robot loop of `nrVars` (QPSolver.cpp:105-125). -/
def alphaStep (mbs : List (MultiBody K)) (r : ℕ) (s : AlphaSt K) : Out (AlphaSt K) := do
  let mb ← vecAt mbs r
  let aD ← vecSet s.data.alphaD r mb.nrDof
  let aB ← vecSet s.data.alphaDBegin r s.cum
  let nA ← vecAt s.data.normalAccB r
  let nB ← vecSet s.data.normalAccB r (vecResize nA mb.nrBodies 0)
  let d := { s.data with alphaD := aD, alphaDBegin := aB, normalAccB := nB }
  if 0 < mb.nrDof then do
    let begin' ← vecAt aB r
    let deps ← mimicLoop mb begin' s.deps
    pure ⟨{ d with mobileRobotIndex := d.mobileRobotIndex ++ [r] }, s.cum + mb.nrDof, deps⟩
  else
    pure ⟨d, s.cum + mb.nrDof, s.deps⟩

/-- State of the contact loops of `nrVars`: data, `cumLambda`, `cIndex`. -/
structure LamSt (K : Type) where
  data : SolverData K
  cum : ℕ
  cIdx : ℕ

/-- The counting part shared by both contact loops (QPSolver.cpp:134-139 and 148-153). -/
def lamStep (n : Out ℕ) (asBi : BiContact K) (s : LamSt K) : Out (LamSt K) := do
  let lB ← vecSet s.data.lambdaBegin s.cIdx s.cum
  let n ← n
  let l ← vecSet s.data.lambda s.cIdx n
  pure ⟨{ s.data with lambdaBegin := lB, lambda := l, allCont := s.data.allCont ++ [asBi] },
    s.cum + n, s.cIdx + 1⟩

/-- The layout part of `QPSolver::nrVars` (QPSolver.cpp:89-160): new data and the dependency list
that is then handed to the backend.  The per-contact sum of lines 136/150 is the same loop as
`nrLambda()` (QPContacts.cpp:173-178, 342-347). -/
def layout (old : SolverData K) (mbs : List (MultiBody K)) (uni : List (UniContact K))
    (bi : List (BiContact K)) : Out (SolverData K × List (Dep K)) := do
  let d0 := { old with
    alphaD := vecResize old.alphaD mbs.length 0,
    alphaDBegin := vecResize old.alphaDBegin mbs.length 0,
    uniCont := uni, biCont := bi }
  let d1 := { d0 with
    lambda := vecResize d0.lambda d0.nrContacts 0,
    lambdaBegin := vecResize d0.lambdaBegin d0.nrContacts 0,
    mobileRobotIndex := [],
    normalAccB := vecResize d0.normalAccB mbs.length [] }
  let a ← forRange mbs.length (alphaStep mbs) ⟨d1, 0, []⟩
  let cumAlphaD := a.cum
  let d2 := { a.data with totalAlphaD := cumAlphaD, allCont := [] }
  let u ← forEach d2.uniCont (fun c => lamStep c.nrLambda (BiContact.ofUni c)) ⟨d2, cumAlphaD, 0⟩
  let d3 := { u.data with nrUniLambda := u.cum - cumAlphaD }
  let b ← forEach d3.biCont (fun c => lamStep c.nrLambda c) ⟨d3, u.cum, u.cIdx⟩
  let d4 := { b.data with nrBiLambda := b.cum - b.data.nrUniLambda - cumAlphaD }
  let d5 := { d4 with totalLambda := d4.nrUniLambda + d4.nrBiLambda }
  let d6 := { d5 with nrVars := d5.totalAlphaD + d5.totalLambda }
  pure (d6, a.deps)

/-- `QPSolver::alphaDVec()` (QPSolver.cpp:294-295). -/
def alphaDVec (d : SolverData K) (result : Vec K) : Out (Vec K) := result.segment 0 d.totalAlphaD

/-- `QPSolver::alphaDVec(rIndex)` (QPSolver.cpp:297-298). -/
def alphaDVecAt (d : SolverData K) (result : Vec K) (r : ℕ) : Out (Vec K) := do
  let b ← vecAt d.alphaDBegin r
  let n ← vecAt d.alphaD r
  result.segment b n

/-- `QPSolver::lambdaVec()` (QPSolver.cpp:300-301). -/
def lambdaVec (d : SolverData K) (result : Vec K) : Out (Vec K) :=
  result.segment d.lambdaBegin0 d.totalLambda

/-- `QPSolver::lambdaVec(cIndex)` (QPSolver.cpp:303-304). -/
def lambdaVecAt (d : SolverData K) (result : Vec K) (c : ℕ) : Out (Vec K) := do
  let b ← vecAt d.lambdaBegin c
  let n ← vecAt d.lambda c
  result.segment b n

/-- The loop of `QPSolver::contactLambdaPosition` (QPSolver.cpp:310-315). -/
def contactLambdaLoop (id : ContactId) : List (BiContact K) → ℕ → Out ℤ
  | [], _ => .ok (-1)
  | bc :: rest, pos =>
    if bc.id.eq id then .ok pos
    else do
      let n ← bc.nrLambda
      contactLambdaLoop id rest (pos + n)

/-- `QPSolver::contactLambdaPosition` (QPSolver.cpp:306-318). -/
def contactLambdaPosition (d : SolverData K) (id : ContactId) : Out ℤ :=
  contactLambdaLoop id d.allCont 0

end NrVars

end Verif
