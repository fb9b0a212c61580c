import Verif.Base

/-!
# Model of the QP assembly

The functions of src/GenQPUtils.h and the two backends' `updateSize`, `updateMatrix`, `solve` and
`result` (src/QLDQPSolver.cpp, src/LSSOLQPSolver.cpp), and `GenQPSolver::setDependencies`
(src/GenQPSolver.cpp).

A constraint or task is the snapshot of what its virtual methods return when the QP is assembled.
-/

set_option autoImplicit false

namespace Verif

open Finset

/-! ## Snapshots of the virtual interfaces (QPSolver.h:206-300) -/

/-- `Equality`: `maxEq`, `nrEq`, `AEq`, `bEq`. -/
structure EqC (K : Type) where
  maxEq : ℕ
  nrEq : ℕ
  A : Mat K
  b : Vec K

/-- `Inequality`: `maxInEq`, `nrInEq`, `AInEq`, `bInEq` (right-hand sides may be infinite). -/
structure InEqC (K : Type) where
  maxInEq : ℕ
  nrInEq : ℕ
  A : Mat K
  b : Vec (Ext K)

/-- `GenInequality`: `maxGenInEq`, `nrGenInEq`, `AGenInEq`, `LowerGenInEq`, `UpperGenInEq`. -/
structure GenC (K : Type) where
  maxGen : ℕ
  nrGen : ℕ
  A : Mat K
  L : Vec (Ext K)
  U : Vec (Ext K)

/-- `Bound`: `beginVar`, `Lower`, `Upper`. -/
structure BoundC (K : Type) where
  beginVar : ℕ
  lower : Vec (Ext K)
  upper : Vec (Ext K)

/-- `Task`: `Q`, `C`, `begin`, `weight`. -/
structure TaskQC (K : Type) where
  Q : Mat K
  C : Vec K
  begin' : ℕ × ℕ
  weight : K

section
variable {K : Type}

/-! ## Lines -/

/-- State of a `fill*` function in the standard form: line counter, matrix, right-hand side. -/
structure StdSt (K β : Type) where
  line : ℕ
  A : Mat K
  b : Vec β

/-- `fillEq`, standard form, one constraint (GenQPUtils.h:190-197). -/
def fillEqStdStep (nrVars : ℕ) (c : EqC K) (s : StdSt K K) : Out (StdSt K K) := do
  let Ai ← c.A.block 0 0 c.nrEq nrVars
  let A ← s.A.setBlock s.line 0 Ai
  let bi ← c.b.segment 0 c.nrEq
  let b ← s.b.setSegment s.line bi
  pure ⟨s.line + c.nrEq, A, b⟩

/-- `fillEq`, standard form (GenQPUtils.h:184-201). -/
def fillEqStd (eq : List (EqC K)) (nrVars : ℕ) (s : StdSt K K) : Out (StdSt K K) :=
  forEach eq (fillEqStdStep nrVars) s

/-- `fillInEq`, standard form, one constraint (GenQPUtils.h:217-224). -/
def fillInEqStdStep (nrVars : ℕ) (c : InEqC K) (s : StdSt K (Ext K)) : Out (StdSt K (Ext K)) := do
  let Ai ← c.A.block 0 0 c.nrInEq nrVars
  let A ← s.A.setBlock s.line 0 Ai
  let bi ← c.b.segment 0 c.nrInEq
  let b ← s.b.setSegment s.line bi
  pure ⟨s.line + c.nrInEq, A, b⟩

/-- `fillInEq`, standard form (GenQPUtils.h:207-228). -/
def fillInEqStd (inEq : List (InEqC K)) (nrVars : ℕ) (s : StdSt K (Ext K)) :
    Out (StdSt K (Ext K)) :=
  forEach inEq (fillInEqStdStep nrVars) s

/-- `fillGenInEq`, standard form, one constraint (GenQPUtils.h:244-257): each line is written
twice, `-A x <= -L` then `A x <= U`. -/
def fillGenStdStep [Neg K] (nrVars : ℕ) (c : GenC K) (s : StdSt K (Ext K)) :
    Out (StdSt K (Ext K)) := do
  let Ai ← c.A.block 0 0 c.nrGen nrVars
  let A1 ← s.A.setBlock s.line 0 Ai.neg
  let li ← c.L.segment 0 c.nrGen
  let b1 ← s.b.setSegment s.line ⟨li.size, fun i => (li.get i).neg⟩
  let line := s.line + c.nrGen
  let A2 ← A1.setBlock line 0 Ai
  let ui ← c.U.segment 0 c.nrGen
  let b2 ← b1.setSegment line ui
  pure ⟨line + c.nrGen, A2, b2⟩

/-- `fillGenInEq`, standard form (GenQPUtils.h:234-261). -/
def fillGenStd [Neg K] (gen : List (GenC K)) (nrVars : ℕ) (s : StdSt K (Ext K)) :
    Out (StdSt K (Ext K)) :=
  forEach gen (fillGenStdStep nrVars) s

/-- State of a `fill*` function in the general form: line counter, matrix, two-sided bounds. -/
structure GenSt (K : Type) where
  line : ℕ
  A : Mat K
  AL : Vec (Ext K)
  AU : Vec (Ext K)

/-- `fillEq`, general form, one constraint (GenQPUtils.h:105-113). -/
def fillEqGenStep (nrVars : ℕ) (c : EqC K) (s : GenSt K) : Out (GenSt K) := do
  let Ai ← c.A.block 0 0 c.nrEq nrVars
  let A ← s.A.setBlock s.line 0 Ai
  let bi ← c.b.segment 0 c.nrEq
  let AL ← s.AL.setSegment s.line ⟨bi.size, fun i => .fin (bi.get i)⟩
  let AU ← s.AU.setSegment s.line ⟨bi.size, fun i => .fin (bi.get i)⟩
  pure ⟨s.line + c.nrEq, A, AL, AU⟩

/-- `fillEq`, general form (GenQPUtils.h:94-117). -/
def fillEqGen (eq : List (EqC K)) (nrVars : ℕ) (s : GenSt K) : Out (GenSt K) :=
  forEach eq (fillEqGenStep nrVars) s

/-- `fillInEq`, general form, one constraint (GenQPUtils.h:134-142). -/
def fillInEqGenStep (nrVars : ℕ) (c : InEqC K) (s : GenSt K) : Out (GenSt K) := do
  let Ai ← c.A.block 0 0 c.nrInEq nrVars
  let A ← s.A.setBlock s.line 0 Ai
  let AL ← s.AL.setSegment s.line (Vec.const c.nrInEq .negInf)
  let bi ← c.b.segment 0 c.nrInEq
  let AU ← s.AU.setSegment s.line bi
  pure ⟨s.line + c.nrInEq, A, AL, AU⟩

/-- `fillInEq`, general form (GenQPUtils.h:123-146). -/
def fillInEqGen (inEq : List (InEqC K)) (nrVars : ℕ) (s : GenSt K) : Out (GenSt K) :=
  forEach inEq (fillInEqGenStep nrVars) s

/-- `fillGenInEq`, general form, one constraint (GenQPUtils.h:163-172). -/
def fillGenGenStep (nrVars : ℕ) (c : GenC K) (s : GenSt K) : Out (GenSt K) := do
  let Ai ← c.A.block 0 0 c.nrGen nrVars
  let A ← s.A.setBlock s.line 0 Ai
  let li ← c.L.segment 0 c.nrGen
  let AL ← s.AL.setSegment s.line li
  let ui ← c.U.segment 0 c.nrGen
  let AU ← s.AU.setSegment s.line ui
  pure ⟨s.line + c.nrGen, A, AL, AU⟩

/-- `fillGenInEq`, general form (GenQPUtils.h:152-176). -/
def fillGenGen (gen : List (GenC K)) (nrVars : ℕ) (s : GenSt K) : Out (GenSt K) :=
  forEach gen (fillGenGenStep nrVars) s

/-! ## Bounds -/

/-- One step of `fillBound` (GenQPUtils.h:271-276). -/
def fillBoundStep (c : BoundC K) (s : Vec (Ext K) × Vec (Ext K)) :
    Out (Vec (Ext K) × Vec (Ext K)) := do
  let XL ← s.1.setSegment c.beginVar c.lower
  let XU ← s.2.setSegment c.beginVar c.upper
  pure (XL, XU)

/-- `fillBound` (GenQPUtils.h:267-278). -/
def fillBound (bounds : List (BoundC K)) (s : Vec (Ext K) × Vec (Ext K)) :
    Out (Vec (Ext K) × Vec (Ext K)) :=
  forEach bounds fillBoundStep s

/-! ## Objective -/

variable [Field K] [LinearOrder K]

/-- `DIAG_CONSTANT` (GenQPUtils.h:25). -/
def diagConstant (K : Type) [Field K] : K := 1 / 10000

/-- Accumulation of one task (GenQPUtils.h:35-43).  `C.segment(b.first, r) += w * Ci` requires
`Ci` to have `r` entries. -/
def fillTask (t : TaskQC K) (s : Mat K × Vec K) : Out (Mat K × Vec K) := do
  let Q ← s.1.addBlock t.begin'.1 t.begin'.2 t.weight t.Q
  if t.C.size = t.Q.rows then do
    let C ← s.2.addSegment t.begin'.1 t.weight t.C
    pure (Q, C)
  else .ub

/-- `if(std::abs(Q(i,i)) < DIAG_CONSTANT) Q(i,i) += DIAG_CONSTANT` (GenQPUtils.h:55). -/
def diagStep (i : ℕ) (Q : Mat K) : Out (Mat K) :=
  if i < Q.rows ∧ i < Q.cols then
    if |Q.get i i| < diagConstant K then
      .ok ⟨Q.rows, Q.cols, fun a b =>
        if a = i ∧ b = i then Q.get i i + diagConstant K else Q.get a b⟩
    else .ok Q
  else .ub

/-- `fillQC` (GenQPUtils.h:31-57). -/
def fillQC (tasks : List (TaskQC K)) (nrVars : ℕ) (s : Mat K × Vec K) : Out (Mat K × Vec K) := do
  let s1 ← forEach tasks fillTask s
  let Q ← forRange nrVars diagStep s1.1
  pure (Q, s1.2)

/-! ## Mimic reduction -/

/-- `GenQPSolver`'s protected members (GenQPSolver.h, last lines of the class). -/
structure DepSt (K : Type) where
  deps : List (ℕ × ℕ × K)
  fullToReduced : List ℤ
  reducedToFull : List ℤ
  M : Mat K

/-- A freshly allocated backend: nothing set. -/
def DepSt.init : DepSt K := ⟨[], [], [], Mat.zero 0 0⟩

/-- State of the index loop of `setDependencies`. -/
structure IdxSt (K : Type) where
  shift : ℕ
  f2r : List ℤ
  r2f : List ℤ
  trip : List (ℕ × ℤ × K)

/-- Body of the index loop of `setDependencies` (GenQPSolver.cpp:61-71). -/
def idxStep (deps : List (ℕ × ℕ × K)) (i : ℕ) (s : IdxSt K) : Out (IdxSt K) :=
  if (deps[s.shift]?).map (fun d => d.2.1) = some i then
    .ok { s with shift := s.shift + 1 }
  else do
    let f ← vecSet s.f2r i ((i - s.shift : ℕ) : ℤ)
    let r ← vecSet s.r2f (i - s.shift) (i : ℤ)
    pure ⟨s.shift, f, r, s.trip ++ [(i, ((i - s.shift : ℕ) : ℤ), 1)]⟩

/-- Dependency loop of `setDependencies` (GenQPSolver.cpp:72-78). -/
def depTripStep (f2r : List ℤ) (d : ℕ × ℕ × K) (trip : List (ℕ × ℤ × K)) :
    Out (List (ℕ × ℤ × K)) := do
  let col ← vecAt f2r d.1
  pure (trip ++ [(d.2.1, col, d.2.2)])

/-- `SparseMatrix::setFromTriplets`: coefficients of equal position are summed; a position outside
the matrix is undefined behaviour. -/
def fromTriplets (r c : ℕ) (trip : List (ℕ × ℤ × K)) : Out (Mat K) :=
  if ∀ t ∈ trip, t.1 < r ∧ 0 ≤ t.2.1 ∧ t.2.1 < c then
    .ok ⟨r, c, fun i j =>
      ((trip.filter fun t => t.1 = i ∧ t.2.1 = (j : ℤ)).map fun t => t.2.2).sum⟩
  else .ub

/-- `GenQPSolver::setDependencies` (GenQPSolver.cpp:45-80).  The sort is by replica index;
`std::sort` is not stable, which only matters for equal replica indices.  The `assert` of line 47
wants more variables than dependencies, so it also rejects a problem without variables; with more
dependencies than variables and assertions compiled out, the `resize` of line 54 wraps around. -/
def setDependencies (nrVars : ℕ) (dependencies : List (ℕ × ℕ × K)) (s : DepSt K) :
    Out (DepSt K) :=
  if nrVars ≤ dependencies.length then .ub
  else do
    let deps := dependencies.mergeSort (fun a b => decide (a.2.1 ≤ b.2.1))
    let f0 := vecResize s.fullToReduced nrVars (-1)
    let r0 := vecResize s.reducedToFull (nrVars - deps.length) (-1)
    let st ← forRange nrVars (idxStep deps) ⟨0, f0, r0, []⟩
    let trip ← forEach deps (depTripStep st.f2r) st.trip
    let M ← fromTriplets nrVars (nrVars - dependencies.length) trip
    pure ⟨deps, st.f2r, st.r2f, M⟩

/-- `A.noalias() = AFull * M` (`reduceA`, GenQPUtils.h:297-298); inner sizes must agree. -/
def reduceA (AFull M : Mat K) : Out (Mat K) :=
  if AFull.cols = M.rows then
    .ok ⟨AFull.rows, M.cols, fun i j => ∑ k ∈ range M.rows, AFull.get i k * M.get k j⟩
  else .ub

/-- `Q.noalias() = M' * QFull * M; C.noalias() = M' * CFull` (`reduceQC`, GenQPUtils.h:78-86). -/
def reduceQC (QFull : Mat K) (CFull : Vec K) (M : Mat K) : Out (Mat K × Vec K) :=
  if QFull.rows = M.rows ∧ QFull.cols = M.rows ∧ CFull.size = M.rows then
    .ok (⟨M.cols, M.cols, fun i j =>
        ∑ l ∈ range M.rows, (∑ k ∈ range M.rows, M.get k i * QFull.get k l) * M.get l j⟩,
      ⟨M.cols, fun i => ∑ k ∈ range M.rows, M.get k i * CFull.get k⟩)
  else .ub

/-- Read a vector at a signed index. -/
def Vec.atI {α : Type} (v : Vec α) (i : ℤ) : Out α := if i < 0 then .ub else v.at' i.toNat

/-- Write a vector at a signed index. -/
def Vec.setI {α : Type} (v : Vec α) (i : ℤ) (a : α) : Out (Vec α) :=
  if i < 0 then .ub else v.set i.toNat a

/-- First loop of `reduceBound` (GenQPUtils.h:311-315). -/
def reduceBoundCopy (XLFull XUFull : Vec (Ext K)) (r2f : List ℤ) (i : ℕ)
    (s : Vec (Ext K) × Vec (Ext K)) : Out (Vec (Ext K) × Vec (Ext K)) := do
  let f ← vecAt r2f i
  let l ← XLFull.atI f
  let XL ← s.1.set i l
  let u ← XUFull.atI f
  let XU ← s.2.set i u
  pure (XL, XU)

/-- Second loop of `reduceBound` (GenQPUtils.h:316-336), one dependency. -/
def reduceBoundDep (XLFull XUFull : Vec (Ext K)) (f2r : List ℤ) (d : ℕ × ℕ × K)
    (s : Vec (Ext K) × Vec (Ext K)) : Out (Vec (Ext K) × Vec (Ext K)) := do
  let p ← vecAt f2r d.1
  if d.2.2 ≠ 0 then do
    let xl ← s.1.atI p
    let xu ← s.2.atI p
    let rl ← XLFull.at' d.2.1
    let ru ← XUFull.at' d.2.1
    if d.2.2 < 0 then do
      let XL ← s.1.setI p (xl.max (ru.divBy d.2.2))
      let XU ← s.2.setI p (xu.min (rl.divBy d.2.2))
      pure (XL, XU)
    else do
      let XL ← s.1.setI p (xl.max (rl.divBy d.2.2))
      let XU ← s.2.setI p (xu.min (ru.divBy d.2.2))
      pure (XL, XU)
  else pure s

/-- `reduceBound` (GenQPUtils.h:303-337). -/
def reduceBound (XLFull XUFull : Vec (Ext K)) (ds : DepSt K) (s : Vec (Ext K) × Vec (Ext K)) :
    Out (Vec (Ext K) × Vec (Ext K)) := do
  let s1 ← forRange s.1.size (reduceBoundCopy XLFull XUFull ds.reducedToFull) s
  forEach ds.deps (reduceBoundDep XLFull XUFull ds.fullToReduced) s1

/-- `expandResult` (GenQPUtils.h:342-345). -/
def expandResult (result : Vec K) (M : Mat K) : Out (Vec K) :=
  if result.size = M.cols then .ok ⟨M.rows, fun i => ∑ j ∈ range M.cols, M.get i j * result.get j⟩
  else .ub

/-! ## QLD backend -/

/-- What `QLDQPSolver::solve` hands to QLD (QLDQPSolver.cpp:110-112 or 117-119). -/
structure QldProblem (K : Type) where
  Q : Mat K
  C : Vec K
  Aeq : Mat K
  beq : Vec K
  Aineq : Mat K
  bineq : Vec (Ext K)
  XL : Vec (Ext K)
  XU : Vec (Ext K)

/-- Members of `QLDQPSolver`.  `res` is `qld_.result()`. -/
structure Qld (K : Type) where
  dep : DepSt K
  AeqFull : Mat K
  AineqFull : Mat K
  beq : Vec K
  bineq : Vec (Ext K)
  XLFull : Vec (Ext K)
  XUFull : Vec (Ext K)
  QFull : Mat K
  CFull : Vec K
  Aeq : Mat K
  Aineq : Mat K
  XL : Vec (Ext K)
  XU : Vec (Ext K)
  Q : Mat K
  C : Vec K
  nrAeqLines : ℕ
  nrAineqLines : ℕ
  XFull : Vec K
  res : Vec K

/-- `m.resize(r, c)`: new sizes, unspecified contents (kept here; `updateMatrix` overwrites). -/
def Mat.resize (m : Mat K) (r c : ℕ) : Mat K := ⟨r, c, m.get⟩
/-- `v.resize(n)`: new size, unspecified contents. -/
def Vec.resize {α : Type} (v : Vec α) (n : ℕ) : Vec α := ⟨n, v.get⟩

/-- `QLDQPSolver::QLDQPSolver` (QLDQPSolver.cpp:19-23). -/
def Qld.init : Qld K :=
  ⟨DepSt.init, Mat.zero 0 0, Mat.zero 0 0, Vec.const 0 0, Vec.const 0 .negInf, Vec.const 0 .negInf,
    Vec.const 0 .negInf, Mat.zero 0 0, Vec.const 0 0, Mat.zero 0 0, Mat.zero 0 0,
    Vec.const 0 .negInf, Vec.const 0 .negInf, Mat.zero 0 0, Vec.const 0 0, 0, 0, Vec.const 0 0,
    Vec.const 0 0⟩

/-- `QLDQPSolver::updateSize` (QLDQPSolver.cpp:25-63).  `qld_.problem` sizes the result. -/
def Qld.updateSize (nrVars nrEq nrInEq nrGen : ℕ) (s : Qld K) : Qld K :=
  let maxEq := nrEq
  let maxIneq := nrInEq + nrGen * 2
  let s1 := { s with
    AeqFull := s.AeqFull.resize maxEq nrVars
    AineqFull := s.AineqFull.resize maxIneq nrVars
    beq := s.beq.resize maxEq
    bineq := s.bineq.resize maxIneq
    XLFull := s.XLFull.resize nrVars
    XUFull := s.XUFull.resize nrVars
    QFull := s.QFull.resize nrVars nrVars
    CFull := s.CFull.resize nrVars }
  if s.dep.deps.length ≠ 0 then
    let n := nrVars - s.dep.deps.length
    { s1 with
      Aeq := s.Aeq.resize maxEq n
      Aineq := s.Aineq.resize maxIneq n
      XL := s.XL.resize n
      XU := s.XU.resize n
      Q := s.Q.resize n n
      C := s.C.resize n
      XFull := s.XFull.resize nrVars
      res := s.res.resize n }
  else { s1 with res := s.res.resize nrVars }

/-- The lists passed to `updateMatrix`. -/
structure QPInput (K : Type) where
  tasks : List (TaskQC K)
  eq : List (EqC K)
  inEq : List (InEqC K)
  gen : List (GenC K)
  bound : List (BoundC K)

/-- `QLDQPSolver::updateMatrix` (QLDQPSolver.cpp:65-103). -/
def Qld.updateMatrix (i : QPInput K) (s : Qld K) : Out (Qld K) := do
  let nrVars := s.QFull.rows
  let e ← fillEqStd i.eq nrVars
    ⟨0, Mat.zero s.AeqFull.rows s.AeqFull.cols, Vec.const s.beq.size 0⟩
  let q0 ← fillInEqStd i.inEq nrVars
    ⟨0, Mat.zero s.AineqFull.rows s.AineqFull.cols, Vec.const s.bineq.size (.fin 0)⟩
  let q ← fillGenStd i.gen nrVars q0
  let b ← fillBound i.bound (Vec.const s.XLFull.size .negInf, Vec.const s.XUFull.size .posInf)
  let o ← fillQC i.tasks nrVars (Mat.zero s.QFull.rows s.QFull.cols, Vec.const s.CFull.size 0)
  let s1 := { s with
    AeqFull := e.A, beq := e.b, nrAeqLines := e.line
    AineqFull := q.A, bineq := q.b, nrAineqLines := q.line
    XLFull := b.1, XUFull := b.2, QFull := o.1, CFull := o.2 }
  if s.dep.deps.length ≠ 0 then do
    let Aeq ← reduceA e.A s.dep.M
    let Aineq ← reduceA q.A s.dep.M
    let X ← reduceBound b.1 b.2 s.dep (Vec.const s.XL.size .negInf, Vec.const s.XU.size .posInf)
    let QC ← reduceQC o.1 o.2 s.dep.M
    pure { s1 with Aeq := Aeq, Aineq := Aineq, XL := X.1, XU := X.2, Q := QC.1, C := QC.2 }
  else pure s1

/-- The problem handed to QLD (QLDQPSolver.cpp:108-120). -/
def Qld.problem (s : Qld K) : Out (QldProblem K) :=
  if s.dep.deps.length ≠ 0 then do
    let Aeq ← s.Aeq.block 0 0 s.nrAeqLines s.Aeq.cols
    let beq ← s.beq.segment 0 s.nrAeqLines
    let Aineq ← s.Aineq.block 0 0 s.nrAineqLines s.Aineq.cols
    let bineq ← s.bineq.segment 0 s.nrAineqLines
    pure ⟨s.Q, s.C, Aeq, beq, Aineq, bineq, s.XL, s.XU⟩
  else do
    let Aeq ← s.AeqFull.block 0 0 s.nrAeqLines s.AeqFull.cols
    let beq ← s.beq.segment 0 s.nrAeqLines
    let Aineq ← s.AineqFull.block 0 0 s.nrAineqLines s.AineqFull.cols
    let bineq ← s.bineq.segment 0 s.nrAineqLines
    pure ⟨s.QFull, s.CFull, Aeq, beq, Aineq, bineq, s.XLFull, s.XUFull⟩

/-- `QLDQPSolver::solve` (QLDQPSolver.cpp:105-122) for a given QLD implementation. -/
def Qld.solve (qld : QldProblem K → Bool × Vec K) (s : Qld K) : Out (Bool × Qld K) := do
  let p ← s.problem
  let (ok, x) := qld p
  if s.dep.deps.length ≠ 0 then do
    let XFull ← expandResult x s.dep.M
    pure (ok, { s with res := x, XFull := XFull })
  else pure (ok, { s with res := x })

/-- `QLDQPSolver::result` (QLDQPSolver.cpp:124-131). -/
def Qld.result (s : Qld K) : Vec K := if s.dep.deps.length ≠ 0 then s.XFull else s.res

/-! ## LSSOL backend -/

/-- What `LSSOLQPSolver::solve` hands to LSSOL (LSSOLQPSolver.cpp:101-102 or 107-109). -/
structure LssolProblem (K : Type) where
  Q : Mat K
  C : Vec K
  A : Mat K
  AL : Vec (Ext K)
  AU : Vec (Ext K)
  XL : Vec (Ext K)
  XU : Vec (Ext K)

/-- Members of `LSSOLQPSolver`.  `res` is `lssol_.result()`. -/
structure Lssol (K : Type) where
  dep : DepSt K
  AFull : Mat K
  AL : Vec (Ext K)
  AU : Vec (Ext K)
  XLFull : Vec (Ext K)
  XUFull : Vec (Ext K)
  QFull : Mat K
  CFull : Vec K
  A : Mat K
  XL : Vec (Ext K)
  XU : Vec (Ext K)
  Q : Mat K
  C : Vec K
  nrALines : ℕ
  XFull : Vec K
  res : Vec K

/-- `LSSOLQPSolver::LSSOLQPSolver` (LSSOLQPSolver.cpp:19-29); solver options are not modelled. -/
def Lssol.init : Lssol K :=
  ⟨DepSt.init, Mat.zero 0 0, Vec.const 0 .negInf, Vec.const 0 .negInf, Vec.const 0 .negInf,
    Vec.const 0 .negInf, Mat.zero 0 0, Vec.const 0 0, Mat.zero 0 0, Vec.const 0 .negInf,
    Vec.const 0 .negInf, Mat.zero 0 0, Vec.const 0 0, 0, Vec.const 0 0, Vec.const 0 0⟩

/-- `LSSOLQPSolver::updateSize` (LSSOLQPSolver.cpp:31-62). -/
def Lssol.updateSize (nrVars nrEq nrInEq nrGen : ℕ) (s : Lssol K) : Lssol K :=
  let maxA := nrEq + nrInEq + nrGen
  let s1 := { s with
    AFull := s.AFull.resize maxA nrVars
    AL := s.AL.resize maxA
    AU := s.AU.resize maxA
    XLFull := s.XLFull.resize nrVars
    XUFull := s.XUFull.resize nrVars
    QFull := s.QFull.resize nrVars nrVars
    CFull := s.CFull.resize nrVars }
  if s.dep.deps.length ≠ 0 then
    let n := nrVars - s.dep.deps.length
    { s1 with
      A := s.A.resize maxA n
      Q := s.Q.resize n n
      C := s.C.resize n
      XL := s.XL.resize n
      XU := s.XU.resize n
      XFull := s.XFull.resize nrVars
      res := s.res.resize n }
  else { s1 with res := s.res.resize nrVars }

/-- `LSSOLQPSolver::updateMatrix` (LSSOLQPSolver.cpp:64-94). -/
def Lssol.updateMatrix (i : QPInput K) (s : Lssol K) : Out (Lssol K) := do
  let nrVars := s.QFull.rows
  let a0 ← fillEqGen i.eq nrVars
    ⟨0, Mat.zero s.AFull.rows s.AFull.cols, Vec.const s.AL.size (.fin 0),
      Vec.const s.AU.size (.fin 0)⟩
  let a1 ← fillInEqGen i.inEq nrVars a0
  let a ← fillGenGen i.gen nrVars a1
  let b ← fillBound i.bound (Vec.const s.XLFull.size .negInf, Vec.const s.XUFull.size .posInf)
  let o ← fillQC i.tasks nrVars (Mat.zero s.QFull.rows s.QFull.cols, Vec.const s.CFull.size 0)
  let s1 := { s with
    AFull := a.A, AL := a.AL, AU := a.AU, nrALines := a.line
    XLFull := b.1, XUFull := b.2, QFull := o.1, CFull := o.2 }
  if s.dep.deps.length ≠ 0 then do
    let A ← reduceA a.A s.dep.M
    let X ← reduceBound b.1 b.2 s.dep (s.XL, s.XU)
    let QC ← reduceQC o.1 o.2 s.dep.M
    pure { s1 with A := A, XL := X.1, XU := X.2, Q := QC.1, C := QC.2 }
  else pure s1

/-- The problem handed to LSSOL (LSSOLQPSolver.cpp:99-110). -/
def Lssol.problem (s : Lssol K) : Out (LssolProblem K) :=
  if s.dep.deps.length ≠ 0 then do
    let A ← s.A.block 0 0 s.nrALines s.A.cols
    let AL ← s.AL.segment 0 s.nrALines
    let AU ← s.AU.segment 0 s.nrALines
    pure ⟨s.Q, s.C, A, AL, AU, s.XL, s.XU⟩
  else do
    let A ← s.AFull.block 0 0 s.nrALines s.AFull.cols
    let AL ← s.AL.segment 0 s.nrALines
    let AU ← s.AU.segment 0 s.nrALines
    pure ⟨s.QFull, s.CFull, A, AL, AU, s.XLFull, s.XUFull⟩

/-- `LSSOLQPSolver::solve` (LSSOLQPSolver.cpp:96-112) for a given LSSOL implementation. -/
def Lssol.solve (lssol : LssolProblem K → Bool × Vec K) (s : Lssol K) : Out (Bool × Lssol K) := do
  let p ← s.problem
  let (ok, x) := lssol p
  if s.dep.deps.length ≠ 0 then do
    let XFull ← expandResult x s.dep.M
    pure (ok, { s with res := x, XFull := XFull })
  else pure (ok, { s with res := x })

/-- `LSSOLQPSolver::result` (LSSOLQPSolver.cpp:114-121). -/
def Lssol.result (s : Lssol K) : Vec K := if s.dep.deps.length ≠ 0 then s.XFull else s.res

end

/-! ## Meaning of the problems handed to the backends (documentation of QLD and LSSOL) -/

section Sem
variable {K : Type} [Field K] [LinearOrder K]

/-- `x` (with `XL.size` variables) is within the bounds. -/
def InBounds (XL XU : Vec (Ext K)) (x : ℕ → K) : Prop :=
  (∀ i < XL.size, (XL.get i).LowerOK (x i)) ∧ ∀ i < XU.size, (XU.get i).UpperOK (x i)

/-- `Aeq x = beq`, `Aineq x <= bineq`: the lines of a QLD problem. -/
def QldProblem.Lines (p : QldProblem K) (x : ℕ → K) : Prop :=
  (∀ i < p.Aeq.rows, p.Aeq.rowMul i x = p.beq.get i) ∧
  ∀ i < p.Aineq.rows, (p.bineq.get i).UpperOK (p.Aineq.rowMul i x)

/-- Feasibility for QLD. -/
def QldProblem.Feasible (p : QldProblem K) (x : ℕ → K) : Prop :=
  p.Lines x ∧ InBounds p.XL p.XU x

/-- Objective of a QLD problem. -/
def QldProblem.obj (p : QldProblem K) (x : ℕ → K) : K := quadObj p.C.size p.Q.get p.C.get x

/-- `AL <= A x <= AU`: the lines of an LSSOL problem. -/
def LssolProblem.Lines (p : LssolProblem K) (x : ℕ → K) : Prop :=
  ∀ i < p.A.rows, (p.AL.get i).LowerOK (p.A.rowMul i x) ∧ (p.AU.get i).UpperOK (p.A.rowMul i x)

/-- Feasibility for LSSOL. -/
def LssolProblem.Feasible (p : LssolProblem K) (x : ℕ → K) : Prop :=
  p.Lines x ∧ InBounds p.XL p.XU x

/-- Objective of an LSSOL problem. -/
def LssolProblem.obj (p : LssolProblem K) (x : ℕ → K) : K := quadObj p.C.size p.Q.get p.C.get x

end Sem

end Verif
