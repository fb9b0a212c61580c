import Verif.Model.NormalAcc
import Verif.Model.Diag
import Verif.Model.Registry

/-!
# Model of `QPSolver`: configuration calls, `solve`, choice of the backend

src/QPSolver.cpp and src/GenQPSolver.cpp.  The constraint and task objects live in a world `W` of
the user; `Objects` gives the virtual methods the solver calls on them.
-/

set_option autoImplicit false

namespace Verif

variable {K Ob W R : Type}

/-! ## Backends -/

section Backend
variable [Field K] [LinearOrder K]

/-- `std::unique_ptr<GenQPSolver> solver_` (QPSolver.h:147): one of the two backends. -/
inductive Backend (K : Type) where
  | qld (s : Qld K)
  | lssol (s : Lssol K)

/-- The numerical solvers and what they leave behind for one call; LSSOL's `istate()` is only used
by the diagnostics.  A different value can be used for every call, so nothing is assumed about
internal state such as warm starts. -/
structure Engines (K : Type) where
  qld : QldProblem K → Bool × Vec K
  lssol : LssolProblem K → Bool × Vec K
  istate : Vec ℤ

namespace Backend

/-- The protected members of `GenQPSolver` (GenQPSolver.h:95-104). -/
def dep : Backend K → DepSt K
  | qld s => s.dep
  | lssol s => s.dep

/-- `setDependencies` on the backend (GenQPSolver.cpp:45-80). -/
def setDependencies (n : ℕ) (deps : List (Dep K)) : Backend K → Out (Backend K)
  | qld s => do let d ← Verif.setDependencies n deps s.dep; pure (qld { s with dep := d })
  | lssol s => do let d ← Verif.setDependencies n deps s.dep; pure (lssol { s with dep := d })

/-- Virtual `updateSize`. -/
def updateSize (n e i g : ℕ) : Backend K → Backend K
  | qld s => qld (s.updateSize n e i g)
  | lssol s => lssol (s.updateSize n e i g)

/-- Virtual `updateMatrix`. -/
def updateMatrix (inp : QPInput K) : Backend K → Out (Backend K)
  | qld s => do let s' ← s.updateMatrix inp; pure (qld s')
  | lssol s => do let s' ← s.updateMatrix inp; pure (lssol s')

/-- Virtual `solve`. -/
def solve (eng : Engines K) : Backend K → Out (Bool × Backend K)
  | qld s => do let (b, s') ← s.solve eng.qld; pure (b, qld s')
  | lssol s => do let (b, s') ← s.solve eng.lssol; pure (b, lssol s')

/-- Virtual `result`. -/
def result : Backend K → Vec K
  | qld s => s.result
  | lssol s => s.result

/-- Virtual `errorMsg`: QLD prints nothing (QLDQPSolver.cpp:133-140). -/
def errorMsg (eng : Engines K) (inp : QPInput K) : Backend K → Out (List DiagEntry)
  | qld _ => .ok []
  | lssol s => s.errorMsg eng.istate inp

/-- Virtual `name` (QLDQPSolver.cpp:142-143, LSSOLQPSolver.cpp:177-178). -/
def name : Backend K → String
  | qld _ => "QLD"
  | lssol _ => "LSSOL"

end Backend

/-- `qpFactory` (GenQPSolver.cpp:36-40); `hasLssol` is `LSSOL_SOLVER_FOUND`. -/
def qpFactory (K : Type) [Field K] [LinearOrder K] (hasLssol : Bool) :
    List (String × Backend K) :=
  (if hasLssol then [("LSSOL", Backend.lssol Lssol.init)] else []) ++
    [("QLD", Backend.qld Qld.init)]

/-- `createQPSolver` (GenQPSolver.cpp:42-43): `std::map::at`. -/
def createQPSolver (hasLssol : Bool) (name : String) : Out (Backend K) :=
  match (qpFactory K hasLssol).lookup name with
  | some b => .ok b
  | none => .throws .outOfRange

/-- `GenQPSolver::default_qp_solver` (GenQPSolver.cpp:26-30). -/
def defaultQpSolver (hasLssol : Bool) : String := if hasLssol then "LSSOL" else "QLD"

end Backend

/-! ## The solver object -/

section
variable [Field K] [LinearOrder K] [DecidableEq Ob]

/-- The virtual methods of the constraints and tasks (QPSolver.h:151-300) called by the solver, on
objects `Ob` whose state is in the world `W`. -/
structure Objects (K Ob W R : Type) where
  /-- `Constraint::updateNrVars` -/
  cNrVars : Ob → List (MultiBody K) → SolverData K → W → Out W
  /-- `Task::updateNrVars` -/
  tNrVars : Ob → List (MultiBody K) → SolverData K → W → Out W
  /-- `Constraint::update` -/
  cUpdate : Ob → List (MultiBody K) → List (Mbc K R) → SolverData K → W → Out W
  /-- `Task::update` -/
  tUpdate : Ob → List (MultiBody K) → List (Mbc K R) → SolverData K → W → Out W
  eq : W → Ob → EqC K
  inEq : W → Ob → InEqC K
  gen : W → Ob → GenC K
  bound : W → Ob → BoundC K
  task : W → Ob → TaskQC K
  /-- The template arguments of `ConstraintFunction` for this object. -/
  parts : Ob → List Part

/-- `QPSolver` (QPSolver.h:131-149), timers left out. -/
structure Solver (K Ob : Type) where
  regs : Regs Ob
  tasks : List Ob
  data : SolverData K
  maxEq : ℕ
  maxInEq : ℕ
  maxGen : ℕ
  backend : Backend K

/-- `QPSolver::QPSolver` (QPSolver.cpp:33-37). -/
def Solver.init (hasLssol : Bool) : Out (Solver K Ob) := do
  let b ← createQPSolver hasLssol (defaultQpSolver hasLssol)
  pure ⟨Regs.init, [], SolverData.init, 0, 0, 0, b⟩

/-- What the registered objects return at assembly time. -/
def Solver.input (ob : Objects K Ob W R) (s : Solver K Ob) (w : W) : QPInput K :=
  ⟨s.tasks.map (ob.task w), (s.regs.rows .eq).map (ob.eq w), (s.regs.rows .inEq).map (ob.inEq w),
    (s.regs.rows .genInEq).map (ob.gen w), (s.regs.rows .bound).map (ob.bound w)⟩

/-- `updateConstrSize` (QPSolver.cpp:76-83). -/
def Solver.updateConstrSize (ob : Objects K Ob W R) (s : Solver K Ob) (w : W) : Solver K Ob :=
  let e := (s.regs.rows .eq).foldl (fun acc o => acc + (ob.eq w o).maxEq) 0
  let i := (s.regs.rows .inEq).foldl (fun acc o => acc + (ob.inEq w o).maxInEq) 0
  let g := (s.regs.rows .genInEq).foldl (fun acc o => acc + (ob.gen w o).maxGen) 0
  { s with maxEq := e, maxInEq := i, maxGen := g, backend := s.backend.updateSize s.data.nrVars e i g }

/-- `updateTasksNrVars` (QPSolver.cpp:173-176). -/
def Solver.updateTasksNrVars (ob : Objects K Ob W R) (mbs : List (MultiBody K)) (s : Solver K Ob)
    (w : W) : Out W :=
  forEach s.tasks (fun t w => ob.tNrVars t mbs s.data w) w

/-- `updateConstrsNrVars` (QPSolver.cpp:178-181). -/
def Solver.updateConstrsNrVars (ob : Objects K Ob W R) (mbs : List (MultiBody K)) (s : Solver K Ob)
    (w : W) : Out W :=
  forEach s.regs.constr (fun c w => ob.cNrVars c mbs s.data w) w

/-- `nrVars(mbs, uni, bi)` (QPSolver.cpp:85-168). -/
def Solver.nrVars (ob : Objects K Ob W R) (mbs : List (MultiBody K)) (uni : List (UniContact K))
    (bi : List (BiContact K)) (s : Solver K Ob) (w : W) : Out (Solver K Ob × W) := do
  let (d, deps) ← layout s.data mbs uni bi
  let s1 := { s with data := d }
  let w1 ← s1.updateTasksNrVars ob mbs w
  let w2 ← s1.updateConstrsNrVars ob mbs w1
  let b ← s.backend.setDependencies d.nrVars deps
  pure ({ s1 with backend := b.updateSize d.nrVars s.maxEq s.maxInEq s.maxGen }, w2)

/-- `solver(name)` (QPSolver.cpp:273-277): the new backend replaces the old one, then is sized.  If
`createQPSolver` throws nothing is assigned. -/
def Solver.setSolver (hasLssol : Bool) (name : String) (s : Solver K Ob) : Out (Solver K Ob) := do
  let b ← createQPSolver hasLssol name
  pure { s with backend := b.updateSize s.data.nrVars s.maxEq s.maxInEq s.maxGen }

/-- `solver(name)` (QPSolver.cpp:273-277) statement by statement, as seen by a caller that catches the
exception: outcome of the call and state of the solver afterwards.  Line 275 assigns `solver_` only
after `createQPSolver` has returned. -/
def Solver.callSolver (hasLssol : Bool) (name : String) (s : Solver K Ob) :
    Out Unit × Solver K Ob :=
  match createQPSolver hasLssol name with
  | .ok b =>
    let s1 := { s with backend := b }
    let s2 := { s1 with
      backend := s1.backend.updateSize s1.data.nrVars s1.maxEq s1.maxInEq s1.maxGen }
    (.ok (), s2)
  | .throws e => (.throws e, s)
  | .ub => (.ub, s)

/-- `addConstraint(mbs, co)` / `addConstraint(co)` followed by the kind lists
(`ConstraintFunction::addToSolver`, QPSolver.h:168-194, QPSolver.cpp:225-238).  `mbs = none` is the
overload without robots. -/
def Solver.addConstr (ob : Objects K Ob W R) (mbs : Option (List (MultiBody K))) (o : Ob)
    (s : Solver K Ob) (w : W) : Out (Solver K Ob × W) := do
  let w1 ← match mbs with
    | some mbs => if o ∉ s.regs.constr ∧ 0 < s.data.nrVars then ob.cNrVars o mbs s.data w else pure w
    | none => pure w
  pure ({ s with regs := addToSolver ob.parts s.regs o }, w1)

/-- `ConstraintFunction::removeFromSolver` (QPSolver.h:180-203). -/
def Solver.removeConstr (ob : Objects K Ob W R) (o : Ob) (s : Solver K Ob) : Out (Solver K Ob) := do
  let r ← removeFromSolver ob.parts s.regs o
  pure { s with regs := r }

/-- `addTask` (QPSolver.cpp:249-262). -/
def Solver.addTask (ob : Objects K Ob W R) (mbs : Option (List (MultiBody K))) (o : Ob)
    (s : Solver K Ob) (w : W) : Out (Solver K Ob × W) := do
  let w1 ← match mbs with
    | some mbs => if o ∉ s.tasks ∧ 0 < s.data.nrVars then ob.tNrVars o mbs s.data w else pure w
    | none => pure w
  pure ({ s with tasks := regAdd s.tasks o }, w1)

/-- `removeTask` (QPSolver.cpp:264-268). -/
def Solver.removeTask (o : Ob) (s : Solver K Ob) : Solver K Ob :=
  { s with tasks := regRemove s.tasks o }

/-- `resetTasks` (QPSolver.cpp:282-283). -/
def Solver.resetTasks (s : Solver K Ob) : Solver K Ob := { s with tasks := [] }

/-- `preUpdate` (QPSolver.cpp:326-334). -/
def Solver.preUpdate (ob : Objects K Ob W R) (mbs : List (MultiBody K)) (mbcs : List (Mbc K R))
    (s : Solver K Ob) (w : W) : Out (Solver K Ob × W) := do
  let d ← computeNormalAccB mbs mbcs s.data
  let w1 ← forEach s.regs.constr (fun c w => ob.cUpdate c mbs mbcs d w) w
  let w2 ← forEach s.tasks (fun t w => ob.tUpdate t mbs mbcs d w) w1
  let b ← s.backend.updateMatrix (s.input ob w2)
  pure ({ s with data := d, backend := b }, w2)

/-- `solveNoMbcUpdate` (QPSolver.cpp:51-67): success flag, printed diagnostics, new state. -/
def Solver.solveNoMbcUpdate (ob : Objects K Ob W R) (eng : Engines K) (mbs : List (MultiBody K))
    (mbcs : List (Mbc K R)) (s : Solver K Ob) (w : W) :
    Out (Bool × List DiagEntry × Solver K Ob × W) := do
  let (s1, w1) ← s.preUpdate ob mbs mbcs w
  let (ok, b) ← s1.backend.solve eng
  let s2 := { s1 with backend := b }
  let msg ← if ok then pure [] else b.errorMsg eng (s2.input ob w1)
  pure (ok, msg, s2, w1)

/-- Inner loop of `rbd::vectorToParam` (RBDyn): the entries of one joint, read from `p`. -/
def fillInner (v : Vec K) : List K → ℕ → Out (List K × ℕ)
  | [], p => .ok ([], p)
  | _ :: t, p => do
    let a ← v.at' p
    let (t', p') ← fillInner v t (p + 1)
    pure (a :: t', p')

/-- `rbd::vectorToParam` (RBDyn): overwrite the nested vectors in order; the vector is not checked
to be long enough. -/
def vectorToParam (v : Vec K) : List (List K) → ℕ → Out (List (List K))
  | [], _ => .ok []
  | l :: t, p => do
    let (l', p') ← fillInner v l p
    let t' ← vectorToParam v t p'
    pure (l' :: t')

/-- `updateMbc` (QPSolver.cpp:69-70). -/
def Solver.updateMbc (s : Solver K Ob) (mbc : Mbc K R) (r : ℕ) : Out (Mbc K R) := do
  let v ← alphaDVecAt s.data s.backend.result r
  let a ← vectorToParam v mbc.alphaD 0
  pure { mbc with alphaD := a }

/-- `postUpdate` on success (QPSolver.cpp:340-343), from robot `r` on. -/
def Solver.updateMbcs (s : Solver K Ob) : List (Mbc K R) → ℕ → Out (List (Mbc K R))
  | [], _ => .ok []
  | m :: t, r => do
    let m' ← s.updateMbc m r
    let t' ← s.updateMbcs t (r + 1)
    pure (m' :: t')

/-- `solve` (QPSolver.cpp:42-49) with `postUpdate` (336-347). -/
def Solver.solve (ob : Objects K Ob W R) (eng : Engines K) (mbs : List (MultiBody K))
    (mbcs : List (Mbc K R)) (s : Solver K Ob) (w : W) :
    Out (Bool × List (Mbc K R) × Solver K Ob × W) := do
  let (ok, _, s1, w1) ← s.solveNoMbcUpdate ob eng mbs mbcs w
  let mbcs' ← if ok then s1.updateMbcs mbcs 0 else pure mbcs
  pure (ok, mbcs', s1, w1)

/-! ## Histories of calls -/

/-- A call of the user on the solver, or a change the user makes to their own objects. -/
inductive Call (K Ob W R : Type) where
  | nrVars (mbs : List (MultiBody K)) (uni : List (UniContact K)) (bi : List (BiContact K))
  | updateConstrSize
  | updateNrVars (mbs : List (MultiBody K))
  | setSolver (name : String)
  | addConstr (mbs : Option (List (MultiBody K))) (o : Ob)
  | removeConstr (o : Ob)
  | addTask (mbs : Option (List (MultiBody K))) (o : Ob)
  | removeTask (o : Ob)
  | resetTasks
  | solve (eng : Engines K) (mbs : List (MultiBody K)) (mbcs : List (Mbc K R))
  | solveNoMbcUpdate (eng : Engines K) (mbs : List (MultiBody K)) (mbcs : List (Mbc K R))
  | user (f : W → W)

/-- Effect of a call. -/
def Call.run (ob : Objects K Ob W R) (hasLssol : Bool) (c : Call K Ob W R)
    (sw : Solver K Ob × W) : Out (Solver K Ob × W) :=
  match c with
  | .nrVars mbs uni bi => sw.1.nrVars ob mbs uni bi sw.2
  | .updateConstrSize => .ok (sw.1.updateConstrSize ob sw.2, sw.2)
  | .updateNrVars mbs => do
    let w1 ← sw.1.updateTasksNrVars ob mbs sw.2
    let w2 ← sw.1.updateConstrsNrVars ob mbs w1
    pure (sw.1, w2)
  | .setSolver name => do let s ← sw.1.setSolver hasLssol name; pure (s, sw.2)
  | .addConstr mbs o => sw.1.addConstr ob mbs o sw.2
  | .removeConstr o => do let s ← sw.1.removeConstr ob o; pure (s, sw.2)
  | .addTask mbs o => sw.1.addTask ob mbs o sw.2
  | .removeTask o => .ok (sw.1.removeTask o, sw.2)
  | .resetTasks => .ok (sw.1.resetTasks, sw.2)
  | .solve eng mbs mbcs => do
    let (_, _, s, w) ← sw.1.solve ob eng mbs mbcs sw.2
    pure (s, w)
  | .solveNoMbcUpdate eng mbs mbcs => do
    let (_, _, s, w) ← sw.1.solveNoMbcUpdate ob eng mbs mbcs sw.2
    pure (s, w)
  | .user f => .ok (sw.1, f sw.2)

end

end Verif
