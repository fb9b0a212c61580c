import Verif.Model.Getters
import Verif.Model.SetPoint
import Verif.Model.Motion

/-!
# The Python binding: accessors of the tasks, of the data of the solver and of the motion constraints

binding/python/tasks/tasks.pyx:43-452 (`tasks`), binding/python/tasks/qp/qp.pyx:543-840, 960-1515, 1628-1640
(`tasks.qp`).

A pair of a C++ getter and a C++ setter is one Python method `def m(self, T x = None)` that returns the value when
`x is None` and calls the setter otherwise.  A declared parameter `T x` of an extension class accepts an object of the
class and `None`; `x.impl` of `None` reads the memory of another object.

Simplifications: arguments by position, no subclasses written in Python, no `bool` and no other number-like objects;
a Python number has its value in `K` (an integer too large for a `double` raises, in fact); the objects returned are
given by their values (they are copies, `...FromC`).
-/

set_option autoImplicit false

namespace Verif.PyAcc

/-- The two modules with classes of the same names. -/
inductive Mod where
  | tasks | qp
  deriving DecidableEq, Repr

/-- A Python value. -/
inductive PV (K : Type) where
  | none
  | int (n : ℤ)
  | float (x : K)
  | v2 (p : K × K)
  | v3 (v : V3 K)
  | m3 (m : M3 K)
  /-- a `Quaterniond`, given by its `matrix()` -/
  | quat (m : M3 K)
  | pt (X : PT K)
  | fv (f : FV K)
  | vec (v : Vec K)
  /-- an object of another class -/
  | other

/-- Outcome of a call of a method of an object with state `S`. -/
inductive Res (S V : Type) where
  /-- it returns (`none` is `None`) and leaves the object in this state -/
  | ret (v : Option V) (s : S)
  /-- a Python exception; nothing was called -/
  | raises
  /-- undefined behaviour, or a value the model does not have (`Out.ub`) -/
  | ub

variable {K S V A : Type}

/-- A method without `return` that calls a C++ function. -/
def Res.ofOut : Out S → Res S V
  | .ok s => .ret none s
  | _ => .ub

/-- `def m(self, T x = None): if x is None: return get() else: set(x)`; `conv` is the conversion to the parameter of
the setter, by the declared class, or by the tests on the class. -/
def accessor (get : V) (conv : PV K → Option A) (set : A → Out S) (s : S) : List (PV K) → Res S V
  | [] => .ret (some get) s
  | [.none] => .ret (some get) s
  | [x] =>
    match conv x with
    | some a => .ofOut (set a)
    | none => .raises
  | _ => .raises

/-- `Vector3d x` -/
def asV3 : PV K → Option (V3 K)
  | .v3 v => some v
  | _ => none

/-- `Matrix3d x` -/
def asM3 : PV K → Option (M3 K)
  | .m3 m => some m
  | _ => none

/-- `isinstance(x, Matrix3d)`, `isinstance(x, Quaterniond)`: the setter of a quaternion is that of its matrix
(Tasks.cpp:106-107, 403-404). -/
def asRot : PV K → Option (M3 K)
  | .m3 m => some m
  | .quat m => some m
  | _ => none

/-- `PTransformd x` -/
def asPT : PV K → Option (PT K)
  | .pt X => some X
  | _ => none

/-- `ForceVecd x` -/
def asFV : PV K → Option (FV K)
  | .fv f => some f
  | _ => none

/-- `VectorXd x` -/
def asVec : PV K → Option (Vec K)
  | .vec v => some v
  | _ => none

/-- Conversion to `double`. -/
def asDouble [IntCast K] : PV K → Option K
  | .float x => some x
  | .int n => some n
  | _ => none

/-- Conversion to `int`: `OverflowError` for an integer that does not fit. -/
def asInt : PV K → Option ℤ
  | .int n => if -2147483648 ≤ n ∧ n < 2147483648 then some n else none
  | _ => none

/-! ### The high-level tasks -/

/-- The methods of the high-level tasks that read and write what a getter returns, and `error`. -/
inductive Meth where
  | position | bodyPoint | orientation | target | X_b_p | E_0_c | com | momentum | velocity | trackedPoint
  | bodyAxis | error
  deriving DecidableEq, Repr

section
variable [Field K] [LinearOrder K]

/-- `GazeTask.error(point, point2d_ref = Vector2d.Zero())` (tasks.pyx:165-173, qp.pyx:706-717), once the reference
point (`none`: `None`) is known: that of `tasks` takes anything but a `Vector3d` for a `Vector2d`. -/
def gazeError2 (mod : Mod) (p : PV K) (ref : Option (K × K)) (set : HLSet K → Out (HLTask K)) :
    Res (HLTask K) (HLVal K) :=
  match p with
  | .v3 v =>
    match ref with
    | some q => .ofOut (set (.error3 v q))
    | none => .ub
  | .v2 v =>
    match ref with
    | some q => .ofOut (set (.error2 v q))
    | none => .ub
  | .none =>
    match mod with
    | .tasks => .ub
    | .qp => .raises
  | _ => .raises

/-- The parameters of `GazeTask.error`. -/
def gazeError (mod : Mod) (args : List (PV K)) (set : HLSet K → Out (HLTask K)) : Res (HLTask K) (HLVal K) :=
  match args with
  | [p] => gazeError2 mod p (some (0, 0)) set
  | [p, .v2 q] => gazeError2 mod p (some q) set
  | [p, .none] => gazeError2 mod p none set
  | _ => .raises

/-- `PositionBasedVisServoTask.error(PTransformd X_t_s)` (tasks.pyx:193-194, qp.pyx:726-727). -/
def pbvsError (args : List (PV K)) (set : HLSet K → Out (HLTask K)) : Res (HLTask K) (HLVal K) :=
  match args with
  | [.pt X] => .ofOut (set (.errorX X))
  | [.none] => .ub
  | _ => .raises

/-- `t.m(args)`, for the robot number `r`: the same methods in both modules but for `GazeTask.error`.
`PositionTask` (tasks.pyx:43-52, qp.pyx:571-580), `OrientationTask` (79-91, 599-612), `SurfaceOrientationTask`
(118-130, 676-689), `CoMTask` (239-243, 779-783), `MomentumTask` (316-320, 793-797), `LinVelocityTask` (338-347,
807-816), `OrientationTrackingTask` (365-379, 826-840), `TransformTask` (397-412, 622-637), `SurfaceTransformTask`
(430-439, 648-657).  A method the class does not have raises `AttributeError`. -/
def call (mod : Mod) (r : ℕ) (t : HLTask K) (m : Meth) (args : List (PV K)) : Res (HLTask K) (HLVal K) :=
  let set := fun o : HLSet K => t.set r o
  match t, m with
  | .position s, .position => accessor (.v3 s.pos) asV3 (fun p => set (.position p)) t args
  | .position s, .bodyPoint => accessor (.v3 s.jac.point) asV3 (fun p => set (.bodyPoint p)) t args
  | .orientation s, .orientation => accessor (.m3 s.ori) asRot (fun o => set (.orientation o)) t args
  | .surfaceOrientation s, .orientation => accessor (.m3 s.ori) asRot (fun o => set (.orientation o)) t args
  | .com s, .com => accessor (.v3 s.com) asV3 (fun c => set (.com c)) t args
  | .momentum s, .momentum => accessor (.fv s.momentum) asFV (fun h => set (.momentum h)) t args
  | .linVelocity s, .velocity => accessor (.v3 s.vel) asV3 (fun v => set (.velocity v)) t args
  | .linVelocity s, .bodyPoint => accessor (.v3 s.jac.point) asV3 (fun p => set (.bodyPoint p)) t args
  | .tracking s, .trackedPoint => accessor (.v3 s.trackedPoint) asV3 (fun p => set (.trackedPoint p)) t args
  | .tracking s, .bodyPoint => accessor (.v3 s.bodyPoint) asV3 (fun p => set (.bodyPoint p)) t args
  | .tracking s, .bodyAxis => accessor (.v3 s.bodyAxis) asV3 (fun v => set (.bodyAxis v)) t args
  | .transform s, .E_0_c => accessor (.m3 s.E_0_c) asM3 (fun E => set (.E_0_c E)) t args
  | .transform s, .target => accessor (.pt s.c.X_0_t) asPT (fun X => set (.target X)) t args
  | .transform s, .X_b_p => accessor (.pt s.c.X_b_p) asPT (fun X => set (.X_b_p X)) t args
  | .surfaceTransform s, .target => accessor (.pt s.X_0_t) asPT (fun X => set (.target X)) t args
  | .surfaceTransform s, .X_b_p => accessor (.pt s.X_b_p) asPT (fun X => set (.X_b_p X)) t args
  | .gaze _, .error => gazeError mod args set
  | .pbvs _, .error => pbvsError args set
  | _, _ => .raises

/-- A statement of a program that uses one high-level task: a call of a method inside `try ... except`, or
`t.update(mbs, mbcs, data)`. -/
inductive Stmt (K : Type) where
  | call (m : Meth) (args : List (PV K))
  | update (mbs : List (RobotDesc K)) (mbcs : List (KState K)) (normalAccB : List (List (MV K)))
      (junk : ℕ → ℕ → ℕ → K)

/-- The task after the statement; `none` when it is undefined. -/
def Stmt.run (f : Fns K) (mod : Mod) (q : QPTask K) : Stmt K → Option (QPTask K)
  | .call m args =>
    match PyAcc.call mod q.robotIndex q.task m args with
    | .ret _ t => some { q with task := t }
    | .raises => some q
    | .ub => none
  | .update mbs mbcs n junk =>
    match q.update f mbs mbcs n junk with
    | .ok q' => some q'
    | _ => none

/-- A program. -/
def exec (f : Fns K) (mod : Mod) : List (Stmt K) → QPTask K → Option (QPTask K)
  | [], q => some q
  | c :: l, q => do
    let q ← c.run f mod q
    exec f mod l q

end

/-! ### The weighted tasks -/

/-- The methods of `SetPointTask` (qp.pyx:985-995), `PIDTask` (1481-1506) and `TargetObjectiveTask` (1344-1378), and
`weight` of `Task` (543-547). -/
inductive WMeth where
  | weight | dimWeight | stiffness | P | I | D | duration | iter | nrIter | objDot | phi | psi
  deriving DecidableEq, Repr

/-- What they return. -/
inductive WVal (K : Type) where
  | num (x : K)
  | int (n : ℤ)
  | vec (v : Vec K)

/-- `def m(self): return get()` -/
def reader (get : V) (s : S) : List (PV K) → Res S V
  | [] => .ret (some get) s
  | _ => .raises

section
variable [CommRing K]

/-- `SetPointTask`. -/
def callSetPoint (sqrt : K → Out K) (s : SetPoint K) (m : WMeth) (args : List (PV K)) : Res (SetPoint K) (WVal K) :=
  match m with
  | .weight => accessor (.num s.c.weight) asDouble (fun w => .ok { s with c := { s.c with weight := w } }) s args
  | .dimWeight => accessor (.vec s.c.dimWeight) asVec (fun w => s.step sqrt (.dimWeight w)) s args
  | .stiffness => accessor (.num s.stiffness) asDouble (fun k => s.step sqrt (.stiffness k)) s args
  | _ => .raises

/-- `PIDTask`. -/
def callPid (s : Pid K) (m : WMeth) (args : List (PV K)) : Res (Pid K) (WVal K) :=
  match m with
  | .weight => accessor (.num s.c.weight) asDouble (fun w => .ok { s with c := { s.c with weight := w } }) s args
  | .dimWeight => accessor (.vec s.c.dimWeight) asVec (fun w => s.step (.dimWeight w)) s args
  | .P => accessor (.num s.P) asDouble (fun x => s.step (.P x)) s args
  | .I => accessor (.num s.I) asDouble (fun x => s.step (.I x)) s args
  | .D => accessor (.num s.D) asDouble (fun x => s.step (.D x)) s args
  | _ => .raises

end

section
variable [Field K] [LinearOrder K]

/-- `TargetObjectiveTask`; `dimWeight`, `iter`, `nrIter`, `objDot` are members (QPTasks.h:238-268). -/
def callTarget (round : K → Out ℤ) (s : TargetObj K) (m : WMeth) (args : List (PV K)) :
    Res (TargetObj K) (WVal K) :=
  match m with
  | .weight => accessor (.num s.weight) asDouble (fun w => .ok { s with weight := w }) s args
  | .dimWeight => accessor (.vec s.dimWeight) asVec (fun w => .ok { s with dimWeight := w }) s args
  | .duration => accessor (.num s.duration) asDouble (fun d => s.setDuration round d) s args
  | .iter => accessor (.int s.iter) asInt (fun n => .ok { s with iter := n }) s args
  | .nrIter => accessor (.int s.nrIter) asInt (fun n => .ok { s with nrIter := n }) s args
  | .objDot => accessor (.vec s.objDot) asVec (fun v => .ok { s with objDot := v }) s args
  | .phi => reader (.vec s.phi) s args
  | .psi => reader (.vec s.psi) s args
  | _ => .raises

end

/-! ### `SolverData` and the torques -/

/-- The methods of `SolverData` with two overloads in C++ (qp.pyx:338-345). -/
inductive DMeth where
  | alphaDBegin | lambdaBegin
  deriving DecidableEq, Repr

/-- The class has two `def` of each of these names; it keeps one of them (Cython warns that the name is redeclared;
which one is kept depends on whether the methods are in the table of the type or are added after it is made). -/
inductive Keeps where
  | first | second
  deriving DecidableEq, Repr

/-- `data.alphaDBegin(...)`, `data.lambdaBegin(...)` (qp.pyx:338-345; QPSolverData.h). -/
def callData (k : Keeps) (d : SolverData K) (m : DMeth) (args : List (PV K)) : Res (SolverData K) ℕ :=
  match k with
  | .first =>
    match m with
    | .alphaDBegin => reader 0 d args
    | .lambdaBegin => reader d.totalAlphaD d args
  | .second =>
    match args with
    | [x] =>
      match asInt x with
      | some i =>
        if i < 0 then .ub
        else
          match (match m with | .alphaDBegin => d.alphaDBegin | .lambdaBegin => d.lambdaBegin)[i.toNat]? with
          | some b => .ret (some b) d
          | none => .ub
      | none => .raises
    | _ => .raises

/-- `c.torque()` of `MotionConstr`, `MotionPolyConstr`, `MotionSpringConstr` (qp.pyx:1630-1636, 1669-1675,
1711-1717): the line that calls the getter (QPMotionConstr.cpp:120-121) has no `return`.  The form
`c.torque(mbs, mbcs)` is that of C++, and is left out. -/
def callTorque (s : MotionCommon K) (args : List (PV K)) : Res (MotionCommon K) (Vec K) :=
  match args with
  | [] => .ret none s
  | [.none] => .ret none s
  | [.none, .none] => .ret none s
  | _ => .raises

end Verif.PyAcc
