import Verif.Model.Visual
import Verif.Model.Image

/-!
# Objects that own heap memory

`GazeTask`, `PositionBasedVisServoTask` and `ImageConstr` keep their fixed-size Eigen members in
`std::unique_ptr`s and define their own copy operations (Tasks.cpp:465-530, 590-633,
QPConstr.cpp:1057-1128); their move operations and destructors are the compiler's (Tasks.h:286-290, 335-339,
QPConstr.h:811-817).  The rest of the model treats these objects as values; here they are records of
inline members and pointers into a memory, so that copies could share or lose memory.

`F` is the type of the inline members, `C` that of the content of a pointed-to matrix.  Addresses are not
reused: the code never compares or computes addresses.  Allocation does not fail.
-/

set_option autoImplicit false

namespace Verif

/-- An object: its inline members, and its `unique_ptr` members by number (`none`: null). -/
structure Obj (F : Type) where
  f : F
  ptr : ℕ → Option ℕ

/-- The memory, the next free address, and the variables of the program. -/
structure Heap (F C : Type) where
  mem : ℕ → Option C
  next : ℕ
  objs : ℕ → Option (Obj F)

/-- A class: the number of `unique_ptr` members, what its copy constructor and its copy assignment do
with the inline members (`assignF dst rhs`), and the `unique_ptr` members they go through, in order. -/
structure Cls (F : Type) where
  n : ℕ
  copyF : F → F
  copyCells : List ℕ
  assignF : F → F → F
  assignCells : List ℕ

section
variable {F C : Type}

/-- `*ptr`: a null or dangling pointer is undefined. -/
def derefP (mem : ℕ → Option C) : Option ℕ → Out C
  | none => .ub
  | some p => match mem p with
    | some c => .ok c
    | none => .ub

/-- `*ptr = c`: a null or dangling pointer is undefined. -/
def storeP (mem : ℕ → Option C) (c : C) : Option ℕ → Out (ℕ → Option C)
  | none => .ub
  | some p => match mem p with
    | some _ => .ok (Function.update mem p (some c))
    | none => .ub

/-- Destructor of a `unique_ptr`: deletes what it points to; deleting twice is undefined. -/
def deleteP (mem : ℕ → Option C) : Option ℕ → Out (ℕ → Option C)
  | none => .ok mem
  | some p => match mem p with
    | some _ => .ok (Function.update mem p none)
    | none => .ub

/-- `ptr_(new Matrix(…))` for the members in `l`, from the values `get` gives. -/
def allocCells (get : (ℕ → Option C) → ℕ → Out C) (l : List ℕ)
    (s : (ℕ → Option C) × ℕ × (ℕ → Option ℕ)) : Out ((ℕ → Option C) × ℕ × (ℕ → Option ℕ)) :=
  forEach l (fun i s => do
    let c ← get s.1 i
    pure (Function.update s.1 s.2.1 (some c), s.2.1 + 1, Function.update s.2.2 i (some s.2.1))) s

/-- `*ptr_ = *rhs.ptr_` for the members in `l`. -/
def assignLoop (dst src : ℕ → Option ℕ) (l : List ℕ) (mem : ℕ → Option C) : Out (ℕ → Option C) :=
  forEach l (fun i mem => do
    let c ← derefP mem (src i)
    storeP mem c (dst i)) mem

/-- The writes of a member function to the members in `l`. -/
def storeLoop (ptr : ℕ → Option ℕ) (c : ℕ → C) (l : List ℕ) (mem : ℕ → Option C) :
    Out (ℕ → Option C) :=
  forEach l (fun i mem => storeP mem (c i) (ptr i)) mem

/-- The destructors of the members in `l`. -/
def deleteLoop (ptr : ℕ → Option ℕ) (l : List ℕ) (mem : ℕ → Option C) : Out (ℕ → Option C) :=
  forEach l (fun i mem => deleteP mem (ptr i)) mem

/-- The reads of a member function: the content of the members in `l`. -/
def loadLoop [Inhabited C] (ptr : ℕ → Option ℕ) (l : List ℕ) (mem : ℕ → Option C) : Out (ℕ → C) :=
  forEach l (fun i (c : ℕ → C) => do
    let x ← derefP mem (ptr i)
    pure (Function.update c i x)) (fun _ => default)

/-- What a program does with variables of the class. -/
inductive ObjOp (F C : Type) where
  /-- `T v(args)`: the constructor computes the members, or fails -/
  | make (v : ℕ) (r : Out (F × (ℕ → C)))
  /-- `T w(v)` -/
  | copy (w v : ℕ)
  /-- `w = v` -/
  | assign (w v : ℕ)
  /-- `T w(std::move(v))`; `junk` is what moving leaves in the inline members of `v` -/
  | moveNew (w v : ℕ) (junk : F)
  /-- `w = std::move(v)` -/
  | moveTo (w v : ℕ) (junk : F)
  /-- a member function that dereferences the `unique_ptr` members in `touch`; it gets the inline members
  and what these point to, and gives their new values -/
  | call (v : ℕ) (touch : List ℕ) (m : F → (ℕ → C) → Out (F × (ℕ → C)))
  /-- the end of the lifetime of `v` -/
  | destroy (v : ℕ)

/-- A variable in its lifetime. -/
def Heap.obj (h : Heap F C) (v : ℕ) : Out (Obj F) :=
  match h.objs v with
  | some o => .ok o
  | none => .ub

/-- Declaring a variable twice is not possible. -/
def Heap.newVar (h : Heap F C) (v : ℕ) : Out Unit :=
  match h.objs v with
  | some _ => .ub
  | none => .ok ()

/-- One operation.  A moved-from `unique_ptr` is null; `u = std::move(u)` keeps a `unique_ptr` as it is. -/
def Cls.step [Inhabited C] (T : Cls F) (op : ObjOp F C) (h : Heap F C) : Out (Heap F C) :=
  match op with
  | .make v r => do
    h.newVar v
    let x ← r
    let s ← allocCells (fun _ i => .ok (x.2 i)) (List.range T.n) (h.mem, h.next, fun _ => none)
    pure ⟨s.1, s.2.1, Function.update h.objs v (some ⟨x.1, s.2.2⟩)⟩
  | .copy w v => do
    h.newVar w
    let o ← h.obj v
    let s ← allocCells (fun mem i => derefP mem (o.ptr i)) T.copyCells (h.mem, h.next, fun _ => none)
    pure ⟨s.1, s.2.1, Function.update h.objs w (some ⟨T.copyF o.f, s.2.2⟩)⟩
  | .assign w v => do
    let d ← h.obj w
    let o ← h.obj v
    if w = v then pure h else do
    let mem ← assignLoop d.ptr o.ptr T.assignCells h.mem
    pure ⟨mem, h.next, Function.update h.objs w (some ⟨T.assignF d.f o.f, d.ptr⟩)⟩
  | .moveNew w v junk => do
    h.newVar w
    let o ← h.obj v
    pure ⟨h.mem, h.next,
      Function.update (Function.update h.objs v (some ⟨junk, fun _ => none⟩)) w (some o)⟩
  | .moveTo w v junk => do
    let d ← h.obj w
    let o ← h.obj v
    if w = v then pure ⟨h.mem, h.next, Function.update h.objs v (some ⟨junk, o.ptr⟩)⟩ else do
    let mem ← deleteLoop d.ptr (List.range T.n) h.mem
    pure ⟨mem, h.next,
      Function.update (Function.update h.objs v (some ⟨junk, fun _ => none⟩)) w (some o)⟩
  | .call v touch m => do
    let o ← h.obj v
    let c ← loadLoop o.ptr touch h.mem
    let r ← m o.f c
    let mem ← storeLoop o.ptr r.2 touch h.mem
    pure ⟨mem, h.next, Function.update h.objs v (some ⟨r.1, o.ptr⟩)⟩
  | .destroy v => do
    let o ← h.obj v
    let mem ← deleteLoop o.ptr (List.range T.n) h.mem
    pure ⟨mem, h.next, Function.update h.objs v none⟩

/-- A program. -/
def Cls.run [Inhabited C] (T : Cls F) (ops : List (ObjOp F C)) (h : Heap F C) : Out (Heap F C) :=
  forEach ops T.step h

/-- The start of a program: no memory, no variables. -/
def Heap.empty : Heap F C := ⟨fun _ => none, 0, fun _ => none⟩

end

/-! ## `GazeTask` -/

/-- Inline members of `GazeTask` (Tasks.h:309-324). -/
structure GazeF (K : Type) where
  depth : K
  bodyIndex : ℕ
  jac : Jac K
  X_b_gaze : PT K
  eval : Vec K
  speed : Vec K
  normalAcc : Vec K
  jacMat : Mat K
  jacDotMat : Mat K

/-- Content of a `unique_ptr` member: a fixed-size matrix. -/
abbrev Cell (K : Type) := ℕ → ℕ → K

section
variable {K : Type}

/-- `GazeTask` (Tasks.cpp:498-530).  The pointers are 0 `point2d_`, 1 `point2d_ref_`, 2 `L_img_`,
3 `surfaceVelocity_`, 4 `L_Z_dot_`, 5 `L_img_dot_`. -/
def gazeCls : Cls (GazeF K) where
  n := 6
  copyF rhs :=
    { depth := rhs.depth, bodyIndex := rhs.bodyIndex, jac := rhs.jac, X_b_gaze := rhs.X_b_gaze
      eval := rhs.eval, speed := rhs.speed, normalAcc := rhs.normalAcc
      jacMat := rhs.jacMat, jacDotMat := rhs.jacDotMat }
  copyCells := [0, 1, 2, 3, 4, 5]
  assignF s rhs :=
    { s with
      depth := rhs.depth, bodyIndex := rhs.bodyIndex, jac := rhs.jac, X_b_gaze := rhs.X_b_gaze
      eval := rhs.eval, speed := rhs.speed, normalAcc := rhs.normalAcc
      jacMat := rhs.jacMat, jacDotMat := rhs.jacDotMat }
  assignCells := [0, 1, 2, 3, 4, 5]

/-! ## `PositionBasedVisServoTask` -/

/-- Inline members of `PositionBasedVisServoTask` (Tasks.h:354-371). -/
structure PbvsF (K : Type) where
  X_t_s : PT K
  X_b_s : PT K
  angle : K
  axis : V3 K
  bodyIndex : ℕ
  jac : Jac K
  omegaSkew : M3 K
  eval : Vec K
  speed : Vec K
  normalAcc : Vec K
  jacMat : Mat K
  jacDotMat : Mat K

/-- `PositionBasedVisServoTask` (Tasks.cpp:603-633).  The pointers are 0 `L_pbvs_`, 1
`surfaceVelocity_`, 2 `L_pbvs_dot_`. -/
def pbvsCls : Cls (PbvsF K) where
  n := 3
  copyF rhs :=
    { X_t_s := rhs.X_t_s, X_b_s := rhs.X_b_s, angle := rhs.angle, axis := rhs.axis
      bodyIndex := rhs.bodyIndex, jac := rhs.jac, omegaSkew := rhs.omegaSkew
      eval := rhs.eval, speed := rhs.speed, normalAcc := rhs.normalAcc
      jacMat := rhs.jacMat, jacDotMat := rhs.jacDotMat }
  copyCells := [0, 1, 2]
  assignF s rhs :=
    { s with
      X_t_s := rhs.X_t_s, X_b_s := rhs.X_b_s, angle := rhs.angle, axis := rhs.axis
      bodyIndex := rhs.bodyIndex, jac := rhs.jac, omegaSkew := rhs.omegaSkew
      eval := rhs.eval, speed := rhs.speed, normalAcc := rhs.normalAcc
      jacMat := rhs.jacMat, jacDotMat := rhs.jacDotMat }
  assignCells := [0, 1, 2]

/-! ## `ImageConstr` -/

/-- `ImageConstr::RobotPointData` (QPConstr.h:891-897). -/
structure ImgRobotPoint (K : Type) where
  bName : String
  X_b_p : PT K
  jac : Jac K

/-- Inline members of `ImageConstr` (QPConstr.h:899-924). -/
structure ImageF (K : Type) where
  points : List (ImgPoint K)
  robotPoints : List (ImgRobotPoint K)
  robotIndex : ℕ
  bodyIndex : ℕ
  alphaDBegin : Option ℕ
  nrVars : ℕ
  step : K
  accel : K
  nrAct : ℕ
  jac : Jac K
  X_b_gaze : PT K
  jacMat : Mat K
  damping : K
  off : K
  inv : K
  dir : K
  A : Mat K
  b : Vec K

/-- `ImageConstr` (QPConstr.cpp:1079-1129).  The pointers are 0 `L_img_`, 1 `surfaceVelocity_`,
2 `L_Z_dot_`, 3 `L_img_dot_`, 4 `speed_`, 5 `normalAcc_`, 6 `iDistMin_`, 7 `iDistMax_`, 8 `sDistMin_`,
9 `sDistMax_`. -/
def imageCls : Cls (ImageF K) where
  n := 10
  copyF rhs :=
    { points := rhs.points, robotPoints := rhs.robotPoints, robotIndex := rhs.robotIndex
      bodyIndex := rhs.bodyIndex, alphaDBegin := rhs.alphaDBegin, nrVars := rhs.nrVars
      step := rhs.step, accel := rhs.accel, nrAct := rhs.nrAct, jac := rhs.jac
      X_b_gaze := rhs.X_b_gaze, jacMat := rhs.jacMat, damping := rhs.damping, off := rhs.off
      inv := rhs.inv, dir := rhs.dir, A := rhs.A, b := rhs.b }
  copyCells := [0, 1, 2, 3, 4, 5, 6, 7, 8, 9]
  assignF s rhs :=
    { s with
      points := rhs.points, robotPoints := rhs.robotPoints, robotIndex := rhs.robotIndex
      bodyIndex := rhs.bodyIndex, alphaDBegin := rhs.alphaDBegin, nrVars := rhs.nrVars
      step := rhs.step, accel := rhs.accel, nrAct := rhs.nrAct, jac := rhs.jac
      X_b_gaze := rhs.X_b_gaze, jacMat := rhs.jacMat, damping := rhs.damping, off := rhs.off
      inv := rhs.inv, dir := rhs.dir, A := rhs.A, b := rhs.b }
  assignCells := [0, 1, 2, 3, 4, 5, 6, 7, 8, 9]

end

/-! ## The member functions, on the members themselves -/

section
variable {K : Type} [Field K] [DecidableEq K]

/-- A `Vector2d`. -/
def cell2 (p : K × K) : Cell K := fun i _ => if i = 0 then p.1 else p.2

/-- The two entries of a `Vector2d`. -/
def pair2 (c : Cell K) : K × K := (c 0 0, c 1 0)

/-- `GazeTask::GazeTask(mb, bodyName, point2d, depthEstimate, X_b_gaze, point2d_ref)`
(Tasks.cpp:465-479). -/
def gazeMake2 (mb : MultiBody K) (bodyIndex : ℕ) (path : List ℕ) (p : K × K) (depth : K)
    (X_b_gaze : PT K) (ref : K × K) (junk : ℕ → ℕ → K) : Out (GazeF K × (ℕ → Cell K)) :=
  .ok (⟨depth, bodyIndex, ⟨path, 0⟩, X_b_gaze, ⟨2, junk 0⟩, ⟨2, junk 1⟩, ⟨2, junk 2⟩,
      ⟨2, mb.nrDof, junk⟩, ⟨2, mb.nrDof, junk⟩⟩,
    fun i => if i = 0 then cell2 p else if i = 1 then cell2 ref else fun _ _ => 0)

/-- `GazeTask::error(point2d, point2d_ref)` (Tasks.cpp:532-536): goes through `point2d_`,
`point2d_ref_`. -/
def gazeError2 (p ref : K × K) (f : GazeF K) (c : ℕ → Cell K) : Out (GazeF K × (ℕ → Cell K)) :=
  .ok (f, Function.update (Function.update c 0 (cell2 p)) 1 (cell2 ref))

/-- `GazeTask::error(point3d, point2d_ref)` (Tasks.cpp:538-543). -/
def gazeError3 (p : V3 K) (ref : K × K) (f : GazeF K) (c : ℕ → Cell K) :
    Out (GazeF K × (ℕ → Cell K)) := do
  let u ← fdiv p.x p.z
  let v ← fdiv p.y p.z
  let c := Function.update c 0 (cell2 (u, v))
  let f := { f with depth := p.z }
  pure (f, Function.update c 1 (cell2 ref))

/-- `GazeTask::update` (Tasks.cpp:545-569), statement by statement. -/
def gazeUpdate (depthDot : (ℕ → K) → K → ℕ → K) (mb : MultiBody K) (st : KState K) (f : GazeF K)
    (c : ℕ → Cell K) : Out (GazeF K × (ℕ → Cell K)) := do
  let f := { f with eval := ⟨2, fun i => c 1 i 0 - c 0 i 0⟩ }
  let L ← imagePointJacobian (pair2 (c 0)) f.depth
  let c := Function.update c 2 L
  let V ← f.jac.velocityAt st f.X_b_gaze
  let c := Function.update c 3 (fun j _ => V.get j)
  let f := { f with speed := ⟨2, fun a => ∑ j ∈ Finset.range 6, c 2 a j * c 3 j 0⟩ }
  let c := Function.update c 4 (fun _ j => depthDot f.speed.get f.depth j)
  let c := Function.update c 5
    (imgLdot (pair2 (c 0)) f.speed.get f.depth (∑ j ∈ Finset.range 6, c 4 0 j * c 3 j 0))
  let n ← f.jac.normalAccAt st f.X_b_gaze 0
  let f := { f with normalAcc := ⟨2, fun a => ∑ j ∈ Finset.range 6, c 2 a j * n.get j
    + ∑ j ∈ Finset.range 6, c 5 a j * c 3 j 0⟩ }
  let X ← vecAt st.bodyPosW f.bodyIndex
  let M ← f.jac.jacobianAt mb st (f.X_b_gaze.mul X)
  let sh ← M.block 0 0 6 (pathDof mb f.jac.path)
  let M ← fullJacobian mb f.jac.path (lMul 2 (c 2) sh) f.jacMat
  pure ({ f with jacMat := M }, c)

end

section
variable {K : Type} [CommRing K]

/-- Constructor of `PositionBasedVisServoTask` (Tasks.cpp:590-601). -/
def pbvsMake (mb : MultiBody K) (bodyIndex : ℕ) (path : List ℕ) (X_t_s X_b_s : PT K)
    (junk : ℕ → ℕ → K) : Out (PbvsF K × (ℕ → Cell K)) :=
  .ok (⟨X_t_s, X_b_s, 0, 0, bodyIndex, ⟨path, 0⟩, ⟨0, 0, 0⟩, ⟨6, junk 0⟩, ⟨6, junk 1⟩, ⟨6, junk 2⟩,
      ⟨6, mb.nrDof, junk⟩, ⟨6, mb.nrDof, junk⟩⟩, fun _ _ _ => 0)

/-- `PositionBasedVisServoTask::error` (Tasks.cpp:635-636): no pointer is dereferenced. -/
def pbvsError (X : PT K) (f : PbvsF K) (c : ℕ → Cell K) : Out (PbvsF K × (ℕ → Cell K)) :=
  .ok ({ f with X_t_s := X }, c)

/-- `PositionBasedVisServoTask::update` (Tasks.cpp:638-665), statement by statement; `angleAxis m` are
the angle and the axis `rbd::getAngleAxis` writes. -/
def pbvsUpdate (angleAxis : M3 K → K × V3 K) (poseJac : M3 K → ℕ → ℕ → K) (mb : MultiBody K)
    (st : KState K) (f : PbvsF K) (c : ℕ → Cell K) : Out (PbvsF K × (ℕ → Cell K)) := do
  let aa := angleAxis f.X_t_s.E.transpose
  let f := { f with angle := aa.1, axis := aa.2 }
  let f := { f with eval := ⟨f.eval.size, fun i => if 3 ≤ i then (-f.X_t_s.r).get (i - 3) else f.eval.get i⟩ }
  let f := { f with eval := ⟨f.eval.size, fun i => if i < 3 then (f.angle • f.axis).get i else f.eval.get i⟩ }
  let c := Function.update c 0 (poseJac f.X_t_s.E)
  let V ← f.jac.velocityAt st f.X_b_s
  let c := Function.update c 1 (fun j _ => V.get j)
  let f := { f with speed := ⟨6, fun a => ∑ j ∈ Finset.range 6, c 0 a j * c 1 j 0⟩ }
  let f := { f with omegaSkew := skewMatrix ⟨c 1 0 0, c 1 1 0, c 1 2 0⟩ }
  let c := Function.update c 2 (fun a j =>
    if 3 ≤ a ∧ 3 ≤ j then -((f.X_t_s.E.transpose.mul f.omegaSkew).entry (a - 3) (j - 3)) else 0)
  let n ← f.jac.normalAccAt st f.X_b_s 0
  let f := { f with normalAcc := ⟨6, fun a => ∑ j ∈ Finset.range 6, c 0 a j * n.get j
    + ∑ j ∈ Finset.range 6, c 2 a j * c 1 j 0⟩ }
  let X ← vecAt st.bodyPosW f.bodyIndex
  let M ← f.jac.jacobianAt mb st (f.X_b_s.mul X)
  let sh ← M.block 0 0 6 (pathDof mb f.jac.path)
  let M ← fullJacobian mb f.jac.path (lMul 6 (c 0) sh) f.jacMat
  pure ({ f with jacMat := M }, c)

end

/-! ### `ImageConstr` -/

section
variable {K : Type} [Field K] [LinearOrder K]

/-- Constructor of `ImageConstr` (QPConstr.cpp:1057-1078). -/
def imageMake (rks : List (RobotKin K)) (robotIndex : ℕ) (body : String) (bodyIndex : ℕ) (X_b_gaze : PT K)
    (step dir : K) (junk : ℕ → ℕ → K) : Out (ImageF K × (ℕ → Cell K)) := do
  let rk ← vecAt rks robotIndex
  let path ← rk.path body
  pure (⟨[], [], robotIndex, bodyIndex, none, 0, step, 1 / 2 * step * step, 0, ⟨path, 0⟩, X_b_gaze,
    ⟨2, rk.mb.nrDof, junk⟩, 0, 0, 1, dir, ⟨0, 0, fun _ _ => 0⟩, ⟨0, fun _ => 0⟩⟩, fun _ _ _ => 0)

/-- `ImageConstr::setLimits` (QPConstr.cpp:1167-1183): goes through the four limits. -/
def imageSetLimits (min max : ℕ → K) (iPct sPct damping offPct : K) (f : ImageF K) (c : ℕ → Cell K) :
    Out (ImageF K × (ℕ → Cell K)) :=
  let dist := fun i => max i - min i
  let c := Function.update c 6 (fun i _ => min i + f.dir * iPct * dist i)
  let c := Function.update c 7 (fun i _ => max i - f.dir * iPct * dist i)
  let c := Function.update c 8 (fun i _ => min i + f.dir * sPct * dist i)
  let c := Function.update c 9 (fun i _ => max i - f.dir * sPct * dist i)
  let f := { f with damping := damping }
  .ok ({ f with off := f.dir * offPct * damping }, c)

/-- `ImageConstr::addPoint(point2d, depth)` (QPConstr.cpp:1131-1135): no pointer is dereferenced. -/
def imageAddPoint (p : ℕ → K) (depth : K) (f : ImageF K) (c : ℕ → Cell K) : Out (ImageF K × (ℕ → Cell K)) :=
  .ok ({ f with points := f.points ++ [⟨p, depth⟩] }, c)

/-- `ImageConstr::updateNrVars` (QPConstr.cpp:1219-1226): no pointer is dereferenced. -/
def imageUpdateNrVars (d : SolverData K) (f : ImageF K) (c : ℕ → Cell K) : Out (ImageF K × (ℕ → Cell K)) := do
  let a ← vecAt d.alphaDBegin f.robotIndex
  let f := { f with alphaDBegin := some a }
  let f := { f with nrVars := d.nrVars }
  let n := 2 * (f.points.length + f.robotPoints.length)
  let f := { f with A := Mat.zero n f.nrVars }
  pure ({ f with b := ⟨n, fun _ => 0⟩ }, c)

/-- `ImageConstr::computeComponents` (QPConstr.cpp:1185-1217), statement by statement: the members, the
full Jacobian and `bCommonTerm`. -/
def imageComponents (mb : MultiBody K) (env : ImageEnv K) (pt : ImgPoint K) (f : ImageF K) (c : ℕ → Cell K) :
    Out ((ImageF K × (ℕ → Cell K)) × (ℕ → K)) := do
  let c := Function.update c 0 (env.imgJac pt.p pt.depth)
  let c := Function.update c 1 (fun j _ => env.vel j)
  let c := Function.update c 4 (fun i _ => ∑ j ∈ Finset.range 6, c 0 i j * c 1 j 0)
  let c := Function.update c 2 (fun _ j => env.depthDot (fun i => c 4 i 0) pt.depth j)
  let c := Function.update c 3
    (env.imgJacDot pt.p (fun i => c 4 i 0) pt.depth (∑ j ∈ Finset.range 6, c 2 0 j * c 1 j 0))
  let c := Function.update c 5 (fun i _ => ∑ j ∈ Finset.range 6, c 0 i j * env.nacc j
    + ∑ j ∈ Finset.range 6, c 3 i j * c 1 j 0)
  let J ← env.jac.block 0 0 6 (pathDof mb f.jac.path)
  let full ← fullJacobian mb f.jac.path
    ⟨2, J.cols, fun i col => ∑ k ∈ Finset.range 6, (f.accel * c 0 i k) * J.get k col⟩ f.jacMat
  pure (({ f with jacMat := full }, c), fun i => -f.step * c 4 i 0 - f.accel * c 5 i 0)

/-- The end of the loop over the axes (QPConstr.cpp:1296-1302). -/
def imageFill (mb : MultiBody K) (i : ℕ) (f : ImageF K) : Out (ImageF K) := do
  let a ← (match f.alphaDBegin with | some a => Out.ok a | none => .ub)
  let r ← f.jacMat.block i 0 1 mb.nrDof
  let A ← f.A.setBlock f.nrAct a ⟨1, mb.nrDof, fun x col => f.inv * r.get x col⟩
  let f := { f with A := A }
  pure { f with nrAct := f.nrAct + 1 }

/-- The body of the loop over the axes (QPConstr.cpp:1246-1303): reads the four limits. -/
def imageAxis (mb : MultiBody K) (p bc : ℕ → K) (i : ℕ) (x : ImageF K × (ℕ → Cell K)) :
    Out (ImageF K × (ℕ → Cell K)) :=
  let f := x.1
  let c := x.2
  let o := if i = 0 then 1 else 0
  if f.dir = 1 ∨ (c 6 o 0 < p o ∧ p o < c 7 o 0) then
    if f.dir * p i < f.dir * c 6 i 0 ∧ (f.dir = 1 ∨ p i < 0) then
      if f.dir * c 8 i 0 < f.dir * p i then do
        let f := { f with inv := -1 * f.dir }
        let q ← fdiv (p i - c 8 i 0) (c 6 i 0 - c 8 i 0)
        let b ← f.b.set f.nrAct (f.dir * (f.damping * q - f.off) + f.inv * bc i)
        let f := { f with b := b }
        let f ← imageFill mb i f
        pure (f, c)
      else do
        let b ← f.b.set f.nrAct (-f.dir * f.off + f.inv * bc i)
        pure ({ f with b := b }, c)
    else if f.dir * c 7 i 0 < f.dir * p i ∧ (f.dir = 1 ∨ 0 < p i) then
      if f.dir * p i < f.dir * c 9 i 0 then do
        let f := { f with inv := 1 * f.dir }
        let q ← fdiv (p i - c 9 i 0) (c 7 i 0 - c 9 i 0)
        let b ← f.b.set f.nrAct (f.dir * (f.damping * q - f.off) + f.inv * bc i)
        let f := { f with b := b }
        let f ← imageFill mb i f
        pure (f, c)
      else do
        let b ← f.b.set f.nrAct (-f.dir * f.off + f.inv * bc i)
        pure ({ f with b := b }, c)
    else pure x
  else pure x

/-- The body of the loop over the points (QPConstr.cpp:1238-1304). -/
def imagePoint (mb : MultiBody K) (env : ImageEnv K) (pt : ImgPoint K) (x : ImageF K × (ℕ → Cell K)) :
    Out (ImageF K × (ℕ → Cell K)) := do
  let r ← imageComponents mb env pt x.1 x.2
  forRange 2 (imageAxis mb pt.p r.2) r.1

/-- `ImageConstr::update` (QPConstr.cpp:1228-1305). -/
def imageUpdate (mbs : List (MultiBody K)) (env : ImageEnv K) (f : ImageF K) (c : ℕ → Cell K) :
    Out (ImageF K × (ℕ → Cell K)) := do
  let f := { f with nrAct := 0 }
  let mb ← vecAt mbs f.robotIndex
  forEach f.points (imagePoint mb env) (f, c)

end

end Verif
