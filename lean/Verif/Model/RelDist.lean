import Verif.Model.Kine
import Verif.Model.Collision

/-!
# Model of `RelativeDistTask` (src/Tasks.cpp:1166-1270, src/QPTasks.cpp:1464-1497)

The difference of the distances of two points of the robot to two points of the environment.
-/

set_option autoImplicit false

namespace Verif

/-- `RelativeDistTask::RelativeBodiesInfo` (Tasks.h:624-635). -/
structure RelBody (K : Type) where
  b1Index : ℕ
  r_b1_p : V3 K
  r_0_b2p : V3 K
  jac : Jac K
  u : V3 K
  offn : V3 K

/-- `RelativeDistTask` (Tasks.h:595-647): `rbInfo_` is the list of its two entries; `eval_`, `speed_`
and `normalAcc_` have one entry, `jacMat_` one row. -/
structure RelDistT (K : Type) where
  timestep : K
  isVectorFixed : Bool
  eval : K
  speed : K
  normalAcc : K
  jacMat : Mat K
  infos : List (RelBody K)

section
variable {K : Type} [Field K] [LinearOrder K]

/-- Constructor of `RelativeBodiesInfo` (Tasks.cpp:1183-1189); `path` leads to the body. -/
def RelBody.make (b : ℕ) (path : List ℕ) (r_b1_p r_0_b2p u : V3 K) : RelBody K :=
  ⟨b, r_b1_p, r_0_b2p, ⟨path, r_b1_p⟩, u, 0⟩

/-- Constructor (Tasks.cpp:1170-1181); the results are uninitialised. -/
def RelDistT.make (mb : MultiBody K) (timestep : K) (i1 i2 : RelBody K) (junk : K × K × K)
    (junkJ : ℕ → ℕ → K) : RelDistT K :=
  ⟨timestep, decide (i1.u ≠ 0 ∧ i2.u ≠ 0), junk.1, junk.2.1, junk.2.2, ⟨1, mb.nrDof, junkJ⟩, [i1, i2]⟩

namespace RelDistT

/-- `robotPoint(bIndex, point)` (Tasks.cpp:1191-1201): every entry on that body. -/
def robotPoint (bIndex : ℕ) (p : V3 K) (s : RelDistT K) : RelDistT K :=
  { s with
    infos := s.infos.map fun b =>
      if b.b1Index = bIndex then { b with r_b1_p := p, jac := { b.jac with point := p } } else b }

/-- `envPoint(bIndex, point)` (Tasks.cpp:1203-1209). -/
def envPoint (bIndex : ℕ) (p : V3 K) (s : RelDistT K) : RelDistT K :=
  { s with infos := s.infos.map fun b => if b.b1Index = bIndex then { b with r_0_b2p := p } else b }

/-- `vector(bIndex, u)` (Tasks.cpp:1211-1217): `isVectorFixed_` does not change. -/
def vector (bIndex : ℕ) (u : V3 K) (s : RelDistT K) : RelDistT K :=
  { s with infos := s.infos.map fun b => if b.b1Index = bIndex then { b with u := u } else b }

/-- The running results of the loop of `update`. -/
structure Acc (K : Type) where
  eval : K
  speed : K
  normalAcc : K
  jacMat : Mat K

/-- Distance, direction and its rate for one entry (Tasks.cpp:1231-1249).  The division by a zero
distance or time step gives NaN or infinity: undefined. -/
def direction (sqrt : K → Out K) (timestep : K) (fixed : Bool) (X : PT K) (b : RelBody K) :
    Out (K × V3 K × V3 K) :=
  let p := ((PT.ofTrans b.r_b1_p).mul X).r
  let r := p - b.r_0_b2p
  if fixed then .ok (|r.dot b.u|, -b.u, 0)
  else do
    let d ← sqrt (r.dot r)
    let n ← fdivV (b.r_0_b2p - p) d
    let dn ← fdivV (n - b.offn) timestep
    pure (d, n, dn)

/-- Body of the loop (Tasks.cpp:1229-1268); `junk` and `junkA` are the uninitialised contents of the
local `fullJac` and of the vector `rbd::dofToVector` (RBDyn) fills. -/
def bodyStep (sqrt : K → Out K) (mb : MultiBody K) (st : KState K) (timestep : K) (fixed : Bool)
    (junk : ℕ → ℕ → K) (junkA : ℕ → K) (sign : K) (b : RelBody K) (a : Acc K) :
    Out (RelBody K × Acc K) := do
  let X ← vecAt st.bodyPosW b.b1Index
  let (d, n, dn) ← direction sqrt timestep fixed X b
  let short ← b.jac.jacobian mb st
  let sh ← short.block 3 0 3 (pathDof mb b.jac.path)
  let full ← fullJacobian mb b.jac.path sh ⟨3, mb.nrDof, junk⟩
  if ¬(a.jacMat.rows = 1 ∧ a.jacMat.cols = full.cols) then .ub
  else do
    let v ← b.jac.velocity st
    let al ← paramToVector st.alpha ⟨mb.nrDof, junkA⟩
    let w : V3 K := ⟨full.rowMul 0 al.get, full.rowMul 1 al.get, full.rowMul 2 al.get⟩
    let na ← b.jac.normalAcc st
    pure ({ b with offn := n },
      ⟨a.eval + sign * d, a.speed + sign * v.lin.dot n,
        a.normalAcc + (sign * w.dot dn + sign * na.lin.dot n),
        ⟨1, a.jacMat.cols, fun i c => a.jacMat.get i c
          + sign * n.dot ⟨full.get 0 c, full.get 1 c, full.get 2 c⟩⟩⟩)

/-- The loop: the sign alternates (Tasks.cpp:1229-1269). -/
def loop (sqrt : K → Out K) (mb : MultiBody K) (st : KState K) (timestep : K) (fixed : Bool)
    (junk : ℕ → ℕ → K) (junkA : ℕ → K) :
    K → List (RelBody K) → Acc K → Out (List (RelBody K) × Acc K)
  | _, [], a => .ok ([], a)
  | sign, b :: l, a => do
    let (b', a') ← bodyStep sqrt mb st timestep fixed junk junkA sign b a
    let (l', a'') ← loop sqrt mb st timestep fixed junk junkA (-sign) l a'
    pure (b' :: l', a'')

/-- `update(mb, mbc, normalAccB)` (Tasks.cpp:1219-1270). -/
def update (sqrt : K → Out K) (mb : MultiBody K) (st : KState K) (junk : ℕ → ℕ → K) (junkA : ℕ → K)
    (s : RelDistT K) : Out (RelDistT K) := do
  let (l, a) ← loop sqrt mb st s.timestep s.isVectorFixed junk junkA 1 s.infos
    ⟨0, 0, 0, ⟨s.jacMat.rows, s.jacMat.cols, fun _ _ => 0⟩⟩
  pure { s with
    eval := a.eval, speed := a.speed, normalAcc := a.normalAcc, jacMat := a.jacMat, infos := l }

end RelDistT

end

end Verif
