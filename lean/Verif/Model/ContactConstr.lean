import Verif.Model.BoundedSpeed

/-!
# Contact motion constraints (QPContactConstr.cpp, QPContactConstr.h)

The kinematics and the rotation functions of SpaceVecAlg are parameters (`ContactEnv`).
-/

set_option autoImplicit false

namespace Verif

/-! ## `std::map<ContactId, ...>` and `std::set<ContactId>` -/

/-- A `std::map` keyed by `ContactId` as the list of its entries in iteration order (a `std::set` is a map
to `Unit`). -/
abbrev IdMap (α : Type) := List (ContactId × α)

namespace IdMap
variable {α : Type}

/-- `insert({k, v}).first`: an equivalent key already present is kept. -/
def insert (k : ContactId) (v : α) : IdMap α → IdMap α
  | [] => [(k, v)]
  | h :: t => if k.lt h.1 then (k, v) :: h :: t else if h.1.lt k then h :: insert k v t else h :: t

/-- `find(k)`. -/
def find (k : ContactId) : IdMap α → Option α
  | [] => none
  | h :: t => if k.lt h.1 || h.1.lt k then find k t else some h.2

/-- `erase(k)`. -/
def erase (k : ContactId) : IdMap α → IdMap α
  | [] => []
  | h :: t => if k.lt h.1 || h.1.lt k then h :: erase k t else t

end IdMap

/-! ## `ContactConstrCommon` -/

/-- The fields of `ContactConstrCommon` (QPContactConstr.h:95-96). -/
structure ContactReg (K : Type) where
  virt : IdMap Unit
  dofs : IdMap (Mat K)

namespace ContactReg
variable {K : Type}

/-- Default constructor. -/
def make : ContactReg K := ⟨[], []⟩

/-- `addVirtualContact` (QPContactConstr.cpp:35-36). -/
def addVirtual (id : ContactId) (s : ContactReg K) : Bool × ContactReg K :=
  ((s.virt.find id).isNone, { s with virt := s.virt.insert id () })

/-- `removeVirtualContact` (QPContactConstr.cpp:38-39). -/
def removeVirtual (id : ContactId) (s : ContactReg K) : Bool × ContactReg K :=
  ((s.virt.find id).isSome, { s with virt := s.virt.erase id })

/-- `resetVirtualContacts` (QPContactConstr.cpp:41-42). -/
def resetVirtual (s : ContactReg K) : ContactReg K := { s with virt := [] }

/-- `addDofContact` (QPContactConstr.cpp:44-45). -/
def addDof (id : ContactId) (dof : Mat K) (s : ContactReg K) : Bool × ContactReg K :=
  ((s.dofs.find id).isNone, { s with dofs := s.dofs.insert id dof })

/-- `removeDofContact` (QPContactConstr.cpp:47-48). -/
def removeDof (id : ContactId) (s : ContactReg K) : Bool × ContactReg K :=
  ((s.dofs.find id).isSome, { s with dofs := s.dofs.erase id })

/-- `hasDoFContact` (QPContactConstr.cpp:50-51). -/
def hasDof (id : ContactId) (s : ContactReg K) : Bool := (s.dofs.find id).isSome

/-- `dofContact` (QPContactConstr.cpp:53-54): `operator[]` inserts an empty matrix when the id is absent. -/
def dofContact [Zero K] (id : ContactId) (s : ContactReg K) : Mat K × ContactReg K :=
  match s.dofs.find id with
  | some m => (m, s)
  | none => (Mat.zero 0 0, { s with dofs := s.dofs.insert id (Mat.zero 0 0) })

/-- `resetDofContacts` (QPContactConstr.cpp:56-57). -/
def resetDof (s : ContactReg K) : ContactReg K := { s with dofs := [] }

/-- `contactCommonInContact` (QPContactConstr.cpp:59-76): the entries of the set, in iteration order. -/
def common (d : SolverData K) (s : ContactReg K) : IdMap (PT K × PT K) :=
  d.allCont.foldl (fun m c =>
    if (s.virt.find c.id).isNone then IdMap.insert c.id (c.X_b1_cf, c.X_b1_b2) m else m) []

end ContactReg

/-! ## `ContactConstr` -/

/-- `ContactConstr::ContactSideData` (QPContactConstr.h:128-139); `path` stands for the `rbd::Jacobian`. -/
structure ContactSide (K : Type) where
  robotIndex : ℕ
  alphaDBegin : ℕ
  bodyIndex : ℕ
  sign : K
  path : List ℕ
  X_b_p : PT K

/-- `ContactConstr::ContactData` (QPContactConstr.h:141-175); `rev` is the diagonal of `revDof`, whose
other entries are zero. -/
structure ContactData (K : Type) where
  contacts : List (ContactSide K)
  dof : Mat K
  rev : ℕ → K
  r1 : ℕ
  r2 : ℕ
  b1 : ℕ
  b2 : ℕ
  X_b1_b2 : PT K
  X_b1_cf : PT K
  id : ContactId

/-- The matrices and vectors the updates write (QPContactConstr.h:183-186). -/
structure ContactBuf (K : Type) where
  fullJac : Mat K
  dofJac : Mat K
  A : Mat K
  b : Vec K

/-- A `ContactConstr` (QPContactConstr.h:181-189). -/
structure ContactC (K : Type) where
  reg : ContactReg K
  cont : List (ContactData K)
  buf : ContactBuf K
  nrEq : ℕ
  totalAlphaD : ℕ

/-- The three subclasses; the last two store the time step (QPContactConstr.h:200-256). -/
inductive ContactKind (K : Type) where
  | acc
  | speed (dt : K)
  | pos (dt : K)

/-- What RBDyn and SpaceVecAlg compute: body poses `mbcs[r].bodyPosW[b]`; for a robot, a joint path and a
frame, `jacobian(mb, mbc, X_0_p)` (6 rows), `normalAcceleration(mb, mbc, normalAccB, X_b_p, 0)` and
`velocity(mb, mbc, X_b_p)` (6 entries); `transformError` (6 entries), `RotX(a) * RotY(b) * RotZ(c)` and
`rotationVelocity`. -/
structure ContactEnv (K : Type) where
  bodyPosW : List (List (PT K))
  jac : ℕ → List ℕ → PT K → Mat K
  nacc : ℕ → List ℕ → PT K → ℕ → K
  vel : ℕ → List ℕ → PT K → ℕ → K
  transformError : PT K → PT K → ℕ → K
  rotXYZ : K → K → K → M3 K
  rotVel : M3 K → V3 K

section
variable {K : Type} [Field K] [LinearOrder K]

/-- The loop of the constructor of `ContactData` (QPContactConstr.h:155-163): reads the first six columns
of `dof`. -/
def revOf (dof : Mat K) : Out (ℕ → K) :=
  if dof.rows = 0 ∨ 6 ≤ dof.cols then
    .ok fun j => if (List.range dof.rows).any (fun r => dof.get r j = 1) then 0 else 1
  else .ub

/-- `Eigen::MatrixXd::Identity(6, 6)`. -/
def identity6 : Mat K := ⟨6, 6, fun i j => if i = j then 1 else 0⟩

/-- Constructor (QPContactConstr.cpp:104). -/
def ContactC.make : ContactC K :=
  ⟨.make, [], ⟨Mat.zero 0 0, Mat.zero 0 0, Mat.zero 0 0, ⟨0, fun _ => 0⟩⟩, 0, 0⟩

/-- `updateNrEq` (QPContactConstr.cpp:183-187). -/
def ContactC.updateNrEq (s : ContactC K) : ContactC K :=
  { s with nrEq := (s.cont.map fun c => c.dof.rows).sum }

/-- The selection matrix of a contact (QPContactConstr.cpp:110-115 and 132-134). -/
def ContactReg.dofOf (id : ContactId) (s : ContactReg K) : Mat K := (s.dofs.find id).getD identity6

/-- `updateDofContacts` (QPContactConstr.cpp:106-118): replaces the selection matrices only. -/
def ContactC.updateDofContacts (s : ContactC K) : ContactC K :=
  ContactC.updateNrEq { s with cont := s.cont.map fun c => { c with dof := s.reg.dofOf c.id } }

/-- The lambda `addContact` (QPContactConstr.cpp:136-145): the new sides and the body index.
`bidx r name` is `mbs[r].bodyIndexByName(name)`. -/
def addSide (rks : List (RobotKin K)) (bidx : ℕ → String → Out ℕ) (d : SolverData K) (r : ℤ) (body : String)
    (sign : K) (point : PT K) (l : List (ContactSide K)) : Out (List (ContactSide K) × ℕ) := do
  let rk ← vecAtI rks r
  if 0 < rk.mb.nrDof then do
    let a ← vecAtI d.alphaDBegin r
    let path ← rk.path body
    match path.getLast? with
    | none => .ub
    | some b => pure (l ++ [⟨r.toNat, a, b, sign, path, point⟩], b)
  else do
    let b ← bidx r.toNat body
    pure (l, b)

/-- The body of the loop of `updateNrVars` (QPContactConstr.cpp:132-151). -/
def buildContact (rks : List (RobotKin K)) (bidx : ℕ → String → Out ℕ) (d : SolverData K)
    (reg : ContactReg K) (c : ContactId × PT K × PT K) : Out (ContactData K) := do
  let s1 ← addSide rks bidx d c.1.r1Index c.1.r1BodyName 1 c.2.1 []
  let s2 ← addSide rks bidx d c.1.r2Index c.1.r2BodyName (-1) (c.2.1.mul c.2.2.inv) s1.1
  let rev ← revOf (reg.dofOf c.1)
  pure ⟨s2.1, reg.dofOf c.1, rev, c.1.r1Index.toNat, c.1.r2Index.toNat, s1.2, s2.2, c.2.2, c.2.1, c.1⟩

/-- `updateNrVars` (QPContactConstr.cpp:120-157); `junk` is the content of the resized buffers. -/
def ContactC.updateNrVars (rks : List (RobotKin K)) (bidx : ℕ → String → Out ℕ) (d : SolverData K)
    (junk : ℕ → ℕ → K) (s : ContactC K) : Out (ContactC K) := do
  let n ← maxDof (rks.map fun rk => rk.mb)
  let cont ← forEach (s.reg.common d) (fun c (l : List (ContactData K)) => do
    let cd ← buildContact rks bidx d s.reg c
    pure (l ++ [cd])) []
  pure (ContactC.updateNrEq { s with
    cont := cont
    buf := ⟨⟨6, n, junk⟩, ⟨6, n, junk⟩, Mat.zero (cont.length * 6) d.nrVars, ⟨cont.length * 6, fun _ => 0⟩⟩
    totalAlphaD := d.totalAlphaD })

/-- The pose `mbcs[r].bodyPosW[b]`. -/
def ContactEnv.pose (env : ContactEnv K) (r b : ℕ) : Out (PT K) := do
  let l ← vecAt env.bodyPosW r
  vecAt l b

/-- The new frame of body 2 and the new `X_b1_b2` (QPContactConstr.cpp:90-101). -/
def ContactData.adjust (env : ContactEnv K) (c : ContactData K) (Xb2cf : PT K) : Out (PT K × PT K) := do
  let X1 ← env.pose c.r1 c.b1
  let X2 ← env.pose c.r2 c.b2
  let cur := X2.mul X1.inv
  let curcf := c.X_b1_cf.mul cur.inv
  let e := env.transformError curcf.inv Xb2cf.inv
  let err := fun k => c.rev k * e k
  let offset : PT K := ⟨env.rotXYZ (err 0) (err 1) (err 2), ⟨err 3, err 4, err 5⟩⟩
  let X := offset.mul Xb2cf
  pure (X, X.inv.mul c.X_b1_cf)

/-- `ContactData::update` (QPContactConstr.cpp:82-102). -/
def ContactData.update (env : ContactEnv K) (c : ContactData K) : Out (ContactData K) :=
  if c.contacts.length = 2 then do
    let sd ← vecAt c.contacts 1
    let r ← c.adjust env sd.X_b_p
    pure { c with
      contacts := c.contacts.set 1 { sd with X_b_p := r.1 }
      X_b1_b2 := r.2 }
  else do
    let sd ← vecAt c.contacts 0
    if 0 < sd.sign then pure c
    else do
      let r ← c.adjust env sd.X_b_p
      pure { c with
        contacts := c.contacts.set 0 { sd with X_b_p := r.1 }
        X_b1_b2 := r.2 }

/-- The vector multiplied by `-sign * dof` in `b` (QPContactConstr.cpp:227-231, 278-283, 331-336). -/
def contactBias (env : ContactEnv K) (kind : ContactKind K) (c : ContactSide K) : Out (ℕ → K) :=
  let n := env.nacc c.robotIndex c.path c.X_b_p
  let v := env.vel c.robotIndex c.path c.X_b_p
  match kind with
  | .acc => pure n
  | .speed dt => do
    let _ ← guardUB (dt ≠ 0)
    pure fun k => n k + v k / dt
  | .pos dt => do
    let _ ← guardUB (dt ≠ 0)
    pure fun k => n k + v k / dt

/-- The loop over the sides of a contact (QPContactConstr.cpp:213-232, 264-284, 317-337). -/
def contactSide (mbs : List (MultiBody K)) (env : ContactEnv K) (kind : ContactKind K) (dof : Mat K)
    (index : ℕ) (c : ContactSide K) (B : ContactBuf K) : Out (ContactBuf K) := do
  let mb ← vecAt mbs c.robotIndex
  let X ← env.pose c.robotIndex c.bodyIndex
  let P ← dof.mul (env.jac c.robotIndex c.path (c.X_b_p.mul X))
  let _ ← guardUB (P.cols = pathDof mb c.path)
  let dj ← B.dofJac.setBlock 0 0 ⟨P.rows, P.cols, fun i j => c.sign * P.get i j⟩
  let blk ← dj.block 0 0 dof.rows (pathDof mb c.path)
  let fj ← fullJacobian mb c.path blk B.fullJac
  let fb ← fj.block 0 0 dof.rows mb.nrDof
  let A ← B.A.addBlock index c.alphaDBegin 1 fb
  let bias ← contactBias env kind c
  let w ← dof.mulVec6 bias
  let b ← B.b.addSegment index (-1) ⟨w.size, fun i => c.sign * w.get i⟩
  pure ⟨fj, dj, A, b⟩

/-- The position error of a contact (QPContactConstr.cpp:340-346). -/
def contactError (env : ContactEnv K) (c : ContactData K) : Out (ℕ → K) := do
  let l1 ← vecAtI env.bodyPosW c.id.r1Index
  let X1 ← vecAt l1 c.b1
  let l2 ← vecAtI env.bodyPosW c.id.r2Index
  let X2 ← vecAt l2 c.b2
  let f1 := c.X_b1_cf.mul X1
  let f2 := (c.X_b1_cf.mul c.X_b1_b2.inv).mul X2
  let rel := f2.mul f1.inv
  pure fun k => if k < 3 then (env.rotVel rel.E).get k else rel.r.get (k - 3)

/-- The position term of `ContactPosConstr` (QPContactConstr.cpp:339-347); nothing for the others. -/
def contactPosTerm (env : ContactEnv K) (kind : ContactKind K) (c : ContactData K) (index : ℕ)
    (B : ContactBuf K) : Out (ContactBuf K) :=
  match kind with
  | .acc => pure B
  | .speed _ => pure B
  | .pos dt => do
    let e ← contactError env c
    let _ ← guardUB (dt ≠ 0)
    let w ← c.dof.mulVec6 (fun k => e k / dt)
    let b ← B.b.addSegment index 1 w
    pure { B with b := b }

/-- The loop over the contacts (QPContactConstr.cpp:206-234, 257-287, 310-350); the state is the buffers,
`index` and the contacts already updated. -/
def contactStep (mbs : List (MultiBody K)) (env : ContactEnv K) (kind : ContactKind K) (c : ContactData K)
    (s : ContactBuf K × ℕ × List (ContactData K)) : Out (ContactBuf K × ℕ × List (ContactData K)) := do
  let c' ← c.update env
  let B ← forEach c'.contacts (contactSide mbs env kind c'.dof s.2.1) s.1
  let B ← contactPosTerm env kind c' s.2.1 B
  pure (B, s.2.1 + c'.dof.rows, s.2.2 ++ [c'])

/-- Clearing of `A` and `b` (QPContactConstr.cpp:201-202, 252-253, 305-306). -/
def ContactC.clear (kind : ContactKind K) (s : ContactC K) : Out (ContactBuf K) :=
  match kind with
  | .acc => pure { s.buf with
      A := Mat.zero s.buf.A.rows s.buf.A.cols
      b := ⟨s.buf.b.size, fun _ => 0⟩ }
  | _ => do
    let A ← s.buf.A.setBlock 0 0 (Mat.zero s.nrEq s.totalAlphaD)
    let b ← s.buf.b.setSegment 0 ⟨s.nrEq, fun _ => 0⟩
    pure { s.buf with
      A := A
      b := b }

/-- `update` of the three subclasses (QPContactConstr.cpp:195-235, 246-288, 299-351). -/
def ContactC.update (mbs : List (MultiBody K)) (env : ContactEnv K) (kind : ContactKind K)
    (s : ContactC K) : Out (ContactC K) := do
  let B ← s.clear kind
  let r ← forEach s.cont (contactStep mbs env kind) (B, 0, [])
  pure { s with
    buf := r.1
    cont := r.2.2 }

/-- `descEq` (QPContactConstr.cpp:162-172): the robot and the body of each line printed. -/
def ContactC.desc (line : ℕ) (s : ContactC K) : Out (List (ℕ × ℕ)) := do
  let c ← vecAt s.cont (line / 6)
  pure (c.contacts.map fun sd => (sd.robotIndex, sd.bodyIndex))

/-- What the QP assembly reads (QPContactConstr.cpp:159-160, 174-181). -/
def ContactC.eq (s : ContactC K) : EqC K := ⟨s.buf.A.rows, s.nrEq, s.buf.A, s.buf.b⟩

end

end Verif
