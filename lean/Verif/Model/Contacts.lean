import Verif.Model.Geometry
import Mathlib.Analysis.SpecialFunctions.Trigonometric.Arctan

/-!
# Model of `src/QPContacts.cpp` / `src/Tasks/QPContacts.h`
-/

set_option autoImplicit false

namespace Verif

/-- `FrictionCone` (QPContacts.h:29-44). -/
structure FrictionCone (K : Type) where
  generators : List (V3 K)
  deriving Repr, DecidableEq

/-- `ContactId` (QPContacts.h:49-74).  `int` fields are integers. -/
structure ContactId where
  r1Index : ℤ
  r2Index : ℤ
  r1BodyName : String
  r2BodyName : String
  ambiguityId : ℤ
  deriving Repr, DecidableEq

namespace ContactId

/-- `ContactId::ContactId()` (QPContacts.cpp:56). -/
def default : ContactId := ⟨-1, -1, "", "", -1⟩

/-- `ContactId::operator==` (QPContacts.cpp:63-67). -/
def eq (a b : ContactId) : Bool :=
  a.r1Index == b.r1Index && a.r2Index == b.r2Index && a.r1BodyName == b.r1BodyName
    && a.r2BodyName == b.r2BodyName && a.ambiguityId == b.ambiguityId

/-- `ContactId::operator!=` (QPContacts.cpp:69-70). -/
def ne (a b : ContactId) : Bool := !(a.eq b)

/-- `ContactId::operator<` (QPContacts.cpp:72-80).  `std::string`'s order is the lexicographic order
of the characters, which is Lean's `<` on `String` (for names whose characters are below 128). -/
def lt (a b : ContactId) : Bool :=
  decide (a.r1Index < b.r1Index)
  || (a.r1Index == b.r1Index && decide (a.r1BodyName < b.r1BodyName))
  || (a.r1Index == b.r1Index && a.r1BodyName == b.r1BodyName && decide (a.r2Index < b.r2Index))
  || (a.r1Index == b.r1Index && a.r1BodyName == b.r1BodyName && a.r2Index == b.r2Index
      && decide (a.r2BodyName < b.r2BodyName))
  || (a.r1Index == b.r1Index && a.r1BodyName == b.r1BodyName && a.r2Index == b.r2Index
      && a.r2BodyName == b.r2BodyName && decide (a.ambiguityId < b.ambiguityId))

end ContactId

/-- `UnilateralContact` (QPContacts.h:80-210). -/
structure UniContact (K : Type) where
  id : ContactId
  r1Points : List (V3 K)
  r2Points : List (V3 K)
  r1Cone : FrictionCone K
  r2Cone : FrictionCone K
  X_b1_b2 : PT K
  X_b1_cf : PT K
  deriving Repr, DecidableEq

/-- `BilateralContact` (QPContacts.h:216-351). -/
structure BiContact (K : Type) where
  id : ContactId
  r1Points : List (V3 K)
  r2Points : List (V3 K)
  r1Cones : List (FrictionCone K)
  r2Cones : List (FrictionCone K)
  X_b1_b2 : PT K
  X_b1_cf : PT K
  deriving Repr, DecidableEq

section Force
variable {K : Type} [CommRing K]

/-- The loop `for(i) F += generators[i] * lambda(i)` (QPContacts.cpp:132 and 301); reading
`lambda(i)` out of range is undefined behaviour. -/
def genLoop : List (V3 K) → ℕ → Vec K → V3 K → Out (V3 K)
  | [], _, _, F => .ok F
  | g :: gs, i, l, F => do
    let li ← l.at' i
    genLoop gs (i + 1) l (F + li • g)

/-- `checkRange` (QPContacts.cpp:26-34). -/
def checkRange (point : ℤ) (points : List (V3 K)) : Out Unit :=
  if point < 0 ∨ (points.length : ℤ) ≤ point then .throws .domainError else .ok ()

namespace UniContact

/-- `UnilateralContact::force(lambda, point, cone)` (QPContacts.cpp:126-135); `point` is unused. -/
def forceAt (_c : UniContact K) (lambda : Vec K) (_point : ℤ) (cone : FrictionCone K) :
    Out (V3 K) :=
  genLoop cone.generators 0 lambda 0

/-- `UnilateralContact::nrLambda(point)` (QPContacts.cpp:170-171); `point` is unused. -/
def nrLambdaAt (c : UniContact K) (_point : ℤ) : Out ℕ := .ok c.r1Cone.generators.length

/-- `UnilateralContact::nrLambda()` (QPContacts.cpp:173-178). -/
def nrLambda (c : UniContact K) : Out ℕ :=
  forRange c.r1Points.length (fun i t => do let n ← c.nrLambdaAt i; pure (t + n)) 0

/-- `UnilateralContact::force(lambda, cone)` (QPContacts.cpp:137-149). -/
def forceTotal (c : UniContact K) (lambda : Vec K) (cone : FrictionCone K) : Out (V3 K) := do
  let s ← forRange c.r1Points.length (fun i (s : V3 K × ℕ) => do
    let n ← c.nrLambdaAt i
    let seg ← lambda.segment s.2 n
    let f ← c.forceAt seg i cone
    pure (s.1 + f, s.2 + n)) (0, 0)
  pure s.1

/-- `UnilateralContact::force(lambda, r_b_pi, c_pi_b)` (QPContacts.cpp:151-168). -/
def forceWrench (c : UniContact K) (lambda : Vec K) (p : List (V3 K)) (cone : FrictionCone K) :
    Out (FV K) := do
  let s ← forRange p.length (fun i (s : FV K × ℕ) => do
    let n ← c.nrLambdaAt i
    let seg ← lambda.segment s.2 n
    let f ← c.forceAt seg i cone
    let pi ← vecAt p i
    pure (s.1 + (PT.ofTrans pi).transMul ⟨0, f⟩, s.2 + n)) (0, 0)
  pure s.1

/-- `UnilateralContact::sForce(lambda, point, cone)` (QPContacts.cpp:180-192). -/
def sForceAt (c : UniContact K) (lambda : Vec K) (point : ℤ) (cone : FrictionCone K) :
    Out (V3 K) := do
  checkRange point c.r1Points
  let n ← c.nrLambdaAt point
  if lambda.size ≠ n then .throws .domainError else c.forceAt lambda point cone

/-- `UnilateralContact::sForce(lambda, cone)` (QPContacts.cpp:194-206). -/
def sForceTotal (c : UniContact K) (lambda : Vec K) (cone : FrictionCone K) : Out (V3 K) := do
  let n ← c.nrLambda
  if lambda.size ≠ n then .throws .domainError else c.forceTotal lambda cone

/-- `UnilateralContact::sForce(lambda, r_b_pi, c_b)` (QPContacts.cpp:208-222). -/
def sForceWrench (c : UniContact K) (lambda : Vec K) (p : List (V3 K)) (cone : FrictionCone K) :
    Out (FV K) := do
  let n ← c.nrLambda
  if lambda.size ≠ n then .throws .domainError else c.forceWrench lambda p cone

/-- `UnilateralContact::sNrLambda` (QPContacts.cpp:224-228). -/
def sNrLambda (c : UniContact K) (point : ℤ) : Out ℕ := do
  checkRange point c.r1Points
  c.nrLambdaAt point

end UniContact

namespace BiContact

/-- `BilateralContact(const UnilateralContact &)` (QPContacts.cpp:289-293). -/
def ofUni (c : UniContact K) : BiContact K :=
  { id := c.id, r1Points := c.r1Points, r2Points := c.r2Points,
    r1Cones := List.replicate c.r1Points.length c.r1Cone,
    r2Cones := List.replicate c.r1Points.length c.r2Cone,
    X_b1_b2 := c.X_b1_b2, X_b1_cf := c.X_b1_cf }

/-- `BilateralContact::force(lambda, point, cones)` (QPContacts.cpp:295-304). -/
def forceAt (_c : BiContact K) (lambda : Vec K) (point : ℤ) (cones : List (FrictionCone K)) :
    Out (V3 K) := do
  let cone ← vecAtI cones point
  genLoop cone.generators 0 lambda 0

/-- `BilateralContact::nrLambda(point)` (QPContacts.cpp:339-340). -/
def nrLambdaAt (c : BiContact K) (point : ℤ) : Out ℕ := do
  let cone ← vecAtI c.r1Cones point
  pure cone.generators.length

/-- `BilateralContact::nrLambda()` (QPContacts.cpp:342-347). -/
def nrLambda (c : BiContact K) : Out ℕ :=
  forRange c.r1Points.length (fun i t => do let n ← c.nrLambdaAt i; pure (t + n)) 0

/-- `BilateralContact::force(lambda, cones)` (QPContacts.cpp:306-318). -/
def forceTotal (c : BiContact K) (lambda : Vec K) (cones : List (FrictionCone K)) :
    Out (V3 K) := do
  let s ← forRange c.r1Points.length (fun i (s : V3 K × ℕ) => do
    let n ← c.nrLambdaAt i
    let seg ← lambda.segment s.2 n
    let f ← c.forceAt seg i cones
    pure (s.1 + f, s.2 + n)) (0, 0)
  pure s.1

/-- `BilateralContact::force(lambda, r_b_pi, c_pi_b)` (QPContacts.cpp:320-337). -/
def forceWrench (c : BiContact K) (lambda : Vec K) (p : List (V3 K))
    (cones : List (FrictionCone K)) : Out (FV K) := do
  let s ← forRange p.length (fun i (s : FV K × ℕ) => do
    let n ← c.nrLambdaAt i
    let seg ← lambda.segment s.2 n
    let f ← c.forceAt seg i cones
    let pi ← vecAt p i
    pure (s.1 + (PT.ofTrans pi).transMul ⟨0, f⟩, s.2 + n)) (0, 0)
  pure s.1

/-- `BilateralContact::sForce(lambda, point, cones)` (QPContacts.cpp:349-363). -/
def sForceAt (c : BiContact K) (lambda : Vec K) (point : ℤ) (cones : List (FrictionCone K)) :
    Out (V3 K) := do
  checkRange point c.r1Points
  let n ← c.nrLambdaAt point
  if lambda.size ≠ n then .throws .domainError else c.forceAt lambda point cones

/-- `BilateralContact::sForce(lambda, cones)` (QPContacts.cpp:365-377). -/
def sForceTotal (c : BiContact K) (lambda : Vec K) (cones : List (FrictionCone K)) :
    Out (V3 K) := do
  let n ← c.nrLambda
  if lambda.size ≠ n then .throws .domainError else c.forceTotal lambda cones

/-- `BilateralContact::sForce(lambda, r_b_pi, c_pi_b)` (QPContacts.cpp:379-393). -/
def sForceWrench (c : BiContact K) (lambda : Vec K) (p : List (V3 K))
    (cones : List (FrictionCone K)) : Out (FV K) := do
  let n ← c.nrLambda
  if lambda.size ≠ n then .throws .domainError else c.forceWrench lambda p cones

/-- `BilateralContact::sNrLambda` (QPContacts.cpp:395-399). -/
def sNrLambda (c : BiContact K) (point : ℤ) : Out ℕ := do
  checkRange point c.r1Points
  c.nrLambdaAt point

end BiContact
end Force

/-! ## Construction (needs trigonometry, hence real numbers) -/

/-- `Eigen::AngleAxisd(angle, axis) * v`: Eigen builds the matrix of Rodrigues' formula from
`angle` and `axis` (it does not normalise `axis`). -/
noncomputable def angleAxisMul (angle : ℝ) (axis v : V3 ℝ) : V3 ℝ :=
  Real.cos angle • v + Real.sin angle • axis.cross v + ((1 - Real.cos angle) * axis.dot v) • axis

/-- `FrictionCone::FrictionCone(frame, nrGen, mu, dir)` (QPContacts.cpp:40-50). -/
noncomputable def FrictionCone.make (frame : M3 ℝ) (nrGen : ℕ) (mu dir : ℝ) : FrictionCone ℝ :=
  let normal := frame.r2
  let tan := dir • frame.r0
  let angle := Real.arctan mu
  let gen := angleAxisMul angle tan normal
  let step := (Real.pi * 2) / nrGen
  ⟨(List.range nrGen).map fun (i : ℕ) => angleAxisMul (dir * step * (i : ℝ)) normal gen⟩

/-- `UnilateralContact` constructors (QPContacts.cpp:86-124) with `construct` (230-243). -/
noncomputable def UniContact.make (id : ContactId) (r1P : List (V3 ℝ)) (r1Frame : M3 ℝ)
    (Xbb : PT ℝ) (nrGen : ℕ) (mu : ℝ) (Xbcf : PT ℝ) : UniContact ℝ :=
  let r2Frame := ((PT.ofRot r1Frame).mul Xbb.inv).E
  { id := id, r1Points := r1P,
    r2Points := r1P.map fun p => ((PT.ofTrans p).mul Xbb.inv).r,
    r1Cone := FrictionCone.make r1Frame nrGen mu 1,
    r2Cone := FrictionCone.make r2Frame.neg nrGen mu (-1),
    X_b1_b2 := Xbb, X_b1_cf := Xbcf }

/-- `BilateralContact` constructors (QPContacts.cpp:249-287) with `construct` (401-420).  The
assertion `r1Points.size() == r1Frames.size()` guards `r1Frames[i]`: a shorter list is undefined
behaviour in release builds; extra frames are ignored. -/
noncomputable def BiContact.make (id : ContactId) (r1P : List (V3 ℝ)) (r1Frames : List (M3 ℝ))
    (Xbb : PT ℝ) (nrGen : ℕ) (mu : ℝ) (Xbcf : PT ℝ) : Out (BiContact ℝ) :=
  if r1Frames.length < r1P.length then .ub else
  let pf := r1P.zip r1Frames
  .ok { id := id, r1Points := r1P,
        r2Points := pf.map fun q => ((PT.mk q.2 q.1).mul Xbb.inv).r,
        r1Cones := pf.map fun q => FrictionCone.make q.2 nrGen mu 1,
        r2Cones := pf.map fun q =>
          FrictionCone.make ((PT.mk q.2 q.1).mul Xbb.inv).E.neg nrGen mu (-1),
        X_b1_b2 := Xbb, X_b1_cf := Xbcf }

end Verif
