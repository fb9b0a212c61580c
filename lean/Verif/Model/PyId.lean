import Verif.Model.Binding
import Verif.Model.ContactConstr

/-!
# The Python binding: identifiers of contacts

binding/python/tasks/qp/qp.pyx:62-117 (`ContactId`), c_qp.pxd:20-30, and what Python's lists make of the comparisons.

`def __richcmp__(ContactId self, ContactId other, int op)`: Cython tests the class of `other` first (`None` passes);
`op` is CPython's number of the operator (`<` 0, `<=` 1, `==` 2, `!=` 3, `>` 4, `>=` 5).  For a left operand that is not
a `ContactId`, Python asks the right operand for the mirrored operator, after the left one declined.  An attribute that
is a `std::string` is read as `bytes`; only `bytes` convert to `std::string` (no encoding is configured).

Simplifications: left operands are `ContactId`s or objects of Python's own classes (which decline); bytes have
characters below 256; no subclasses written in Python; a floating-point number given for an `int` raises.
-/

set_option autoImplicit false

namespace Verif.PyId

open Binding

/-- The exceptions that are told apart; `UnicodeEncodeError` is a `ValueError`. -/
inductive Err where
  | typeError | valueError | overflowError | notImplemented
  deriving DecidableEq, Repr

/-- Outcome of an operation. -/
inductive Res (α : Type) where
  | ok (a : α)
  | raises (e : Err)
  /-- `.impl` of `None` -/
  | ub
  deriving DecidableEq, Repr

namespace Res
variable {α β : Type}

/-- Sequencing. -/
def bind (x : Res α) (f : α → Res β) : Res β :=
  match x with
  | ok a => f a
  | raises e => raises e
  | ub => ub

instance : Monad Res where
  pure := ok
  bind := bind

@[simp] theorem pure_eq (a : α) : (pure a : Res α) = ok a := rfl
@[simp] theorem ok_bind (a : α) (f : α → Res β) : (ok a >>= f) = f a := rfl
@[simp] theorem raises_bind (e : Err) (f : α → Res β) : ((raises e : Res α) >>= f) = raises e := rfl
@[simp] theorem ub_bind (f : α → Res β) : ((ub : Res α) >>= f) = ub := rfl

end Res

/-- The `impl` of every `ContactId` object of the program. -/
abbrev Ids := ℕ → ContactId

/-! ## Construction and attributes -/

/-- `if isinstance(name, unicode): name = name.encode(u'ascii')` (qp.pyx:69-72). -/
def encode : PyVal → Res PyVal
  | .str cs => if isAscii cs then .ok (.bytes cs) else .raises .valueError
  | v => .ok v

/-- Conversion to `int`. -/
def toInt : PyVal → Res ℤ
  | .int n => if fitsInt n then .ok n else .raises .overflowError
  | _ => .raises .typeError

/-- Conversion to `std::string`. -/
def toName : PyVal → Res String
  | .bytes cs => .ok (String.ofList cs)
  | _ => .raises .typeError

/-- Lines 67-76: the names are encoded, then the five arguments are converted in order. -/
def build (r1 r2 n1 n2 amb : PyVal) : Res ContactId := do
  let n1 ← encode n1
  let n2 ← encode n2
  let i1 ← toInt r1
  let i2 ← toInt r2
  let s1 ← toName n1
  let s2 ← toName n2
  let a ← toInt amb
  return ⟨i1, i2, s1, s2, a⟩

/-- `ContactId(*args)` (qp.pyx:63-78): the identifier of the new object. -/
def make : List PyVal → Res ContactId
  | [] => .ok ContactId.default
  | [r1, r2, n1, n2] => build r1 r2 n1 n2 (.int (-1))
  | [r1, r2, n1, n2, amb] => build r1 r2 n1 n2 amb
  | _ => .raises .typeError

/-- The attributes. -/
inductive Attr where
  | r1Index | r1BodyName | r2Index | r2BodyName | ambiguityId
  deriving DecidableEq, Repr

/-- Reading an attribute (qp.pyx:79-103, `__get__`). -/
def get (h : Ids) (i : ℕ) : Attr → PyVal
  | .r1Index => .int (h i).r1Index
  | .r1BodyName => .bytes (h i).r1BodyName.toList
  | .r2Index => .int (h i).r2Index
  | .r2BodyName => .bytes (h i).r2BodyName.toList
  | .ambiguityId => .int (h i).ambiguityId

/-- Writing an attribute (qp.pyx:79-103, `__set__`): all the objects, afterwards. -/
def set (h : Ids) (i : ℕ) (a : Attr) (v : PyVal) : Res Ids :=
  match a with
  | .r1Index => do
    let n ← toInt v
    return Function.update h i { h i with r1Index := n }
  | .r1BodyName => do
    let s ← toName v
    return Function.update h i { h i with r1BodyName := s }
  | .r2Index => do
    let n ← toInt v
    return Function.update h i { h i with r2Index := n }
  | .r2BodyName => do
    let s ← toName v
    return Function.update h i { h i with r2BodyName := s }
  | .ambiguityId => do
    let n ← toInt v
    return Function.update h i { h i with ambiguityId := n }

/-! ## Comparisons -/

/-- The operators, by CPython's numbers. -/
inductive Cmp where
  | lt | le | eq | ne | gt | ge
  deriving DecidableEq, Repr

/-- CPython's `_Py_SwappedOp`. -/
def Cmp.swap : Cmp → Cmp
  | .lt => .gt
  | .le => .ge
  | .eq => .eq
  | .ne => .ne
  | .gt => .lt
  | .ge => .le

/-- The operand `other`, after the test of its class: `none` for `None`. -/
def operand : PyVal → Res (Option ℕ)
  | .none => .ok none
  | .obj c j => if c.isA .contactId then .ok (some j) else .raises .typeError
  | _ => .raises .typeError

/-- `other.impl` -/
def implOf (h : Ids) : Option ℕ → Res ContactId
  | some j => .ok (h j)
  | none => .ub

/-- `ContactId.__richcmp__` (qp.pyx:104-112). -/
def richcmp (h : Ids) (i : ℕ) (other : PyVal) (op : Cmp) : Res Bool := do
  let o ← operand other
  match op with
  | .lt => do
    let b ← implOf h o
    return (h i).lt b
  | .eq => do
    let b ← implOf h o
    return (h i).eq b
  | .ne => do
    let b ← implOf h o
    return (h i).ne b
  | _ => .raises .notImplemented

/-- `v op w`, one of the operands being a `ContactId`. -/
def compare (h : Ids) (v w : PyVal) (op : Cmp) : Res Bool :=
  match v, w with
  | .obj .contactId i, w => richcmp h i w op
  | v, .obj .contactId j => richcmp h j v op.swap
  | _, _ => .raises .typeError

/-! ## Lists of identifiers -/

/-- An object of the class. -/
abbrev ref (i : ℕ) : PyVal := .obj .contactId i

/-- `l.index(x)` from position `k` on, without the `ValueError` (CPython's `PyObject_RichCompareBool`: an object equals
itself without being asked). -/
def indexFrom (h : Ids) (x : ℕ) : List ℕ → ℕ → Res (Option ℕ)
  | [], _ => .ok none
  | y :: l, k =>
    if y = x then .ok (some k)
    else do
      let e ← compare h (ref y) (ref x) .eq
      if e then return some k else indexFrom h x l (k + 1)

/-- `l.index(x)`; `none` is `ValueError`. -/
def index (h : Ids) (l : List ℕ) (x : ℕ) : Res (Option ℕ) := indexFrom h x l 0

/-- `x in l` -/
def contains (h : Ids) (l : List ℕ) (x : ℕ) : Res Bool := do
  let k ← index h l x
  return k.isSome

/-- The loop of CPython's `min` (`op` is `<`) and `max` (`op` is `>`): the best object so far. -/
def best (h : Ids) (op : Cmp) : ℕ → List ℕ → Res ℕ
  | m, [] => .ok m
  | m, y :: l => do
    let c ← compare h (ref y) (ref m) op
    best h op (if c then y else m) l

/-- `min(l)`; a `ValueError` for an empty list. -/
def min (h : Ids) : List ℕ → Res ℕ
  | [] => .raises .valueError
  | y :: l => best h .lt y l

/-- `max(l)` -/
def max (h : Ids) : List ℕ → Res ℕ
  | [] => .raises .valueError
  | y :: l => best h .gt y l

/-- Insertion of `x` in an arranged list, after the objects that are not behind it. -/
def place (h : Ids) (x : ℕ) : List ℕ → Res (List ℕ)
  | [] => .ok [x]
  | y :: l => do
    let c ← compare h (ref x) (ref y) .lt
    if c then return x :: y :: l
    else do
      let t ← place h x l
      return y :: t

/-- `sorted(l)`: Python promises a stable arrangement, made with `<` only; this is the one by insertion. -/
def sorted (h : Ids) : List ℕ → Res (List ℕ)
  | l => l.foldl (fun acc x => do let t ← acc; place h x t) (.ok [])

/-! ## Use by the constraints -/

/-- A Python method of a contact constraint called with identifiers, one after another
(qp.pyx:1763-1764, `addVirtualContact(cid)`). -/
def addVirtuals {K : Type} (h : Ids) (l : List ℕ) (s : ContactReg K) : ContactReg K :=
  l.foldl (fun s i => (s.addVirtual (h i)).2) s

end Verif.PyId
