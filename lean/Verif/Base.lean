import Mathlib.Algebra.Order.Field.Basic
import Mathlib.Algebra.BigOperators.Ring.Finset
import Mathlib.Algebra.BigOperators.Intervals
import Mathlib.Algebra.Order.BigOperators.Group.Finset
import Mathlib.Tactic.Ring
import Mathlib.Tactic.Linarith
import Mathlib.Tactic.FieldSimp
import Mathlib.Tactic.NormNum
import Mathlib.Tactic.IntervalCases
import Mathlib.Tactic.LinearCombination
import Mathlib.Tactic.Positivity

/-!
# Base definitions of the model

Outcomes (with undefined behaviour as a distinct outcome), Eigen-like dynamic vectors and
matrices, and extended values for bounds.
-/

set_option autoImplicit false

namespace Verif

open Finset

/-- The exceptions the modelled code can raise. -/
inductive Exn where
  /-- `std::out_of_range` -/
  | outOfRange
  /-- `std::domain_error` -/
  | domainError
  /-- `std::runtime_error` -/
  | runtimeError
  deriving DecidableEq, Repr

/-- Outcome of a C++ call: a value, undefined behaviour, or a thrown exception. -/
inductive Out (α : Type) where
  | ok (a : α)
  | ub
  | throws (e : Exn)
  deriving DecidableEq, Repr

namespace Out

variable {α β : Type}

/-- Sequencing of calls. -/
def bind (x : Out α) (f : α → Out β) : Out β :=
  match x with
  | ok a => f a
  | ub => ub
  | throws e => throws e

instance : Monad Out where
  pure := ok
  bind := bind

@[simp] theorem pure_eq (a : α) : (pure a : Out α) = ok a := rfl
@[simp] theorem ok_bind (a : α) (f : α → Out β) : (ok a >>= f) = f a := rfl
@[simp] theorem ub_bind (f : α → Out β) : ((ub : Out α) >>= f) = ub := rfl
@[simp] theorem throws_bind (e : Exn) (f : α → Out β) :
    ((throws e : Out α) >>= f) = throws e := rfl
@[simp] theorem map_ok (a : α) (f : α → β) : (f <$> (ok a : Out α)) = ok (f a) := rfl

theorem bind_eq_ok {x : Out α} {f : α → Out β} {b : β} :
    (x >>= f) = ok b ↔ ∃ a, x = ok a ∧ f a = ok b := by
  cases x <;> simp

/-- The value of an outcome, if the call returned normally. -/
def val? : Out α → Option α
  | ok a => some a
  | _ => none

end Out

/-- `vec[i]` on a `std::vector` (`operator[]`, unchecked): undefined behaviour out of range. -/
def vecAt {α : Type} (l : List α) (i : ℕ) : Out α :=
  match l[i]? with
  | some a => .ok a
  | none => .ub

theorem vecAt_ok {α : Type} {l : List α} {i : ℕ} (h : i < l.length) :
    vecAt l i = .ok l[i] := by
  simp [vecAt, List.getElem?_eq_getElem h]

theorem vecAt_ub {α : Type} {l : List α} {i : ℕ} (h : l.length ≤ i) :
    vecAt l i = .ub := by
  simp [vecAt, List.getElem?_eq_none h]

theorem vecAt_eq_ok {α : Type} {l : List α} {i : ℕ} {a : α} :
    vecAt l i = .ok a ↔ l[i]? = some a := by
  unfold vecAt
  cases l[i]? <;> simp

/-- `vec[i]` with a signed index: a negative index is undefined behaviour. -/
def vecAtI {α : Type} (l : List α) (i : ℤ) : Out α :=
  if i < 0 then .ub else vecAt l i.toNat

@[simp] theorem vecAtI_natCast {α : Type} (l : List α) (i : ℕ) : vecAtI l (i : ℤ) = vecAt l i := by
  simp [vecAtI]

/-- `vec[i] = a` on a `std::vector` (unchecked): undefined behaviour out of range. -/
def vecSet {α : Type} (l : List α) (i : ℕ) (a : α) : Out (List α) :=
  if i < l.length then .ok (l.set i a) else .ub

theorem vecSet_ok {α : Type} {l : List α} {i : ℕ} {a : α} (h : i < l.length) :
    vecSet l i a = .ok (l.set i a) := by simp [vecSet, h]

/-- `vec.resize(n, d)`: keeps the old contents, pads with `d`. -/
def vecResize {α : Type} (l : List α) (n : ℕ) (d : α) : List α :=
  l.take n ++ List.replicate (n - l.length) d

@[simp] theorem length_vecResize {α : Type} (l : List α) (n : ℕ) (d : α) :
    (vecResize l n d).length = n := by
  simp [vecResize]; omega

/-- `for(i = 0; i < n; ++i) s = f(i, s)` -/
def forRange {σ : Type} (n : ℕ) (f : ℕ → σ → Out σ) (s : σ) : Out σ :=
  match n with
  | 0 => .ok s
  | n + 1 => forRange n f s >>= f n

/-- `for(a : l) s = f(a, s)` -/
def forEach {α σ : Type} (l : List α) (f : α → σ → Out σ) (s : σ) : Out σ :=
  match l with
  | [] => .ok s
  | a :: t => f a s >>= forEach t f

/-- Loop invariant rule for `forRange`. -/
theorem forRange_inv {σ : Type} {n : ℕ} {f : ℕ → σ → Out σ} (I : ℕ → σ → Prop) {s : σ}
    (h0 : I 0 s) (hs : ∀ i < n, ∀ s, I i s → ∃ s', f i s = .ok s' ∧ I (i + 1) s') :
    ∃ s', forRange n f s = .ok s' ∧ I n s' := by
  induction n with
  | zero => exact ⟨s, rfl, h0⟩
  | succ n ih =>
    obtain ⟨s1, h1, i1⟩ := ih (fun i hi => hs i (by omega))
    obtain ⟨s2, h2, i2⟩ := hs n (by omega) s1 i1
    exact ⟨s2, by simp [forRange, h1, h2], i2⟩

/-- A `forRange` whose body is a pure function. -/
theorem forRange_pure {σ : Type} {n : ℕ} {f : ℕ → σ → Out σ} {g : ℕ → σ → σ} {s : σ}
    (h : ∀ i < n, ∀ s, f i s = .ok (g i s)) :
    forRange n f s = .ok (Nat.rec s (fun i a => g i a) n) := by
  induction n with
  | zero => rfl
  | succ n ih =>
    simp only [forRange]
    rw [ih (fun i hi => h i (by omega))]
    simp [h n (by omega)]

/-- A successful `forEach` preserves every invariant its successful steps preserve. -/
theorem forEach_inv {α σ : Type} {l : List α} {f : α → σ → Out σ} (I : σ → Prop) {s s' : σ}
    (h0 : I s) (hs : ∀ a ∈ l, ∀ s s', I s → f a s = .ok s' → I s')
    (h : forEach l f s = .ok s') : I s' := by
  induction l generalizing s with
  | nil => simp [forEach] at h; exact h ▸ h0
  | cons a t ih =>
    simp only [forEach, Out.bind_eq_ok] at h
    obtain ⟨s1, h1, h2⟩ := h
    exact ih (hs a (by simp) s s1 h0 h1) (fun b hb => hs b (by simp [hb])) h2

theorem forEach_append {α σ : Type} (l₁ l₂ : List α) (f : α → σ → Out σ) (s : σ) :
    forEach (l₁ ++ l₂) f s = (forEach l₁ f s >>= forEach l₂ f) := by
  induction l₁ generalizing s with
  | nil => rfl
  | cons a t ih =>
    simp only [List.cons_append, forEach]
    cases h : f a s <;> simp [ih]

/-! ## Eigen-like dynamic vectors and matrices -/

/-- `Eigen::VectorXd`: run-time size and entries (entries outside `[0,size)` are irrelevant). -/
structure Vec (K : Type) where
  size : ℕ
  get : ℕ → K

/-- `Eigen::MatrixXd`: run-time size and entries. -/
structure Mat (K : Type) where
  rows : ℕ
  cols : ℕ
  get : ℕ → ℕ → K

namespace Vec
variable {K : Type}

/-- Build from a list. -/
def ofList [Zero K] (l : List K) : Vec K := ⟨l.length, fun i => l.getD i 0⟩

/-- Entries as a list. -/
def toList (v : Vec K) : List K := (List.range v.size).map v.get

/-- `v.resize(n); v.fill(c)` -/
def const (n : ℕ) (c : K) : Vec K := ⟨n, fun _ => c⟩

/-- `v(i)`; the Eigen assertion is compiled out in release: out of range is UB. -/
def at' (v : Vec K) (i : ℕ) : Out K := if i < v.size then .ok (v.get i) else .ub

/-- Reading `v.segment(b, n)` (also `head(n)` with `b = 0`). -/
def segment (v : Vec K) (b n : ℕ) : Out (Vec K) :=
  if b + n ≤ v.size then .ok ⟨n, fun i => v.get (b + i)⟩ else .ub

/-- `v.segment(b, w.size()) = w` -/
def setSegment (v : Vec K) (b : ℕ) (w : Vec K) : Out (Vec K) :=
  if b + w.size ≤ v.size then
    .ok ⟨v.size, fun i => if b ≤ i ∧ i < b + w.size then w.get (i - b) else v.get i⟩
  else .ub

/-- `v.segment(b, w.size()) += c * w` -/
def addSegment [Add K] [Mul K] (v : Vec K) (b : ℕ) (c : K) (w : Vec K) : Out (Vec K) :=
  if b + w.size ≤ v.size then
    .ok ⟨v.size, fun i => if b ≤ i ∧ i < b + w.size then v.get i + c * w.get (i - b) else v.get i⟩
  else .ub

/-- `v(i) = c` -/
def set (v : Vec K) (i : ℕ) (c : K) : Out (Vec K) :=
  if i < v.size then .ok ⟨v.size, fun j => if j = i then c else v.get j⟩ else .ub

end Vec

namespace Mat
variable {K : Type}

/-- Build from a list of rows. -/
def ofRows [Zero K] (c : ℕ) (l : List (List K)) : Mat K :=
  ⟨l.length, c, fun i j => (l.getD i []).getD j 0⟩

/-- `m.resize(r, c); m.setZero()` -/
def zero [Zero K] (r c : ℕ) : Mat K := ⟨r, c, fun _ _ => 0⟩

/-- Reading `m.block(i, j, r, c)`. -/
def block (m : Mat K) (i j r c : ℕ) : Out (Mat K) :=
  if i + r ≤ m.rows ∧ j + c ≤ m.cols then .ok ⟨r, c, fun a b => m.get (i + a) (j + b)⟩ else .ub

/-- `m.block(i, j, b.rows(), b.cols()) = b` -/
def setBlock (m : Mat K) (i j : ℕ) (b : Mat K) : Out (Mat K) :=
  if i + b.rows ≤ m.rows ∧ j + b.cols ≤ m.cols then
    .ok ⟨m.rows, m.cols, fun a c =>
      if (i ≤ a ∧ a < i + b.rows) ∧ (j ≤ c ∧ c < j + b.cols) then b.get (a - i) (c - j)
      else m.get a c⟩
  else .ub

/-- `m.block(i, j, b.rows(), b.cols()) += w * b` -/
def addBlock [Add K] [Mul K] (m : Mat K) (i j : ℕ) (w : K) (b : Mat K) : Out (Mat K) :=
  if i + b.rows ≤ m.rows ∧ j + b.cols ≤ m.cols then
    .ok ⟨m.rows, m.cols, fun a c =>
      if (i ≤ a ∧ a < i + b.rows) ∧ (j ≤ c ∧ c < j + b.cols)
      then m.get a c + w * b.get (a - i) (c - j)
      else m.get a c⟩
  else .ub

/-- Row `i` of `m` applied to `x` (`m.row(i) * x`). -/
def rowMul [AddCommMonoid K] [Mul K] (m : Mat K) (i : ℕ) (x : ℕ → K) : K :=
  ∑ j ∈ range m.cols, m.get i j * x j

/-- `-m` -/
def neg [Neg K] (m : Mat K) : Mat K := ⟨m.rows, m.cols, fun i j => -m.get i j⟩

end Mat

/-- `1/2 x'Qx + C'x` on `n` variables: the objective handed to a QP backend. -/
def quadObj {K : Type} [Field K] (n : ℕ) (Q : ℕ → ℕ → K) (C : ℕ → K) (x : ℕ → K) : K :=
  (∑ i ∈ range n, ∑ j ∈ range n, x i * Q i j * x j) / 2 + ∑ i ∈ range n, C i * x i

/-! ## Extended values for bounds -/

/-- A bound value: a finite number or an infinity (`std::numeric_limits<double>::infinity()`). -/
inductive Ext (K : Type) where
  | negInf
  | fin (x : K)
  | posInf
  deriving DecidableEq, Repr

namespace Ext
variable {K : Type}

instance [Zero K] : Zero (Ext K) := ⟨.fin 0⟩

/-- `l ≤ x` for a lower bound `l`. -/
def LowerOK [LE K] : Ext K → K → Prop
  | negInf, _ => True
  | fin l, x => l ≤ x
  | posInf, _ => False

/-- `x ≤ u` for an upper bound `u`. -/
def UpperOK [LE K] : Ext K → K → Prop
  | negInf, _ => False
  | fin u, x => x ≤ u
  | posInf, _ => True

instance [LE K] [DecidableLE K] (l : Ext K) (x : K) : Decidable (l.LowerOK x) := by
  cases l <;> unfold LowerOK <;> infer_instance

instance [LE K] [DecidableLE K] (u : Ext K) (x : K) : Decidable (u.UpperOK x) := by
  cases u <;> unfold UpperOK <;> infer_instance

/-- Unary minus. -/
def neg [Neg K] : Ext K → Ext K
  | negInf => posInf
  | fin x => fin (-x)
  | posInf => negInf

/-- `a < b` on extended values. -/
def lt [LT K] [DecidableLT K] : Ext K → Ext K → Bool
  | negInf, negInf => false
  | negInf, _ => true
  | fin _, negInf => false
  | fin x, fin y => decide (x < y)
  | fin _, posInf => true
  | posInf, _ => false

/-- `std::max(a, b)`: `(a < b) ? b : a`. -/
def max [LT K] [DecidableLT K] (a b : Ext K) : Ext K := if a.lt b then b else a

/-- `std::min(a, b)`: `(b < a) ? b : a`. -/
def min [LT K] [DecidableLT K] (a b : Ext K) : Ext K := if b.lt a then b else a

/-- Multiplication by a positive scalar. -/
def mulPos [Mul K] (c : K) : Ext K → Ext K
  | negInf => negInf
  | fin x => fin (c * x)
  | posInf => posInf

/-- `b / c` for a nonzero `c`: dividing an infinity by a negative number flips it. -/
def divBy [Div K] [Zero K] [LT K] [DecidableLT K] (b : Ext K) (c : K) : Ext K :=
  match b with
  | fin x => fin (x / c)
  | negInf => if c < 0 then posInf else negInf
  | posInf => if c < 0 then negInf else posInf

/-- `b + c` with a finite `c`. -/
def addFin [Add K] (b : Ext K) (c : K) : Ext K :=
  match b with
  | fin x => fin (x + c)
  | negInf => negInf
  | posInf => posInf

variable [Field K] [LinearOrder K] [IsStrictOrderedRing K]

omit [IsStrictOrderedRing K] [Field K] in
@[simp] theorem lowerOK_fin (l x : K) : (fin l).LowerOK x ↔ l ≤ x := Iff.rfl
omit [IsStrictOrderedRing K] [Field K] in
@[simp] theorem lowerOK_negInf (x : K) : (negInf : Ext K).LowerOK x := trivial
omit [IsStrictOrderedRing K] [Field K] in
@[simp] theorem lowerOK_posInf (x : K) : ¬ (posInf : Ext K).LowerOK x := id
omit [IsStrictOrderedRing K] [Field K] in
@[simp] theorem upperOK_fin (u x : K) : (fin u).UpperOK x ↔ x ≤ u := Iff.rfl
omit [IsStrictOrderedRing K] [Field K] in
@[simp] theorem upperOK_posInf (x : K) : (posInf : Ext K).UpperOK x := trivial
omit [IsStrictOrderedRing K] [Field K] in
@[simp] theorem upperOK_negInf (x : K) : ¬ (negInf : Ext K).UpperOK x := id

theorem upperOK_neg (l : Ext K) (x : K) : l.neg.UpperOK (-x) ↔ l.LowerOK x := by
  cases l <;> simp [neg]

theorem lowerOK_neg (u : Ext K) (x : K) : u.neg.LowerOK (-x) ↔ u.UpperOK x := by
  cases u <;> simp [neg]

omit [IsStrictOrderedRing K] [Field K] in
theorem lowerOK_max (a b : Ext K) (x : K) :
    (a.max b).LowerOK x ↔ a.LowerOK x ∧ b.LowerOK x := by
  cases a <;> cases b <;> simp [max, lt]
  rename_i a b
  by_cases h : a < b
  · simp [h]; exact fun h' => (le_of_lt h).trans h'
  · simp [h]; exact fun h' => (not_lt.mp h).trans h'

omit [IsStrictOrderedRing K] [Field K] in
theorem upperOK_min (a b : Ext K) (x : K) :
    (a.min b).UpperOK x ↔ a.UpperOK x ∧ b.UpperOK x := by
  cases a <;> cases b <;> simp [min, lt]
  rename_i a b
  by_cases h : b < a
  · simp [h]; exact fun h' => h'.trans (le_of_lt h)
  · simp [h]; exact fun h' => h'.trans (not_lt.mp h)

/-- Dividing a lower bound by a positive number: lower bound of the scaled variable. -/
theorem lowerOK_divBy_pos {b : Ext K} {c : K} (hc : 0 < c) (x : K) :
    (b.divBy c).LowerOK x ↔ b.LowerOK (c * x) := by
  cases b <;> simp [divBy, not_lt.mpr hc.le]
  rw [div_le_iff₀ hc, mul_comm]

theorem upperOK_divBy_pos {b : Ext K} {c : K} (hc : 0 < c) (x : K) :
    (b.divBy c).UpperOK x ↔ b.UpperOK (c * x) := by
  cases b <;> simp [divBy, not_lt.mpr hc.le]
  rw [le_div_iff₀ hc, mul_comm]

/-- Dividing an upper bound by a negative number: lower bound of the scaled variable. -/
theorem lowerOK_divBy_neg {b : Ext K} {c : K} (hc : c < 0) (x : K) :
    (b.divBy c).LowerOK x ↔ b.UpperOK (c * x) := by
  cases b <;> simp [divBy, hc]
  rw [div_le_iff_of_neg hc, mul_comm]

theorem upperOK_divBy_neg {b : Ext K} {c : K} (hc : c < 0) (x : K) :
    (b.divBy c).UpperOK x ↔ b.LowerOK (c * x) := by
  cases b <;> simp [divBy, hc]
  rw [le_div_iff_of_neg hc, mul_comm]

theorem lowerOK_addFin (b : Ext K) (c x : K) :
    (b.addFin c).LowerOK x ↔ b.LowerOK (x - c) := by
  cases b <;> simp [addFin]
  constructor <;> intro h <;> linarith

theorem upperOK_addFin (b : Ext K) (c x : K) :
    (b.addFin c).UpperOK x ↔ b.UpperOK (x - c) := by
  cases b <;> simp [addFin]

end Ext

end Verif
