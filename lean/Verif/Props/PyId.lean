import Verif.Model.PyId
import Verif.Props.Contacts

/-!
# C116: identifiers of contacts in Python
-/

set_option autoImplicit false

namespace Verif.PyId

open Binding

namespace Spec

/-- The attributes, the most significant one first. -/
def order : List Attr := [.r1Index, .r1BodyName, .r2Index, .r2BodyName, .ambiguityId]

/-- Python's `<` for two integers, and for two `bytes`. -/
def Smaller : PyVal → PyVal → Prop
  | .int n, .int m => n < m
  | .bytes a, .bytes b => a < b
  | _, _ => False

/-- The first attribute that differs is smaller. -/
def Before (f g : Attr → PyVal) : Prop :=
  ∃ pre a post, order = pre ++ a :: post ∧ (∀ b ∈ pre, f b = g b) ∧ Smaller (f a) (g a)

/-- A name as `bytes`: what an argument that is a `str` or `bytes` stands for. -/
def nameOf : PyVal → Option (List Char)
  | .str cs => if ∀ c ∈ cs, c.toNat < 128 then some cs else none
  | .bytes cs => some cs
  | _ => none

/-- A number that is a C `int`. -/
def IsCInt (v : PyVal) (n : ℤ) : Prop := v = .int n ∧ -2 ^ 31 ≤ n ∧ n < 2 ^ 31

/-- What may be assigned to an attribute. -/
def Assignable : Attr → PyVal → Prop
  | .r1BodyName, v | .r2BodyName, v => ∃ cs, v = .bytes cs
  | _, v => ∃ n, IsCInt v n

/-- No object is behind one that it should precede. -/
def Arranged (h : Ids) (l : List ℕ) : Prop :=
  l.Pairwise fun x y => ¬ Before (get h y) (get h x)

end Spec

open PyId.Spec

/-! ## Auxiliary facts -/

theorem toInt_ok (v : PyVal) (n : ℤ) : toInt v = .ok n ↔ IsCInt v n := by
  cases v <;> simp [toInt, IsCInt]
  rename_i m
  by_cases hm : fitsInt m = true
  · simp only [hm, if_true, Res.ok.injEq]
    simp only [fitsInt, Bool.and_eq_true, decide_eq_true_eq] at hm
    constructor
    · rintro rfl; exact ⟨rfl, by omega, by omega⟩
    · rintro ⟨rfl, _, _⟩; rfl
  · rw [if_neg hm]
    simp only [reduceCtorEq, false_iff, not_and, not_lt]
    simp only [fitsInt, Bool.and_eq_true, decide_eq_true_eq] at hm
    rintro rfl h1
    omega

theorem toInt_cases (v : PyVal) : (∃ n, toInt v = .ok n) ∨ ∃ e, toInt v = .raises e := by
  cases v <;> simp [toInt]
  split <;> simp

theorem toName_cases (v : PyVal) : (∃ n, toName v = .ok n) ∨ ∃ e, toName v = .raises e := by
  cases v <;> simp [toName]

theorem compare_ref (h : Ids) (i : ℕ) (w : PyVal) (op : Cmp) : compare h (ref i) w op = richcmp h i w op := by
  cases w <;> rfl

theorem get_eq_iff (h : Ids) (i j : ℕ) : (∀ a, get h i a = get h j a) ↔ h i = h j := by
  constructor
  · intro H
    have h1 := H .r1Index
    have h2 := H .r1BodyName
    have h3 := H .r2Index
    have h4 := H .r2BodyName
    have h5 := H .ambiguityId
    simp only [get, PyVal.int.injEq, PyVal.bytes.injEq, String.toList_inj] at h1 h2 h3 h4 h5
    generalize h i = a at *
    generalize h j = b at *
    cases a; cases b
    simp only at h1 h2 h3 h4 h5
    subst h1 h2 h3 h4 h5
    rfl
  · intro H a
    cases a <;> simp [get, H]

theorem before_iff (h : Ids) (i j : ℕ) : Before (get h i) (get h j) ↔ (h i).lt (h j) = true := by
  rw [ContactId.lt_iff]
  simp only [Prod.Lex.lt_iff, ofLex_toLex, String.lt_iff_toList_lt, ← String.toList_inj]
  constructor
  · rintro ⟨pre, a, post, ho, hp, hs⟩
    rcases pre with _ | ⟨p1, _ | ⟨p2, _ | ⟨p3, _ | ⟨p4, _ | ⟨p5, pre⟩⟩⟩⟩⟩ <;>
      simp only [order, List.nil_append, List.cons_append, List.cons.injEq, reduceCtorEq, and_false,
        List.nil_eq, List.append_eq_nil_iff] at ho
    · obtain ⟨rfl, -⟩ := ho
      exact .inl hs
    · obtain ⟨rfl, rfl, -⟩ := ho
      have q1 := hp .r1Index (by simp)
      simp only [get, PyVal.int.injEq] at q1
      exact .inr ⟨q1, .inl hs⟩
    · obtain ⟨rfl, rfl, rfl, -⟩ := ho
      have q1 := hp .r1Index (by simp)
      have q2 := hp .r1BodyName (by simp)
      simp only [get, PyVal.int.injEq, PyVal.bytes.injEq] at q1 q2
      exact .inr ⟨q1, .inr ⟨q2, .inl hs⟩⟩
    · obtain ⟨rfl, rfl, rfl, rfl, -⟩ := ho
      have q1 := hp .r1Index (by simp)
      have q2 := hp .r1BodyName (by simp)
      have q3 := hp .r2Index (by simp)
      simp only [get, PyVal.int.injEq, PyVal.bytes.injEq] at q1 q2 q3
      exact .inr ⟨q1, .inr ⟨q2, .inr ⟨q3, .inl hs⟩⟩⟩
    · obtain ⟨rfl, rfl, rfl, rfl, rfl, -⟩ := ho
      have q1 := hp .r1Index (by simp)
      have q2 := hp .r1BodyName (by simp)
      have q3 := hp .r2Index (by simp)
      have q4 := hp .r2BodyName (by simp)
      simp only [get, PyVal.int.injEq, PyVal.bytes.injEq] at q1 q2 q3 q4
      exact .inr ⟨q1, .inr ⟨q2, .inr ⟨q3, .inr ⟨q4, hs⟩⟩⟩⟩
  · rintro (h1 | ⟨e1, h1 | ⟨e2, h1 | ⟨e3, h1 | ⟨e4, h1⟩⟩⟩⟩)
    · exact ⟨[], _, _, rfl, by simp, h1⟩
    · exact ⟨[.r1Index], _, _, rfl, by simp [get, e1], h1⟩
    · exact ⟨[.r1Index, .r1BodyName], _, _, rfl, by simp [get, e1, e2], h1⟩
    · exact ⟨[.r1Index, .r1BodyName, .r2Index], _, _, rfl, by simp [get, e1, e2, e3], h1⟩
    · exact ⟨[.r1Index, .r1BodyName, .r2Index, .r2BodyName], _, _, rfl, by simp [get, e1, e2, e3, e4], h1⟩

/-! ## Comparisons -/

/-- **C116**: two identifiers are `==` exactly when their attributes read the same, `!=` otherwise, and `<` exactly when
the first attribute that differs, in the order `r1Index`, `r1BodyName`, `r2Index`, `r2BodyName`, `ambiguityId`, is
smaller; no exception is raised. -/
theorem C116_compare (h : Ids) (i j : ℕ) :
    compare h (ref i) (ref j) .eq = .ok (open Classical in decide (∀ a, get h i a = get h j a)) ∧
    compare h (ref i) (ref j) .ne = .ok (open Classical in decide (¬ ∀ a, get h i a = get h j a)) ∧
    compare h (ref i) (ref j) .lt = .ok (open Classical in decide (Before (get h i) (get h j))) := by
  classical
  have ho : operand (ref j) = .ok (some j) := rfl
  have he : (h i).eq (h j) = decide (∀ a, get h i a = get h j a) := by
    rw [Bool.eq_iff_iff, ContactId.eq_iff, decide_eq_true_iff, get_eq_iff]
  have hl : (h i).lt (h j) = decide (Before (get h i) (get h j)) := by
    rw [Bool.eq_iff_iff, decide_eq_true_iff, before_iff]
  refine ⟨?_, ?_, ?_⟩ <;> rw [compare_ref] <;> simp only [richcmp, ho, Res.ok_bind, implOf, Res.pure_eq]
  · rw [he]
  · rw [ContactId.ne, he, ← decide_not]
  · rw [hl]

example : compare (fun i => ⟨0, 1, "a", "b", i⟩) (ref 0) (ref 1) .lt = .ok true ∧
    compare (fun i => ⟨0, 1, "a", "b", i⟩) (ref 1) (ref 0) .lt = .ok false ∧
    compare (fun i => ⟨0, 1, "a", "b", i⟩) (ref 1) (ref 1) .eq = .ok true ∧
    compare (fun i => ⟨0, 1, "a", "b", i⟩) (ref 1) (ref 2) .ne = .ok true := by decide

/-- **C116**: the order of the identifiers is strict and total. -/
theorem C116_order (h : Ids) (i j k : ℕ) :
    ¬ Before (get h i) (get h i) ∧
    (Before (get h i) (get h j) → Before (get h j) (get h k) → Before (get h i) (get h k)) ∧
    (Before (get h i) (get h j) ∨ (∀ a, get h i a = get h j a) ∨ Before (get h j) (get h i)) := by
  have c := C18_contactId_order (h i) (h j) (h k)
  rw [before_iff, before_iff, before_iff, before_iff, before_iff, get_eq_iff]
  refine ⟨by simp [c.1], c.2.2.1, ?_⟩
  rw [← ContactId.eq_iff]
  exact c.2.2.2.1

/-- **C116**: the other three operators raise `NotImplementedError`, also against `None`, and an operand of any other
class raises `TypeError`, on either side. -/
theorem C116_raises (h : Ids) (i : ℕ) (w : PyVal) (op : Cmp) :
    ((∀ j, w ≠ ref j) → w ≠ .none → compare h (ref i) w op = .raises .typeError ∧
      compare h w (ref i) op = .raises .typeError) ∧
    (op = .le ∨ op = .gt ∨ op = .ge → w = .none ∨ (∃ j, w = ref j) →
      compare h (ref i) w op = .raises .notImplemented) := by
  constructor
  · intro hw hn
    have ho : operand w = .raises .typeError := by
      cases w <;> simp [operand] at hn ⊢
      rename_i c j
      by_cases hc : c = .contactId
      · subst hc; exact absurd rfl (hw j)
      · cases c <;> simp_all [PyClass.isA, PyClass.base]
    constructor
    · rw [compare_ref]; simp [richcmp, ho]
    · cases w <;> simp only [compare, richcmp, ho, Res.raises_bind]
  · rintro hop hw
    have ho : ∃ o, operand w = .ok o := by
      rcases hw with rfl | ⟨j, rfl⟩
      · exact ⟨_, rfl⟩
      · exact ⟨some j, rfl⟩
    obtain ⟨o, ho⟩ := ho
    rw [compare_ref]
    rcases hop with rfl | rfl | rfl <;> simp [richcmp, ho]

example : compare (fun _ => ContactId.default) (ref 0) (ref 0) .le = .raises .notImplemented ∧
    compare (fun _ => ContactId.default) (ref 0) (.int 0) .eq = .raises .typeError ∧
    compare (fun _ => ContactId.default) (.str ['a']) (ref 0) .ne = .raises .typeError := by decide

/-- **C116**, where the code does not do what is expected: comparing an identifier with `None`, on either side, reads
memory that is not an identifier. -/
theorem C116_none_ub (h : Ids) (i : ℕ) :
    compare h (ref i) .none .eq = .ub ∧ compare h .none (ref i) .eq = .ub ∧
    compare h (ref i) .none .ne = .ub ∧ compare h .none (ref i) .ne = .ub ∧
    compare h (ref i) .none .lt = .ub ∧ compare h .none (ref i) .gt = .ub :=
  ⟨rfl, rfl, rfl, rfl, rfl, rfl⟩

/-! ## Construction and attributes -/

theorem encode_name (v : PyVal) (cs : List Char) (hv : nameOf v = some cs) : encode v = .ok (.bytes cs) := by
  cases v <;> simp_all [nameOf, encode, isAscii]

theorem encode_cases (v : PyVal) :
    (∃ cs, nameOf v = some cs) ∨ (nameOf v = none ∧ ((∃ e, encode v = .raises e) ∨
      (encode v = .ok v ∧ ∃ e, toName v = .raises e))) := by
  cases v <;> simp [nameOf, encode, toName, isAscii]
  rename_i cs
  by_cases hc : ∀ c ∈ cs, c.toNat < 128
  · exact .inl hc
  · right
    refine ⟨by simpa using hc, ?_⟩
    left
    rw [if_neg hc]
    exact ⟨_, rfl⟩

theorem build_ok (r1 r2 n1 n2 amb : PyVal) (id : ContactId) :
    build r1 r2 n1 n2 amb = .ok id ↔
      IsCInt r1 id.r1Index ∧ IsCInt r2 id.r2Index ∧ nameOf n1 = some id.r1BodyName.toList ∧
      nameOf n2 = some id.r2BodyName.toList ∧ IsCInt amb id.ambiguityId := by
  rcases encode_cases n1 with ⟨c1, h1⟩ | ⟨h1, ⟨e, he⟩ | ⟨he, e, hs⟩⟩
  · rcases encode_cases n2 with ⟨c2, h2⟩ | ⟨h2, ⟨e, he⟩ | ⟨he, e, hs⟩⟩
    · simp only [build, encode_name n1 c1 h1, encode_name n2 c2 h2, Res.ok_bind, h1, h2]
      rcases toInt_cases r1 with ⟨i1, q1⟩ | ⟨e, q1⟩
      · rcases toInt_cases r2 with ⟨i2, q2⟩ | ⟨e, q2⟩
        · rcases toInt_cases amb with ⟨a, q3⟩ | ⟨e, q3⟩
          · simp only [q1, q2, q3, toName, Res.ok_bind, Res.pure_eq, Res.ok.injEq, ← toInt_ok]
            cases id
            simp only [ContactId.mk.injEq, Option.some.injEq]
            constructor
            · rintro ⟨rfl, rfl, rfl, rfl, rfl⟩; simp
            · rintro ⟨rfl, rfl, rfl, rfl, rfl⟩; simp
          · simp [q1, q2, q3, toName, ← toInt_ok]
        · simp [q1, q2, ← toInt_ok]
      · simp [q1, ← toInt_ok]
    · simp [build, encode_name n1 c1 h1, he, h2]
    · simp only [build, encode_name n1 c1 h1, he, Res.ok_bind, h2]
      rcases toInt_cases r1 with ⟨i1, q1⟩ | ⟨e, q1⟩
      · rcases toInt_cases r2 with ⟨i2, q2⟩ | ⟨e, q2⟩
        · simp [q1, q2, toName]
          cases n2 <;> simp_all [toName]
        · simp [q1, q2]
      · simp [q1]
  · simp [build, he, h1]
  · simp only [build, he, Res.ok_bind, h1]
    cases h2 : encode n2 with
    | ub => simp
    | raises e => simp
    | ok v2 =>
      simp only [Res.ok_bind]
      rcases toInt_cases r1 with ⟨i1, q1⟩ | ⟨e, q1⟩
      · rcases toInt_cases r2 with ⟨i2, q2⟩ | ⟨e, q2⟩
        · simp [q1, q2, hs]
        · simp [q1, q2]
      · simp [q1]

theorem build_not_ub (r1 r2 n1 n2 amb : PyVal) : build r1 r2 n1 n2 amb ≠ .ub := by
  intro H
  simp only [build] at H
  have he : ∀ v, encode v ≠ .ub := by
    intro v; cases v <;> simp [encode]
    split <;> simp
  cases h1 : encode n1 with
  | ub => exact he _ h1
  | raises e => simp [h1] at H
  | ok v1 =>
    cases h2 : encode n2 with
    | ub => exact he _ h2
    | raises e => simp [h1, h2] at H
    | ok v2 =>
      simp only [h1, h2, Res.ok_bind] at H
      rcases toInt_cases r1 with ⟨i1, q1⟩ | ⟨e, q1⟩ <;> simp only [q1, Res.ok_bind, Res.raises_bind, reduceCtorEq] at H
      rcases toInt_cases r2 with ⟨i2, q2⟩ | ⟨e, q2⟩ <;> simp only [q2, Res.ok_bind, Res.raises_bind, reduceCtorEq] at H
      rcases toName_cases v1 with ⟨s1, q3⟩ | ⟨e, q3⟩ <;> simp only [q3, Res.ok_bind, Res.raises_bind, reduceCtorEq] at H
      rcases toName_cases v2 with ⟨s2, q4⟩ | ⟨e, q4⟩ <;> simp only [q4, Res.ok_bind, Res.raises_bind, reduceCtorEq] at H
      rcases toInt_cases amb with ⟨a, q5⟩ | ⟨e, q5⟩ <;>
        simp only [q5, Res.ok_bind, Res.raises_bind, reduceCtorEq, Res.pure_eq] at H

/-- **C116**: an identifier is built from two C integers, two names, given as `str` or as `bytes`, and, if it is given,
a third C integer, `-1` otherwise; its attributes are these, the names as `bytes`; without arguments they are `-1` and
the empty name; anything else raises, and nothing is undefined. -/
theorem C116_make (args : List PyVal) :
    (∀ h : Ids, ∀ i, make args = .ok (h i) ↔
      (args = [] ∧ get h i .r1Index = .int (-1) ∧ get h i .r2Index = .int (-1) ∧ get h i .ambiguityId = .int (-1) ∧
        get h i .r1BodyName = .bytes [] ∧ get h i .r2BodyName = .bytes []) ∨
      ∃ r1 r2 n1 n2 amb : PyVal, (args = [r1, r2, n1, n2, amb] ∨ args = [r1, r2, n1, n2] ∧ amb = .int (-1)) ∧
        (∃ n, IsCInt r1 n) ∧ (∃ n, IsCInt r2 n) ∧ (∃ n, IsCInt amb n) ∧
        get h i .r1Index = r1 ∧ get h i .r2Index = r2 ∧ get h i .ambiguityId = amb ∧
        (nameOf n1).map PyVal.bytes = some (get h i .r1BodyName) ∧
        (nameOf n2).map PyVal.bytes = some (get h i .r2BodyName)) ∧
    make args ≠ .ub := by
  have key : ∀ (h : Ids) (i : ℕ) (r1 r2 n1 n2 amb : PyVal), build r1 r2 n1 n2 amb = .ok (h i) ↔
      (∃ n, IsCInt r1 n) ∧ (∃ n, IsCInt r2 n) ∧ (∃ n, IsCInt amb n) ∧
        get h i .r1Index = r1 ∧ get h i .r2Index = r2 ∧ get h i .ambiguityId = amb ∧
        (nameOf n1).map PyVal.bytes = some (get h i .r1BodyName) ∧
        (nameOf n2).map PyVal.bytes = some (get h i .r2BodyName) := by
    intro h i r1 r2 n1 n2 amb
    rw [build_ok]
    have hname : ∀ v (s : String), (nameOf v).map PyVal.bytes = some (.bytes s.toList) ↔ nameOf v = some s.toList := by
      intro v s
      cases nameOf v <;> simp
    simp only [get, hname]
    constructor
    · rintro ⟨a, b, c, d, e⟩
      exact ⟨⟨_, a⟩, ⟨_, b⟩, ⟨_, e⟩, a.1.symm, b.1.symm, e.1.symm, c, d⟩
    · rintro ⟨⟨x, hx⟩, ⟨y, hy⟩, ⟨z, hz⟩, a, b, c, d, e⟩
      have p1 : x = (h i).r1Index := by have := hx.1; rw [← a] at this; simpa using this.symm
      have p2 : y = (h i).r2Index := by have := hy.1; rw [← b] at this; simpa using this.symm
      have p3 : z = (h i).ambiguityId := by have := hz.1; rw [← c] at this; simpa using this.symm
      exact ⟨p1 ▸ hx, p2 ▸ hy, d, e, p3 ▸ hz⟩
  constructor
  · intro h i
    match args with
    | [] =>
      have : make [] = .ok (h i) ↔ ContactId.default = h i := by simp [make]
      rw [this]
      constructor
      · intro hd
        left
        simp [get, ← hd, ContactId.default]
      · rintro (⟨-, h1, h2, h3, h4, h5⟩ | ⟨r1, r2, n1, n2, amb, hh | hh, -⟩)
        · simp only [get, PyVal.int.injEq, PyVal.bytes.injEq, String.toList_eq_nil_iff] at h1 h2 h3 h4 h5
          generalize h i = a at *
          cases a
          simp_all [ContactId.default]
        · simp at hh
        · simp at hh
    | [a] => simp [make]
    | [a, b] => simp [make]
    | [a, b, c] => simp [make]
    | [r1, r2, n1, n2] =>
      have : make [r1, r2, n1, n2] = build r1 r2 n1 n2 (.int (-1)) := rfl
      rw [this, key]
      constructor
      · intro hk
        right
        exact ⟨r1, r2, n1, n2, .int (-1), .inr ⟨rfl, rfl⟩, hk⟩
      · rintro (⟨hh, -⟩ | ⟨r1', r2', n1', n2', amb', hh | ⟨hh, rfl⟩, hk⟩)
        · simp at hh
        · simp at hh
        · simp only [List.cons.injEq, and_true] at hh
          obtain ⟨rfl, rfl, rfl, rfl⟩ := hh
          exact hk
    | [r1, r2, n1, n2, amb] =>
      have : make [r1, r2, n1, n2, amb] = build r1 r2 n1 n2 amb := rfl
      rw [this, key]
      constructor
      · intro hk
        right
        exact ⟨r1, r2, n1, n2, amb, .inl rfl, hk⟩
      · rintro (⟨hh, -⟩ | ⟨r1', r2', n1', n2', amb', hh | ⟨hh, -⟩, hk⟩)
        · simp at hh
        · simp only [List.cons.injEq, and_true] at hh
          obtain ⟨rfl, rfl, rfl, rfl, rfl⟩ := hh
          exact hk
        · simp at hh
    | a :: b :: c :: d :: e :: f :: g => simp [make]
  · match args with
    | [] => simp [make]
    | [a] => simp [make]
    | [a, b] => simp [make]
    | [a, b, c] => simp [make]
    | [r1, r2, n1, n2] => exact build_not_ub _ _ _ _ _
    | [r1, r2, n1, n2, amb] => exact build_not_ub _ _ _ _ _
    | a :: b :: c :: d :: e :: f :: g => simp [make]

example : make [.int 0, .int 1, .str ['a'], .bytes ['b']] = .ok ⟨0, 1, "a", "b", -1⟩ ∧
    make [.int 0, .int 1, .str ['a'], .bytes ['b'], .int 7] = .ok ⟨0, 1, "a", "b", 7⟩ ∧
    make [.int 0, .int 1, .str ['é'], .bytes ['b']] = .raises .valueError ∧
    make [.int (2 ^ 31), .int 1, .str ['a'], .bytes ['b']] = .raises .overflowError ∧
    make [.int 0] = .raises .typeError := by decide

/-- **C116**: an assignment to an attribute takes a C integer, or `bytes` for a name, and raises otherwise; then the
attribute reads as what was assigned, and no other attribute and no other object changes. -/
theorem C116_set (h : Ids) (i : ℕ) (a : Attr) (v : PyVal) :
    (Assignable a v → ∃ h', set h i a v = .ok h' ∧ get h' i a = v ∧ (∀ b, b ≠ a → get h' i b = get h i b) ∧
      ∀ j, j ≠ i → h' j = h j) ∧
    (¬ Assignable a v → ∃ e, set h i a v = .raises e) := by
  have hi : ∀ v, (¬ ∃ n, IsCInt v n) → ∃ e, toInt v = .raises e := by
    intro v hv
    rcases toInt_cases v with ⟨n, hn⟩ | he
    · exact absurd ⟨n, (toInt_ok v n).1 hn⟩ hv
    · exact he
  have hs : ∀ v : PyVal, (¬ ∃ cs, v = .bytes cs) → toName v = .raises .typeError := by
    intro v hv
    cases v <;> simp_all [toName]
  constructor
  · intro hA
    cases a <;> simp only [Assignable] at hA
    · obtain ⟨n, hn⟩ := hA
      refine ⟨Function.update h i { h i with r1Index := n }, by simp [set, (toInt_ok v n).2 hn], ?_, ?_, ?_⟩
      · simp [get, hn.1]
      · intro b hb; cases b <;> simp_all [get]
      · intro j hj; simp [hj]
    · obtain ⟨cs, rfl⟩ := hA
      refine ⟨Function.update h i { h i with r1BodyName := String.ofList cs }, by simp [set, toName], ?_, ?_, ?_⟩
      · simp [get]
      · intro b hb; cases b <;> simp_all [get]
      · intro j hj; simp [hj]
    · obtain ⟨n, hn⟩ := hA
      refine ⟨Function.update h i { h i with r2Index := n }, by simp [set, (toInt_ok v n).2 hn], ?_, ?_, ?_⟩
      · simp [get, hn.1]
      · intro b hb; cases b <;> simp_all [get]
      · intro j hj; simp [hj]
    · obtain ⟨cs, rfl⟩ := hA
      refine ⟨Function.update h i { h i with r2BodyName := String.ofList cs }, by simp [set, toName], ?_, ?_, ?_⟩
      · simp [get]
      · intro b hb; cases b <;> simp_all [get]
      · intro j hj; simp [hj]
    · obtain ⟨n, hn⟩ := hA
      refine ⟨Function.update h i { h i with ambiguityId := n }, by simp [set, (toInt_ok v n).2 hn], ?_, ?_, ?_⟩
      · simp [get, hn.1]
      · intro b hb; cases b <;> simp_all [get]
      · intro j hj; simp [hj]
  · intro hA
    cases a <;> simp only [Assignable] at hA
    · obtain ⟨e, he⟩ := hi v hA; exact ⟨e, by simp [set, he]⟩
    · exact ⟨.typeError, by simp [set, hs v hA]⟩
    · obtain ⟨e, he⟩ := hi v hA; exact ⟨e, by simp [set, he]⟩
    · exact ⟨.typeError, by simp [set, hs v hA]⟩
    · obtain ⟨e, he⟩ := hi v hA; exact ⟨e, by simp [set, he]⟩

/-- **C116**, where the code does not do what is expected: a `str` that the constructor takes for a name can neither be
assigned to the attribute nor be read from it. -/
theorem C116_name_counterexample (cs : List Char) (hc : ∀ c ∈ cs, c.toNat < 128) (h : Ids) (i : ℕ) :
    make [.int 0, .int 1, .str cs, .str cs] = .ok ⟨0, 1, String.ofList cs, String.ofList cs, -1⟩ ∧
    set h i .r1BodyName (.str cs) = .raises .typeError ∧ set h i .r2BodyName (.str cs) = .raises .typeError ∧
    ∀ a, get h i a ≠ .str cs := by
  refine ⟨?_, rfl, rfl, ?_⟩
  · have : make [.int 0, .int 1, .str cs, .str cs] = build (.int 0) (.int 1) (.str cs) (.str cs) (.int (-1)) := rfl
    rw [this, build_ok]
    have hn : nameOf (.str cs) = some cs := by simp only [nameOf]; exact if_pos hc
    simp [hn, IsCInt]
  intro a
  cases a <;> simp [get]

/-! ## Lists -/

theorem compare_eq_ok (h : Ids) (i j : ℕ) : compare h (ref i) (ref j) .eq = .ok (decide (h i = h j)) := by
  have : compare h (ref i) (ref j) .eq = .ok ((h i).eq (h j)) := rfl
  rw [this]
  congr 1
  rw [Bool.eq_iff_iff, ContactId.eq_iff, decide_eq_true_iff]

theorem compare_lt_ok (h : Ids) (i j : ℕ) : compare h (ref i) (ref j) .lt = .ok ((h i).lt (h j)) := rfl

theorem indexFrom_spec (h : Ids) (x : ℕ) (l : List ℕ) (k : ℕ) :
    indexFrom h x l k = .ok ((l.findIdx? fun y => decide (h y = h x)).map (· + k)) := by
  induction l generalizing k with
  | nil => rfl
  | cons y l ih =>
    simp only [indexFrom, List.findIdx?_cons]
    by_cases hy : y = x
    · simp [hy]
    · rw [if_neg hy, compare_eq_ok]
      simp only [Res.ok_bind, Res.pure_eq]
      by_cases he : h y = h x
      · simp [he]
      · simp only [he, decide_false, Bool.false_eq_true, if_false]
        rw [ih]
        simp only [Option.map_map]
        congr 2
        funext n
        simp only [Function.comp]
        omega

/-- **C116**: `x in l` says whether some identifier of the list has the attributes of `x`, and `l.index(x)` is the
position of the first one. -/
theorem C116_search (h : Ids) (l : List ℕ) (x : ℕ) :
    contains h l x = .ok (open Classical in decide (∃ y ∈ l, ∀ a, get h y a = get h x a)) ∧
    ∃ r, index h l x = .ok r ∧ ∀ k, r = some k ↔ ∃ pre y post, l = pre ++ y :: post ∧ pre.length = k ∧
      (∀ a, get h y a = get h x a) ∧ ∀ z ∈ pre, ¬ ∀ a, get h z a = get h x a := by
  classical
  have hi : index h l x = .ok (l.findIdx? fun y => decide (h y = h x)) := by
    rw [index, indexFrom_spec]; simp
  constructor
  · rw [contains, hi]
    simp only [Res.ok_bind, Res.pure_eq, get_eq_iff]
    congr 1
    rw [Bool.eq_iff_iff, decide_eq_true_iff, List.findIdx?_isSome]
    simp
  · refine ⟨_, hi, ?_⟩
    intro k
    simp only [get_eq_iff]
    rw [List.findIdx?_eq_some_iff_getElem]
    constructor
    · rintro ⟨hk, h1, h2⟩
      refine ⟨l.take k, l[k], l.drop (k + 1), ?_, by simp; omega, by simpa using h1, ?_⟩
      · rw [← List.drop_eq_getElem_cons hk, List.take_append_drop]
      · intro z hz
        rw [List.mem_iff_getElem] at hz
        obtain ⟨n, hn, rfl⟩ := hz
        have hn' : n < k := by simp at hn; omega
        have := h2 n hn'
        simpa using this
    · rintro ⟨pre, y, post, rfl, rfl, h1, h2⟩
      refine ⟨by simp, by simpa using h1, ?_⟩
      intro j hj
      have : pre[j] ∈ pre := List.getElem_mem hj
      simpa [List.getElem_append_left hj] using h2 _ this

theorem best_lt (h : Ids) (m : ℕ) (l : List ℕ) : ∃ r, best h .lt m l = .ok r ∧ r ∈ m :: l ∧
    ∀ y ∈ m :: l, (h y).lt (h r) = false := by
  have tr : ∀ a b c : ContactId, a.lt b = false → b.lt c = false → a.lt c = false := by
    intro a b c
    have key : ∀ a b : ContactId, a.lt b = false ↔ ¬ a.lt b = true := by intro a b; simp
    rw [key, key, key]
    simp only [ContactId.lt_iff, not_lt]
    exact fun h1 h2 => h2.trans h1
  induction l generalizing m with
  | nil => exact ⟨m, rfl, by simp, by simp [(C18_contactId_order (h m) (h m) (h m)).1]⟩
  | cons y l ih =>
    simp only [best, compare_lt_ok, Res.ok_bind]
    by_cases hc : (h y).lt (h m) = true
    · rw [if_pos hc]
      obtain ⟨r, hr, hm, hb⟩ := ih y
      refine ⟨r, hr, List.mem_cons_of_mem _ hm, ?_⟩
      intro z hz
      rcases List.mem_cons.1 hz with rfl | hz
      · exact tr _ _ _ ((C18_contactId_order (h y) (h z) (h z)).2.1 hc) (hb y (by simp))
      · exact hb z hz
    · rw [if_neg hc]
      obtain ⟨r, hr, hm, hb⟩ := ih m
      refine ⟨r, hr, ?_, ?_⟩
      · rcases List.mem_cons.1 hm with rfl | hm
        · simp
        · simp [hm]
      · intro z hz
        rcases List.mem_cons.1 hz with rfl | hz
        · exact hb z (by simp)
        · rcases List.mem_cons.1 hz with rfl | hz
          · exact tr _ _ _ (by simpa using hc) (hb m (by simp))
          · exact hb z (List.mem_cons_of_mem _ hz)

/-- **C116**: `min` of a list of identifiers is one that no other precedes. -/
theorem C116_min (h : Ids) (y : ℕ) (l : List ℕ) : ∃ r, min h (y :: l) = .ok r ∧ r ∈ y :: l ∧
    ∀ z ∈ y :: l, ¬ Before (get h z) (get h r) := by
  obtain ⟨r, hr, hm, hb⟩ := best_lt h y l
  refine ⟨r, hr, hm, fun z hz => ?_⟩
  rw [before_iff, hb z hz]
  simp

/-- **C116**, where the code does not do what is expected: `max` of two identifiers or more raises. -/
theorem C116_max_counterexample (h : Ids) (x y : ℕ) (l : List ℕ) :
    max h (x :: y :: l) = .raises .notImplemented := rfl

theorem place_spec (h : Ids) (x : ℕ) (l : List ℕ) (hl : Arranged h l) :
    ∃ r, place h x l = .ok r ∧ r.Perm (x :: l) ∧ Arranged h r ∧
      ∀ p : ℕ → Prop, [DecidablePred p] → (∀ y z, p y → p z → h y = h z) →
        r.filter p = l.filter p ++ (if p x then [x] else []) := by
  have key : ∀ a b : ContactId, a.lt b = false ↔ ¬ a.lt b = true := by intro a b; simp
  induction l with
  | nil =>
    refine ⟨[x], rfl, List.Perm.refl _, by simp [Arranged], ?_⟩
    intro p _ _
    by_cases hp : p x <;> simp [hp]
  | cons y l ih =>
    simp only [place, compare_lt_ok, Res.ok_bind]
    rw [Arranged, List.pairwise_cons] at hl
    by_cases hc : (h x).lt (h y) = true
    · rw [if_pos hc]
      have hno : ∀ z ∈ y :: l, (h x).lt (h z) = true := by
        intro z hz
        rcases List.mem_cons.1 hz with rfl | hz
        · exact hc
        · have h1 := hl.1 z hz
          rw [before_iff] at h1
          rw [ContactId.lt_iff] at hc h1 ⊢
          exact lt_of_lt_of_le hc (not_lt.1 h1)
      refine ⟨x :: y :: l, rfl, List.Perm.refl _, ?_, ?_⟩
      · rw [Arranged, List.pairwise_cons]
        refine ⟨?_, List.pairwise_cons.2 hl⟩
        intro z hz
        rw [before_iff, ← key]
        exact (C18_contactId_order (h x) (h z) (h z)).2.1 (hno z hz)
      · intro p _ hp
        by_cases hx : p x
        · have : (y :: l).filter p = [] := by
            rw [List.filter_eq_nil_iff]
            intro z hz hpz
            have h1 := hno z hz
            rw [hp x z hx (by simpa using hpz), (C18_contactId_order (h z) (h z) (h z)).1] at h1
            simp at h1
          rw [List.filter_cons_of_pos (by simpa using hx), this]
          simp [hx]
        · rw [List.filter_cons_of_neg (by simpa using hx)]
          simp [hx]
    · rw [if_neg hc]
      obtain ⟨r, hr, hp, ha, hf⟩ := ih hl.2
      refine ⟨y :: r, by simp [hr], ?_, ?_, ?_⟩
      · exact (hp.cons y).trans (List.Perm.swap x y l)
      · rw [Arranged, List.pairwise_cons]
        refine ⟨?_, ha⟩
        intro z hz
        rcases List.mem_cons.1 (hp.mem_iff.1 hz) with rfl | hz
        · rw [before_iff]; exact hc
        · exact hl.1 z hz
      · intro p _ hpp
        rw [List.filter_cons, List.filter_cons, hf p hpp]
        split <;> simp

theorem sorted_snoc (h : Ids) (l : List ℕ) (x : ℕ) :
    sorted h (l ++ [x]) = (sorted h l >>= fun t => place h x t) := by
  simp [sorted, List.foldl_append]

/-- **C116**: `sorted` of a list of identifiers succeeds; it arranges the same objects so that none precedes an earlier
one, and objects with the same attributes stay in the order in which they were given. -/
theorem C116_sorted (h : Ids) (l : List ℕ) : ∃ r, sorted h l = .ok r ∧ r.Perm l ∧ Arranged h r ∧
    ∀ x, r.filter (fun y => open Classical in decide (∀ a, get h y a = get h x a)) =
      l.filter (fun y => open Classical in decide (∀ a, get h y a = get h x a)) := by
  classical
  suffices H : ∃ r, sorted h l = .ok r ∧ r.Perm l ∧ Arranged h r ∧
      ∀ p : ℕ → Prop, [DecidablePred p] → (∀ y z, p y → p z → h y = h z) → r.filter p = l.filter p by
    obtain ⟨r, h1, h2, h3, h4⟩ := H
    refine ⟨r, h1, h2, h3, fun x => ?_⟩
    have := h4 (fun y => ∀ a, get h y a = get h x a) (by
      intro y z hy hz
      rw [get_eq_iff] at hy hz
      rw [hy, hz])
    exact this
  induction l using List.reverseRecOn with
  | nil => exact ⟨[], rfl, List.Perm.refl _, by simp [Arranged], fun p _ _ => rfl⟩
  | append_singleton l x ih =>
    obtain ⟨t, h1, h2, h3, h4⟩ := ih
    obtain ⟨r, g1, g2, g3, g4⟩ := place_spec h x t h3
    refine ⟨r, by rw [sorted_snoc, h1]; exact g1, ?_, g3, ?_⟩
    · exact g2.trans ((h2.cons x).trans (List.perm_append_singleton x l).symm)
    · intro p _ hp
      rw [g4 p hp, h4 p hp, List.filter_append]
      congr 1
      by_cases hx : p x <;> simp [hx]

/-- **C116**: the arrangement is the only one: whatever algorithm arranges the same identifiers, the attributes read in
the same order. -/
theorem C116_sorted_unique (h : Ids) (l r r' : List ℕ) (h1 : r.Perm l) (h2 : r'.Perm l) (a1 : Arranged h r)
    (a2 : Arranged h r') : r.map (get h) = r'.map (get h) := by
  have hp : (r.map h).Perm (r'.map h) := (h1.trans h2.symm).map h
  have e : r.map h = r'.map h := by
    refine List.Perm.eq_of_pairwise (le := fun a b => b.lt a = false) ?_ ?_ ?_ hp
    · intro a b _ _ hab hba
      exact (ContactId.eq_iff a b).1 ((C18_contactId_order a b b).2.2.2.2.1.1 ⟨hba, hab⟩)
    · rw [List.pairwise_map]
      refine a1.imp ?_
      intro a b hab
      rw [before_iff] at hab
      simpa using hab
    · rw [List.pairwise_map]
      refine a2.imp ?_
      intro a b hab
      rw [before_iff] at hab
      simpa using hab
  have hg : ∀ l : List ℕ, l.map (get h) = (l.map h).map (fun c => get (fun _ => c) 0) := by
    intro l
    rw [List.map_map]
    congr 1
  rw [hg, hg, e]

example : sorted (fun i => ⟨0, 1, "a", "b", 3 - i⟩) [0, 1, 2, 3] = .ok [3, 2, 1, 0] ∧
    sorted (fun i => ⟨0, 1, "a", "b", i / 2⟩) [3, 2, 1, 0] = .ok [1, 0, 3, 2] ∧
    min (fun i => ⟨0, 1, "a", "b", 3 - i⟩) [0, 1, 2, 3] = .ok 3 ∧
    index (fun i => ⟨0, 1, "a", "b", i / 2⟩) [5, 4, 1, 0] 2 = .ok none ∧
    index (fun i => ⟨0, 1, "a", "b", i / 2⟩) [5, 3, 1, 0] 2 = .ok (some 1) := by decide

/-! ## Use by the constraints -/

theorem lt_or_iff (a b : ContactId) : (a.lt b || b.lt a) = false ↔ a = b := by
  rw [Bool.or_eq_false_iff, (C18_contactId_order a b b).2.2.2.2.1, ContactId.eq_iff]

theorem find_insert {α : Type} (k x : ContactId) (v : α) (m : IdMap α) :
    ((m.insert k v).find x).isSome = true ↔ k = x ∨ (m.find x).isSome = true := by
  induction m with
  | nil =>
    simp only [IdMap.insert, IdMap.find]
    by_cases hx : x = k
    · rw [(lt_or_iff x k).2 hx]; simp [hx]
    · have : ¬ (x.lt k || k.lt x) = false := by rw [lt_or_iff]; exact hx
      rw [Bool.not_eq_false] at this
      rw [this]
      simp [Ne.symm hx]
  | cons e m ih =>
    simp only [IdMap.insert]
    by_cases h1 : k.lt e.1 = true
    · rw [if_pos h1]
      simp only [IdMap.find]
      by_cases hx : x = k
      · rw [(lt_or_iff x k).2 hx]; simp [hx]
      · have : ¬ (x.lt k || k.lt x) = false := by rw [lt_or_iff]; exact hx
        rw [Bool.not_eq_false] at this
        rw [this]
        simp [Ne.symm hx]
    · rw [if_neg h1]
      by_cases h2 : e.1.lt k = true
      · rw [if_pos h2]
        simp only [IdMap.find]
        by_cases hx : x = e.1
        · rw [(lt_or_iff x e.1).2 hx]; simp
        · have : ¬ (x.lt e.1 || e.1.lt x) = false := by rw [lt_or_iff]; exact hx
          rw [Bool.not_eq_false] at this
          rw [this]
          simpa using ih
      · rw [if_neg h2]
        have hk : k = e.1 := by
          rw [← lt_or_iff]
          simp [h1, h2]
        simp only [IdMap.find]
        by_cases hx : x = e.1
        · rw [(lt_or_iff x e.1).2 hx]; simp
        · have : ¬ (x.lt e.1 || e.1.lt x) = false := by rw [lt_or_iff]; exact hx
          rw [Bool.not_eq_false] at this
          rw [this, hk]
          simp [Ne.symm hx]

theorem addVirtuals_find {K : Type} (h : Ids) (l : List ℕ) (s : ContactReg K) (x : ContactId) :
    ((addVirtuals h l s).virt.find x).isSome = true ↔ (∃ i ∈ l, h i = x) ∨ (s.virt.find x).isSome = true := by
  induction l generalizing s with
  | nil => simp [addVirtuals]
  | cons i l ih =>
    have : addVirtuals h (i :: l) s = addVirtuals h l (s.addVirtual (h i)).2 := rfl
    rw [this, ih]
    have e : (s.addVirtual (h i)).2.virt = s.virt.insert (h i) () := rfl
    rw [e, find_insert]
    simp only [List.mem_cons, exists_eq_or_imp]
    rw [← or_assoc, or_comm (b := h i = x)]

/-- **C116**: once the identifiers of a list were given to `addVirtualContact` of a new constraint, another identifier
is taken for a new one (`addVirtualContact` returns `True`), or found (`removeVirtualContact` does), as `in` says of the
list. -/
theorem C116_lookup {K : Type} (h : Ids) (l : List ℕ) (x : ℕ) :
    contains h l x = .ok ((addVirtuals h l (ContactReg.make : ContactReg K)).removeVirtual (h x)).1 ∧
    contains h l x = .ok (!((addVirtuals h l (ContactReg.make : ContactReg K)).addVirtual (h x)).1) := by
  classical
  have e : contains h l x =
      .ok (((addVirtuals h l (ContactReg.make : ContactReg K)).virt.find (h x)).isSome) := by
    rw [(C116_search h l x).1]
    congr 1
    rw [Bool.eq_iff_iff, decide_eq_true_iff, addVirtuals_find]
    simp only [get_eq_iff, ContactReg.make, IdMap.find, Option.isSome_none, Bool.false_eq_true, or_false]
  refine ⟨e, ?_⟩
  rw [e]
  simp [ContactReg.addVirtual]

example : ((addVirtuals (fun i => ⟨0, 1, "a", "b", i / 2⟩) [0, 2, 3] (ContactReg.make : ContactReg ℚ)).removeVirtual
    ⟨0, 1, "a", "b", 0⟩).1 = true := by decide

end Verif.PyId
