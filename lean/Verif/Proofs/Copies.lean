import Verif.Proofs.Heap

/-!
# Values and the memory that represents them (specification and simulation for C100)
-/

set_option autoImplicit false
set_option linter.unusedSectionVars false

namespace Verif

namespace Spec

/-- A value: its inline members and the matrices it owns; `none` once it was moved from. -/
structure Val (F C : Type) where
  f : F
  cells : Option (ℕ → C)

/-- The variables of a program: those in their lifetime have a value, and nothing is shared. -/
abbrev Vars (F C : Type) := ℕ → Option (Val F C)

section
variable {F C : Type} [Inhabited C]

/-- What the operations mean for values.  A copy and an assignment take over the whole value and leave
the source as it is; moving leaves a value without matrices.  Copying a moved-from value, assigning one,
**assigning to one**, and calling a member function that uses the matrices of one is undefined. -/
def valStep (op : ObjOp F C) (a : Vars F C) : Out (Vars F C) :=
  match op with
  | .make v r =>
    match a v with
    | some _ => .ub
    | none => do
      let x ← r
      pure (Function.update a v (some ⟨x.1, some x.2⟩))
  | .copy w v =>
    match a w, a v with
    | none, some ⟨f, some c⟩ => .ok (Function.update a w (some ⟨f, some c⟩))
    | _, _ => .ub
  | .assign w v =>
    if w = v then (if a v = none then .ub else .ok a)
    else match a w, a v with
      | some ⟨_, some _⟩, some ⟨f, some c⟩ => .ok (Function.update a w (some ⟨f, some c⟩))
      | _, _ => .ub
  | .moveNew w v junk =>
    match a w, a v with
    | none, some x => .ok (Function.update (Function.update a v (some ⟨junk, none⟩)) w (some x))
    | _, _ => .ub
  | .moveTo w v junk =>
    match a w, a v with
    | some _, some x =>
      if w = v then .ok (Function.update a v (some ⟨junk, x.cells⟩))
      else .ok (Function.update (Function.update a v (some ⟨junk, none⟩)) w (some x))
    | _, _ => .ub
  | .call v touch m =>
    match a v with
    | some ⟨f, some c⟩ => do
      let r ← m f (fun i => if i ∈ touch then c i else default)
      pure (Function.update a v (some ⟨r.1, some (fun i => if i ∈ touch then r.2 i else c i)⟩))
    | some ⟨f, none⟩ =>
      if touch = [] then do
        let r ← m f (fun _ => default)
        pure (Function.update a v (some ⟨r.1, none⟩))
      else .ub
    | none => .ub
  | .destroy v =>
    match a v with
    | some _ => .ok (Function.update a v none)
    | none => .ub

/-- A program on values. -/
def valRun (ops : List (ObjOp F C)) (a : Vars F C) : Out (Vars F C) := forEach ops valStep a

/-- The memory shows a value for a variable: the inline members, and every matrix it owns. -/
def Shows (n : ℕ) (mem : ℕ → Option C) : Option (Obj F) → Option (Val F C) → Prop
  | none, none => True
  | some o, some ⟨f, none⟩ => o.f = f ∧ ∀ i < n, o.ptr i = none
  | some o, some ⟨f, some c⟩ => o.f = f ∧ ∀ i < n, ∃ p, o.ptr i = some p ∧ mem p = some (c i)
  | _, _ => False

/-- The memory shows these variables; no two pointers point to the same matrix; every matrix in memory is
owned by a variable. -/
structure Represents (n : ℕ) (h : Heap F C) (a : Vars F C) : Prop where
  shows : ∀ v, Shows n h.mem (h.objs v) (a v)
  owned : ∀ v o v' o' i j p, h.objs v = some o → h.objs v' = some o' → i < n → j < n →
    o.ptr i = some p → o'.ptr j = some p → v = v' ∧ i = j
  noLeak : ∀ p, h.mem p ≠ none → ∃ v o i, h.objs v = some o ∧ i < n ∧ o.ptr i = some p

/-- The same outcome, with related results. -/
def SameOut {α β : Type} (R : α → β → Prop) : Out α → Out β → Prop
  | .ok x, .ok y => R x y
  | .ub, .ub => True
  | .throws e, .throws e' => e = e'
  | _, _ => False

end

end Spec

open Spec

section
variable {F C : Type} [Inhabited C]

/-- The copy operations of a class treat every member. -/
structure Cls.Complete (T : Cls F) : Prop where
  pos : 0 < T.n
  copyF : ∀ f, T.copyF f = f
  copyNodup : T.copyCells.Nodup
  copyCells : ∀ i, i ∈ T.copyCells ↔ i < T.n
  assignF : ∀ d f, T.assignF d f = f
  assignCells : ∀ i, i ∈ T.assignCells ↔ i < T.n

/-- The member functions of a program only use members of the class. -/
def Spec.InClass (n : ℕ) : ObjOp F C → Prop
  | .call _ touch _ => ∀ i ∈ touch, i < n
  | _ => True

/-- `Represents`, with unused addresses ahead. -/
structure Rep (n : ℕ) (h : Heap F C) (a : Vars F C) : Prop extends Represents n h a where
  fresh : ∀ p, h.next ≤ p → h.mem p = none

theorem Shows.get {n : ℕ} {mem : ℕ → Option C} {o : Obj F} {x : Option (Val F C)}
    (h : Shows n mem (some o) x) : ∃ y, x = some y ∧ o.f = y.f ∧
      ((y.cells = none ∧ ∀ i < n, o.ptr i = none) ∨
        ∃ c, y.cells = some c ∧ ∀ i < n, ∃ p, o.ptr i = some p ∧ mem p = some (c i)) := by
  match x, h with
  | some ⟨f, none⟩, h => exact ⟨_, rfl, h.1, .inl ⟨rfl, h.2⟩⟩
  | some ⟨f, some c⟩, h => exact ⟨_, rfl, h.1, .inr ⟨c, rfl, h.2⟩⟩

theorem Shows.none_left {n : ℕ} {mem : ℕ → Option C} {x : Option (Val F C)}
    (h : Shows n mem (none : Option (Obj F)) x) : x = none := by
  match x, h with
  | none, _ => rfl

theorem Shows.mono {n : ℕ} {mem mem' : ℕ → Option C} {o : Option (Obj F)} {x : Option (Val F C)}
    (h : Shows n mem o x) (hm : ∀ o', o = some o' → ∀ i < n, ∀ p, o'.ptr i = some p → mem' p = mem p) :
    Shows n mem' o x := by
  match o, x, h with
  | none, none, _ => trivial
  | some o, some ⟨f, none⟩, h => exact h
  | some o, some ⟨f, some c⟩, h =>
    refine ⟨h.1, fun i hi => ?_⟩
    obtain ⟨p, h1, h2⟩ := h.2 i hi
    exact ⟨p, h1, by rw [hm o rfl i hi p h1, h2]⟩

theorem Rep.ptr_mem {n : ℕ} {h : Heap F C} {a : Vars F C} (R : Rep n h a) {v : ℕ} {o : Obj F}
    (ho : h.objs v = some o) {i p : ℕ} (hi : i < n) (hp : o.ptr i = some p) : h.mem p ≠ none := by
  have := R.shows v
  rw [ho] at this
  obtain ⟨y, -, -, hy⟩ := Shows.get this
  rcases hy with ⟨-, hy⟩ | ⟨c, -, hy⟩
  · rw [hy i hi] at hp; simp at hp
  · obtain ⟨p', h1, h2⟩ := hy i hi
    rw [hp] at h1
    obtain rfl := Option.some.inj h1
    simp [h2]

theorem Rep.ptr_lt {n : ℕ} {h : Heap F C} {a : Vars F C} (R : Rep n h a) {v : ℕ} {o : Obj F}
    (ho : h.objs v = some o) {i p : ℕ} (hi : i < n) (hp : o.ptr i = some p) : p < h.next := by
  by_contra hlt
  exact R.ptr_mem ho hi hp (R.fresh p (by omega))

/-- A new variable with matrices of its own. -/
theorem Rep.add {n : ℕ} {h : Heap F C} {a : Vars F C} (R : Rep n h a) {w : ℕ} (hw : h.objs w = none)
    (f : F) (c : ℕ → C) {l : List ℕ} (hl : ∀ i, i ∈ l ↔ i < n) {mem' : ℕ → Option C}
    {ptr' : ℕ → Option ℕ}
    (h2 : ∀ p, p < h.next ∨ h.next + l.length ≤ p → mem' p = h.mem p)
    (h4 : ∀ i ∈ l, ∃ p, h.next ≤ p ∧ p < h.next + l.length ∧ ptr' i = some p ∧ mem' p = some (c i))
    (h5 : ∀ i ∈ l, ∀ j ∈ l, ptr' i = ptr' j → i = j)
    (h6 : ∀ p, h.next ≤ p → p < h.next + l.length → ∃ i ∈ l, ptr' i = some p) :
    Rep n ⟨mem', h.next + l.length, Function.update h.objs w (some ⟨f, ptr'⟩)⟩
      (Function.update a w (some ⟨f, some c⟩)) := by
  have old : ∀ {v o i p}, h.objs v = some o → i < n → o.ptr i = some p → p < h.next :=
    fun ho hi hp => R.ptr_lt ho hi hp
  refine ⟨⟨fun v => ?_, ?_, fun p hp => ?_⟩, fun p hp => ?_⟩
  · by_cases hv : v = w
    · subst hv
      simp only [Function.update_self]
      refine ⟨rfl, fun i hi => ?_⟩
      obtain ⟨p, -, -, h1, h1'⟩ := h4 i ((hl i).2 hi)
      exact ⟨p, h1, h1'⟩
    · simp only [Function.update_of_ne hv]
      refine Shows.mono (R.shows v) fun o ho i hi p hp => h2 p (.inl (old ho hi hp))
  · intro v o v' o' i j p ho ho' hi hj hp hp'
    have new : ∀ {i p}, i < n → ptr' i = some p → h.next ≤ p := by
      intro i p hi hp
      obtain ⟨q, q1, -, q2, -⟩ := h4 i ((hl i).2 hi)
      rw [hp] at q2
      obtain rfl := Option.some.inj q2
      exact q1
    by_cases hv : v = w <;> by_cases hv' : v' = w
    · subst hv; subst hv'
      simp only [Function.update_self, Option.some.injEq] at ho ho'
      subst ho; subst ho'
      exact ⟨rfl, h5 i ((hl i).2 hi) j ((hl j).2 hj) (hp.trans hp'.symm)⟩
    · subst hv
      simp only [Function.update_self, Function.update_of_ne hv', Option.some.injEq] at ho ho'
      subst ho
      have := new hi hp
      have := old ho' hj hp'
      omega
    · subst hv'
      simp only [Function.update_self, Function.update_of_ne hv, Option.some.injEq] at ho ho'
      subst ho'
      have := new hj hp'
      have := old ho hi hp
      omega
    · simp only [Function.update_of_ne hv, Function.update_of_ne hv'] at ho ho'
      exact R.owned v o v' o' i j p ho ho' hi hj hp hp'
  · by_cases hr : h.next ≤ p ∧ p < h.next + l.length
    · obtain ⟨i, hi, hp'⟩ := h6 p hr.1 hr.2
      exact ⟨w, ⟨f, ptr'⟩, i, by simp, (hl i).1 hi, hp'⟩
    · dsimp only at hp
      rw [h2 p (by omega)] at hp
      obtain ⟨v, o, i, ho, hi, hp'⟩ := R.noLeak p hp
      refine ⟨v, o, i, ?_, hi, hp'⟩
      have hv : v ≠ w := by rintro rfl; rw [hw] at ho; simp at ho
      simp [Function.update_of_ne hv, ho]
  · dsimp only at hp ⊢
    rw [h2 p (.inr hp)]
    exact R.fresh p (by omega)

/-- A variable whose matrices and inline members are written. -/
theorem Rep.write {n : ℕ} {h : Heap F C} {a : Vars F C} (R : Rep n h a) {w : ℕ} {o : Obj F}
    (ho : h.objs w = some o) (f : F) (c : ℕ → C) {mem' : ℕ → Option C}
    (h1 : ∀ i < n, ∃ p, o.ptr i = some p ∧ mem' p = some (c i))
    (h2 : ∀ p, (∀ i < n, o.ptr i ≠ some p) → mem' p = h.mem p) :
    Rep n ⟨mem', h.next, Function.update h.objs w (some ⟨f, o.ptr⟩)⟩
      (Function.update a w (some ⟨f, some c⟩)) := by
  have back : ∀ {v o'}, Function.update h.objs w (some (⟨f, o.ptr⟩ : Obj F)) v = some o' →
      ∃ o'', h.objs v = some o'' ∧ o''.ptr = o'.ptr := by
    intro v o' hv
    by_cases e : v = w
    · subst e
      simp only [Function.update_self, Option.some.injEq] at hv
      exact ⟨o, ho, by rw [← hv]⟩
    · rw [Function.update_of_ne e] at hv
      exact ⟨o', hv, rfl⟩
  refine ⟨⟨fun v => ?_, ?_, fun p hp => ?_⟩, fun p hp => ?_⟩
  · by_cases hv : v = w
    · subst hv
      simp only [Function.update_self]
      exact ⟨rfl, h1⟩
    · simp only [Function.update_of_ne hv]
      refine Shows.mono (R.shows v) fun o' ho' i hi p hp => h2 p fun j hj hp' => ?_
      exact hv (R.owned v o' w o i j p ho' ho hi hj hp hp').1
  · intro v o1 v' o2 i j p e1 e2 hi hj hp hp'
    obtain ⟨o1', g1, k1⟩ := back e1
    obtain ⟨o2', g2, k2⟩ := back e2
    exact R.owned v o1' v' o2' i j p g1 g2 hi hj (by rw [k1, hp]) (by rw [k2, hp'])
  · have : h.mem p ≠ none := by
      by_cases hx : ∃ i < n, o.ptr i = some p
      · obtain ⟨i, hi, hx⟩ := hx
        exact R.ptr_mem ho hi hx
      · rw [← h2 p (fun i hi e => hx ⟨i, hi, e⟩)]
        exact hp
    obtain ⟨v, o', i, g, hi, hp'⟩ := R.noLeak p this
    by_cases e : v = w
    · subst e
      rw [ho] at g
      obtain rfl := Option.some.inj g
      exact ⟨v, ⟨f, o.ptr⟩, i, by simp, hi, hp'⟩
    · exact ⟨v, o', i, by simp [Function.update_of_ne e, g], hi, hp'⟩
  · dsimp only at hp ⊢
    rw [h2 p, R.fresh p hp]
    intro i hi e
    have := R.ptr_lt ho hi e
    omega

/-- A moved-from variable whose inline members are written, or any variable that keeps its matrices. -/
theorem Rep.inline {n : ℕ} {h : Heap F C} {a : Vars F C} (R : Rep n h a) {w : ℕ} {o : Obj F}
    (ho : h.objs w = some o) {y : Val F C} (hy : a w = some y) (f : F) :
    Rep n ⟨h.mem, h.next, Function.update h.objs w (some ⟨f, o.ptr⟩)⟩
      (Function.update a w (some ⟨f, y.cells⟩)) := by
  have back : ∀ {v o'}, Function.update h.objs w (some (⟨f, o.ptr⟩ : Obj F)) v = some o' →
      ∃ o'', h.objs v = some o'' ∧ o''.ptr = o'.ptr := by
    intro v o' hv
    by_cases e : v = w
    · subst e
      simp only [Function.update_self, Option.some.injEq] at hv
      exact ⟨o, ho, by rw [← hv]⟩
    · rw [Function.update_of_ne e] at hv
      exact ⟨o', hv, rfl⟩
  refine ⟨⟨fun v => ?_, ?_, fun p hp => ?_⟩, R.fresh⟩
  · by_cases hv : v = w
    · subst hv
      have := R.shows v
      rw [ho, hy] at this
      simp only [Function.update_self]
      obtain ⟨fy, cy⟩ := y
      cases cy with
      | none => exact ⟨rfl, this.2⟩
      | some c => exact ⟨rfl, this.2⟩
    · simp only [Function.update_of_ne hv]
      exact R.shows v
  · intro v o1 v' o2 i j p e1 e2 hi hj hp hp'
    obtain ⟨o1', g1, k1⟩ := back e1
    obtain ⟨o2', g2, k2⟩ := back e2
    exact R.owned v o1' v' o2' i j p g1 g2 hi hj (by rw [k1, hp]) (by rw [k2, hp'])
  · obtain ⟨v, o', i, g, hi, hp'⟩ := R.noLeak p hp
    by_cases e : v = w
    · subst e
      rw [ho] at g
      obtain rfl := Option.some.inj g
      exact ⟨v, ⟨f, o.ptr⟩, i, by simp, hi, hp'⟩
    · exact ⟨v, o', i, by simp [Function.update_of_ne e, g], hi, hp'⟩

/-- The pointers of `v` go to the new variable `w`. -/
theorem Rep.move {n : ℕ} {h : Heap F C} {a : Vars F C} (R : Rep n h a) {w v : ℕ} {o : Obj F}
    (hw : h.objs w = none) (ho : h.objs v = some o) {y : Val F C} (hy : a v = some y) (junk : F) :
    Rep n ⟨h.mem, h.next,
        Function.update (Function.update h.objs v (some ⟨junk, fun _ => none⟩)) w (some o)⟩
      (Function.update (Function.update a v (some ⟨junk, none⟩)) w (some y)) := by
  have hne : v ≠ w := by rintro rfl; rw [hw] at ho; simp at ho
  have back : ∀ {x o' i p}, Function.update (Function.update h.objs v
      (some (⟨junk, fun _ => none⟩ : Obj F))) w (some o) x = some o' → o'.ptr i = some p →
      ∃ x', h.objs x' = some o' ∧ ((x = w ∧ x' = v) ∨ (x ≠ w ∧ x ≠ v ∧ x' = x)) := by
    intro x o' i p hx hp
    by_cases e : x = w
    · subst e
      simp only [Function.update_self, Option.some.injEq] at hx
      subst hx
      exact ⟨v, ho, .inl ⟨rfl, rfl⟩⟩
    · rw [Function.update_of_ne e] at hx
      by_cases e' : x = v
      · subst e'
        simp only [Function.update_self, Option.some.injEq] at hx
        subst hx
        simp at hp
      · rw [Function.update_of_ne e'] at hx
        exact ⟨x, hx, .inr ⟨e, e', rfl⟩⟩
  refine ⟨⟨fun x => ?_, ?_, fun p hp => ?_⟩, R.fresh⟩
  · by_cases e : x = w
    · subst e
      simp only [Function.update_self]
      have := R.shows v
      rwa [ho, hy] at this
    · simp only [Function.update_of_ne e]
      by_cases e' : x = v
      · subst e'
        simp only [Function.update_self]
        exact ⟨rfl, fun _ _ => rfl⟩
      · simp only [Function.update_of_ne e']
        exact R.shows x
  · intro x o1 x' o2 i j p e1 e2 hi hj hp hp'
    obtain ⟨z, g, k⟩ := back e1 hp
    obtain ⟨z', g', k'⟩ := back e2 hp'
    have := R.owned z o1 z' o2 i j p g g' hi hj hp hp'
    refine ⟨?_, this.2⟩
    have := this.1
    omega
  · obtain ⟨x, o', i, g, hi, hp'⟩ := R.noLeak p hp
    by_cases e' : x = v
    · subst e'
      rw [ho] at g
      obtain rfl := Option.some.inj g
      exact ⟨w, o, i, by simp, hi, hp'⟩
    · have e : x ≠ w := by rintro rfl; rw [hw] at g; simp at g
      exact ⟨x, o', i, by simp [Function.update_of_ne e, Function.update_of_ne e', g], hi, hp'⟩

/-- The end of the lifetime of `v`. -/
theorem Rep.drop {n : ℕ} {h : Heap F C} {a : Vars F C} (R : Rep n h a) {v : ℕ} {o : Obj F}
    (ho : h.objs v = some o) : ∃ mem', deleteLoop o.ptr (List.range n) h.mem = .ok mem' ∧
      Rep n ⟨mem', h.next, Function.update h.objs v none⟩ (Function.update a v none) := by
  obtain ⟨mem', h1, h2, h3⟩ := deleteLoop_ok o.ptr (List.range n) List.nodup_range h.mem
    (fun i hi q hq => R.ptr_mem ho (List.mem_range.1 hi) hq)
    (fun i hi j hj p hp hp' => (R.owned v o v o i j p ho ho (List.mem_range.1 hi) (List.mem_range.1 hj)
      hp hp').2)
  have back : ∀ {x o'}, Function.update h.objs v none x = some o' → h.objs x = some o' ∧ x ≠ v := by
    intro x o' hx
    by_cases e : x = v
    · subst e; simp at hx
    · rw [Function.update_of_ne e] at hx
      exact ⟨hx, e⟩
  refine ⟨mem', h1, ⟨⟨fun x => ?_, ?_, fun p hp => ?_⟩, fun p hp => ?_⟩⟩
  · by_cases e : x = v
    · subst e
      simp only [Function.update_self]
      trivial
    · simp only [Function.update_of_ne e]
      refine Shows.mono (R.shows x) fun o' ho' i hi p hp => h3 p fun j hj hp' => ?_
      exact e (R.owned x o' v o i j p ho' ho hi (List.mem_range.1 hj) hp hp').1
  · intro x o1 x' o2 i j p e1 e2 hi hj hp hp'
    exact R.owned x o1 x' o2 i j p (back e1).1 (back e2).1 hi hj hp hp'
  · dsimp only at hp
    have hnot : ∀ i ∈ List.range n, o.ptr i ≠ some p := fun i hi e => hp (h2 i hi p e)
    rw [h3 p hnot] at hp
    obtain ⟨x, o', i, g, hi, hp'⟩ := R.noLeak p hp
    have e : x ≠ v := by
      rintro rfl
      rw [ho] at g
      obtain rfl := Option.some.inj g
      exact hnot i (List.mem_range.2 hi) hp'
    exact ⟨x, o', i, by simp [Function.update_of_ne e, g], hi, hp'⟩
  · dsimp only at hp ⊢
    by_cases hx : ∃ i ∈ List.range n, o.ptr i = some p
    · obtain ⟨i, hi, hx⟩ := hx
      exact h2 i hi p hx
    · rw [h3 p (fun i hi e => hx ⟨i, hi, e⟩), R.fresh p hp]

/-- One operation on the memory is the operation on the values. -/
theorem step_refines (T : Cls F) (hT : T.Complete) (op : ObjOp F C) (hop : InClass T.n op)
    {h : Heap F C} {a : Vars F C} (R : Rep T.n h a) :
    SameOut (Rep T.n) (T.step op h) (valStep op a) := by
  have ex : ∀ {v o}, h.objs v = some o → ∃ y, a v = some y ∧ o.f = y.f ∧
      ((y.cells = none ∧ ∀ i < T.n, o.ptr i = none) ∨
        ∃ c, y.cells = some c ∧ ∀ i < T.n, ∃ p, o.ptr i = some p ∧ h.mem p = some (c i)) := by
    intro v o ho
    have := R.shows v
    rw [ho] at this
    exact Shows.get this
  have nx : ∀ {v}, h.objs v = none → a v = none := by
    intro v ho
    have := R.shows v
    rw [ho] at this
    exact Shows.none_left this
  cases op with
  | make v r =>
    cases ho : h.objs v with
    | some o =>
      obtain ⟨y, hy, -⟩ := ex ho
      simp [Cls.step, Heap.newVar, ho, valStep, hy, SameOut]
    | none =>
      have hv := nx ho
      cases r with
      | ub => simp [Cls.step, Heap.newVar, ho, valStep, hv, SameOut]
      | throws e => simp [Cls.step, Heap.newVar, ho, valStep, hv, SameOut]
      | ok x =>
        obtain ⟨mem', ptr', h1, h2, -, h4, h5, h6⟩ := allocCells_ok (fun _ i => .ok (x.2 i)) x.2
          (List.range T.n) List.nodup_range h.mem h.next (fun _ => none) (fun _ _ _ _ => rfl)
        simp only [Cls.step, Heap.newVar, ho, valStep, hv, Out.ok_bind, h1, Out.pure_eq, SameOut]
        exact R.add ho x.1 x.2 (fun i => List.mem_range) h2 h4 h5 h6
  | copy w v =>
    cases hw : h.objs w with
    | some d =>
      obtain ⟨y, hy, -⟩ := ex hw
      simp [Cls.step, Heap.newVar, hw, valStep, hy, SameOut]
    | none =>
      have aw := nx hw
      cases ho : h.objs v with
      | none =>
        simp [Cls.step, Heap.newVar, Heap.obj, hw, ho, valStep, aw, nx ho, SameOut]
      | some o =>
        obtain ⟨⟨f, cs⟩, hy, hf, hc⟩ := ex ho
        rcases hc with ⟨hn, hc⟩ | ⟨c, hs, hc⟩
        · dsimp only at hn; subst hn
          have := allocCells_ub (C := C) o.ptr T.copyCells
            ⟨0, (hT.copyCells 0).2 hT.pos, hc 0 hT.pos⟩ (h.mem, h.next, fun _ => none)
          simp [Cls.step, Heap.newVar, Heap.obj, hw, ho, valStep, aw, hy, SameOut, this]
        · dsimp only at hs; subst hs
          obtain ⟨mem', ptr', h1, h2, -, h4, h5, h6⟩ := allocCells_ok
            (fun mem i => derefP mem (o.ptr i)) c T.copyCells hT.copyNodup h.mem h.next (fun _ => none)
            (by
              intro i hi m' hm'
              obtain ⟨p, p1, p2⟩ := hc i ((hT.copyCells i).1 hi)
              rw [p1]
              exact derefP_ok (by rw [hm' p (R.ptr_lt ho ((hT.copyCells i).1 hi) p1), p2]))
          simp only [Cls.step, Heap.newVar, Heap.obj, hw, ho, valStep, aw, hy, Out.ok_bind, h1,
            Out.pure_eq, SameOut, hT.copyF, hf]
          exact R.add hw f c hT.copyCells h2 h4 h5 h6
  | assign w v =>
    cases hw : h.objs w with
    | none =>
      have aw := nx hw
      by_cases e : w = v
      · subst e
        simp [Cls.step, Heap.obj, hw, valStep, aw, SameOut]
      · simp [Cls.step, Heap.obj, hw, valStep, aw, SameOut, e]
    | some d =>
      obtain ⟨⟨fd, cd⟩, hd, hfd, hcd⟩ := ex hw
      cases ho : h.objs v with
      | none =>
        have e : w ≠ v := by rintro rfl; rw [hw] at ho; simp at ho
        simp [Cls.step, Heap.obj, hw, ho, valStep, nx ho, hd, SameOut, e]
      | some o =>
        obtain ⟨⟨f, cs⟩, hy, hf, hc⟩ := ex ho
        by_cases e : w = v
        · subst e
          simp [Cls.step, Heap.obj, hw, valStep, hy, SameOut, R]
        · rcases hc with ⟨hn, hc⟩ | ⟨c, hs, hc⟩
          · dsimp only at hn; subst hn
            have := assignLoop_ub (C := C) d.ptr o.ptr T.assignCells h.mem
              ⟨0, (hT.assignCells 0).2 hT.pos, .inl (hc 0 hT.pos)⟩
            simp [Cls.step, Heap.obj, hw, ho, valStep, hy, SameOut, e, this]
          · dsimp only at hs; subst hs
            rcases hcd with ⟨hn, hcd⟩ | ⟨c', hs, hcd⟩
            · dsimp only at hn; subst hn
              have := assignLoop_ub (C := C) d.ptr o.ptr T.assignCells h.mem
                ⟨0, (hT.assignCells 0).2 hT.pos, .inr (hcd 0 hT.pos)⟩
              simp [Cls.step, Heap.obj, hw, ho, valStep, hy, hd, SameOut, e, this]
            · dsimp only at hs; subst hs
              have lt : ∀ {i}, i ∈ T.assignCells → i < T.n := fun hi => (hT.assignCells _).1 hi
              obtain ⟨mem', h1, h2, h3⟩ := assignLoop_ok d.ptr o.ptr c T.assignCells h.mem
                (fun i hi => hc i (lt hi))
                (fun i hi => by
                  obtain ⟨q, q1, q2⟩ := hcd i (lt hi)
                  exact ⟨q, q1, by simp [q2]⟩)
                (fun i hi j hj p hp hp' => e (R.owned v o w d i j p ho hw (lt hi) (lt hj) hp hp').1.symm)
                (fun i hi j hj hij => by
                  obtain ⟨q, q1, q2⟩ := hcd i (lt hi)
                  exact (R.owned w d w d i j q hw hw (lt hi) (lt hj) q1 (hij ▸ q1)).2)
              simp only [Cls.step, Heap.obj, hw, ho, valStep, hd, hy, Out.ok_bind, h1, if_neg e,
                Out.pure_eq, SameOut, hT.assignF, hf]
              refine R.write hw f c (fun i hi => ?_) (fun p hp => h3 p fun i hi => hp i (lt hi))
              obtain ⟨q, q1, q2⟩ := hcd i hi
              exact ⟨q, q1, h2 i ((hT.assignCells i).2 hi) q q1⟩
  | moveNew w v junk =>
    cases hw : h.objs w with
    | some d =>
      obtain ⟨y, hy, -⟩ := ex hw
      simp [Cls.step, Heap.newVar, hw, valStep, hy, SameOut]
    | none =>
      have aw := nx hw
      cases ho : h.objs v with
      | none => simp [Cls.step, Heap.newVar, Heap.obj, hw, ho, valStep, aw, nx ho, SameOut]
      | some o =>
        obtain ⟨y, hy, -⟩ := ex ho
        simp only [Cls.step, Heap.newVar, Heap.obj, hw, ho, valStep, aw, hy, Out.ok_bind, Out.pure_eq,
          SameOut]
        exact R.move hw ho hy junk
  | moveTo w v junk =>
    cases hw : h.objs w with
    | none => simp [Cls.step, Heap.obj, hw, valStep, nx hw, SameOut]
    | some d =>
      obtain ⟨yd, hyd, -⟩ := ex hw
      cases ho : h.objs v with
      | none => simp [Cls.step, Heap.obj, hw, ho, valStep, nx ho, hyd, SameOut]
      | some o =>
        obtain ⟨y, hy, -⟩ := ex ho
        by_cases e : w = v
        · subst e
          simp only [Cls.step, Heap.obj, ho, valStep, hy, Out.ok_bind, Out.pure_eq, SameOut, if_true]
          exact R.inline ho hy junk
        · obtain ⟨mem', h1, R'⟩ := R.drop hw
          simp only [Cls.step, Heap.obj, hw, ho, valStep, hyd, hy, Out.ok_bind, Out.pure_eq, SameOut,
            if_neg e, h1]
          have e' : v ≠ w := fun x => e x.symm
          have := R'.move (w := w) (v := v) (o := o) (y := y) (by simp)
            (by simp [Function.update_of_ne e', ho]) (by simp [Function.update_of_ne e', hy]) junk
          dsimp only at this
          rw [Function.update_comm e, Function.update_comm e, Function.update_idem,
            Function.update_idem] at this
          exact this
  | call v touch m =>
    cases ho : h.objs v with
    | none => simp [Cls.step, Heap.obj, ho, valStep, nx ho, SameOut]
    | some o =>
      obtain ⟨⟨f, cs⟩, hy, hf, hc⟩ := ex ho
      rcases hc with ⟨hn, hc⟩ | ⟨c, hs, hc⟩
      · dsimp only at hn hf; subst hn
        by_cases ht : touch = []
        · subst ht
          cases hm : m f (fun _ => default) with
          | ub => simp [Cls.step, Heap.obj, ho, valStep, hy, SameOut, loadLoop, forEach, hf, hm]
          | throws e => simp [Cls.step, Heap.obj, ho, valStep, hy, SameOut, loadLoop, forEach, hf, hm]
          | ok r =>
            simp only [Cls.step, Heap.obj, ho, valStep, hy, SameOut, loadLoop, forEach, hf, hm,
              Out.ok_bind, storeLoop, Out.pure_eq, if_true]
            exact R.inline ho hy r.1
        · obtain ⟨i, hi⟩ := List.exists_mem_of_ne_nil touch ht
          have := loadLoop_ub (C := C) o.ptr touch h.mem ⟨i, hi, hc i (hop i hi)⟩
          simp [Cls.step, Heap.obj, ho, valStep, hy, SameOut, this, ht]
      · dsimp only at hs hf; subst hs
        have hload := loadLoop_ok o.ptr c touch h.mem (fun i hi => hc i (hop i hi))
        cases hm : m f (fun i => if i ∈ touch then c i else default) with
        | ub => simp [Cls.step, Heap.obj, ho, valStep, hy, SameOut, hload, hf, hm]
        | throws e => simp [Cls.step, Heap.obj, ho, valStep, hy, SameOut, hload, hf, hm]
        | ok r =>
          have inj : ∀ i < T.n, ∀ j < T.n, o.ptr i = o.ptr j → i = j := by
            intro i hi j hj hij
            obtain ⟨q, q1, -⟩ := hc i hi
            exact (R.owned v o v o i j q ho ho hi hj q1 (hij ▸ q1)).2
          obtain ⟨mem', h1, h2, h3⟩ := storeLoop_ok o.ptr r.2 touch h.mem
            (fun i hi => by
              obtain ⟨q, q1, q2⟩ := hc i (hop i hi)
              exact ⟨q, q1, by simp [q2]⟩)
            (fun i hi j hj => inj i (hop i hi) j (hop j hj))
          simp only [Cls.step, Heap.obj, ho, valStep, hy, SameOut, hload, hf, hm, Out.ok_bind, h1,
            Out.pure_eq]
          refine R.write ho r.1 _ (fun i hi => ?_) (fun p hp => h3 p fun i hi => hp i (hop i hi))
          obtain ⟨q, q1, q2⟩ := hc i hi
          refine ⟨q, q1, ?_⟩
          by_cases hit : i ∈ touch
          · simp only [if_pos hit]; exact h2 i hit q q1
          · simp only [if_neg hit]
            rw [h3 q (fun j hj e => hit (inj i hi j (hop j hj) (q1.trans e.symm) ▸ hj)), q2]
  | destroy v =>
    cases ho : h.objs v with
    | none => simp [Cls.step, Heap.obj, ho, valStep, nx ho, SameOut]
    | some o =>
      obtain ⟨y, hy, -⟩ := ex ho
      obtain ⟨mem', h1, R'⟩ := R.drop ho
      simp only [Cls.step, Heap.obj, ho, valStep, hy, SameOut, Out.ok_bind, h1, Out.pure_eq]
      exact R'

/-- A whole program. -/
theorem run_refines (T : Cls F) (hT : T.Complete) (ops : List (ObjOp F C))
    (hops : ∀ op ∈ ops, InClass T.n op) {h : Heap F C} {a : Vars F C} (R : Rep T.n h a) :
    SameOut (Rep T.n) (T.run ops h) (valRun ops a) := by
  induction ops generalizing h a with
  | nil => exact R
  | cons op t ih =>
    have hs := step_refines T hT op (hops op (by simp)) R
    simp only [Cls.run, valRun, forEach]
    cases h1 : T.step op h with
    | ub =>
      cases h2 : valStep op a with
      | ub => trivial
      | throws e => rw [h1, h2] at hs; exact hs.elim
      | ok a' => rw [h1, h2] at hs; exact hs.elim
    | throws e =>
      cases h2 : valStep op a with
      | ub => rw [h1, h2] at hs; exact hs.elim
      | throws e' => rw [h1, h2] at hs; exact hs
      | ok a' => rw [h1, h2] at hs; exact hs.elim
    | ok h' =>
      cases h2 : valStep op a with
      | ub => rw [h1, h2] at hs; exact hs.elim
      | throws e' => rw [h1, h2] at hs; exact hs.elim
      | ok a' =>
        rw [h1, h2] at hs
        exact ih (fun o ho => hops o (by simp [ho])) hs

theorem rep_empty (n : ℕ) : Rep n (Heap.empty : Heap F C) (fun _ => none) :=
  ⟨⟨fun _ => trivial, fun _ _ _ _ _ _ _ h => by simp [Heap.empty] at h,
    fun _ h => by simp [Heap.empty] at h⟩, fun _ _ => rfl⟩

end

end Verif
