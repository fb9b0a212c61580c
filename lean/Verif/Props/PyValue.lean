import Verif.Model.PyValue

/-!
# C114: what a Python program reads from a contact or a solver is a copy, but for two attributes

See `Model/PyValue.lean`.
-/

set_option autoImplicit false

namespace Verif.PyValue

variable {V N : Type}

/-! ### Specifications -/

namespace Spec

/-- No statement of the program, in the state in which it is run, is `P`. -/
def Never (P : Op V N → St V N → Prop) : List (Op V N) → St V N → Prop
  | [], _ => True
  | op :: t, s => ¬ P op s ∧ ∀ s', op.run s = .ok s' → Never P t s'

/-- The statement changes the object `n` in place. -/
def Changes (n : ℕ) (op : Op V N) (s : St V N) : Prop :=
  ∃ x g, op = .change x g ∧ s.lookup x = .ok n

/-- The statement assigns the attribute `a` of the contact `n`. -/
def Assigns (n : ℕ) (a : Attr) (op : Op V N) (s : St V N) : Prop :=
  ∃ c y, op = .set c a y ∧ s.lookup c = .ok n

/-- The statement changes in place an object that the getter of `a` gave for the contact `n`. -/
def ChangesThrough (n : ℕ) (a : Attr) (op : Op V N) (s : St V N) : Prop :=
  ∃ x g m, op = .change x g ∧ s.lookup x = .ok m ∧ s.objs m = some (.view n a)

/-- The statement computes the normal accelerations of the object `n` given by `solver.data()`. -/
def Computes (n : ℕ) (op : Op V N) (s : St V N) : Prop :=
  ∃ x g, op = .compute x g ∧ s.lookup x = .ok n

/-- The statement gives the solver its contacts. -/
def GivesContacts (op : Op V N) (_ : St V N) : Prop := ∃ cs g, op = .nrVars cs g

/-- The statement is a call of the solver that writes its data. -/
def CallsSolver (op : Op V N) (_ : St V N) : Prop :=
  (∃ cs g, op = .nrVars cs g) ∨ ∃ g, op = .solve g

/-- A state some program reaches. -/
def Reached (s : St V N) : Prop := ∃ ops r, runOps ops (St.init r) = .ok s

/-- The attributes that are transforms. -/
def IsTransform (a : Attr) : Prop := a = .X_b1_b2 ∨ a = .X_b1_cf

end Spec

open Spec

/-! ### The states of a program -/

/-- Objects are numbered in order, variables refer to objects, and a view points to a transform of a contact. -/
structure Good (s : St V N) : Prop where
  fresh : ∀ n, s.objs n ≠ none → n < s.next
  vars : ∀ b ∈ s.env, s.objs b.2 ≠ none
  views : ∀ m c a, s.objs m = some (.view c a) → a.isView = true ∧ ∃ f, s.objs c = some (.contact f)

theorem lookup_mem {s : St V N} {x n : ℕ} (h : s.lookup x = .ok n) : (x, n) ∈ s.env := by
  unfold St.lookup at h
  cases e : s.env.lookup x with
  | none => rw [e] at h; cases h
  | some m =>
    rw [e] at h
    cases h
    rw [List.lookup_eq_some_iff] at e
    obtain ⟨l1, l2, e, -⟩ := e
    rw [e]
    simp

theorem contactOf_ok {s : St V N} {x n : ℕ} {f : Attr → V} (h : s.contactOf x = .ok (n, f)) :
    s.lookup x = .ok n ∧ s.objs n = some (.contact f) := by
  unfold St.contactOf at h
  rw [Out.bind_eq_ok] at h
  obtain ⟨m, h1, h2⟩ := h
  split at h2
  · rename_i f' e
    cases h2
    exact ⟨h1, e⟩
  · cases h2

theorem dataOf_ok {s : St V N} {x n : ℕ} {d : Data V N} (h : s.dataOf x = .ok (n, d)) :
    s.lookup x = .ok n ∧ s.objs n = some (.data d) := by
  unfold St.dataOf at h
  rw [Out.bind_eq_ok] at h
  obtain ⟨m, h1, h2⟩ := h
  split at h2
  · rename_i f' e
    cases h2
    exact ⟨h1, e⟩
  · cases h2

theorem make_objs (s : St V N) (x : ℕ) (o : Obj V N) (n : ℕ) :
    (s.make x o).objs n = if n = s.next then some o else s.objs n := rfl

theorem put_objs (s : St V N) (m : ℕ) (o : Obj V N) (n : ℕ) :
    (s.put m o).objs n = if n = m then some o else s.objs n := rfl

theorem make_keeps {s : St V N} (g : Good s) (x : ℕ) (o : Obj V N) {n : ℕ} {p : Obj V N}
    (h : s.objs n = some p) : (s.make x o).objs n = some p := by
  have := g.fresh n (by rw [h]; simp)
  rw [make_objs, if_neg (by omega), h]

theorem make_good {s : St V N} (g : Good s) (x : ℕ) {o : Obj V N}
    (ho : ∀ c a, o = .view c a → a.isView = true ∧ ∃ f, s.objs c = some (.contact f)) : Good (s.make x o) := by
  refine ⟨fun n hn => ?_, fun b hb => ?_, fun m c a h => ?_⟩
  · rw [make_objs] at hn
    show n < s.next + 1
    split at hn
    · omega
    · have := g.fresh n hn; omega
  · rw [make_objs]
    split
    · simp
    · rename_i hne
      have hb' : b ∈ (x, s.next) :: s.env.filter fun b => b.1 ≠ x := hb
      rcases List.mem_cons.1 hb' with rfl | hb'
      · exact absurd rfl hne
      · exact g.vars b (List.mem_filter.1 hb').1
  · rw [make_objs] at h
    split at h
    · cases h
      obtain ⟨h1, f, h2⟩ := ho c a rfl
      exact ⟨h1, f, make_keeps g x _ h2⟩
    · obtain ⟨h1, f, h2⟩ := g.views m c a h
      exact ⟨h1, f, make_keeps g x _ h2⟩

theorem put_good {s : St V N} (g : Good s) {n : ℕ} {o p : Obj V N} (h : s.objs n = some p)
    (hc : (∀ f, p = .contact f → ∃ f', o = .contact f') ∧ ∀ c a, o ≠ .view c a) : Good (s.put n o) := by
  refine ⟨fun m hm => ?_, fun b hb => ?_, fun m c a hm => ?_⟩
  · rw [put_objs] at hm
    show m < s.next
    split at hm
    · rename_i e
      exact e ▸ g.fresh n (by rw [h]; simp)
    · exact g.fresh m hm
  · rw [put_objs]
    split
    · simp
    · exact g.vars b hb
  · rw [put_objs] at hm
    split at hm
    · cases hm
      exact absurd rfl (hc.2 c a)
    · obtain ⟨h1, f, h2⟩ := g.views m c a hm
      refine ⟨h1, ?_⟩
      rw [put_objs]
      split
      · rename_i e
        subst e
        rw [h2] at h
        obtain ⟨f', e'⟩ := hc.1 f (Option.some.inj h).symm
        exact ⟨f', by rw [e']⟩
      · exact ⟨f, h2⟩

theorem bind_good {s : St V N} (g : Good s) {x n : ℕ} (h : s.objs n ≠ none) : Good (s.bind x n) := by
  refine ⟨g.fresh, fun b hb => ?_, g.views⟩
  have hb' : b ∈ (x, n) :: s.env.filter fun b => b.1 ≠ x := hb
  rcases List.mem_cons.1 hb' with rfl | hb'
  · exact h
  · exact g.vars b (List.mem_filter.1 hb').1

/-- What one statement does to the objects, to the solver, and that the invariant holds after it. -/
theorem step {op : Op V N} {s s' : St V N} (g : Good s) (e : op.run s = .ok s') :
    Good s' ∧
    (∀ n o, s.objs n = some o → s'.objs n = some o ∨
      (∃ x k v, op = .change x k ∧ s.lookup x = .ok n ∧ o = .val v ∧ s'.objs n = some (.val (k v))) ∨
      (∃ x k m a f, op = .change x k ∧ s.lookup x = .ok m ∧ s.objs m = some (.view n a) ∧ o = .contact f ∧
        s'.objs n = some (.contact fun b => if b = a then k (f a) else f b)) ∨
      (∃ c a y v f, op = .set c a y ∧ s.lookup c = .ok n ∧ s.read y = .ok v ∧ o = .contact f ∧
        s'.objs n = some (.contact fun b => if b = a then v else f b)) ∨
      (∃ x k d, op = .compute x k ∧ s.lookup x = .ok n ∧ o = .data d ∧
        s'.objs n = some (.data { d with rest := k d.rest }))) ∧
    (s'.solver = s.solver ∨
      (∃ cs k fs, op = .nrVars cs k ∧ readAll (fun x => s.contactOf x) cs = .ok fs ∧
        s'.solver = ⟨fs.map Prod.snd, k s.solver.rest⟩) ∨
      (∃ k, op = .solve k ∧ s'.solver = { s.solver with rest := k s.solver.rest })) := by
  cases op with
  | new x v =>
    cases e
    exact ⟨make_good g x (by intro c a h; cases h), fun n o h => .inl (make_keeps g x _ h), .inl rfl⟩
  | contact x ys mk =>
    simp only [Op.run, Out.bind_eq_ok] at e
    obtain ⟨vs, -, e⟩ := e
    cases e
    exact ⟨make_good g x (by intro c a h; cases h), fun n o h => .inl (make_keeps g x _ h), .inl rfl⟩
  | assign x y =>
    simp only [Op.run, Out.bind_eq_ok] at e
    obtain ⟨n, hn, e⟩ := e
    cases e
    exact ⟨bind_good g (g.vars _ (lookup_mem hn)), fun n o h => .inl h, .inl rfl⟩
  | del x =>
    simp only [Op.run, Out.bind_eq_ok] at e
    obtain ⟨n, hn, e⟩ := e
    cases e
    exact ⟨⟨g.fresh, fun b hb => g.vars b (List.mem_filter.1 hb).1, g.views⟩, fun n o h => .inl h, .inl rfl⟩
  | get x c a =>
    simp only [Op.run, Out.bind_eq_ok] at e
    obtain ⟨⟨n, f⟩, hn, e⟩ := e
    cases e
    obtain ⟨h1, h2⟩ := contactOf_ok hn
    refine ⟨make_good g x ?_, fun n o h => .inl (make_keeps g x _ h), .inl rfl⟩
    intro c' a' h
    unfold getter at h
    split at h
    · rename_i hv
      cases h
      exact ⟨hv, f, h2⟩
    · cases h
  | set c a y =>
    simp only [Op.run, Out.bind_eq_ok] at e
    obtain ⟨⟨n, f⟩, hn, v, hv, e⟩ := e
    cases e
    obtain ⟨h1, h2⟩ := contactOf_ok hn
    refine ⟨put_good g h2 ⟨fun f' _ => ⟨_, rfl⟩, by intro c a h; cases h⟩, fun m o h => ?_, .inl rfl⟩
    rw [put_objs]
    by_cases hm : m = n
    · subst hm
      rw [h2] at h
      refine .inr (.inr (.inr (.inl ⟨c, a, y, v, f, rfl, h1, hv, (Option.some.inj h).symm, ?_⟩)))
      rw [if_pos rfl]
    · rw [if_neg hm]
      exact .inl h
  | change x k =>
    simp only [Op.run, Out.bind_eq_ok] at e
    obtain ⟨n, hn, e⟩ := e
    split at e
    · rename_i v h2
      cases e
      refine ⟨put_good g h2 ⟨fun f' h => (by cases h), by intro c a h; cases h⟩, fun m o h => ?_, .inl rfl⟩
      rw [put_objs]
      by_cases hm : m = n
      · subst hm
        rw [h2] at h
        refine .inr (.inl ⟨x, k, v, rfl, hn, (Option.some.inj h).symm, ?_⟩)
        rw [if_pos rfl]
      · rw [if_neg hm]
        exact .inl h
    · rename_i c a h2
      split at e
      · split at e
        · rename_i f h3
          cases e
          refine ⟨put_good g h3 ⟨fun f' _ => ⟨_, rfl⟩, by intro c a h; cases h⟩, fun m o h => ?_, .inl rfl⟩
          rw [put_objs]
          by_cases hm : m = c
          · subst hm
            rw [h3] at h
            refine .inr (.inr (.inl ⟨x, k, n, a, f, rfl, hn, h2, (Option.some.inj h).symm, ?_⟩))
            rw [if_pos rfl]
          · rw [if_neg hm]
            exact .inl h
        · cases e
      · cases e
    · cases e
  | nrVars cs k =>
    simp only [Op.run, Out.bind_eq_ok] at e
    obtain ⟨fs, hf, e⟩ := e
    cases e
    exact ⟨⟨g.fresh, g.vars, g.views⟩, fun n o h => .inl h, .inr (.inl ⟨cs, k, fs, rfl, hf, rfl⟩)⟩
  | solve k =>
    cases e
    exact ⟨⟨g.fresh, g.vars, g.views⟩, fun n o h => .inl h, .inr (.inr ⟨k, rfl, rfl⟩)⟩
  | data x =>
    cases e
    exact ⟨make_good g x (by intro c a h; cases h), fun n o h => .inl (make_keeps g x _ h), .inl rfl⟩
  | compute x k =>
    simp only [Op.run, Out.bind_eq_ok] at e
    obtain ⟨⟨n, d⟩, hn, e⟩ := e
    cases e
    obtain ⟨h1, h2⟩ := dataOf_ok hn
    refine ⟨put_good g h2 ⟨fun f' h => (by cases h), by intro c a h; cases h⟩, fun m o h => ?_, .inl rfl⟩
    rw [put_objs]
    by_cases hm : m = n
    · subst hm
      rw [h2] at h
      refine .inr (.inr (.inr (.inr ⟨x, k, d, rfl, h1, (Option.some.inj h).symm, ?_⟩)))
      rw [if_pos rfl]
    · rw [if_neg hm]
      exact .inl h
  | element x d i =>
    simp only [Op.run, Out.bind_eq_ok] at e
    obtain ⟨⟨n, dd⟩, hn, e⟩ := e
    split at e
    · cases e
      exact ⟨make_good g x (by intro c a h; cases h), fun n o h => .inl (make_keeps g x _ h), .inl rfl⟩
    · cases e

theorem reached_good {s : St V N} (h : Reached s) : Good s := by
  obtain ⟨ops, r, e⟩ := h
  refine forEach_inv Good ?_ (fun _ _ _ _ h e => (step h e).1) e
  refine ⟨fun n h => absurd rfl h, fun b hb => (by cases hb), fun m c a h => (by cases h)⟩

/-- Induction over a program none of whose statements is `P`. -/
theorem run_induct {P : Op V N → St V N → Prop} {Q : St V N → Prop} {ops : List (Op V N)} {s s' : St V N}
    (g : Good s) (hn : Never P ops s) (e : runOps ops s = .ok s') (h0 : Q s)
    (hstep : ∀ op a b, Good a → ¬ P op a → Op.run op a = .ok b → Q a → Q b) : Good s' ∧ Q s' := by
  induction ops generalizing s with
  | nil => cases e; exact ⟨g, h0⟩
  | cons op t ih =>
    simp only [runOps, forEach, Out.bind_eq_ok] at e
    obtain ⟨s1, e1, e2⟩ := e
    exact ih (step g e1).1 (hn.2 s1 e1) e2 (hstep op s s1 g hn.1 e1 h0)

/-! ### The theorems -/

theorem isView_of {a : Attr} (h : IsTransform a) : a.isView = true := by
  rcases h with rfl | rfl <;> rfl

theorem isView_of_not {a : Attr} (h : ¬ IsTransform a) : a.isView = false := by
  cases a <;> simp_all [IsTransform, Attr.isView]

/-- **C114, reading.**  The identifier, the points and the cones read from a contact are copies: whatever the
program does afterwards, short of changing that very object, every variable that refers to it gives the value
read. -/
theorem C114_copy {s s1 s2 : St V N} (h : Reached s) {x c n : ℕ} {f : Attr → V} {a : Attr}
    (hc : s.contactOf c = .ok (n, f)) (hT : ¬ IsTransform a) (e1 : (Op.get x c a).run s = .ok s1)
    {ops : List (Op V N)} (hn : Never (Changes s.next) ops s1) (e2 : runOps ops s1 = .ok s2) :
    s1.lookup x = .ok s.next ∧ s1.read x = .ok (f a) ∧
      ∀ y, s2.lookup y = .ok s.next → s2.read y = .ok (f a) := by
  have ha := isView_of_not hT
  have g := reached_good h
  have g1 := (step g e1).1
  simp only [Op.run, hc, Out.ok_bind] at e1
  cases e1
  have hl : (s.make x (getter n f a : Obj V N)).lookup x = .ok s.next := by
    simp [St.lookup, St.make, St.bind]
  have ho : (s.make x (getter n f a : Obj V N)).objs s.next = some (.val (f a)) := by
    rw [make_objs, if_pos rfl]
    simp [getter, ha]
  have hv : ∀ t : St V N, t.objs s.next = some (.val (f a)) → ∀ y, t.lookup y = .ok s.next → t.read y = .ok (f a) := by
    intro t ht y hy
    simp only [St.read, hy, Out.ok_bind, St.value, ht]
  refine ⟨hl, hv _ ho x hl, ?_⟩
  have := (run_induct (Q := fun t => t.objs s.next = some (.val (f a))) g1 hn e2 ho ?_).2
  · exact fun y hy => hv s2 this y hy
  · intro op p q gp hP e hQ
    rcases (step gp e).2.1 _ _ hQ with h | ⟨x, k, v, h1, h2, -⟩ | ⟨x, k, m, a, f, h1, h2, h3, h4, -⟩ |
      ⟨c, a, y, v, f, h1, h2, h3, h4, -⟩ | ⟨x, k, d, h1, h2, h3, -⟩
    · exact h
    · exact absurd ⟨x, k, h1, h2⟩ hP
    · cases h4
    · cases h4
    · cases h3

/-- **C114, the contact.**  The identifier, the points and the cones of a contact change only when they are
assigned: not with the objects that were read from it, nor with those it was made from or assigned. -/
theorem C114_contact {s s2 : St V N} (h : Reached s) {n : ℕ} {f : Attr → V} (hc : s.objs n = some (.contact f))
    {a : Attr} (hT : ¬ IsTransform a) {ops : List (Op V N)} (hn : Never (Assigns n a) ops s)
    (e : runOps ops s = .ok s2) : ∃ f', s2.objs n = some (.contact f') ∧ f' a = f a := by
  have ha := isView_of_not hT
  refine (run_induct (Q := fun t => ∃ f', t.objs n = some (.contact f') ∧ f' a = f a) (reached_good h) hn e
    ⟨f, hc, rfl⟩ ?_).2
  rintro op p q gp hP e ⟨f', hQ, hf⟩
  rcases (step gp e).2.1 _ _ hQ with h | ⟨x, k, v, h1, h2, h3, -⟩ | ⟨x, k, m, b, f1, h1, h2, h3, h4, h5⟩ |
    ⟨c, b, y, v, f1, h1, h2, h3, h4, h5⟩ | ⟨x, k, d, h1, h2, h3, -⟩
  · exact ⟨f', h, hf⟩
  · cases h3
  · cases h4
    refine ⟨_, h5, ?_⟩
    have := (gp.views _ _ _ h3).1
    rw [if_neg (by rintro rfl; rw [ha] at this; cases this), hf]
  · cases h4
    refine ⟨_, h5, ?_⟩
    rw [if_neg (by rintro rfl; exact hP ⟨c, y, h1, h2⟩), hf]
  · cases h3

/-- **C114, the two transforms.**  They change also with the objects read from them. -/
theorem C114_contact_transform {s s2 : St V N} (h : Reached s) {n : ℕ} {f : Attr → V}
    (hc : s.objs n = some (.contact f)) (a : Attr) {ops : List (Op V N)}
    (hn : Never (fun op t => Assigns n a op t ∨ ChangesThrough n a op t) ops s) (e : runOps ops s = .ok s2) :
    ∃ f', s2.objs n = some (.contact f') ∧ f' a = f a := by
  refine (run_induct (Q := fun t => ∃ f', t.objs n = some (.contact f') ∧ f' a = f a) (reached_good h) hn e
    ⟨f, hc, rfl⟩ ?_).2
  rintro op p q gp hP e ⟨f', hQ, hf⟩
  rcases (step gp e).2.1 _ _ hQ with h | ⟨x, k, v, h1, h2, h3, -⟩ | ⟨x, k, m, b, f1, h1, h2, h3, h4, h5⟩ |
    ⟨c, b, y, v, f1, h1, h2, h3, h4, h5⟩ | ⟨x, k, d, h1, h2, h3, -⟩
  · exact ⟨f', h, hf⟩
  · cases h3
  · cases h4
    refine ⟨_, h5, ?_⟩
    rw [if_neg (by rintro rfl; exact hP (.inr ⟨x, k, m, h1, h2, h3⟩)), hf]
  · cases h4
    refine ⟨_, h5, ?_⟩
    rw [if_neg (by rintro rfl; exact hP (.inl ⟨c, y, h1, h2⟩)), hf]
  · cases h3

/-- **C114, assigning.**  `c.a = y` copies the value of `y` to the attribute and touches no other. -/
theorem C114_assign {s : St V N} {c n y : ℕ} {f : Attr → V} {v : V} (hc : s.contactOf c = .ok (n, f))
    (hy : s.read y = .ok v) (a : Attr) :
    (Op.set c a y).run s = .ok { s with
      objs := Function.update s.objs n (some (.contact (Function.update f a v))) } := by
  simp only [Op.run, hc, Out.ok_bind, hy, St.put]
  congr 2
  funext m
  by_cases h : m = n
  · simp only [h, if_true, Function.update_self]
    congr 2
    funext b
    by_cases hb : b = a <;> simp [Function.update, hb]
  · simp [Function.update, h]

/-- **C114, making.**  A contact is made from the values of the arguments. -/
theorem C114_make {s : St V N} {x : ℕ} {ys : List ℕ} {vs : List V} (hv : readAll s.read ys = .ok vs)
    (mk : List V → Attr → V) : ∃ s', (Op.contact x ys mk).run s = .ok s' ∧ s'.contactOf x = .ok (s.next, mk vs) ∧
      s'.solver = s.solver := by
  refine ⟨s.make x (.contact (mk vs)), ?_, ?_, rfl⟩
  · simp only [Op.run, hv, Out.ok_bind]
    rfl
  · simp [St.contactOf, St.lookup, St.make, St.bind]

/-- **C114, what holds of the two transforms.**  The object read from `X_b1_b2` or `X_b1_cf` shows the attribute as
it is when it is looked at, as long as the contact exists; reading it later is undefined. -/
theorem C114_view_partial {s s1 s2 : St V N} (h : Reached s) {x c n : ℕ} {f : Attr → V} {a : Attr}
    (hc : s.contactOf c = .ok (n, f)) (hT : IsTransform a) (e1 : (Op.get x c a).run s = .ok s1)
    {ops : List (Op V N)} (e2 : runOps ops s1 = .ok s2) :
    (x ≠ c → s1.read x = .ok (f a)) ∧ ∀ y, s2.lookup y = .ok s.next →
      ((∃ z, (z, n) ∈ s2.env) → ∃ f', s2.objs n = some (.contact f') ∧ s2.read y = .ok (f' a)) ∧
      ((¬ ∃ z, (z, n) ∈ s2.env) → s2.read y = .ub) := by
  have ha := isView_of hT
  have g := reached_good h
  have g1 := (step g e1).1
  obtain ⟨hl, hobj⟩ := contactOf_ok hc
  have hlt : n < s.next := g.fresh n (by rw [hobj]; simp)
  simp only [Op.run, hc, Out.ok_bind] at e1
  cases e1
  have hself : (s.make x (getter n f a : Obj V N)).lookup x = .ok s.next := by
    simp [St.lookup, St.make, St.bind]
  have ho : (s.make x (getter n f a : Obj V N)).objs s.next = some (.view n a) := by
    rw [make_objs, if_pos rfl]
    simp [getter, ha]
  have hh : ∀ t : St V N, t.held n = true ↔ ∃ z, (z, n) ∈ t.env := by
    intro t
    simp [St.held]
  have hq : ∀ t : St V N, Good t → t.objs s.next = some (.view n a) → ∀ y, t.lookup y = .ok s.next →
      ((∃ z, (z, n) ∈ t.env) → ∃ f', t.objs n = some (.contact f') ∧ t.read y = .ok (f' a)) ∧
      ((¬ ∃ z, (z, n) ∈ t.env) → t.read y = .ub) := by
    intro t gt ht y hy
    obtain ⟨-, f', hf'⟩ := gt.views _ _ _ ht
    refine ⟨fun hz => ⟨f', hf', ?_⟩, fun hz => ?_⟩
    · simp only [St.read, hy, Out.ok_bind, St.value, ht, (hh t).2 hz, if_true, hf']
    · have : t.held n = false := by
        rw [← Bool.not_eq_true, hh]
        exact hz
      simp [St.read, hy, Out.ok_bind, St.value, ht, this]
  constructor
  · intro hx
    have hz : (c, n) ∈ (s.make x (getter n f a : Obj V N)).env := by
      show (c, n) ∈ (x, s.next) :: s.env.filter fun b => b.1 ≠ x
      simp [lookup_mem hl, Ne.symm hx]
    simp only [St.read, hself, Out.ok_bind, St.value, ho, (hh _).2 ⟨c, hz⟩, if_true,
      make_keeps g x _ hobj]
  · obtain ⟨gs, ht⟩ := run_induct (P := fun _ _ => False) (Q := fun t => t.objs s.next = some (.view n a)) g1
      (by
        have : ∀ (l : List (Op V N)) t, Never (fun _ _ => False) l t := by
          intro l
          induction l with
          | nil => intro t; trivial
          | cons o l ih => intro t; exact ⟨fun h => h, fun s' _ => ih s'⟩
        exact this _ _) e2 ho
      (by
        intro op p q gp _ e hQ
        rcases (step gp e).2.1 _ _ hQ with h | ⟨x, k, v, h1, h2, h3, -⟩ | ⟨x, k, m, a, f, h1, h2, h3, h4, -⟩ |
          ⟨c, a, y, v, f, h1, h2, h3, h4, -⟩ | ⟨x, k, d, h1, h2, h3, -⟩
        · exact h
        · cases h3
        · cases h4
        · cases h4
        · cases h3)
    exact hq s2 gs ht

/-- **C114, the solver.**  `nrVars` gives the solver the contacts as they are at that moment; afterwards they do not
change with the objects of the program, until the next `nrVars`. -/
theorem C114_solver {s s1 s2 : St V N} (h : Reached s) {cs : List ℕ} {k : N → N}
    (e1 : (Op.nrVars cs k).run s = .ok s1) {ops : List (Op V N)} (hn : Never GivesContacts ops s1)
    (e2 : runOps ops s1 = .ok s2) :
    ∃ fs, readAll (fun x => s.contactOf x) cs = .ok fs ∧ s1.solver.contacts = fs.map Prod.snd ∧
      s2.solver.contacts = fs.map Prod.snd := by
  have g := reached_good h
  have g1 := (step g e1).1
  have : ∃ fs, readAll (fun x => s.contactOf x) cs = .ok fs ∧ s1.solver.contacts = fs.map Prod.snd := by
    simp only [Op.run, Out.bind_eq_ok] at e1
    obtain ⟨fs, hf, e⟩ := e1
    cases e
    exact ⟨fs, hf, rfl⟩
  obtain ⟨fs, hf, h1⟩ := this
  refine ⟨fs, hf, h1, (run_induct (Q := fun t => t.solver.contacts = fs.map Prod.snd) g1 hn e2 h1 ?_).2⟩
  intro op p q gp hP e hQ
  rcases (step gp e).2.2 with h | ⟨cs, k, fs, h, -⟩ | ⟨k, -, h⟩
  · rw [h]; exact hQ
  · exact absurd ⟨cs, k, h⟩ hP
  · rw [h]; exact hQ

/-- **C114, the data of the solver.**  They are changed by the calls of the solver only: nothing done to the object
returned by `solver.data()` reaches the solver. -/
theorem C114_solver_data {s s2 : St V N} (h : Reached s) {ops : List (Op V N)} (hn : Never CallsSolver ops s)
    (e : runOps ops s = .ok s2) : s2.solver = s.solver := by
  refine (run_induct (Q := fun t => t.solver = s.solver) (reached_good h) hn e rfl ?_).2
  intro op p q gp hP e hQ
  rcases (step gp e).2.2 with h | ⟨cs, k, fs, h, -⟩ | ⟨k, h, -⟩
  · rw [h]; exact hQ
  · exact absurd (.inl ⟨cs, k, h⟩) hP
  · exact absurd (.inr ⟨k, h⟩) hP

/-- **C114, `solver.data()`.**  The object returned is a copy of the data at that moment, which nothing the program
does to the solver changes; only its own `computeNormalAccB` does. -/
theorem C114_data {s s1 s2 : St V N} (h : Reached s) {x : ℕ} (e1 : (Op.data x).run s = .ok s1)
    {ops : List (Op V N)} (hn : Never (Computes s.next) ops s1) (e2 : runOps ops s1 = .ok s2) :
    s1.dataOf x = .ok (s.next, s.solver) ∧
      ∀ y, s2.lookup y = .ok s.next → s2.dataOf y = .ok (s.next, s.solver) := by
  have g := reached_good h
  have g1 := (step g e1).1
  cases e1
  have ho : (s.make x (.data s.solver)).objs s.next = some (.data s.solver) := by
    rw [make_objs, if_pos rfl]
  have hv : ∀ t : St V N, t.objs s.next = some (.data s.solver) → ∀ y, t.lookup y = .ok s.next →
      t.dataOf y = .ok (s.next, s.solver) := by
    intro t ht y hy
    simp only [St.dataOf, hy, Out.ok_bind, ht]
  refine ⟨hv _ ho x (by simp [St.lookup, St.make, St.bind]), ?_⟩
  have := (run_induct (Q := fun t => t.objs s.next = some (.data s.solver)) g1 hn e2 ho ?_).2
  · exact fun y hy => hv s2 this y hy
  · intro op p q gp hP e hQ
    rcases (step gp e).2.1 _ _ hQ with h | ⟨x, k, v, h1, h2, h3, -⟩ | ⟨x, k, m, a, f, h1, h2, h3, h4, -⟩ |
      ⟨c, a, y, v, f, h1, h2, h3, h4, -⟩ | ⟨x, k, d, h1, h2, h3, -⟩
    · exact h
    · cases h3
    · cases h4
    · cases h4
    · exact absurd ⟨x, k, h1, h2⟩ hP

theorem lookup_filter (l : List (ℕ × ℕ)) (x y : ℕ) :
    (l.filter fun b => b.1 ≠ x).lookup y = if y = x then none else l.lookup y := by
  induction l with
  | nil => simp
  | cons b t ih =>
    obtain ⟨k, n⟩ := b
    by_cases hk : k = x
    · subst hk
      rw [List.filter_cons_of_neg (by simp), ih]
      by_cases hy : y = k
      · simp [hy]
      · have : (y == k) = false := by simpa using hy
        simp [hy, List.lookup_cons, this]
    · rw [List.filter_cons_of_pos (by simpa using hk)]
      simp only [List.lookup_cons, ih]
      by_cases hy : y = x
      · subst hy
        have : (y == k) = false := by simpa using fun h : y = k => hk h.symm
        simp [this]
      · simp [hy]

/-- **C114, the variables.**  `x = y` makes `x` another name of the object of `y`, `del x` removes the name `x`;
neither does anything to another variable, to an object or to the solver. -/
theorem C114_names {s s' : St V N} {x : ℕ} :
    (∀ y, (Op.assign x y).run s = .ok s' → s'.lookup x = s.lookup y ∧ (∀ z, z ≠ x → s'.lookup z = s.lookup z) ∧
      s'.objs = s.objs ∧ s'.solver = s.solver) ∧
    ((Op.del x).run s = .ok s' → (∃ e, s'.lookup x = .throws e) ∧ (∀ z, z ≠ x → s'.lookup z = s.lookup z) ∧
      s'.objs = s.objs ∧ s'.solver = s.solver) := by
  constructor
  · intro y h
    simp only [Op.run, Out.bind_eq_ok] at h
    obtain ⟨n, hn, h⟩ := h
    cases h
    refine ⟨?_, fun z hz => ?_, rfl, rfl⟩
    · rw [hn]
      simp [St.lookup, St.bind]
    · have : (z == x) = false := by simpa using hz
      simp only [St.lookup, St.bind, List.lookup_cons, lookup_filter, this, if_neg hz]
  · intro h
    simp only [Op.run, Out.bind_eq_ok] at h
    obtain ⟨n, -, h⟩ := h
    cases h
    refine ⟨⟨.runtimeError, ?_⟩, fun z hz => ?_, rfl, rfl⟩
    · simp only [St.lookup, lookup_filter, if_true]
    · simp only [St.lookup, lookup_filter, if_neg hz]

/-- **C114, a contact of the data.**  `d.unilateralContacts()[i]` is a new contact with the attributes of the
`i`-th; one that is not there raises. -/
theorem C114_element {s : St V N} {x d i n : ℕ} {dd : Data V N} (hd : s.dataOf d = .ok (n, dd)) :
    (∀ f, dd.contacts[i]? = some f → ∃ s', (Op.element x d i).run s = .ok s' ∧ s'.contactOf x = .ok (s.next, f) ∧
      s'.solver = s.solver) ∧
    (dd.contacts.length ≤ i → ∃ e, (Op.element x d i).run s = .throws e) := by
  refine ⟨fun f hf => ⟨s.make x (.contact f), ?_, ?_, rfl⟩, fun hi => ⟨.outOfRange, ?_⟩⟩
  · simp only [Op.run, hd, Out.ok_bind, hf]
    rfl
  · simp [St.contactOf, St.lookup, St.make, St.bind]
  · simp [Op.run, hd, Out.ok_bind, hi]

/-! ### Examples, and programs that show the two transforms are not copies -/

namespace PyValueEx

/-- What a variable gives after a program. -/
def after (ops : List (Op ℕ ℕ)) (x : ℕ) : Out ℕ := do
  let s ← runOps ops (St.init 0)
  s.read x

/-- The rest of the data of the solver after a program. -/
def rest (ops : List (Op ℕ ℕ)) : Out ℕ := do
  let s ← runOps ops (St.init 0)
  return s.solver.rest

/-- `c = UnilateralContact(p)`: the variable 1 is the contact, all of whose attributes are 5. -/
def made : List (Op ℕ ℕ) := [.new 0 5, .contact 1 [0] fun vs _ => vs.headD 0]

/-- The points read, the points of the contact assigned, the argument changed: each is on its own. -/
example : after (made ++ [.get 2 1 .r1Points, .new 3 7, .set 1 .r1Points 3, .change 3 fun v => v + 1, .change 0 fun _ => 9])
      2 = .ok 5 ∧
    after (made ++ [.get 2 1 .r1Points, .new 3 7, .set 1 .r1Points 3, .change 3 fun v => v + 1, .get 4 1 .r1Points]) 4
      = .ok 7 ∧
    after (made ++ [.get 2 1 .r1Points, .change 2 fun v => v + 1, .get 4 1 .r1Points]) 4 = .ok 5 ∧
    after (made ++ [.get 2 1 .r1Points, .del 1]) 2 = .ok 5 := by decide

/-- **C114, disagreement.**  `X = c.X_b1_b2` is 5; after `c.X_b1_b2 = Y` it is 7, and a change of it in place changes
the contact. -/
theorem C114_view_counterexample :
    after (made ++ [.get 2 1 .X_b1_b2]) 2 = .ok 5 ∧
    after (made ++ [.get 2 1 .X_b1_b2, .new 3 7, .set 1 .X_b1_b2 3]) 2 = .ok 7 ∧
    after (made ++ [.get 2 1 .X_b1_cf, .change 2 fun v => v + 1, .get 4 1 .X_b1_cf]) 4 = .ok 6 := by decide

/-- **C114, disagreement.**  The transform of a contact that is gone: `X = c.X_b1_b2` and `del c`; or
`X = solver.data().unilateralContacts()[0].X_b1_b2`, where 10 and 11 are the temporaries. -/
theorem C114_view_ub :
    after (made ++ [.get 2 1 .X_b1_b2, .del 1]) 2 = .ub ∧
    after (made ++ [.nrVars [1] id, .data 10, .element 11 10 0, .get 2 11 .X_b1_b2, .del 10, .del 11]) 2 = .ub ∧
    after (made ++ [.nrVars [1] id, .data 10, .element 11 10 0, .get 2 11 .r1Points, .del 10, .del 11]) 2 = .ok 5 := by
  decide

/-- `solver.data().computeNormalAccB(mbs, mbcs)` computes the accelerations of a copy, and is lost (in C++
`data()` is the solver's own object). -/
theorem C114_compute_lost :
    rest (made ++ [.nrVars [1] (fun _ => 3), .data 10, .compute 10 (fun _ => 8), .del 10]) = .ok 3 := by decide

/-- A contact changed after `nrVars` is not the one of the solver. -/
example : after (made ++ [.nrVars [1] id, .new 3 7, .set 1 .r1Cone 3, .data 4, .element 5 4 0, .get 6 5 .r1Cone]) 6
    = .ok 5 := by decide

end PyValueEx

end Verif.PyValue
