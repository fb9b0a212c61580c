import Verif.Model.PyLife
import Verif.Proofs.Registry
import Verif.Props.Lifetime
import Mathlib.Tactic.SplitIfs

/-!
# C109: what a Python program has to keep

Which C++ objects exist at each point of a Python program, and when a call to the solver is defined.
-/

set_option autoImplicit false

namespace Verif.PyLife

namespace Spec

/-- The C++ object exists because a variable refers to its wrapper, or because the class never deletes it. -/
def Held (s : St) (n : ℕ) : Prop := (∃ x, (x, n) ∈ s.env) ∨ s.frees n = false

/-- `p` is `o`, a shape of `o`, or one of these for what `o` was built on. -/
inductive Reach (s : St) : ℕ → ℕ → Prop where
  | self (o : ℕ) : Reach s o o
  | shape {o p : ℕ} : p ∈ (s.objs o).shapes → Reach s o p
  | inner {o i p : ℕ} : (s.objs o).inner = some i → Reach s i p → Reach s o p

/-- Everything the solver can go to exists. -/
def Kept (s : St) : Prop := ∀ o ∈ s.registered, ∀ p, Reach s o p → Held s p

/-- The variables a program assigns. -/
def targets : List Op → List ℕ
  | [] => []
  | .make x _ _ :: t => x :: targets t
  | .assign x _ :: t => x :: targets t
  | _ :: t => targets t

/-- The program assigns every variable once and deletes none. -/
def Keeps (ops : List Op) : Prop := (targets ops).Nodup ∧ ∀ x, Op.del x ∉ ops

end Spec

open Verif.PyLife.Spec

/-! ### The invariant -/

/-- What holds at every point of a program. -/
structure Good (s : St) : Prop where
  keys : (s.env.map Prod.fst).Nodup
  alive : ∀ n, s.alive n = true ↔ Held s n
  fresh : ∀ n, Held s n → n < s.next
  inner : ∀ n i, (s.objs n).inner = some i → i < n

theorem named_iff {env : List (ℕ × ℕ)} {n : ℕ} : named env n = true ↔ ∃ x, (x, n) ∈ env := by
  simp [named]

theorem lookup_iff {env : List (ℕ × ℕ)} (h : (env.map Prod.fst).Nodup) {x n : ℕ} :
    env.lookup x = some n ↔ (x, n) ∈ env := by
  induction env with
  | nil => simp
  | cons b t ih =>
    obtain ⟨y, m⟩ := b
    simp only [List.map_cons, List.nodup_cons] at h
    by_cases hxy : x = y
    · subst hxy
      have : (x, n) ∉ t := fun hm => h.1 (List.mem_map_of_mem (f := Prod.fst) hm)
      simp [List.lookup, this, eq_comm]
    · have hb : (x == y) = false := by simp [hxy]
      simp [List.lookup, hb, ih h.2, hxy]

theorem lookup_none {env : List (ℕ × ℕ)} {x : ℕ} (h : env.lookup x = none) : x ∉ env.map Prod.fst := by
  induction env with
  | nil => simp
  | cons b t ih =>
    obtain ⟨y, m⟩ := b
    by_cases hxy : x = y
    · subst hxy; simp [List.lookup] at h
    · have hb : (x == y) = false := by simp [hxy]
      simp only [List.lookup, hb] at h
      simp only [List.map_cons, List.mem_cons, not_or]
      exact ⟨hxy, ih h⟩

/-- Dropping one reference to `m`. -/
theorem release_spec {s : St} {m : ℕ} (h : ∀ n, s.alive n = true ↔ Held s n ∨ n = m) :
    ∃ a, s.release m = .ok { s with alive := a } ∧ ∀ n, a n = true ↔ Held s n := by
  unfold St.release
  by_cases hn : named s.env m = true
  · rw [if_pos hn]
    exact ⟨s.alive, rfl, fun n => (h n).trans ⟨fun c => c.elim id fun e => e ▸ .inl (named_iff.1 hn), .inl⟩⟩
  · rw [if_neg hn]
    by_cases hf : s.frees m = true
    · rw [if_pos hf, if_pos ((h m).2 (.inr rfl))]
      refine ⟨_, rfl, fun n => ?_⟩
      by_cases e : n = m
      · subst e
        have : ¬ Held s n := fun c => c.elim (fun c => hn (named_iff.2 c)) fun c => by simp [hf] at c
        simp [this]
      · simp [e, h n]
    · rw [if_neg hf]
      exact ⟨s.alive, rfl, fun n => (h n).trans
        ⟨fun c => c.elim id fun e => e ▸ .inr (by simpa using hf), .inl⟩⟩

/-- The variables after `x` has been dropped. -/
theorem env_drop {env : List (ℕ × ℕ)} (h : (env.map Prod.fst).Nodup) {x m : ℕ} (hx : env.lookup x = some m)
    (n : ℕ) : (∃ y, (y, n) ∈ env) ↔ (∃ y, (y, n) ∈ env.filter fun b => b.1 ≠ x) ∨ n = m := by
  constructor
  · rintro ⟨y, hy⟩
    by_cases e : y = x
    · subst e
      exact .inr (Option.some.inj (((lookup_iff h).2 hy).symm.trans hx))
    · exact .inl ⟨y, List.mem_filter.2 ⟨hy, by simpa using e⟩⟩
  · rintro (⟨y, hy⟩ | rfl)
    · exact ⟨y, (List.mem_filter.1 hy).1⟩
    · exact ⟨x, (lookup_iff h).1 hx⟩

theorem keys_filter {env : List (ℕ × ℕ)} (h : (env.map Prod.fst).Nodup) (x : ℕ) :
    ((env.filter fun b => b.1 ≠ x).map Prod.fst).Nodup ∧ x ∉ (env.filter fun b => b.1 ≠ x).map Prod.fst := by
  refine ⟨h.sublist (List.Sublist.map _ List.filter_sublist), fun c => ?_⟩
  obtain ⟨b, hb, rfl⟩ := List.mem_map.1 c
  simpa using (List.mem_filter.1 hb).2

/-- `del x` never deletes an object twice. -/
theorem unbind_spec {s : St} (h : Good s) (x : ℕ) :
    ∃ s', s.unbind x = .ok s' ∧ Good s' ∧ s'.next = s.next ∧ s'.objs = s.objs ∧ s'.frees = s.frees ∧
      s'.tasks = s.tasks ∧ s'.regs = s.regs := by
  unfold St.unbind
  cases hx : s.env.lookup x with
  | none => exact ⟨s, rfl, h, rfl, rfl, rfl, rfl, rfl⟩
  | some m =>
    have hh : ∀ n, Held s n ↔ Held { s with env := s.env.filter fun b => b.1 ≠ x } n ∨ n = m := by
      intro n
      unfold Held
      rw [env_drop h.keys hx n]
      tauto
    obtain ⟨a, e, ha⟩ := release_spec (s := { s with env := s.env.filter fun b => b.1 ≠ x }) (m := m)
      (fun n => (h.alive n).trans (hh n))
    exact ⟨_, e, ⟨(keys_filter h.keys x).1, ha, fun n c => h.fresh n ((hh n).2 (.inl c)), h.inner⟩,
      rfl, rfl, rfl, rfl, rfl⟩

/-- Assigning to `x` never deletes an object twice, nor the one assigned. -/
theorem bind_spec {s : St} {x k : ℕ} (keys : (s.env.map Prod.fst).Nodup)
    (alive : ∀ n, s.alive n = true ↔ Held s n ∨ n = k) (fresh : ∀ n, Held s n ∨ n = k → n < s.next)
    (inner : ∀ n i, (s.objs n).inner = some i → i < n) :
    ∃ s', s.bind x k = .ok s' ∧ Good s' ∧ s'.next = s.next ∧ s'.objs = s.objs ∧ s'.frees = s.frees ∧
      s'.tasks = s.tasks ∧ s'.regs = s.regs ∧
      s'.env = (x, k) :: s.env.filter fun b => b.1 ≠ x := by
  unfold St.bind
  cases hx : s.env.lookup x with
  | none =>
    have hnot := lookup_none hx
    have hfil : (s.env.filter fun b => b.1 ≠ x) = s.env := by
      rw [List.filter_eq_self]
      intro b hb
      simp only [ne_eq, decide_not, Bool.not_eq_eq_eq_not, Bool.not_true, decide_eq_false_iff_not]
      rintro rfl
      exact hnot (List.mem_map_of_mem (f := Prod.fst) hb)
    have hh : ∀ n, Held s n ∨ n = k ↔ Held { s with env := (x, k) :: s.env } n := by
      intro n
      unfold Held
      constructor
      · rintro ((⟨y, hy⟩ | c) | rfl)
        · exact .inl ⟨y, List.mem_cons_of_mem _ hy⟩
        · exact .inr c
        · exact .inl ⟨x, List.mem_cons_self⟩
      · rintro (⟨y, hy⟩ | c)
        · rcases List.mem_cons.1 hy with e | hy
          · exact .inr (Prod.mk.inj e).2
          · exact .inl (.inl ⟨y, hy⟩)
        · exact .inl (.inr c)
    refine ⟨_, rfl, ⟨?_, fun n => (alive n).trans (hh n), fun n c => fresh n ((hh n).2 c), inner⟩,
      rfl, rfl, rfl, rfl, rfl, by rw [hfil]⟩
    simpa using ⟨by simpa using hnot, keys⟩
  | some m =>
    have hh : ∀ n, Held s n ∨ n = k ↔
        Held { s with env := (x, k) :: s.env.filter fun b => b.1 ≠ x } n ∨ n = m := by
      intro n
      unfold Held
      rw [env_drop keys hx n]
      constructor
      · rintro (((⟨y, hy⟩ | e) | c) | rfl)
        · exact .inl (.inl ⟨y, List.mem_cons_of_mem _ hy⟩)
        · exact .inr e
        · exact .inl (.inr c)
        · exact .inl (.inl ⟨x, List.mem_cons_self⟩)
      · rintro ((⟨y, hy⟩ | c) | e)
        · rcases List.mem_cons.1 hy with e | hy
          · exact .inr (Prod.mk.inj e).2
          · exact .inl (.inl (.inl ⟨y, hy⟩))
        · exact .inl (.inr c)
        · exact .inl (.inl (.inr e))
    obtain ⟨a, e, ha⟩ := release_spec (s := { s with env := (x, k) :: s.env.filter fun b => b.1 ≠ x }) (m := m)
      (fun n => (alive n).trans (hh n))
    refine ⟨_, e, ⟨?_, ha, fun n c => fresh n ((hh n).2 (.inl c)), inner⟩, rfl, rfl, rfl, rfl, rfl, rfl⟩
    have := keys_filter keys x
    rw [List.map_cons, List.nodup_cons]
    exact ⟨this.2, this.1⟩

/-! ### Going through an object -/

theorem touch_cases (s : St) (k o : ℕ) : s.touch k o = .ok () ∨ s.touch k o = .ub := by
  induction k generalizing o with
  | zero => exact .inr rfl
  | succ k ih =>
    rw [St.touch]
    split_ifs
    · cases (s.objs o).inner with
      | none => exact .inl rfl
      | some i => exact ih i
    · exact .inr rfl

theorem touch_iff {s : St} (h : Good s) {k o : ℕ} (hk : o < k) :
    s.touch k o = .ok () ↔ ∀ p, Reach s o p → Held s p := by
  induction k generalizing o with
  | zero => omega
  | succ k ih =>
    rw [St.touch]
    by_cases ha : (s.alive o && (s.objs o).shapes.all s.alive) = true
    · rw [if_pos ha]
      rw [Bool.and_eq_true, List.all_eq_true] at ha
      have h1 := (h.alive o).1 ha.1
      have h2 : ∀ p ∈ (s.objs o).shapes, Held s p := fun p hp => (h.alive p).1 (ha.2 p hp)
      cases hi : (s.objs o).inner with
      | none =>
        refine ⟨fun _ p hp => ?_, fun _ => rfl⟩
        cases hp with
        | self => exact h1
        | shape hp => exact h2 _ hp
        | inner e _ => rw [hi] at e; cases e
      | some i =>
        have hio := h.inner o i hi
        refine (ih (o := i) (by omega)).trans ⟨fun H p hp => ?_, fun H p hp => H p (.inner hi hp)⟩
        cases hp with
        | self => exact h1
        | shape hp => exact h2 _ hp
        | inner e hp => rw [hi] at e; exact H p (Option.some.inj e ▸ hp)
    · rw [if_neg ha]
      refine ⟨fun e => (by cases e), fun H => absurd ?_ ha⟩
      rw [Bool.and_eq_true, List.all_eq_true]
      exact ⟨(h.alive o).2 (H o (.self o)), fun p hp => (h.alive p).2 (H p (.shape hp))⟩

theorem touchAll_iff {s : St} (h : Good s) (l : List ℕ) :
    (forEach l (fun o _ => s.touch s.next o) () = .ok () ↔ ∀ o ∈ l, ∀ p, Reach s o p → Held s p) ∧
      (forEach l (fun o _ => s.touch s.next o) () = .ok () ∨
        forEach l (fun o _ => s.touch s.next o) () = .ub) := by
  induction l with
  | nil => simp [forEach]
  | cons o t ih =>
    have key : s.touch s.next o = .ok () ↔ ∀ p, Reach s o p → Held s p := by
      by_cases ho : o < s.next
      · exact touch_iff h ho
      · have hn : ¬ Held s o := fun c => ho (h.fresh o c)
        refine ⟨fun e => ?_, fun H => absurd (H o (.self o)) hn⟩
        have ha : s.alive o = false := by
          rw [← Bool.not_eq_true]
          exact fun c => hn ((h.alive o).1 c)
        cases hk : s.next with
        | zero => rw [hk] at e; cases e
        | succ k => rw [hk, St.touch, if_neg (by simp [ha])] at e; cases e
    simp only [forEach]
    rcases touch_cases s s.next o with e | e
    · rw [e, Out.ok_bind]
      refine ⟨ih.1.trans ⟨fun H q hq => ?_, fun H q hq => H q (List.mem_cons_of_mem _ hq)⟩, ih.2⟩
      rcases List.mem_cons.1 hq with rfl | hq
      · exact key.1 e
      · exact H q hq
    · rw [e, Out.ub_bind]
      refine ⟨⟨fun c => (by cases c), fun H => ?_⟩, .inr rfl⟩
      rw [key.2 (H o List.mem_cons_self)] at e
      cases e

/-! ### One statement -/

theorem lookup_held {s : St} (h : Good s) {x n : ℕ} (e : s.lookup x = .ok n) : (x, n) ∈ s.env := by
  unfold St.lookup at e
  cases hx : s.env.lookup x with
  | none => rw [hx] at e; cases e
  | some m =>
    rw [hx] at e
    cases e
    exact (lookup_iff h.keys).1 hx

theorem lookup_ne_ub (s : St) (x : ℕ) : s.lookup x ≠ .ub := by
  unfold St.lookup
  cases s.env.lookup x <;> simp

/-- Changing what the objects point to, without a new high-level task, and the registries. -/
theorem Good.change {s : St} (h : Good s) {objs : ℕ → CppObj} {tasks : List ℕ} {regs : Regs ℕ}
    (ho : ∀ n, (objs n).inner = (s.objs n).inner) :
    Good { s with objs := objs, tasks := tasks, regs := regs } :=
  ⟨h.keys, h.alive, h.fresh, fun n i e => h.inner n i (by rw [← ho n]; exact e)⟩

theorem make_spec {s : St} (h : Good s) (x : ℕ) (i : Option ℕ) (hi : ∀ n, i = some n → n < s.next) (fr : Bool) :
    ∃ s', St.bind { s with
        next := s.next + 1
        frees := fun m => if m = s.next then fr else s.frees m
        alive := fun m => if m = s.next then true else s.alive m
        objs := fun m => if m = s.next then ⟨i, []⟩ else s.objs m } x s.next = .ok s' ∧ Good s' ∧
      s'.next = s.next + 1 ∧ s'.env = (x, s.next) :: s.env.filter fun b => b.1 ≠ x := by
  have hold : ∀ n, n ≠ s.next → (Held { s with
        next := s.next + 1
        frees := fun m => if m = s.next then fr else s.frees m
        alive := fun m => if m = s.next then true else s.alive m
        objs := fun m => if m = s.next then ⟨i, []⟩ else s.objs m } n ↔ Held s n) := by
    intro n e
    simp [Held, e]
  obtain ⟨s', e, g, hn, _, _, _, _, he⟩ := bind_spec (s := { s with
        next := s.next + 1
        frees := fun m => if m = s.next then fr else s.frees m
        alive := fun m => if m = s.next then true else s.alive m
        objs := fun m => if m = s.next then ⟨i, []⟩ else s.objs m }) (x := x) (k := s.next) h.keys
    (fun n => by
      by_cases e : n = s.next
      · simp [e]
      · rw [hold n e, or_iff_left e]
        simp only [e, if_false]
        exact h.alive n)
    (fun n c => by
      by_cases e : n = s.next
      · show n < s.next + 1
        omega
      · have := h.fresh n ((hold n e).1 (c.resolve_right e))
        show n < s.next + 1
        omega)
    (fun n j => by
      by_cases e : n = s.next
      · subst e
        simp only [if_true]
        exact hi j
      · simp only [e, if_false]
        exact h.inner n j)
  exact ⟨s', e, g, hn, he⟩

/-- Every statement that ends keeps the invariant. -/
theorem run_good {parts : ℕ → List Part} {op : Op} {s s' : St} (h : Good s) (e : op.run parts s = .ok s') :
    Good s' := by
  cases op with
  | make x inner fr =>
    simp only [Op.run] at e
    cases inner with
    | none =>
      obtain ⟨t, e', g, _⟩ := make_spec h x none (by simp) fr
      rw [Out.ok_bind, e'] at e
      cases e
      exact g
    | some y =>
      simp only [Out.bind_eq_ok] at e
      obtain ⟨j, ⟨n, hn, u, hu, hj⟩, e⟩ := e
      cases hj
      obtain ⟨t, e', g, _⟩ := make_spec h x (some n)
        (fun m hm => by cases hm; exact h.fresh _ (.inl ⟨y, lookup_held h hn⟩)) fr
      rw [e'] at e
      cases e
      exact g
  | assign x y =>
    simp only [Op.run, Out.bind_eq_ok] at e
    obtain ⟨n, hn, e⟩ := e
    have hh : Held s n := .inl ⟨y, lookup_held h hn⟩
    have hq : ∀ m, Held s m ∨ m = n ↔ Held s m := fun m => ⟨fun c => c.elim id fun e => e ▸ hh, .inl⟩
    obtain ⟨t, e', g, _⟩ := bind_spec (x := x) (k := n) h.keys (fun m => (h.alive m).trans (hq m).symm)
      (fun m c => h.fresh m ((hq m).1 c)) h.inner
    rw [e'] at e
    cases e
    exact g
  | del x =>
    simp only [Op.run, Out.bind_eq_ok] at e
    obtain ⟨_, _, e⟩ := e
    obtain ⟨t, e', g, _⟩ := unbind_spec h x
    rw [e'] at e
    cases e
    exact g
  | addCollision x y z =>
    simp only [Op.run, Out.bind_eq_ok] at e
    obtain ⟨n, _, a, _, b, _, e⟩ := e
    cases e
    exact h.change fun m => by by_cases c : m = n <;> simp [c]
  | rmCollision x i =>
    simp only [Op.run, Out.bind_eq_ok] at e
    obtain ⟨n, _, e⟩ := e
    cases e
    exact h.change fun m => by by_cases c : m = n <;> simp [c]
  | addTask x =>
    simp only [Op.run, Out.bind_eq_ok] at e
    obtain ⟨n, _, e⟩ := e
    cases e
    exact h.change fun m => rfl
  | removeTask x =>
    simp only [Op.run, Out.bind_eq_ok] at e
    obtain ⟨n, _, e⟩ := e
    cases e
    exact h.change fun m => rfl
  | resetTasks =>
    cases e
    exact h.change fun m => rfl
  | addConstr x =>
    simp only [Op.run, Out.bind_eq_ok] at e
    obtain ⟨n, _, e⟩ := e
    cases e
    exact h.change fun m => rfl
  | removeConstr x =>
    simp only [Op.run, Out.bind_eq_ok] at e
    obtain ⟨n, _, r, _, e⟩ := e
    cases e
    exact h.change fun m => rfl
  | call x =>
    simp only [Op.run, Out.bind_eq_ok] at e
    obtain ⟨n, _, _, _, e⟩ := e
    cases e
    exact h
  | solve =>
    simp only [Op.run, Out.bind_eq_ok] at e
    obtain ⟨_, _, e⟩ := e
    cases e
    exact h

theorem init_good : Good St.init := by
  constructor <;> simp [St.init, Held]

theorem runOps_good {parts : ℕ → List Part} {ops : List Op} {s : St} (e : runOps parts ops St.init = .ok s) :
    Good s :=
  forEach_inv Good init_good (fun _ _ _ _ h e => run_good h e) e

/-! ### The theorems -/

/-- At every point of every program, the C++ objects that exist are those whose wrapper a variable refers to,
and those of the classes that never delete them. -/
theorem C109_alive {parts : ℕ → List Part} {ops : List Op} {s : St} (e : runOps parts ops St.init = .ok s)
    (n : ℕ) : s.alive n = true ↔ Held s n :=
  (runOps_good e).alive n

/-- After every program, a call of the solver is defined exactly when everything registered, everything it was
built on and every shape is still held by the program; the solver holds nothing itself. -/
theorem C109_solve {parts : ℕ → List Part} {ops : List Op} {s : St} (e : runOps parts ops St.init = .ok s) :
    (Kept s → Op.solve.run parts s = .ok s) ∧ (¬ Kept s → Op.solve.run parts s = .ub) := by
  obtain ⟨h1, h2⟩ := touchAll_iff (runOps_good e) s.registered
  refine ⟨fun k => ?_, fun k => ?_⟩
  · simp only [Op.run, h1.2 k, Out.ok_bind]
    rfl
  · rcases h2 with c | c
    · exact absurd (h1.1 c) k
    · simp only [Op.run, c, Out.ub_bind]

/-- The same for a call on the object of one variable. -/
theorem C109_call {parts : ℕ → List Part} {ops : List Op} {s : St} (e : runOps parts ops St.init = .ok s)
    {x n : ℕ} (hx : (x, n) ∈ s.env) :
    ((∀ p, Reach s n p → Held s p) → (Op.call x).run parts s = .ok s) ∧
      ((¬ ∀ p, Reach s n p → Held s p) → (Op.call x).run parts s = .ub) := by
  have g := runOps_good e
  have hl : s.lookup x = .ok n := by
    unfold St.lookup
    rw [(lookup_iff g.keys).2 hx]
  have ht := touch_iff g (g.fresh n (.inl ⟨x, hx⟩))
  refine ⟨fun H => ?_, fun H => ?_⟩
  · simp only [Op.run, hl, Out.ok_bind, ht.2 H]
    rfl
  · rcases touch_cases s s.next n with c | c
    · exact absurd (ht.1 c) H
    · simp only [Op.run, hl, Out.ok_bind, c, Out.ub_bind]

/-- No program deletes an object twice: dropping or assigning a variable is always defined. -/
theorem C109_no_double_delete {parts : ℕ → List Part} {ops : List Op} {s : St}
    (e : runOps parts ops St.init = .ok s) (x y : ℕ) :
    (Op.del x).run parts s ≠ .ub ∧ (Op.assign x y).run parts s ≠ .ub := by
  have h := runOps_good e
  constructor
  · obtain ⟨t, e', _⟩ := unbind_spec h x
    simp only [Op.run]
    cases hx : s.lookup x with
    | ok n => simp [e']
    | ub => exact absurd hx (lookup_ne_ub s x)
    | throws => simp
  · simp only [Op.run]
    cases hy : s.lookup y with
    | ok n =>
      have hh : Held s n := .inl ⟨y, lookup_held h hy⟩
      have hq : ∀ m, Held s m ∨ m = n ↔ Held s m := fun m => ⟨fun c => c.elim id fun e => e ▸ hh, .inl⟩
      obtain ⟨t, e', _⟩ := bind_spec (x := x) (k := n) h.keys (fun m => (h.alive m).trans (hq m).symm)
        (fun m c => h.fresh m ((hq m).1 c)) h.inner
      simp [e']
    | ub => exact absurd hy (lookup_ne_ub s y)
    | throws => simp

/-! ### Programs that keep everything -/

/-- Nothing points to an object that was never made. -/
structure Known (s : St) : Prop where
  shapes : ∀ n, ∀ p ∈ (s.objs n).shapes, p < s.next
  tasks : ∀ o ∈ s.tasks, o < s.next
  constr : ∀ o ∈ s.regs.constr, o < s.next
  rows : ∀ q, ∀ o ∈ s.regs.rows q, o < s.next

theorem Known.registered {s : St} (h : Known s) {o : ℕ} (ho : o ∈ s.registered) : o < s.next := by
  simp only [St.registered, List.mem_append] at ho
  rcases ho with ((((c | c) | c) | c) | c) | c
  · exact h.tasks o c
  · exact h.constr o c
  all_goals exact h.rows _ o c

theorem reach_lt {s : St} (g : Good s) (h : Known s) {o p : ℕ} (r : Reach s o p) (ho : o < s.next) :
    p < s.next := by
  induction r with
  | self => exact ho
  | shape hp => exact h.shapes _ _ hp
  | inner e _ ih => exact ih (lt_trans (g.inner _ _ e) ho)

/-- Every object made is held. -/
def AllHeld (s : St) : Prop := ∀ n, n < s.next → Held s n

/-- The variable a statement assigns. -/
def Op.target : Op → List ℕ
  | .make x _ _ => [x]
  | .assign x _ => [x]
  | _ => []

theorem targets_cons (op : Op) (t : List Op) : targets (op :: t) = op.target ++ targets t := by
  cases op <;> rfl

theorem touch_all {s : St} (g : Good s) (k : Known s) (a : AllHeld s) {o : ℕ} (ho : o < s.next) :
    s.touch s.next o = .ok () :=
  (touch_iff g ho).2 fun _ r => a _ (reach_lt g k r ho)

/-- What a statement of a program that keeps everything does. -/
def StepKeeps (parts : ℕ → List Part) (op : Op) (s : St) : Prop :=
  (∃ s', op.run parts s = .ok s' ∧ Known s' ∧ AllHeld s' ∧
      ∀ y ∈ s'.env.map Prod.fst, y ∈ op.target ∨ y ∈ s.env.map Prod.fst) ∨
    (∃ e, op.run parts s = .throws e) ∨
    ∃ x n, op = .removeConstr x ∧ (x, n) ∈ s.env ∧ removeFromSolver parts s.regs n = .ub

theorem bind_keeps {s : St} {x k : ℕ} (keys : (s.env.map Prod.fst).Nodup)
    (alive : ∀ n, s.alive n = true ↔ Held s n ∨ n = k) (fresh : ∀ n, Held s n ∨ n = k → n < s.next)
    (inner : ∀ n i, (s.objs n).inner = some i → i < n) (hk : Known s) (a : ∀ n < s.next, Held s n ∨ n = k)
    (hx : x ∉ s.env.map Prod.fst) :
    ∃ s', s.bind x k = .ok s' ∧ Known s' ∧ AllHeld s' ∧
      ∀ y ∈ s'.env.map Prod.fst, y ∈ [x] ∨ y ∈ s.env.map Prod.fst := by
  have hfil : (s.env.filter fun b => b.1 ≠ x) = s.env := by
    rw [List.filter_eq_self]
    intro b hb
    simp only [ne_eq, decide_not, Bool.not_eq_eq_eq_not, Bool.not_true, decide_eq_false_iff_not]
    rintro rfl
    exact hx (List.mem_map_of_mem (f := Prod.fst) hb)
  obtain ⟨s', e, _, hn, ho, hf, ht, hr, he⟩ := bind_spec (x := x) keys alive fresh inner
  rw [hfil] at he
  refine ⟨s', e, ⟨?_, ?_, ?_, ?_⟩, fun n hn' => ?_, fun y hy => ?_⟩
  · rw [hn, ho]; exact hk.shapes
  · rw [hn, ht]; exact hk.tasks
  · rw [hn, hr]; exact hk.constr
  · rw [hn, hr]; exact hk.rows
  · unfold Held
    rw [hf, he]
    rcases a n (hn ▸ hn') with (⟨y, c⟩ | c) | c
    · exact .inl ⟨y, List.mem_cons_of_mem _ c⟩
    · exact .inr c
    · exact .inl ⟨x, c ▸ List.mem_cons_self⟩
  · rw [he, List.map_cons, List.mem_cons] at hy
    simpa using hy

theorem make_keeps {s : St} (g : Good s) (k : Known s) (a : AllHeld s) {x : ℕ} (hx : x ∉ s.env.map Prod.fst)
    (i : Option ℕ) (hi : ∀ n, i = some n → n < s.next) (fr : Bool) :
    ∃ s', St.bind { s with
        next := s.next + 1
        frees := fun m => if m = s.next then fr else s.frees m
        alive := fun m => if m = s.next then true else s.alive m
        objs := fun m => if m = s.next then ⟨i, []⟩ else s.objs m } x s.next = .ok s' ∧ Known s' ∧ AllHeld s' ∧
      ∀ y ∈ s'.env.map Prod.fst, y ∈ [x] ∨ y ∈ s.env.map Prod.fst := by
  have hold : ∀ n, n ≠ s.next → (Held { s with
        next := s.next + 1
        frees := fun m => if m = s.next then fr else s.frees m
        alive := fun m => if m = s.next then true else s.alive m
        objs := fun m => if m = s.next then ⟨i, []⟩ else s.objs m } n ↔ Held s n) := by
    intro n e
    simp [Held, e]
  refine bind_keeps (s := { s with
        next := s.next + 1
        frees := fun m => if m = s.next then fr else s.frees m
        alive := fun m => if m = s.next then true else s.alive m
        objs := fun m => if m = s.next then ⟨i, []⟩ else s.objs m }) (x := x) (k := s.next) g.keys
    (fun n => ?_) (fun n c => ?_) (fun n j => ?_) ⟨fun n p hp => ?_, fun o ho => Nat.lt_succ_of_lt (k.tasks o ho),
      fun o ho => Nat.lt_succ_of_lt (k.constr o ho), fun q o ho => Nat.lt_succ_of_lt (k.rows q o ho)⟩
    (fun n hn => ?_) hx
  · by_cases e : n = s.next
    · simp [e]
    · rw [hold n e, or_iff_left e]
      simp only [e, if_false]
      exact g.alive n
  · show n < s.next + 1
    by_cases e : n = s.next
    · omega
    · have := g.fresh n ((hold n e).1 (c.resolve_right e))
      omega
  · by_cases e : n = s.next
    · subst e
      simp only [if_true]
      exact hi j
    · simp only [e, if_false]
      exact g.inner n j
  · show p < s.next + 1
    by_cases e : n = s.next
    · simp [e] at hp
    · simp only [e, if_false] at hp
      exact Nat.lt_succ_of_lt (k.shapes n p hp)
  · by_cases e : n = s.next
    · exact .inr e
    · refine .inl ((hold n e).2 (a n ?_))
      have : n < s.next + 1 := hn
      omega

theorem step_keeps {parts : ℕ → List Part} {op : Op} {s : St} (g : Good s) (k : Known s) (a : AllHeld s)
    (hd : ∀ x, op ≠ .del x) (ht : ∀ x ∈ op.target, x ∉ s.env.map Prod.fst) : StepKeeps parts op s := by
  have hlook : ∀ x, (∃ n, s.lookup x = .ok n ∧ (x, n) ∈ s.env ∧ n < s.next) ∨ ∃ e, s.lookup x = .throws e := by
    intro x
    cases e : s.lookup x with
    | ok n => exact .inl ⟨n, rfl, lookup_held g e, g.fresh n (.inl ⟨x, lookup_held g e⟩)⟩
    | ub => exact absurd e (lookup_ne_ub s x)
    | throws e' => exact .inr ⟨e', rfl⟩
  unfold StepKeeps
  cases op with
  | make x inner fr =>
    simp only [Op.run]
    cases inner with
    | none =>
      rw [Out.ok_bind]
      exact .inl (make_keeps g k a (ht x (by simp [Op.target])) none (by simp) fr)
    | some y =>
      rcases hlook y with ⟨n, e, _, hn⟩ | ⟨e', e⟩
      · simp only [e, Out.ok_bind, touch_all g k a hn]
        exact .inl (make_keeps g k a (ht x (by simp [Op.target])) (some n)
          (fun m hm => by cases hm; exact hn) fr)
      · exact .inr (.inl ⟨e', by simp only [e, Out.throws_bind]⟩)
  | assign x y =>
    simp only [Op.run]
    rcases hlook y with ⟨n, e, hm, hn⟩ | ⟨e', e⟩
    · rw [e, Out.ok_bind]
      have hh : Held s n := .inl ⟨y, hm⟩
      have hq : ∀ m, Held s m ∨ m = n ↔ Held s m := fun m => ⟨fun c => c.elim id fun e => e ▸ hh, .inl⟩
      exact .inl (bind_keeps g.keys (fun m => (g.alive m).trans (hq m).symm)
        (fun m c => g.fresh m ((hq m).1 c)) g.inner k (fun m hm => .inl (a m hm)) (ht x (by simp [Op.target])))
    · exact .inr (.inl ⟨e', by rw [e, Out.throws_bind]⟩)
  | del x => exact absurd rfl (hd x)
  | addCollision x y z =>
    simp only [Op.run]
    rcases hlook x with ⟨n, e, _, _⟩ | ⟨e', e⟩
    · rcases hlook y with ⟨b, e2, _, hb⟩ | ⟨e', e2⟩
      · rcases hlook z with ⟨c, e3, _, hc⟩ | ⟨e', e3⟩
        · simp only [e, e2, e3, Out.ok_bind]
          refine .inl ⟨_, rfl, ⟨fun m p hp => ?_, k.tasks, k.constr, k.rows⟩, a, fun w hw => .inr hw⟩
          show p < s.next
          by_cases hm : m = n
          · simp only [hm, if_true, List.mem_append, List.mem_cons, List.not_mem_nil, or_false] at hp
            rcases hp with hp | rfl | rfl
            · exact k.shapes n p hp
            · exact hb
            · exact hc
          · simp only [hm, if_false] at hp
            exact k.shapes m p hp
        · exact .inr (.inl ⟨e', by simp only [e, e2, e3, Out.ok_bind, Out.throws_bind]⟩)
      · exact .inr (.inl ⟨e', by simp only [e, e2, Out.ok_bind, Out.throws_bind]⟩)
    · exact .inr (.inl ⟨e', by simp only [e, Out.throws_bind]⟩)
  | rmCollision x i =>
    simp only [Op.run]
    rcases hlook x with ⟨n, e, _, _⟩ | ⟨e', e⟩
    · simp only [e, Out.ok_bind]
      refine .inl ⟨_, rfl, ⟨fun m p hp => ?_, k.tasks, k.constr, k.rows⟩, a, fun w hw => .inr hw⟩
      show p < s.next
      by_cases hm : m = n
      · simp only [hm, if_true, List.mem_append] at hp
        rcases hp with hp | hp
        · exact k.shapes n p (List.mem_of_mem_take hp)
        · exact k.shapes n p (List.mem_of_mem_drop hp)
      · simp only [hm, if_false] at hp
        exact k.shapes m p hp
    · exact .inr (.inl ⟨e', by simp only [e, Out.throws_bind]⟩)
  | addTask x =>
    simp only [Op.run]
    rcases hlook x with ⟨n, e, _, hn⟩ | ⟨e', e⟩
    · simp only [e, Out.ok_bind]
      refine .inl ⟨_, rfl, ⟨k.shapes, fun o ho => ?_, k.constr, k.rows⟩, a, fun w hw => .inr hw⟩
      rcases mem_regAdd ho with rfl | ho
      · exact hn
      · exact k.tasks o ho
    · exact .inr (.inl ⟨e', by simp only [e, Out.throws_bind]⟩)
  | removeTask x =>
    simp only [Op.run]
    rcases hlook x with ⟨n, e, _, _⟩ | ⟨e', e⟩
    · simp only [e, Out.ok_bind]
      exact .inl ⟨_, rfl, ⟨k.shapes, fun o ho => k.tasks o (mem_regRemove ho), k.constr, k.rows⟩, a,
        fun w hw => .inr hw⟩
    · exact .inr (.inl ⟨e', by simp only [e, Out.throws_bind]⟩)
  | resetTasks =>
    exact .inl ⟨_, rfl, ⟨k.shapes, fun o ho => (by cases ho), k.constr, k.rows⟩, a, fun w hw => .inr hw⟩
  | addConstr x =>
    simp only [Op.run]
    rcases hlook x with ⟨n, e, _, hn⟩ | ⟨e', e⟩
    · simp only [e, Out.ok_bind]
      refine .inl ⟨_, rfl, ⟨k.shapes, k.tasks, fun o ho => ?_, fun q o ho => ?_⟩, a, fun w hw => .inr hw⟩
      · have ho' : o ∈ regAdd s.regs.constr n := by rw [← addToSolver_constr parts]; exact ho
        rcases mem_regAdd ho' with rfl | ho
        · exact hn
        · exact k.constr o ho
      · have ho' : o ∈ s.regs.rows q ++ List.replicate ((parts n).count q) n := by
          rw [← addToSolver_rows]; exact ho
        rcases List.mem_append.1 ho' with ho | ho
        · exact k.rows q o ho
        · rw [(List.mem_replicate.1 ho).2]
          exact hn
    · exact .inr (.inl ⟨e', by simp only [e, Out.throws_bind]⟩)
  | removeConstr x =>
    simp only [Op.run]
    rcases hlook x with ⟨n, e, hm, _⟩ | ⟨e', e⟩
    · simp only [e, Out.ok_bind]
      cases hr : removeFromSolver parts s.regs n with
      | ok r =>
        obtain ⟨h1, h2⟩ := removeFrom_sub hr
        exact .inl ⟨_, rfl, ⟨k.shapes, k.tasks, fun o ho => k.constr o (h1 o ho),
          fun q o ho => k.rows q o (h2 q o ho)⟩, a, fun w hw => .inr hw⟩
      | ub => exact .inr (.inr ⟨x, n, rfl, hm, hr⟩)
      | throws e' => exact .inr (.inl ⟨e', rfl⟩)
    · exact .inr (.inl ⟨e', by simp only [e, Out.throws_bind]⟩)
  | call x =>
    simp only [Op.run]
    rcases hlook x with ⟨n, e, _, hn⟩ | ⟨e', e⟩
    · simp only [e, Out.ok_bind, touch_all g k a hn]
      exact .inl ⟨s, rfl, k, a, fun w hw => .inr hw⟩
    · exact .inr (.inl ⟨e', by simp only [e, Out.throws_bind]⟩)
  | solve =>
    have := (touchAll_iff g s.registered).1.2 fun o ho p r => a p (reach_lt g k r (k.registered ho))
    simp only [Op.run, this, Out.ok_bind]
    exact .inl ⟨s, rfl, k, a, fun w hw => .inr hw⟩

theorem keeps_aux {parts : ℕ → List Part} (ops : List Op) {s : St} (g : Good s) (k : Known s) (a : AllHeld s)
    (hd : ∀ x, Op.del x ∉ ops) (hn : (targets ops).Nodup) (ht : ∀ x ∈ targets ops, x ∉ s.env.map Prod.fst)
    (hub : runOps parts ops s = .ub) :
    ∃ pre x post s' n, ops = pre ++ .removeConstr x :: post ∧ runOps parts pre s = .ok s' ∧ (x, n) ∈ s'.env ∧
      removeFromSolver parts s'.regs n = .ub := by
  induction ops generalizing s with
  | nil => cases hub
  | cons op t ih =>
    rw [targets_cons] at hn ht
    have hstep := step_keeps (parts := parts) (op := op) g k a
      (fun x e => hd x (e ▸ List.mem_cons_self)) (fun x hx => ht x (List.mem_append_left _ hx))
    rcases hstep with ⟨s1, e, k1, a1, he⟩ | ⟨x, e⟩ | ⟨x, n, rfl, hx, e⟩
    · have hub' : runOps parts t s1 = .ub := by
        simpa only [runOps, forEach, e, Out.ok_bind] using hub
      obtain ⟨pre, x, post, s', n, h1, h2, h3⟩ := ih (run_good g e) k1 a1
        (fun x hx => hd x (List.mem_cons_of_mem _ hx)) (List.nodup_append.1 hn).2.1
        (fun x hx c => by
          rcases he x c with c | c
          · exact (List.nodup_append.1 hn).2.2 x c x hx rfl
          · exact ht x (List.mem_append_right _ hx) c) hub'
      exact ⟨op :: pre, x, post, s', n, by rw [h1]; rfl, by
        simpa only [runOps, forEach, e, Out.ok_bind] using h2, h3⟩
    · simp [runOps, forEach, e] at hub
    · exact ⟨[], x, t, s, n, rfl, rfl, hx, e⟩

/-- A program that assigns every variable once and deletes none is defined, except that removing a constraint
that is not registered is not. -/
theorem C109_keeps {parts : ℕ → List Part} {ops : List Op} (h : Keeps ops)
    (hub : runOps parts ops St.init = .ub) :
    ∃ pre x post s n, ops = pre ++ .removeConstr x :: post ∧ runOps parts pre St.init = .ok s ∧ (x, n) ∈ s.env ∧
      removeFromSolver parts s.regs n = .ub :=
  keeps_aux ops init_good
    ⟨fun n p hp => (by simp [St.init] at hp), fun o ho => (by cases ho), fun o ho => (by cases ho),
      fun q o ho => (by cases ho)⟩
    (fun n hn => by simp [St.init] at hn) h.2 h.1 (fun x _ => by simp [St.init]) hub

/-- What the statements that change a collision constraint or the lists of the solver do, and that they do nothing
else: the shapes of an object are the pairs of its collisions in order, a new pair goes to the end, a removed one
leaves the others as they were. -/
theorem C109_shapes {parts : ℕ → List Part} {s : St} {x y z n a b : ℕ} (hx : s.lookup x = .ok n)
    (hy : s.lookup y = .ok a) (hz : s.lookup z = .ok b) {ps : List (ℕ × ℕ)}
    (hp : (s.objs n).shapes = ps.flatMap fun p => [p.1, p.2]) :
    (Op.addCollision x y z).run parts s = .ok { s with
      objs := Function.update s.objs n ⟨(s.objs n).inner, (ps ++ [(a, b)]).flatMap fun p => [p.1, p.2]⟩ } ∧
    ∀ i, (Op.rmCollision x i).run parts s = .ok { s with
      objs := Function.update s.objs n ⟨(s.objs n).inner, (ps.eraseIdx i).flatMap fun p => [p.1, p.2]⟩ } := by
  have h2 : ∀ (ps : List (ℕ × ℕ)) (i : ℕ),
      (ps.flatMap fun p => [p.1, p.2]).take (2 * i) ++ (ps.flatMap fun p => [p.1, p.2]).drop (2 * i + 2)
        = (ps.eraseIdx i).flatMap fun p => [p.1, p.2] := by
    intro ps
    induction ps with
    | nil => intro i; simp
    | cons p t ih =>
      intro i
      cases i with
      | zero => simp
      | succ i =>
        have := ih i
        simp only [List.flatMap_cons, List.eraseIdx_cons_succ, Nat.mul_add, Nat.mul_one,
          List.cons_append, List.nil_append, List.take_succ_cons, List.drop_succ_cons, this]
  refine ⟨?_, fun i => ?_⟩
  · simp only [Op.run, hx, hy, hz, Out.ok_bind, hp]
    congr 2
    funext m
    by_cases h : m = n <;> simp [Function.update, h]
  · simp only [Op.run, hx, Out.ok_bind, hp, h2]
    congr 2
    funext m
    by_cases h : m = n <;> simp [Function.update, h]

/-! ### Examples: ordinary programs that are undefined -/

namespace PyLifeEx

/-- Every constraint has inequality rows. -/
def parts : ℕ → List Part := fun _ => [.inEq]

/-- Observable part of the result: what exists among the first five objects. -/
def objects (r : Out St) : Out (List Bool) := (fun s => (List.range 5).map s.alive) <$> r

/-- The objects are kept: fine. -/
example : objects (runOps parts [.make 0 none true, .make 1 (some 0) true, .addTask 1, .solve] St.init)
    = .ok [true, true, false, false, false] := by decide

/-- `solver.addTask(SetPointTask(mbs, 0, PositionTask(...), 1, 1))` followed by `solver.solve(mbs, mbcs)`: the two
temporaries are gone (100, 101 are the temporaries). -/
theorem C109_temporary_ub :
    objects (runOps parts [.make 100 none true, .make 101 (some 100) true, .addTask 101, .del 101, .del 100,
      .solve] St.init) = .ub := by decide

/-- The task is kept, the high-level task it was built on is not. -/
theorem C109_highLevel_ub :
    objects (runOps parts [.make 100 none true, .make 1 (some 100) true, .del 100, .addTask 1, .solve] St.init)
      = .ub := by decide

/-- Without the call of the solver the same program is defined, and only the second object exists. -/
example : objects (runOps parts [.make 100 none true, .make 1 (some 100) true, .del 100, .addTask 1] St.init)
    = .ok [false, true, false, false, false] := by decide

/-- Assigning a new task to the same variable deletes the one the solver uses. -/
theorem C109_rebound_ub :
    objects (runOps parts [.make 0 none true, .make 1 (some 0) true, .addTask 1, .make 1 (some 0) true, .addTask 1,
      .solve] St.init) = .ub := by decide

/-- A shape of a collision is not kept. -/
theorem C109_shape_ub :
    objects (runOps parts [.make 0 none true, .make 100 none true, .make 2 none true, .addCollision 0 100 2,
      .addConstr 0, .del 100, .solve] St.init) = .ub := by decide

/-- Removing the collision first is fine. -/
example : objects (runOps parts [.make 0 none true, .make 100 none true, .make 2 none true, .addCollision 0 100 2,
    .addConstr 0, .rmCollision 0 0, .del 100, .solve] St.init) = .ok [true, false, true, false, false] := by decide

/-- An object of a class that does not delete it stays for ever, and the solver can use it. -/
theorem C109_leak :
    objects (runOps parts [.make 0 none false, .addConstr 0, .del 0, .solve] St.init)
      = .ok [true, false, false, false, false] := by decide

/-- Two names, one dropped. -/
example : objects (runOps parts [.make 0 none true, .assign 1 0, .del 0, .addTask 1, .solve] St.init)
    = .ok [true, false, false, false, false] := by decide

end PyLifeEx

end Verif.PyLife
