import Verif.Proofs.Registry

/-!
# C03, C04: registries
-/

set_option autoImplicit false

namespace Verif

variable {Ob : Type} [DecidableEq Ob]

namespace Spec

/-- Call number `i` of history `h` added `a`, and `a` was neither removed nor reset since. -/
def LiveAdd (h : List (RegOp Ob)) (i : ℕ) (a : Ob) : Prop :=
  h[i]? = some (.add a) ∧ ∀ j, i < j → h[j]? ≠ some (.remove a) ∧ h[j]? ≠ some .reset

/-- Call number `i` is the one that inserted `a`: the first live addition. -/
def Inserted (h : List (RegOp Ob)) (i : ℕ) (a : Ob) : Prop :=
  LiveAdd h i a ∧ ∀ k < i, ¬ LiveAdd h k a

/-- Some call of the history added the object and no later one removed it. -/
def Registered (h : List (FunOp Ob)) (o : Ob) : Prop :=
  ∃ i : ℕ, h[i]? = some (.add o) ∧ ∀ j : ℕ, i < j → h[j]? ≠ some (.remove o)

/-- Every call of the history is made at the right time: add when absent, remove when present. -/
def Alternating (h : List (FunOp Ob)) : Prop :=
  ∀ pre op post, h = pre ++ op :: post →
    match op with
    | .add o => ¬ Registered pre o
    | .remove o => Registered pre o

end Spec

open Spec

/-! ## C03 -/

theorem liveAdd_lt {h : List (RegOp Ob)} {i : ℕ} {a : Ob} (hl : LiveAdd h i a) : i < h.length := by
  by_contra hc
  have := hl.1
  rw [List.getElem?_eq_none (not_lt.mp hc)] at this
  cases this

theorem liveAdd_append_lt (h : List (RegOp Ob)) (op : RegOp Ob) (i : ℕ) (a : Ob)
    (hi : i < h.length) :
    LiveAdd (h ++ [op]) i a ↔ LiveAdd h i a ∧ op ≠ .remove a ∧ op ≠ .reset := by
  unfold LiveAdd
  rw [List.getElem?_append_left hi]
  constructor
  · rintro ⟨h1, h2⟩
    refine ⟨⟨h1, fun j hj => ?_⟩, ?_⟩
    · by_cases hjl : j < h.length
      · have := h2 j hj
        rwa [List.getElem?_append_left hjl] at this
      · rw [List.getElem?_eq_none (not_lt.mp hjl)]; simp
    · have := h2 h.length hi
      simpa using this
  · rintro ⟨⟨h1, h2⟩, h3, h4⟩
    refine ⟨h1, fun j hj => ?_⟩
    by_cases hjl : j < h.length
    · rw [List.getElem?_append_left hjl]; exact h2 j hj
    · by_cases hje : j = h.length
      · subst hje; simp [h3, h4]
      · rw [List.getElem?_eq_none (by simp; omega)]; simp

theorem liveAdd_append_last (h : List (RegOp Ob)) (op : RegOp Ob) (a : Ob) :
    LiveAdd (h ++ [op]) h.length a ↔ op = .add a := by
  unfold LiveAdd
  constructor
  · rintro ⟨h1, _⟩; simpa using h1
  · rintro rfl
    refine ⟨by simp, fun j hj => ?_⟩
    rw [List.getElem?_eq_none (by simp; omega)]; simp

/-- **C03.** After any history of `add`/`remove`/`reset` calls the registry lists, without
repetition and in order of insertion, exactly the objects added and not since removed. -/
theorem C03_registry_ordered_set (h : List (RegOp Ob)) :
    (regRun h).Nodup ∧
    (∀ a, a ∈ regRun h ↔ ∃ i, LiveAdd h i a) ∧
    (regRun h).Pairwise (fun a b => ∀ i j, Inserted h i a → Inserted h j b → i < j) := by
  induction h using List.reverseRecOn with
  | nil => simp [regRun, LiveAdd]
  | append_singleton h op ih =>
    obtain ⟨nd, mem, ord⟩ := ih
    have run : regRun (h ++ [op]) = regStep (regRun h) op := by simp [regRun]
    rw [run]
    have live : ∀ i a, LiveAdd (h ++ [op]) i a ↔
        (LiveAdd h i a ∧ op ≠ .remove a ∧ op ≠ .reset) ∨ (i = h.length ∧ op = .add a) := by
      intro i a
      constructor
      · intro hl
        have hlt := liveAdd_lt hl
        simp only [List.length_append, List.length_cons, List.length_nil] at hlt
        by_cases hi : i < h.length
        · exact Or.inl ((liveAdd_append_lt h op i a hi).mp hl)
        · have : i = h.length := by omega
          subst this
          exact Or.inr ⟨rfl, (liveAdd_append_last h op a).mp hl⟩
      · rintro (⟨h1, h2⟩ | ⟨rfl, h2⟩)
        · exact (liveAdd_append_lt h op i a (liveAdd_lt h1)).mpr ⟨h1, h2⟩
        · exact (liveAdd_append_last h op a).mpr h2
    -- an object still live from before keeps its insertion index
    have keep : ∀ i a, (∃ k, LiveAdd h k a) → op ≠ .remove a → op ≠ .reset →
        Inserted (h ++ [op]) i a → Inserted h i a := by
      rintro i a ⟨k, hk⟩ hr hs ⟨hi, hfirst⟩
      have hkl := liveAdd_lt hk
      have hile : ¬ k < i := fun hlt => hfirst k hlt ((live k a).mpr (Or.inl ⟨hk, hr, hs⟩))
      have hl : i < h.length := by omega
      refine ⟨((liveAdd_append_lt h op i a hl).mp hi).1, fun m hm hm' => ?_⟩
      exact hfirst m hm ((live m a).mpr (Or.inl ⟨hm', hr, hs⟩))
    cases op with
    | add o =>
      simp only [regStep]
      refine ⟨regAdd_nodup nd o, ?_, ?_⟩
      · intro a
        simp only [live]
        constructor
        · intro ha
          unfold regAdd at ha
          split at ha
          · obtain ⟨i, hi⟩ := (mem a).mp ha
            exact ⟨i, Or.inl ⟨hi, by simp, by simp⟩⟩
          · rw [List.mem_append] at ha
            rcases ha with ha | ha
            · obtain ⟨i, hi⟩ := (mem a).mp ha
              exact ⟨i, Or.inl ⟨hi, by simp, by simp⟩⟩
            · simp only [List.mem_cons, List.not_mem_nil, or_false] at ha
              exact ⟨h.length, Or.inr ⟨rfl, by rw [ha]⟩⟩
        · rintro ⟨i, ⟨hi, _⟩ | ⟨_, hi⟩⟩
          · have := (mem a).mpr ⟨i, hi⟩
            unfold regAdd; split
            · exact this
            · simp [this]
          · simp only [RegOp.add.injEq] at hi
            subst hi
            unfold regAdd; split
            · assumption
            · simp
      · have old : (regRun h).Pairwise (fun a b => ∀ i j, Inserted (h ++ [.add o]) i a →
            Inserted (h ++ [.add o]) j b → i < j) := by
          refine ord.imp_of_mem ?_
          intro a b ha hb hab i j hi hj
          exact hab i j (keep i a ((mem a).mp ha) (by simp) (by simp) hi)
            (keep j b ((mem b).mp hb) (by simp) (by simp) hj)
        unfold regAdd
        split
        · exact old
        · rename_i ho
          rw [List.pairwise_append]
          refine ⟨old, by simp, ?_⟩
          intro a ha b hb i j hi hj
          simp only [List.mem_cons, List.not_mem_nil, or_false] at hb
          subst hb
          have h1 := keep i a ((mem a).mp ha) (by simp) (by simp) hi
          have h2 := liveAdd_lt h1.1
          have h3 : j = h.length := by
            rcases (live j b).mp hj.1 with ⟨hl, _⟩ | ⟨hl, _⟩
            · exact absurd ((mem b).mpr ⟨j, hl⟩) ho
            · exact hl
          omega
    | remove o =>
      simp only [regStep]
      have memR : ∀ a, a ∈ regRemove (regRun h) o ↔ a ∈ regRun h ∧ a ≠ o := by
        intro a
        unfold regRemove
        split
        · rw [nd.mem_erase_iff, and_comm]
        · rename_i ho
          exact ⟨fun ha => ⟨ha, fun e => ho (e ▸ ha)⟩, fun ha => ha.1⟩
      refine ⟨regRemove_nodup nd o, ?_, ?_⟩
      · intro a
        rw [memR, mem]
        simp only [live]
        constructor
        · rintro ⟨⟨i, hi⟩, hne⟩
          exact ⟨i, Or.inl ⟨hi, by simpa using fun e => hne e.symm, by simp⟩⟩
        · rintro ⟨i, ⟨hi, hne, _⟩ | ⟨_, hi⟩⟩
          · exact ⟨⟨i, hi⟩, fun e => hne (by rw [e])⟩
          · cases hi
      · have sub : (regRemove (regRun h) o).Sublist (regRun h) := by
          unfold regRemove; split
          · exact List.erase_sublist
          · exact List.Sublist.refl _
        refine (ord.sublist sub).imp_of_mem ?_
        intro a b ha hb hab i j hi hj
        have ha' := (memR a).mp ha
        have hb' := (memR b).mp hb
        exact hab i j
          (keep i a ((mem a).mp ha'.1) (by simpa using fun e => ha'.2 e.symm) (by simp) hi)
          (keep j b ((mem b).mp hb'.1) (by simpa using fun e => hb'.2 e.symm) (by simp) hj)
    | reset =>
      refine ⟨by simp [regStep], ?_, by simp [regStep]⟩
      intro a
      simp only [regStep, List.not_mem_nil, live, false_iff]
      rintro ⟨i, ⟨_, _, hi⟩ | ⟨_, hi⟩⟩
      · exact hi rfl
      · cases hi

/-- **C03 (no-ops).** Adding a registered object or removing an absent one changes nothing;
the reported count is the number of registered objects. -/
theorem C03_registry_noop (h : List (RegOp Ob)) (o : Ob) :
    ((∃ i, LiveAdd h i o) → regRun (h ++ [.add o]) = regRun h) ∧
    ((¬ ∃ i, LiveAdd h i o) → regRun (h ++ [.remove o]) = regRun h) ∧
    (regRun h).length = (regRun h).toFinset.card := by
  obtain ⟨nd, mem, _⟩ := C03_registry_ordered_set h
  refine ⟨fun hl => ?_, fun hl => ?_, (List.toFinset_card_of_nodup nd).symm⟩
  · have hm := (mem o).mpr hl
    simp only [regRun, List.foldl_append, List.foldl_cons, List.foldl_nil, regStep] at hm ⊢
    simp [regAdd, hm]
  · simp [regRun, regStep, regRemove] at *
    intro hc
    obtain ⟨i, hi⟩ := (mem o).mp hc
    exact absurd hi (hl i)

/-- A history with an insertion, a duplicate, a removal and a re-insertion. -/
example : regRun [.add 1, .add 2, .add 1, .remove 1, .add 3, .add 1] = [2, 3, 1] := by decide

/-! ## C04 -/

theorem registered_append (h : List (FunOp Ob)) (op : FunOp Ob) (o : Ob) :
    Registered (h ++ [op]) o ↔ (Registered h o ∧ op ≠ .remove o) ∨ op = .add o := by
  unfold Registered
  constructor
  · rintro ⟨i, h1, h2⟩
    by_cases hi : i < h.length
    · rw [List.getElem?_append_left hi] at h1
      refine Or.inl ⟨⟨i, h1, fun j hj => ?_⟩, ?_⟩
      · by_cases hjl : j < h.length
        · have := h2 j hj; rwa [List.getElem?_append_left hjl] at this
        · rw [List.getElem?_eq_none (not_lt.mp hjl)]; simp
      · simpa using h2 h.length hi
    · by_cases hie : i = h.length
      · subst hie; right; simpa using h1
      · rw [List.getElem?_eq_none (by simp; omega)] at h1; cases h1
  · rintro (⟨⟨i, h1, h2⟩, h3⟩ | rfl)
    · have hi : i < h.length := by
        by_contra hc; rw [List.getElem?_eq_none (not_lt.mp hc)] at h1; cases h1
      refine ⟨i, by rw [List.getElem?_append_left hi]; exact h1, fun j hj => ?_⟩
      by_cases hjl : j < h.length
      · rw [List.getElem?_append_left hjl]; exact h2 j hj
      · by_cases hje : j = h.length
        · subst hje; simpa using h3
        · rw [List.getElem?_eq_none (by simp; omega)]; simp
    · refine ⟨h.length, by simp, fun j hj => ?_⟩
      rw [List.getElem?_eq_none (by simp; omega)]; simp

theorem alternating_prefix {h : List (FunOp Ob)} {op : FunOp Ob} (ha : Alternating (h ++ [op])) :
    Alternating h := by
  intro pre o post e
  exact ha pre o (post ++ [op]) (by rw [e]; simp)

theorem funRun_append (parts : Ob → List Part) (h : List (FunOp Ob)) (op : FunOp Ob) :
    funRun parts (h ++ [op]) = (funRun parts h >>= funStep parts op) := by
  unfold funRun
  rw [forEach_append]
  cases forEach h (funStep parts) Regs.init <;> simp [forEach]
  cases funStep parts op _ <;> rfl

/-- The full property C04 asks for: over any history, no undefined behaviour, and the rows of an
object are enforced exactly when the object is updated.  It does not hold (`C04_counterexample`). -/
def C04_full (Ob : Type) [DecidableEq Ob] : Prop :=
  ∀ (parts : Ob → List Part), (∀ o, (parts o).Nodup) → ∀ h : List (FunOp Ob),
    ∃ s, funRun parts h = .ok s ∧ ∀ o p, o ∈ s.rows p ↔ o ∈ s.constr ∧ p ∈ parts o

/-- **C04 (partial).** When every object is added only while absent and removed only while present,
no call is undefined behaviour, and for every kind of rows the enforced constraints are exactly the
updated ones that have such rows, once each and in the same order.  Missing: histories that add
twice or remove an absent object, for which the claim is false. -/
theorem C04_in_step_partial (parts : Ob → List Part) (hp : ∀ o, (parts o).Nodup)
    (h : List (FunOp Ob)) (ha : Alternating h) :
    ∃ s, funRun parts h = .ok s ∧ s.constr.Nodup ∧
      (∀ o, o ∈ s.constr ↔ Registered h o) ∧
      ∀ p, s.rows p = s.constr.filter fun o => decide (p ∈ parts o) := by
  induction h using List.reverseRecOn with
  | nil => exact ⟨Regs.init, rfl, by simp [Regs.init], by simp [Regs.init, Registered],
      by simp [Regs.init]⟩
  | append_singleton h op ih =>
    obtain ⟨s, hs, nd, mem, rows⟩ := ih (alternating_prefix ha)
    have hop := ha h op [] (by simp)
    rw [funRun_append, hs, Out.ok_bind]
    cases op with
    | add o =>
      simp only at hop
      have ho : o ∉ s.constr := fun hc => hop ((mem o).mp hc)
      have hc : (addToSolver parts s o).constr = s.constr ++ [o] := by
        rw [addToSolver_constr]; simp [regAdd, ho]
      refine ⟨addToSolver parts s o, rfl, ?_, ?_, ?_⟩
      · rw [addToSolver_constr]; exact regAdd_nodup nd o
      · intro a
        rw [hc, registered_append]
        simp only [List.mem_append, List.mem_cons, List.not_mem_nil, or_false, mem, ne_eq,
          reduceCtorEq, not_false_eq_true, and_true, FunOp.add.injEq]
        constructor
        · rintro (h1 | h1)
          · exact Or.inl h1
          · exact Or.inr h1.symm
        · rintro (h1 | h1)
          · exact Or.inl h1
          · exact Or.inr h1.symm
      · intro p
        rw [addToSolver_rows, rows, hc, List.filter_append]
        congr 1
        by_cases hpo : p ∈ parts o
        · rw [List.count_eq_one_of_mem (hp o) hpo]; simp [hpo]
        · rw [List.count_eq_zero_of_not_mem hpo]; simp [hpo]
    | remove o =>
      simp only at hop
      have ho : o ∈ s.constr := (mem o).mpr hop
      refine ⟨⟨s.constr.erase o, fun q => if q ∈ parts o then (s.rows q).erase o else s.rows q⟩,
        ?_, nd.erase o, ?_, ?_⟩
      · simp only [funStep, removeFromSolver]
        rw [removeParts_ok o (parts o) (hp o)]
        · simp [regRemove, ho]
        · intro p hpo
          simp only [rows]
          simp [ho, hpo]
      · intro a
        simp only
        rw [registered_append, nd.mem_erase_iff, mem]
        constructor
        · rintro ⟨h1, h2⟩
          exact Or.inl ⟨h2, by simpa using fun e => h1 e.symm⟩
        · rintro (⟨h1, h2⟩ | h1)
          · exact ⟨fun e => h2 (by rw [e]), h1⟩
          · cases h1
      · intro p
        simp only
        have e1 : s.constr.erase o = s.constr.filter (fun a => a != o) := nd.erase_eq_filter o
        rw [e1, List.filter_filter]
        split
        · rename_i hpo
          rw [rows, (nd.filter _).erase_eq_filter o, List.filter_filter]
          apply List.filter_congr
          intro a _
          exact Bool.and_comm _ _
        · rename_i hpo
          rw [rows]
          apply List.filter_congr
          intro a _
          by_cases hao : a = o
          · subst hao; simp [hpo]
          · simp [hao]

/-- Number of `add` calls for `o`. -/
def nAdd (h : List (FunOp Ob)) (o : Ob) : ℕ := h.count (.add o)
/-- Number of `remove` calls for `o`. -/
def nRem (h : List (FunOp Ob)) (o : Ob) : ℕ := h.count (.remove o)

/-- **C04 (exact behaviour).** Over any history: if no prefix removes an object (having rows) more
often than it added it, nothing is undefined behaviour, the rows of `o` are enforced
`#add - #remove` times, while `o` is updated iff its last call was an add; otherwise the history is
undefined behaviour. -/
theorem C04_exact_counts (parts : Ob → List Part) (hp : ∀ o, (parts o).Nodup)
    (h : List (FunOp Ob)) :
    ((∀ pre post, h = pre ++ post → ∀ o, parts o ≠ [] → nRem pre o ≤ nAdd pre o) →
      ∃ s, funRun parts h = .ok s ∧ (∀ o, o ∈ s.constr ↔ Registered h o) ∧
        ∀ o p, p ∈ parts o → (s.rows p).count o + nRem h o = nAdd h o) ∧
    (∀ pre post, h = pre ++ post → ∀ o, parts o ≠ [] → nAdd pre o < nRem pre o →
      funRun parts h = .ub) := by
  have main : ∀ h : List (FunOp Ob),
      (∀ pre post, h = pre ++ post → ∀ o, parts o ≠ [] → nRem pre o ≤ nAdd pre o) →
      ∃ s, funRun parts h = .ok s ∧ s.constr.Nodup ∧ (∀ o, o ∈ s.constr ↔ Registered h o) ∧
        ∀ o p, p ∈ parts o → (s.rows p).count o + nRem h o = nAdd h o := by
    intro h
    induction h using List.reverseRecOn with
    | nil =>
      intro _
      exact ⟨Regs.init, rfl, by simp [Regs.init], by simp [Regs.init, Registered],
        by simp [Regs.init, nAdd, nRem]⟩
    | append_singleton h op ih =>
      intro hle
      obtain ⟨s, hs, nd, mem, cnt⟩ := ih (fun pre post e => hle pre (post ++ [op]) (by rw [e]; simp))
      rw [funRun_append, hs, Out.ok_bind]
      cases op with
      | add o =>
        refine ⟨addToSolver parts s o, rfl, ?_, ?_, ?_⟩
        · rw [addToSolver_constr]; exact regAdd_nodup nd o
        · intro a
          rw [addToSolver_constr, registered_append]
          simp only [ne_eq, reduceCtorEq, not_false_eq_true, and_true, FunOp.add.injEq, ← mem]
          unfold regAdd
          split
          · rename_i ho
            constructor
            · exact Or.inl
            · rintro (h1 | h1)
              · exact h1
              · exact h1 ▸ ho
          · simp [eq_comm]
        · intro a p hpa
          have := cnt a p hpa
          rw [addToSolver_rows, List.count_append]
          simp only [nAdd, nRem, List.count_append] at this ⊢
          by_cases hao : a = o
          · subst hao
            rw [List.count_eq_one_of_mem (hp a) hpa]
            simp
            omega
          · have h1 : List.count a (List.replicate (List.count p (parts o)) o) = 0 := by
              rw [List.count_eq_zero]
              simp [hao]
            have h2 : List.count (FunOp.add a) [FunOp.add o] = 0 := by
              rw [List.count_eq_zero]; simp [hao]
            have h3 : List.count (FunOp.remove a) [FunOp.add o] = 0 := by
              rw [List.count_eq_zero]; simp
            omega
      | remove o =>
        have hmem : ∀ p ∈ parts o, o ∈ s.rows p := by
          intro p hpo
          have h1 := cnt o p hpo
          have h2 := hle (h ++ [.remove o]) [] (by simp) o (List.ne_nil_of_mem hpo)
          simp only [nAdd, nRem, List.count_append] at h1 h2
          have h3 : List.count (FunOp.remove o) [FunOp.remove o] = 1 := by simp
          have h4 : List.count (FunOp.add o) [FunOp.remove o] = 0 := by
            rw [List.count_eq_zero]; simp
          rw [← List.count_pos_iff]
          omega
        refine ⟨⟨regRemove s.constr o,
          fun q => if q ∈ parts o then (s.rows q).erase o else s.rows q⟩, ?_, ?_, ?_, ?_⟩
        · simp only [funStep, removeFromSolver]
          exact removeParts_ok o (parts o) (hp o) _ hmem
        · exact regRemove_nodup nd o
        · intro a
          simp only
          rw [registered_append, ← mem]
          have : a ∈ regRemove s.constr o ↔ a ∈ s.constr ∧ a ≠ o := by
            unfold regRemove
            split
            · rw [nd.mem_erase_iff, and_comm]
            · rename_i ho
              exact ⟨fun ha => ⟨ha, fun e => ho (e ▸ ha)⟩, fun ha => ha.1⟩
          rw [this]
          simp [eq_comm]
        · intro a p hpa
          have h1 := cnt a p hpa
          simp only [nAdd, nRem, List.count_append] at h1 ⊢
          have h4 : List.count (FunOp.add a) [FunOp.remove o] = 0 := by
            rw [List.count_eq_zero]; simp
          by_cases hao : a = o
          · subst hao
            have h3 : List.count (FunOp.remove a) [FunOp.remove a] = 1 := by simp
            rw [if_pos hpa, List.count_erase_self]
            have := List.count_pos_iff.mpr (hmem p hpa)
            omega
          · have h3 : List.count (FunOp.remove a) [FunOp.remove o] = 0 := by
              rw [List.count_eq_zero]; simp [hao]
            split
            · rw [List.count_erase_of_ne hao]; omega
            · omega
  refine ⟨fun hle => ?_, ?_⟩
  · obtain ⟨s, hs, _, mem, cnt⟩ := main h hle
    exact ⟨s, hs, mem, cnt⟩
  · -- take the shortest prefix with too many removals
    have bad : ∀ n, ∀ pre : List (FunOp Ob), pre.length = n → ∀ o, parts o ≠ [] →
        nAdd pre o < nRem pre o → funRun parts pre = .ub := by
      intro n
      induction n using Nat.strong_induction_on with
      | _ n ih =>
        intro pre hn o ho hlt
        by_cases hsmall : ∃ p1 p2, pre = p1 ++ p2 ∧ p2 ≠ [] ∧
            ∃ o', parts o' ≠ [] ∧ nAdd p1 o' < nRem p1 o'
        · obtain ⟨p1, p2, e, hne, o', ho', hlt'⟩ := hsmall
          have hl : p1.length < n := by
            rw [← hn, e, List.length_append]
            have := List.length_pos_iff.mpr hne
            omega
          have := ih p1.length hl p1 rfl o' ho' hlt'
          unfold funRun at *
          rw [e, forEach_append, this]; rfl
        · rcases List.eq_nil_or_concat pre with e | ⟨q, op, e⟩
          · subst e; simp [nAdd, nRem] at hlt
          · rw [List.concat_eq_append] at e
            have hq : ∀ p1 p2, q = p1 ++ p2 → ∀ o, parts o ≠ [] → nRem p1 o ≤ nAdd p1 o := by
              intro p1 p2 e2 o' ho'
              by_contra hc
              exact hsmall ⟨p1, p2 ++ [op], by rw [e, e2]; simp, by simp, o', ho', by omega⟩
            obtain ⟨s, hs, nd, mem, cnt⟩ := main q hq
            have hqo := hq q [] (by simp) o ho
            -- the last call must be `remove o`
            have hop : op = .remove o := by
              by_contra hc
              rw [e] at hlt
              simp only [nAdd, nRem, List.count_append] at hlt hqo
              have : List.count (FunOp.remove o) [op] = 0 := by
                rw [List.count_eq_zero]; simpa using fun e => hc e.symm
              omega
            subst hop
            rw [e, funRun_append, hs, Out.ok_bind]
            obtain ⟨p, hpo⟩ := List.exists_mem_of_ne_nil _ ho
            have hz : o ∉ s.rows p := by
              have h1 := cnt o p hpo
              rw [e] at hlt
              simp only [nAdd, nRem, List.count_append] at hlt h1
              have h3 : List.count (FunOp.remove o) [FunOp.remove o] = 1 := by simp
              have h4 : List.count (FunOp.add o) [FunOp.remove o] = 0 := by
                rw [List.count_eq_zero]; simp
              rw [← List.count_eq_zero]
              omega
            exact removeParts_ub o (parts o) _ p hpo hz
    intro pre post e o ho hlt
    have := bad pre.length pre rfl o ho hlt
    unfold funRun at *
    rw [e, forEach_append, this]; rfl

/-- **C04 is violated by the code**: adding twice then removing once leaves rows that are enforced
although the constraint is no longer updated; and removing an absent constraint is undefined
behaviour. -/
theorem C04_counterexample : ¬ C04_full ℕ := by
  intro hf
  obtain ⟨s, hs, hall⟩ := hf (fun _ => [.eq]) (fun _ => by simp) [.add 0, .add 0, .remove 0]
  have : funRun (fun _ : ℕ => [Part.eq]) [.add 0, .add 0, .remove 0]
      = .ok s := hs
  have h1 := hall 0 .eq
  have h2 : (0 : ℕ) ∈ s.rows .eq ∧ (0 : ℕ) ∉ s.constr := by
    unfold funRun at hs
    simp [forEach, funStep, addToSolver, removeFromSolver, addPart, removePart, Regs.init, regAdd,
      regRemove] at hs
    rw [← hs]
    simp
  exact h2.2 (h1.mp h2.1).1

theorem C04_remove_absent_ub : funRun (fun _ : ℕ => [Part.eq]) [.remove 0] = .ub := by
  simp [funRun, forEach, funStep, removeFromSolver, removePart, Regs.init]

/-- Non-vacuity of `C04_in_step_partial`: an alternating history with a re-insertion. -/
example : Alternating ([.add 1, .add 2, .remove 1, .add 1] : List (FunOp ℕ)) := by
  intro pre op post e
  have hl : pre.length < 4 := by
    have := congrArg List.length e
    simp at this
    omega
  rcases pre with _ | ⟨a, _ | ⟨b, _ | ⟨c, _ | ⟨d, t⟩⟩⟩⟩
  · simp at e; rcases e with ⟨rfl, _⟩; simp [Registered]
  · simp at e; rcases e with ⟨rfl, rfl, _⟩
    rintro ⟨i, h1, _⟩
    rcases i with _ | i <;> simp at h1
  · simp at e; rcases e with ⟨rfl, rfl, rfl, _⟩
    refine ⟨0, by simp, ?_⟩
    intro j hj
    rcases j with _ | _ | j <;> simp
  · simp at e; rcases e with ⟨rfl, rfl, rfl, rfl, _⟩
    rintro ⟨i, h1, h2⟩
    rcases i with _ | _ | _ | i
    · exact h2 2 (by omega) (by simp)
    · simp at h1
    · simp at h1
    · simp at h1
  · simp at hl
    omega

end Verif
