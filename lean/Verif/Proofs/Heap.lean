import Verif.Model.Heap

/-!
# Lemmas about objects that own memory
-/

set_option autoImplicit false

namespace Verif

section
variable {F C : Type}

theorem derefP_ok {mem : ℕ → Option C} {p : ℕ} {c : C} (h : mem p = some c) :
    derefP mem (some p) = .ok c := by simp [derefP, h]

theorem storeP_ok {mem : ℕ → Option C} {p : ℕ} {c : C} (h : mem p ≠ none) :
    storeP mem c (some p) = .ok (Function.update mem p (some c)) := by
  obtain ⟨x, hx⟩ := Option.ne_none_iff_exists'.1 h
  simp [storeP, hx]

theorem deleteP_ok {mem : ℕ → Option C} {p : ℕ} (h : mem p ≠ none) :
    deleteP mem (some p) = .ok (Function.update mem p none) := by
  obtain ⟨x, hx⟩ := Option.ne_none_iff_exists'.1 h
  simp [deleteP, hx]

/-- Allocating the members of `l`: each gets its own new address. -/
theorem allocCells_ok (get : (ℕ → Option C) → ℕ → Out C) (c : ℕ → C) (l : List ℕ) (hl : l.Nodup)
    (mem : ℕ → Option C) (next : ℕ) (ptr : ℕ → Option ℕ)
    (hg : ∀ i ∈ l, ∀ mem' : ℕ → Option C, (∀ p < next, mem' p = mem p) → get mem' i = .ok (c i)) :
    ∃ mem' ptr', allocCells get l (mem, next, ptr) = .ok (mem', next + l.length, ptr') ∧
      (∀ p, p < next ∨ next + l.length ≤ p → mem' p = mem p) ∧
      (∀ i ∉ l, ptr' i = ptr i) ∧
      (∀ i ∈ l, ∃ p, next ≤ p ∧ p < next + l.length ∧ ptr' i = some p ∧ mem' p = some (c i)) ∧
      (∀ i ∈ l, ∀ j ∈ l, ptr' i = ptr' j → i = j) ∧
      (∀ p, next ≤ p → p < next + l.length → ∃ i ∈ l, ptr' i = some p) := by
  induction l generalizing mem next ptr with
  | nil =>
    refine ⟨mem, ptr, rfl, fun _ _ => rfl, fun _ _ => rfl, by simp, by simp, fun p h1 h2 => ?_⟩
    simp at h2; omega
  | cons a t ih =>
    have ha := hg a (by simp) mem (fun _ _ => rfl)
    have hat : a ∉ t := (List.nodup_cons.1 hl).1
    obtain ⟨mem', ptr', h1, h2, h3, h4, h5, h6⟩ := ih (List.nodup_cons.1 hl).2
      (Function.update mem next (some (c a))) (next + 1) (Function.update ptr a (some next)) (by
        intro i hi m' hm'
        refine hg i (by simp [hi]) m' (fun p hp => ?_)
        rw [hm' p (by omega), Function.update_of_ne (by omega)])
    refine ⟨mem', ptr', ?_, ?_, ?_, ?_, ?_, ?_⟩
    · show forEach (a :: t) _ _ = _
      rw [forEach]
      simp only [ha, Out.ok_bind, Out.pure_eq]
      rw [show next + (a :: t).length = next + 1 + t.length by simp; omega]
      exact h1
    · intro p hp
      rw [h2 p (by simp at hp; omega), Function.update_of_ne (by simp at hp; omega)]
    · intro i hi
      simp only [List.mem_cons, not_or] at hi
      rw [h3 i hi.2, Function.update_of_ne hi.1]
    · intro i hi
      rcases List.mem_cons.1 hi with rfl | hi
      · refine ⟨next, le_refl _, by simp, ?_, ?_⟩
        · rw [h3 _ hat, Function.update_self]
        · rw [h2 _ (by omega), Function.update_self]
      · obtain ⟨p, p1, p2, p3, p4⟩ := h4 i hi
        exact ⟨p, by omega, by simp; omega, p3, p4⟩
    · have key : ∀ j ∈ t, ptr' a ≠ ptr' j := by
        intro j hj h
        obtain ⟨p, p1, p2, p3, p4⟩ := h4 j hj
        rw [h3 _ hat, Function.update_self, p3] at h
        have := Option.some.inj h
        omega
      intro i hi j hj h
      rcases List.mem_cons.1 hi with rfl | hi' <;> rcases List.mem_cons.1 hj with rfl | hj'
      · rfl
      · exact absurd h (key j hj')
      · exact absurd h.symm (key i hi')
      · exact h5 i hi' j hj' h
    · intro p p1 p2
      simp only [List.length_cons] at p2
      by_cases hp : p = next
      · exact ⟨a, by simp, by rw [h3 _ hat, Function.update_self, hp]⟩
      · obtain ⟨i, hi, h⟩ := h6 p (by omega) (by omega)
        exact ⟨i, by simp [hi], h⟩

/-- Allocation with a member that cannot be read. -/
theorem allocCells_ub (ptr0 : ℕ → Option ℕ) (l : List ℕ) (hl : ∃ i ∈ l, ptr0 i = none)
    (s : (ℕ → Option C) × ℕ × (ℕ → Option ℕ)) :
    allocCells (fun mem i => derefP mem (ptr0 i)) l s = .ub := by
  obtain ⟨i, hi, hp⟩ := hl
  induction l generalizing s with
  | nil => simp at hi
  | cons a t ih =>
    rw [allocCells, forEach]
    cases hd : derefP s.1 (ptr0 a) with
    | ub => rfl
    | throws e =>
      unfold derefP at hd
      split at hd
      · simp at hd
      · split at hd <;> simp at hd
    | ok c =>
      rcases List.mem_cons.1 hi with rfl | hi
      · simp [hp, derefP] at hd
      · exact ih _ hi

/-- Copy assignment through the pointers of `l`. -/
theorem assignLoop_ok (dst src : ℕ → Option ℕ) (c : ℕ → C) (l : List ℕ) (mem : ℕ → Option C)
    (hs : ∀ i ∈ l, ∃ p, src i = some p ∧ mem p = some (c i))
    (hd : ∀ i ∈ l, ∃ q, dst i = some q ∧ mem q ≠ none)
    (hne : ∀ i ∈ l, ∀ j ∈ l, ∀ p, src i = some p → dst j ≠ some p)
    (hinj : ∀ i ∈ l, ∀ j ∈ l, dst i = dst j → i = j) :
    ∃ mem', assignLoop dst src l mem = .ok mem' ∧
      (∀ i ∈ l, ∀ q, dst i = some q → mem' q = some (c i)) ∧
      (∀ p, (∀ i ∈ l, dst i ≠ some p) → mem' p = mem p) := by
  induction l generalizing mem with
  | nil => exact ⟨mem, rfl, by simp, fun _ _ => rfl⟩
  | cons a t ih =>
    obtain ⟨p, hp, hm⟩ := hs a (by simp)
    obtain ⟨q, hq, hq'⟩ := hd a (by simp)
    obtain ⟨mem', h1, h2, h3⟩ := ih (Function.update mem q (some (c a))) (by
        intro i hi
        obtain ⟨p', e1, e2⟩ := hs i (by simp [hi])
        refine ⟨p', e1, ?_⟩
        have : p' ≠ q := fun e => hne i (by simp [hi]) a (by simp) p' e1 (e ▸ hq)
        rw [Function.update_of_ne this, e2]) (by
        intro i hi
        obtain ⟨q', e1, e2⟩ := hd i (by simp [hi])
        refine ⟨q', e1, ?_⟩
        by_cases e : q' = q
        · rw [e, Function.update_self]; simp
        · rw [Function.update_of_ne e]; exact e2)
        (fun i hi j hj => hne i (by simp [hi]) j (by simp [hj]))
        (fun i hi j hj => hinj i (by simp [hi]) j (by simp [hj]))
    refine ⟨mem', ?_, ?_, ?_⟩
    · rw [assignLoop, forEach, hp, hq, derefP_ok hm]
      simp only [Out.ok_bind, storeP_ok hq']
      exact h1
    · intro i hi q' hq''
      by_cases hit : i ∈ t
      · exact h2 i hit q' hq''
      · have hia : i = a := by
          rcases List.mem_cons.1 hi with h | h
          · exact h
          · exact absurd h hit
        subst hia
        rw [hq] at hq''
        obtain rfl := Option.some.inj hq''
        rw [h3 q (fun j hj e => hit (hinj i (by simp) j (by simp [hj]) (by rw [hq, e]) ▸ hj)),
          Function.update_self]
    · intro p' hp'
      rw [h3 p' (fun i hi => hp' i (by simp [hi])), Function.update_of_ne]
      rintro rfl
      exact hp' a (by simp) hq

theorem assignLoop_ub (dst src : ℕ → Option ℕ) (l : List ℕ) (mem : ℕ → Option C)
    (h : ∃ i ∈ l, src i = none ∨ dst i = none) : assignLoop dst src l mem = .ub := by
  obtain ⟨i, hi, hp⟩ := h
  induction l generalizing mem with
  | nil => simp at hi
  | cons a t ih =>
    rw [assignLoop, forEach]
    cases hd : derefP mem (src a) with
    | ub => rfl
    | throws e =>
      unfold derefP at hd
      split at hd
      · simp at hd
      · split at hd <;> simp at hd
    | ok c =>
      cases hs : storeP mem c (dst a) with
      | ub => simp [hs]
      | throws e =>
        unfold storeP at hs
        split at hs
        · simp at hs
        · split at hs <;> simp at hs
      | ok m =>
        simp only [Out.ok_bind, hs]
        rcases List.mem_cons.1 hi with rfl | hi
        · rcases hp with hp | hp
          · simp [hp, derefP] at hd
          · simp [hp, storeP] at hs
        · exact ih _ hi

/-- Writing through the pointers of `l`. -/
theorem storeLoop_ok (ptr : ℕ → Option ℕ) (c : ℕ → C) (l : List ℕ) (mem : ℕ → Option C)
    (hd : ∀ i ∈ l, ∃ q, ptr i = some q ∧ mem q ≠ none)
    (hinj : ∀ i ∈ l, ∀ j ∈ l, ptr i = ptr j → i = j) :
    ∃ mem', storeLoop ptr c l mem = .ok mem' ∧
      (∀ i ∈ l, ∀ q, ptr i = some q → mem' q = some (c i)) ∧
      (∀ p, (∀ i ∈ l, ptr i ≠ some p) → mem' p = mem p) := by
  induction l generalizing mem with
  | nil => exact ⟨mem, rfl, by simp, fun _ _ => rfl⟩
  | cons a t ih =>
    obtain ⟨q, hq, hq'⟩ := hd a (by simp)
    obtain ⟨mem', h1, h2, h3⟩ := ih (Function.update mem q (some (c a))) (by
        intro i hi
        obtain ⟨q', e1, e2⟩ := hd i (by simp [hi])
        refine ⟨q', e1, ?_⟩
        by_cases e : q' = q
        · rw [e, Function.update_self]; simp
        · rw [Function.update_of_ne e]; exact e2)
        (fun i hi j hj => hinj i (by simp [hi]) j (by simp [hj]))
    refine ⟨mem', ?_, ?_, ?_⟩
    · rw [storeLoop, forEach, hq, storeP_ok hq']
      exact h1
    · intro i hi q' hq''
      by_cases hit : i ∈ t
      · exact h2 i hit q' hq''
      · have hia : i = a := by
          rcases List.mem_cons.1 hi with h | h
          · exact h
          · exact absurd h hit
        subst hia
        rw [hq] at hq''
        obtain rfl := Option.some.inj hq''
        rw [h3 q (fun j hj e => hit (hinj i (by simp) j (by simp [hj]) (by rw [hq, e]) ▸ hj)),
          Function.update_self]
    · intro p' hp'
      rw [h3 p' (fun i hi => hp' i (by simp [hi])), Function.update_of_ne]
      rintro rfl
      exact hp' a (by simp) hq

/-- Deleting what the pointers of `l` point to. -/
theorem deleteLoop_ok (ptr : ℕ → Option ℕ) (l : List ℕ) (hl : l.Nodup) (mem : ℕ → Option C)
    (hd : ∀ i ∈ l, ∀ q, ptr i = some q → mem q ≠ none)
    (hinj : ∀ i ∈ l, ∀ j ∈ l, ∀ p, ptr i = some p → ptr j = some p → i = j) :
    ∃ mem', deleteLoop ptr l mem = .ok mem' ∧
      (∀ i ∈ l, ∀ q, ptr i = some q → mem' q = none) ∧
      (∀ p, (∀ i ∈ l, ptr i ≠ some p) → mem' p = mem p) := by
  induction l generalizing mem with
  | nil => exact ⟨mem, rfl, by simp, fun _ _ => rfl⟩
  | cons a t ih =>
    have hat := (List.nodup_cons.1 hl).1
    have hinj' : ∀ i ∈ t, ∀ j ∈ t, ∀ p, ptr i = some p → ptr j = some p → i = j :=
      fun i hi j hj => hinj i (by simp [hi]) j (by simp [hj])
    cases hq : ptr a with
    | none =>
      obtain ⟨mem', h1, h2, h3⟩ := ih (List.nodup_cons.1 hl).2 mem
        (fun i hi => hd i (by simp [hi])) hinj'
      refine ⟨mem', ?_, ?_, ?_⟩
      · rw [deleteLoop, forEach, hq]
        exact h1
      · intro i hi q e
        rcases List.mem_cons.1 hi with rfl | hi
        · rw [hq] at e; simp at e
        · exact h2 i hi q e
      · exact fun p hp => h3 p (fun i hi => hp i (by simp [hi]))
    | some q =>
      have hq' := hd a (by simp) q hq
      obtain ⟨mem', h1, h2, h3⟩ := ih (List.nodup_cons.1 hl).2 (Function.update mem q none) (by
          intro i hi q' e
          have : q' ≠ q := by
            rintro rfl
            exact hat (hinj a (by simp) i (by simp [hi]) q' hq e ▸ hi)
          rw [Function.update_of_ne this]
          exact hd i (by simp [hi]) q' e) hinj'
      refine ⟨mem', ?_, ?_, ?_⟩
      · rw [deleteLoop, forEach, hq, deleteP_ok hq']
        exact h1
      · intro i hi q' e
        rcases List.mem_cons.1 hi with rfl | hi
        · rw [hq] at e
          obtain rfl := Option.some.inj e
          rw [h3 q (fun j hj e' => hat (hinj i (by simp) j (by simp [hj]) q hq e' ▸ hj)),
            Function.update_self]
        · exact h2 i hi q' e
      · intro p hp
        rw [h3 p (fun i hi => hp i (by simp [hi])), Function.update_of_ne]
        rintro rfl
        exact hp a (by simp) hq

theorem loadLoop_gen [Inhabited C] (ptr : ℕ → Option ℕ) (c : ℕ → C) (l : List ℕ) (mem : ℕ → Option C)
    (hd : ∀ i ∈ l, ∃ q, ptr i = some q ∧ mem q = some (c i)) (c0 : ℕ → C) :
    forEach l (fun i (c : ℕ → C) => do
      let x ← derefP mem (ptr i)
      pure (Function.update c i x)) c0 = .ok (fun i => if i ∈ l then c i else c0 i) := by
  induction l generalizing c0 with
  | nil => simp [forEach]
  | cons a t ih =>
    obtain ⟨q, h1, h2⟩ := hd a (by simp)
    rw [forEach, h1, derefP_ok h2]
    simp only [Out.ok_bind, Out.pure_eq]
    refine (ih (fun i hi => hd i (by simp [hi])) _).trans ?_
    congr 1
    funext i
    by_cases hi : i ∈ t
    · simp [hi]
    · by_cases hia : i = a
      · subst hia; simp [hi]
      · simp [hi, hia, Function.update_of_ne]

theorem loadLoop_ok [Inhabited C] (ptr : ℕ → Option ℕ) (c : ℕ → C) (l : List ℕ) (mem : ℕ → Option C)
    (hd : ∀ i ∈ l, ∃ q, ptr i = some q ∧ mem q = some (c i)) :
    loadLoop ptr l mem = .ok (fun i => if i ∈ l then c i else default) :=
  loadLoop_gen ptr c l mem hd _

theorem loadLoop_ub [Inhabited C] (ptr : ℕ → Option ℕ) (l : List ℕ) (mem : ℕ → Option C)
    (h : ∃ i ∈ l, ptr i = none) : loadLoop ptr l mem = .ub := by
  unfold loadLoop
  generalize (fun _ => default : ℕ → C) = c0
  obtain ⟨i, hi, hp⟩ := h
  induction l generalizing c0 with
  | nil => simp at hi
  | cons a t ih =>
    rw [forEach]
    cases hd : derefP mem (ptr a) with
    | ub => rfl
    | throws e =>
      unfold derefP at hd
      split at hd
      · simp at hd
      · split at hd <;> simp at hd
    | ok c =>
      simp only [Out.ok_bind, Out.pure_eq]
      rcases List.mem_cons.1 hi with rfl | hi
      · simp [hp, derefP] at hd
      · exact ih _ hi

end

end Verif
