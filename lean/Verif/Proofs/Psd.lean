import Verif.Proofs.Assembly

/-! # Lemmas for the Hessian and the bounds -/

set_option autoImplicit false
set_option linter.unusedSectionVars false

namespace Verif

open Finset Spec

variable {K : Type} [Field K] [LinearOrder K] [IsStrictOrderedRing K]

namespace Spec

/-- A task whose Hessian block is square, on the diagonal, symmetric and positive semidefinite,
with a nonnegative weight. -/
def TaskConvex (t : TaskQC K) : Prop :=
  t.begin'.1 = t.begin'.2 ∧ t.Q.rows = t.Q.cols ∧ 0 ≤ t.weight ∧
  (∀ a < t.Q.rows, ∀ b < t.Q.rows, t.Q.get a b = t.Q.get b a) ∧
  ∀ x : ℕ → K, 0 ≤ ∑ a ∈ range t.Q.rows, ∑ b ∈ range t.Q.rows, x a * t.Q.get a b * x b

/-- A bound constraint covers variable `v`. -/
def Covers (c : BoundC K) (v : ℕ) : Prop :=
  c.beginVar ≤ v ∧ v < c.beginVar + max c.lower.size c.upper.size

end Spec

theorem TaskQC.q_symm {t : TaskQC K} (h : TaskConvex t) (a b : ℕ) : t.q a b = t.q b a := by
  obtain ⟨h1, h2, _, h4, _⟩ := h
  unfold TaskQC.q
  rw [← h1, ← h2]
  by_cases ha : t.begin'.1 ≤ a ∧ a < t.begin'.1 + t.Q.rows
  · by_cases hb : t.begin'.1 ≤ b ∧ b < t.begin'.1 + t.Q.rows
    · rw [if_pos ⟨ha, hb⟩, if_pos ⟨hb, ha⟩, h4 _ (by omega) _ (by omega)]
    · rw [if_neg (fun h => hb h.2), if_neg (fun h => hb h.1)]
  · rw [if_neg (fun h => ha h.1), if_neg (fun h => ha h.2)]

theorem TaskQC.q_psd {n : ℕ} {t : TaskQC K} (hs : t.Sized n) (h : TaskConvex t) (x : ℕ → K) :
    0 ≤ ∑ i ∈ range n, ∑ j ∈ range n, x i * t.q i j * x j := by
  obtain ⟨h1, h2, h3, _, h5⟩ := h
  rw [TaskQC.quad_q n t hs x, ← h1, ← h2]
  exact mul_nonneg h3 (h5 fun a => x (t.begin'.1 + a))

theorem TaskQC.q_diag {t : TaskQC K} (h : TaskConvex t) (i : ℕ) : 0 ≤ t.q i i := by
  obtain ⟨h1, h2, h3, _, h5⟩ := h
  unfold TaskQC.q
  rw [← h1, ← h2]
  split
  next hi =>
    apply mul_nonneg h3
    have := h5 (fun a => if a = i - t.begin'.1 then 1 else 0)
    have hm : i - t.begin'.1 < t.Q.rows := by omega
    simp only [ite_mul, one_mul, zero_mul, mul_ite, mul_one, mul_zero] at this
    rw [Finset.sum_eq_single (i - t.begin'.1)] at this
    · rw [Finset.sum_eq_single (i - t.begin'.1)] at this
      · simpa using this
      · intro b _ hb; rw [if_neg hb]
      · intro hn; exact absurd (mem_range.mpr hm) hn
    · intro b _ hb
      apply Finset.sum_eq_zero
      intro c _
      rw [if_neg hb]; split <;> rfl
    · intro hn; exact absurd (mem_range.mpr hm) hn
  next => exact le_refl _

theorem lastLower_snoc (cs : List (BoundC K)) (c : BoundC K) (v : ℕ) (d : Ext K) :
    lastLower (cs ++ [c]) v d = if c.beginVar ≤ v ∧ v < c.beginVar + c.lower.size
      then c.lower.get (v - c.beginVar) else lastLower cs v d := by
  simp [lastLower, List.foldl_append]

theorem lastUpper_snoc (cs : List (BoundC K)) (c : BoundC K) (v : ℕ) (d : Ext K) :
    lastUpper (cs ++ [c]) v d = if c.beginVar ≤ v ∧ v < c.beginVar + c.upper.size
      then c.upper.get (v - c.beginVar) else lastUpper cs v d := by
  simp [lastUpper, List.foldl_append]

theorem lastLower_none (cs : List (BoundC K)) (v : ℕ) (d : Ext K)
    (h : ∀ c ∈ cs, ¬ (c.beginVar ≤ v ∧ v < c.beginVar + c.lower.size)) :
    lastLower cs v d = d := by
  induction cs using List.reverseRecOn with
  | nil => rfl
  | append_singleton t c ih =>
    rw [lastLower_snoc, if_neg (h c (by simp)), ih (fun c hc => h c (by simp [hc]))]

theorem lastUpper_none (cs : List (BoundC K)) (v : ℕ) (d : Ext K)
    (h : ∀ c ∈ cs, ¬ (c.beginVar ≤ v ∧ v < c.beginVar + c.upper.size)) :
    lastUpper cs v d = d := by
  induction cs using List.reverseRecOn with
  | nil => rfl
  | append_singleton t c ih =>
    rw [lastUpper_snoc, if_neg (h c (by simp)), ih (fun c hc => h c (by simp [hc]))]

theorem lastLower_some (pre post : List (BoundC K)) (c : BoundC K) (v : ℕ) (d : Ext K)
    (hc : c.beginVar ≤ v ∧ v < c.beginVar + c.lower.size)
    (h : ∀ c ∈ post, ¬ (c.beginVar ≤ v ∧ v < c.beginVar + c.lower.size)) :
    lastLower (pre ++ c :: post) v d = c.lower.get (v - c.beginVar) := by
  have : lastLower (pre ++ c :: post) v d = lastLower post v (lastLower (pre ++ [c]) v d) := by
    simp [lastLower, List.foldl_append]
  rw [this, lastLower_none _ _ _ h, lastLower_snoc, if_pos hc]

theorem lastUpper_some (pre post : List (BoundC K)) (c : BoundC K) (v : ℕ) (d : Ext K)
    (hc : c.beginVar ≤ v ∧ v < c.beginVar + c.upper.size)
    (h : ∀ c ∈ post, ¬ (c.beginVar ≤ v ∧ v < c.beginVar + c.upper.size)) :
    lastUpper (pre ++ c :: post) v d = c.upper.get (v - c.beginVar) := by
  have : lastUpper (pre ++ c :: post) v d = lastUpper post v (lastUpper (pre ++ [c]) v d) := by
    simp [lastUpper, List.foldl_append]
  rw [this, lastUpper_none _ _ _ h, lastUpper_snoc, if_pos hc]

/-- With pairwise disjoint bound constraints, last-wins is the conjunction. -/
theorem lastBounds_disjoint {n : ℕ} {inp : QPInput K} (hs : ∀ c ∈ inp.bound, c.Sized n)
    (hdis : inp.bound.Pairwise fun c d => ∀ v, ¬ (Covers c v ∧ Covers d v)) (x : ℕ → K) :
    (∀ v < n, LastBounds inp v (x v)) ↔ ∀ c ∈ inp.bound, SatBound c x := by
  obtain ⟨_, _, _, _, cs⟩ := inp
  unfold LastBounds
  simp only at hs hdis ⊢
  constructor
  · intro h c hc
    obtain ⟨pre, post, rfl⟩ := List.append_of_mem hc
    have hpost : ∀ d ∈ post, ∀ v, ¬ (Covers c v ∧ Covers d v) := by
      rw [List.pairwise_append] at hdis
      exact fun d hd => (List.pairwise_cons.mp hdis.2.1).1 d hd
    have hsz := hs c hc
    constructor
    · intro i hi
      have := (h (c.beginVar + i) (by have := hsz.1; omega)).1
      rw [lastLower_some pre post c _ _ (by omega)] at this
      · simpa using this
      · intro d hd hcov
        exact hpost d hd (c.beginVar + i) ⟨⟨by omega, by omega⟩, ⟨by omega, by omega⟩⟩
    · intro i hi
      have := (h (c.beginVar + i) (by have := hsz.2; omega)).2
      rw [lastUpper_some pre post c _ _ (by omega)] at this
      · simpa using this
      · intro d hd hcov
        exact hpost d hd (c.beginVar + i) ⟨⟨by omega, by omega⟩, ⟨by omega, by omega⟩⟩
  · intro h v _
    clear hdis hs
    induction cs using List.reverseRecOn with
    | nil => exact ⟨trivial, trivial⟩
    | append_singleton t c ih =>
      have iht := ih (fun d hd => h d (by simp [hd]))
      have hc := h c (by simp)
      rw [lastLower_snoc, lastUpper_snoc]
      constructor
      · split
        next hv =>
          have := hc.1 (v - c.beginVar) (by omega)
          rwa [show c.beginVar + (v - c.beginVar) = v by omega] at this
        next => exact iht.1
      · split
        next hv =>
          have := hc.2 (v - c.beginVar) (by omega)
          rwa [show c.beginVar + (v - c.beginVar) = v by omega] at this
        next => exact iht.2

end Verif
