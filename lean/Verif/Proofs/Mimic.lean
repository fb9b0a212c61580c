import Verif.Proofs.Fill
import Mathlib.Data.List.Sort

/-! # Lemmas on the mimic reduction -/

set_option autoImplicit false
set_option linter.unusedSectionVars false

namespace Verif

open Finset

variable {K : Type} [Field K] [LinearOrder K]

/-- Well-formed dependencies on `n` variables: distinct in-range replicas, leaders in range and not
replicas themselves. -/
def DepsWF (n : ℕ) (deps : List (ℕ × ℕ × K)) : Prop :=
  (deps.map fun d => d.2.1).Nodup ∧ (∀ d ∈ deps, d.1 < n ∧ d.2.1 < n) ∧
  ∀ d ∈ deps, ∀ e ∈ deps, d.1 ≠ e.2.1

/-- Replica indices. -/
def reps (deps : List (ℕ × ℕ × K)) : List ℕ := deps.map fun d => d.2.1

/-- Non-replica variables below `i`, in increasing order. -/
def nonrep (deps : List (ℕ × ℕ × K)) (i : ℕ) : List ℕ :=
  (List.range i).filter fun k => k ∉ reps deps

theorem nonrep_succ_mem {deps : List (ℕ × ℕ × K)} {i : ℕ} (h : i ∈ reps deps) :
    nonrep deps (i + 1) = nonrep deps i := by
  simp [nonrep, List.range_succ, List.filter_append, h]

theorem nonrep_succ_not {deps : List (ℕ × ℕ × K)} {i : ℕ} (h : i ∉ reps deps) :
    nonrep deps (i + 1) = nonrep deps i ++ [i] := by
  simp [nonrep, List.range_succ, List.filter_append, h]

theorem nonrep_length_mono {deps : List (ℕ × ℕ × K)} {i j : ℕ} (h : i ≤ j) :
    (nonrep deps i).length ≤ (nonrep deps j).length := by
  induction h with
  | refl => exact le_rfl
  | step _ ih =>
    refine ih.trans ?_
    rename_i m _
    by_cases hm : m ∈ reps deps
    · rw [nonrep_succ_mem hm]
    · rw [nonrep_succ_not hm]; simp

theorem nonrep_nodup (deps : List (ℕ × ℕ × K)) (n : ℕ) : (nonrep deps n).Nodup :=
  (List.nodup_range).filter _

theorem mem_nonrep {deps : List (ℕ × ℕ × K)} {n k : ℕ} :
    k ∈ nonrep deps n ↔ k < n ∧ k ∉ reps deps := by
  simp [nonrep]

theorem nonrep_length {n : ℕ} {deps : List (ℕ × ℕ × K)} (h : DepsWF n deps) :
    (nonrep deps n).length + deps.length = n := by
  obtain ⟨nd, hr, _⟩ := h
  have h1 : (nonrep deps n).length + ((List.range n).filter fun k => k ∈ reps deps).length = n := by
    have := List.length_eq_length_filter_add (l := List.range n) (fun k => decide (k ∈ reps deps))
    rw [List.length_range] at this
    unfold nonrep
    simp only [decide_not] at *
    omega
  have h2 : ((List.range n).filter fun k => k ∈ reps deps).length = deps.length := by
    have : ((List.range n).filter fun k => k ∈ reps deps).Perm (reps deps) := by
      refine (List.perm_ext_iff_of_nodup ((List.nodup_range).filter _) nd).mpr ?_
      intro k
      simp only [List.mem_filter, List.mem_range, decide_eq_true_eq]
      refine ⟨fun h => h.2, fun h => ⟨?_, h⟩⟩
      obtain ⟨d, hd, rfl⟩ := List.mem_map.mp h
      exact (hr d hd).2
    rw [this.length_eq]; simp [reps]
  omega

/-- Sorting does not change well-formedness and gives increasing replicas. -/
theorem sort_deps {n : ℕ} {deps : List (ℕ × ℕ × K)} (h : DepsWF n deps) :
    let D := deps.mergeSort (fun a b => decide (a.2.1 ≤ b.2.1))
    D.Perm deps ∧ DepsWF n D ∧ (reps D).Pairwise (· < ·) := by
  intro D
  have hp : D.Perm deps := List.mergeSort_perm _ _
  have hwf : DepsWF n D := by
    refine ⟨(hp.map _).nodup_iff.mpr h.1, fun d hd => h.2.1 d (hp.mem_iff.mp hd),
      fun d hd e he => h.2.2 d (hp.mem_iff.mp hd) e (hp.mem_iff.mp he)⟩
  refine ⟨hp, hwf, ?_⟩
  have hs : D.Pairwise (fun a b => decide (a.2.1 ≤ b.2.1) = true) := by
    apply List.pairwise_mergeSort
    · intro a b c hab hbc
      simp only [decide_eq_true_eq] at *
      omega
    · intro a b
      simp only [Bool.or_eq_true, decide_eq_true_eq]
      omega
  have h1 : (reps D).Pairwise (· ≤ ·) := by
    unfold reps
    rw [List.pairwise_map]
    exact hs.imp (by intro a b h; simpa using h)
  have h2 : (reps D).Pairwise (· ≠ ·) := hwf.1
  exact (h1.and h2).imp (fun ⟨h1, h2⟩ => lt_of_le_of_ne h1 h2)

theorem nonrep_perm {D deps : List (ℕ × ℕ × K)} (h : D.Perm deps) (i : ℕ) :
    nonrep D i = nonrep deps i := by
  unfold nonrep
  apply List.filter_congr
  intro k _
  have : k ∈ reps D ↔ k ∈ reps deps := (h.map _).mem_iff
  simp [this]

/-- Loop invariant of the index loop. -/
structure IdxInv (n : ℕ) (D : List (ℕ × ℕ × K)) (i : ℕ) (s : IdxSt K) : Prop where
  shift : (nonrep D i).length + s.shift = i
  le : s.shift ≤ D.length
  lo : ∀ k < s.shift, ∀ d, D[k]? = some d → d.2.1 < i
  hi : ∀ k, s.shift ≤ k → ∀ d, D[k]? = some d → i ≤ d.2.1
  f2rLen : s.f2r.length = n
  r2fLen : s.r2f.length = n - D.length
  f2r : ∀ k < i, k ∉ reps D → s.f2r[k]? = some ((nonrep D k).length : ℤ)
  r2f : ∀ k < i, k ∉ reps D → s.r2f[(nonrep D k).length]? = some (k : ℤ)
  trip : s.trip = (nonrep D i).map fun k => (k, ((nonrep D k).length : ℤ), (1 : K))

theorem idxLoop_ok {n : ℕ} {D : List (ℕ × ℕ × K)} (hwf : DepsWF n D)
    (hs : (reps D).Pairwise (· < ·)) (f r : List ℤ) (hf : f.length = n)
    (hr : r.length = n - D.length) :
    ∃ s, forRange n (idxStep D) ⟨0, f, r, []⟩ = .ok s ∧ IdxInv n D n s := by
  apply forRange_inv (I := IdxInv n D)
  · refine ⟨by simp [nonrep], by simp, by simp, by simp, hf, hr, by simp, by simp, ?_⟩
    simp [nonrep]
  · intro i hi s inv
    have hmem : (D[s.shift]?).map (fun d => d.2.1) = some i ↔ i ∈ reps D := by
      constructor
      · intro h
        rw [Option.map_eq_some_iff] at h
        obtain ⟨d, hd, he⟩ := h
        exact List.mem_map.mpr ⟨d, List.mem_of_getElem? hd, he⟩
      · intro h
        obtain ⟨d, hd, he⟩ := List.mem_map.mp h
        obtain ⟨k, hk⟩ := List.mem_iff_getElem?.mp hd
        have hks : s.shift ≤ k := by
          by_contra hc
          have := inv.lo k (by omega) d hk
          omega
        have hklt : k < D.length := by
          by_contra hc
          rw [List.getElem?_eq_none (by omega)] at hk; cases hk
        by_cases hkeq : k = s.shift
        · rw [← hkeq, hk]; simp [he]
        · exfalso
          have h1 : s.shift < D.length := by omega
          have h2 := inv.hi s.shift le_rfl D[s.shift] (List.getElem?_eq_getElem h1)
          have h3 := List.pairwise_iff_getElem.mp hs s.shift k (by simpa [reps] using h1)
            (by simpa [reps] using hklt) (by omega)
          simp only [reps, List.getElem_map] at h3
          rw [List.getElem?_eq_getElem hklt] at hk
          cases hk
          omega
    unfold idxStep
    by_cases hR : i ∈ reps D
    · rw [if_pos (hmem.mpr hR)]
      have hsh := hmem.mpr hR
      rw [Option.map_eq_some_iff] at hsh
      obtain ⟨d, hd, he⟩ := hsh
      have hlt : s.shift < D.length := by
        by_contra hc
        rw [List.getElem?_eq_none (by omega)] at hd; cases hd
      refine ⟨_, rfl, ?_⟩
      have sh := inv.shift
      refine ⟨by rw [nonrep_succ_mem hR]; simp only; omega, by simp only; omega, ?_, ?_,
        inv.f2rLen, inv.r2fLen, ?_, ?_, ?_⟩
      · intro k hk e hke
        simp only at hk
        by_cases hks : k < s.shift
        · have := inv.lo k hks e hke; omega
        · have : k = s.shift := by omega
          rw [this, hd] at hke; cases hke; omega
      · intro k hk e hke
        simp only at hk
        have hklt : k < D.length := by
          by_contra hc
          rw [List.getElem?_eq_none (by omega)] at hke; cases hke
        have h3 := List.pairwise_iff_getElem.mp hs s.shift k (by simpa [reps] using hlt)
          (by simpa [reps] using hklt) (by omega)
        simp only [reps, List.getElem_map] at h3
        rw [List.getElem?_eq_getElem hklt] at hke
        rw [List.getElem?_eq_getElem hlt] at hd
        cases hke; cases hd
        omega
      · intro k hk hkR
        exact inv.f2r k (by
          rcases Nat.lt_succ_iff_lt_or_eq.mp hk with h | h
          · exact h
          · exact absurd (h ▸ hR) hkR) hkR
      · intro k hk hkR
        exact inv.r2f k (by
          rcases Nat.lt_succ_iff_lt_or_eq.mp hk with h | h
          · exact h
          · exact absurd (h ▸ hR) hkR) hkR
      · rw [nonrep_succ_mem hR]; exact inv.trip
    · rw [if_neg (fun h => hR (hmem.mp h))]
      have sh := inv.shift
      have his : i - s.shift = (nonrep D i).length := by omega
      have hlen : (nonrep D i).length < n - D.length := by
        have h1 := nonrep_length hwf
        have h2 := nonrep_length_mono (deps := D) (show i + 1 ≤ n by omega)
        rw [nonrep_succ_not hR] at h2
        simp at h2
        omega
      rw [his, vecSet_ok (by rw [inv.f2rLen]; exact hi), Out.ok_bind,
        vecSet_ok (by rw [inv.r2fLen]; exact hlen), Out.ok_bind]
      refine ⟨_, rfl, ?_⟩
      refine ⟨by rw [nonrep_succ_not hR]; simp only [List.length_append, List.length_cons,
        List.length_nil]; omega, inv.le, ?_, ?_, by simpa using inv.f2rLen,
        by simpa using inv.r2fLen, ?_, ?_, ?_⟩
      · intro k hk e hke
        have := inv.lo k hk e hke; omega
      · intro k hk e hke
        have h1 := inv.hi k hk e hke
        have h2 : e.2.1 ≠ i := fun h =>
          hR (List.mem_map.mpr ⟨e, List.mem_of_getElem? hke, h⟩)
        omega
      · intro k hk hkR
        simp only
        rcases Nat.lt_succ_iff_lt_or_eq.mp hk with h | h
        · rw [List.getElem?_set_ne (by omega)]
          exact inv.f2r k h hkR
        · subst h
          rw [List.getElem?_set_self (by rw [inv.f2rLen]; exact hi)]
      · intro k hk hkR
        simp only
        rcases Nat.lt_succ_iff_lt_or_eq.mp hk with h | h
        · have h2 := nonrep_length_mono (deps := D) (show k + 1 ≤ i by omega)
          rw [nonrep_succ_not hkR] at h2
          simp at h2
          rw [List.getElem?_set_ne (by omega)]
          exact inv.r2f k h hkR
        · subst h
          rw [List.getElem?_set_self (by rw [inv.r2fLen]; exact hlen)]
      · simp only [inv.trip, nonrep_succ_not hR, List.map_append, List.map_cons, List.map_nil]

/-- Position of a non-replica variable in the reduced vector. -/
def rank (deps : List (ℕ × ℕ × K)) (k : ℕ) : ℕ := (nonrep deps k).length

theorem depTrip_ok {n : ℕ} {D : List (ℕ × ℕ × K)} {s : IdxSt K} (inv : IdxInv n D n s) :
    ∀ (L : List (ℕ × ℕ × K)) (t : List (ℕ × ℤ × K)), (∀ d ∈ L, d.1 < n ∧ d.1 ∉ reps D) →
    forEach L (depTripStep s.f2r) t =
      .ok (t ++ L.map fun d => (d.2.1, (rank D d.1 : ℤ), d.2.2)) := by
  intro L
  induction L with
  | nil => intro t _; simp [forEach]
  | cons d L ih =>
    intro t h
    obtain ⟨h1, h2⟩ := h d (by simp)
    have : vecAt s.f2r d.1 = .ok ((rank D d.1 : ℕ) : ℤ) := vecAt_eq_ok.mpr (inv.f2r d.1 h1 h2)
    simp only [forEach, depTripStep, this, Out.ok_bind, Out.pure_eq]
    have ih' := ih (t ++ [(d.2.1, (rank D d.1 : ℤ), d.2.2)]) (fun e he => h e (by simp [he]))
    rw [ih']
    simp

/-- Row times vector of a matrix built from triplets. -/
theorem trip_sum (m : ℕ) (i : ℕ) (y : ℕ → K) (trip : List (ℕ × ℤ × K))
    (h : ∀ t ∈ trip, 0 ≤ t.2.1 ∧ t.2.1 < m) :
    ∑ j ∈ range m,
      ((trip.filter fun t => t.1 = i ∧ t.2.1 = (j : ℤ)).map fun t => t.2.2).sum * y j
      = ((trip.filter fun t => t.1 = i).map fun t => t.2.2 * y t.2.1.toNat).sum := by
  induction trip with
  | nil => simp
  | cons t trip ih =>
    have ih' := ih (fun t ht => h t (by simp [ht]))
    obtain ⟨h1, h2⟩ := h t (by simp)
    by_cases hi : t.1 = i
    · have e1 : ∀ j : ℕ, (((t :: trip).filter fun t => t.1 = i ∧ t.2.1 = (j : ℤ)).map
            fun t => t.2.2).sum * y j
          = (if j = t.2.1.toNat then t.2.2 * y t.2.1.toNat else 0) +
            ((trip.filter fun t => t.1 = i ∧ t.2.1 = (j : ℤ)).map fun t => t.2.2).sum * y j := by
        intro j
        by_cases hj : t.2.1 = (j : ℤ)
        · have : j = t.2.1.toNat := by omega
          simp only [hi, hj, true_and, decide_true, List.filter_cons_of_pos, List.map_cons,
            List.sum_cons, Int.toNat_natCast, if_true]
          ring
        · have : ¬ j = t.2.1.toNat := by omega
          simp [hj, this]
      rw [Finset.sum_congr rfl (fun j _ => e1 j), Finset.sum_add_distrib, ih',
        Finset.sum_ite_eq' (range m)]
      have : t.2.1.toNat ∈ range m := by simp; omega
      simp [this, hi]
    · have e1 : ∀ j : ℕ, (((t :: trip).filter fun t => t.1 = i ∧ t.2.1 = (j : ℤ)).map
            fun t => t.2.2).sum * y j
          = ((trip.filter fun t => t.1 = i ∧ t.2.1 = (j : ℤ)).map fun t => t.2.2).sum * y j := by
        intro j; simp [hi]
      rw [Finset.sum_congr rfl (fun j _ => e1 j), ih']
      simp [hi]

/-- What `setDependencies` establishes (for well-formed dependencies). -/
structure DepSpec (n : ℕ) (deps : List (ℕ × ℕ × K)) (ds : DepSt K) : Prop where
  perm : ds.deps.Perm deps
  wf : DepsWF n ds.deps
  f2rLen : ds.fullToReduced.length = n
  r2fEq : ds.reducedToFull = (nonrep deps n).map fun k : ℕ => (k : ℤ)
  f2r : ∀ k < n, k ∉ reps deps → ds.fullToReduced[k]? = some (rank deps k : ℤ)
  rows : ds.M.rows = n
  cols : ds.M.cols = n - deps.length
  mulKeep : ∀ k < n, k ∉ reps deps → ∀ y : ℕ → K, ds.M.rowMul k y = y (rank deps k)
  mulRep : ∀ d ∈ deps, ∀ y : ℕ → K, ds.M.rowMul d.2.1 y = d.2.2 * y (rank deps d.1)

theorem rank_lt {n : ℕ} {deps : List (ℕ × ℕ × K)} (h : DepsWF n deps) {k : ℕ} (hk : k < n)
    (hR : k ∉ reps deps) : rank deps k < n - deps.length := by
  have h1 := nonrep_length h
  have h2 := nonrep_length_mono (deps := deps) (show k + 1 ≤ n by omega)
  rw [nonrep_succ_not hR] at h2
  simp at h2
  unfold rank
  omega

theorem nonrep_getElem {deps : List (ℕ × ℕ × K)} {n k : ℕ} (hk : k < n) (hR : k ∉ reps deps) :
    (nonrep deps n)[rank deps k]? = some k := by
  induction n with
  | zero => omega
  | succ m ih =>
    by_cases hm : m ∈ reps deps
    · rw [nonrep_succ_mem hm]
      refine ih (lt_of_le_of_ne (by omega) ?_)
      rintro rfl; exact hR hm
    · rw [nonrep_succ_not hm]
      by_cases hkm : k = m
      · subst hkm; simp [rank]
      · have hl : rank deps k < (nonrep deps m).length := by
          have h2 := nonrep_length_mono (deps := deps) (show k + 1 ≤ m by omega)
          rw [nonrep_succ_not hR] at h2
          simp at h2
          unfold rank; omega
        rw [List.getElem?_append_left hl]
        exact ih (by omega)

/-- A leader is never a replica, so some variable is left if there was one. -/
theorem DepsWF.length_lt {n : ℕ} {deps : List (ℕ × ℕ × K)} (h : DepsWF n deps) (hn : 0 < n) :
    deps.length < n := by
  cases deps with
  | nil => exact hn
  | cons d l =>
    have h1 := nonrep_length h
    have h2 : d.1 ∈ nonrep (d :: l) n := by
      refine mem_nonrep.mpr ⟨(h.2.1 d (by simp)).1, fun hc => ?_⟩
      obtain ⟨e, he, heq⟩ := List.mem_map.mp hc
      exact h.2.2 d (by simp) e he heq.symm
    have h3 := List.length_pos_of_mem h2
    omega

/-- Without variables the assertion of `setDependencies` fails. -/
theorem setDependencies_pos {n : ℕ} {deps : List (ℕ × ℕ × K)} {s ds : DepSt K}
    (h : setDependencies n deps s = .ok ds) : 0 < n := by
  by_contra hc
  rw [setDependencies, if_pos (by omega)] at h
  cases h

theorem setDependencies_ok {n : ℕ} {deps : List (ℕ × ℕ × K)} (h : DepsWF n deps) (hn : 0 < n)
    (s : DepSt K) : ∃ ds, setDependencies n deps s = .ok ds ∧ DepSpec n deps ds := by
  have hlt := h.length_lt hn
  obtain ⟨hp, hwf, hsort⟩ := sort_deps h
  set D := deps.mergeSort (fun a b => decide (a.2.1 ≤ b.2.1)) with hD
  have hDl : D.length = deps.length := hp.length_eq
  have hnl := nonrep_length h
  obtain ⟨st, e1, inv⟩ := idxLoop_ok hwf hsort (vecResize s.fullToReduced n (-1))
    (vecResize s.reducedToFull (n - D.length) (-1)) (by simp) (by simp)
  have hlead : ∀ d ∈ D, d.1 < n ∧ d.1 ∉ reps D := by
    intro d hd
    refine ⟨(hwf.2.1 d hd).1, fun hc => ?_⟩
    obtain ⟨e, he, heq⟩ := List.mem_map.mp hc
    exact hwf.2.2 d hd e he heq.symm
  have e2 := depTrip_ok inv D st.trip hlead
  set trip := st.trip ++ D.map fun d => (d.2.1, (rank D d.1 : ℤ), d.2.2) with htrip
  have hrange : ∀ t ∈ trip, t.1 < n ∧ 0 ≤ t.2.1 ∧ t.2.1 < ((n - deps.length : ℕ) : ℤ) := by
    intro t ht
    rw [htrip, List.mem_append, inv.trip] at ht
    rcases ht with ht | ht
    · obtain ⟨k, hk, rfl⟩ := List.mem_map.mp ht
      obtain ⟨hk1, hk2⟩ := mem_nonrep.mp hk
      have := rank_lt hwf hk1 hk2
      unfold rank at this
      refine ⟨hk1, by simp, ?_⟩
      simp only [Nat.cast_lt]; omega
    · obtain ⟨d, hd, rfl⟩ := List.mem_map.mp ht
      have := rank_lt hwf (hlead d hd).1 (hlead d hd).2
      refine ⟨(hwf.2.1 d hd).2, by simp, ?_⟩
      simp only [Nat.cast_lt]; omega
  have hrk : ∀ k, rank D k = rank deps k := fun k => by unfold rank; rw [nonrep_perm hp]
  have hreps : ∀ k, k ∈ reps D ↔ k ∈ reps deps := fun k => (hp.map _).mem_iff
  refine ⟨⟨D, st.f2r, st.r2f, ⟨n, n - deps.length, fun i j =>
      ((trip.filter fun t => t.1 = i ∧ t.2.1 = (j : ℤ)).map fun t => t.2.2).sum⟩⟩, ?_, ?_⟩
  · unfold setDependencies
    rw [if_neg (by omega)]
    simp only
    rw [← hD, e1, Out.ok_bind, e2, Out.ok_bind, fromTriplets, if_pos hrange]
    rfl
  · have rowEq : ∀ (i : ℕ) (y : ℕ → K),
        (Mat.mk n (n - deps.length) fun i j =>
          ((trip.filter fun t => t.1 = i ∧ t.2.1 = (j : ℤ)).map fun t => t.2.2).sum).rowMul i y
        = (((st.trip).filter fun t => t.1 = i).map fun t => t.2.2 * y t.2.1.toNat).sum
          + ((D.filter fun d => d.2.1 = i).map fun d => d.2.2 * y (rank D d.1)).sum := by
      intro i y
      unfold Mat.rowMul
      simp only
      rw [trip_sum _ i y trip (fun t ht => (hrange t ht).2), htrip, List.filter_append,
        List.map_append, List.sum_append]
      congr 1
      rw [List.filter_map, List.map_map]
      rfl
    have stRow : ∀ (i : ℕ) (y : ℕ → K),
        (((st.trip).filter fun t => t.1 = i).map fun t => t.2.2 * y t.2.1.toNat).sum
        = if i < n ∧ i ∉ reps D then y (rank D i) else 0 := by
      intro i y
      rw [inv.trip, List.filter_map, List.map_map]
      have : (nonrep D n).filter ((fun t : ℕ × ℤ × K => decide (t.1 = i)) ∘
          fun k => (k, ((nonrep D k).length : ℤ), (1 : K)))
          = List.replicate ((nonrep D n).count i) i := by
        rw [← List.filter_eq]; rfl
      rw [this]
      by_cases hi : i < n ∧ i ∉ reps D
      · rw [List.count_eq_one_of_mem (nonrep_nodup D n) (mem_nonrep.mpr hi), if_pos hi]
        simp [rank]
      · rw [List.count_eq_zero_of_not_mem (fun h => hi (mem_nonrep.mp h)), if_neg hi]
        simp
    have dRow : ∀ (i : ℕ), i ∉ reps D → (D.filter fun d => d.2.1 = i) = [] := by
      intro i hi
      rw [List.filter_eq_nil_iff]
      intro d hd
      simp only [decide_eq_true_eq]
      intro he
      exact hi (List.mem_map.mpr ⟨d, hd, he⟩)
    have dRow1 : ∀ d ∈ D, (D.filter fun e => e.2.1 = d.2.1) = [d] := by
      have : ∀ L : List (ℕ × ℕ × K), (L.map fun d => d.2.1).Nodup → ∀ d ∈ L,
          (L.filter fun e => e.2.1 = d.2.1) = [d] := by
        intro L
        induction L with
        | nil => simp
        | cons a L ih =>
          intro nd d hd
          rw [List.map_cons, List.nodup_cons] at nd
          rcases List.mem_cons.mp hd with rfl | hd
          · simp only [decide_true, List.filter_cons_of_pos, List.cons.injEq, true_and]
            rw [List.filter_eq_nil_iff]
            intro e he
            simp only [decide_eq_true_eq]
            intro heq
            exact nd.1 (List.mem_map.mpr ⟨e, he, heq⟩)
          · have hne : ¬ a.2.1 = d.2.1 := fun h =>
              nd.1 (List.mem_map.mpr ⟨d, hd, h.symm⟩)
            simp only [hne, decide_false, Bool.false_eq_true, not_false_eq_true,
              List.filter_cons_of_neg]
            exact ih nd.2 d hd
      exact this D hwf.1
    refine ⟨hp, hwf, inv.f2rLen, ?_, ?_, rfl, rfl, ?_, ?_⟩
    · -- reducedToFull
      simp only
      rw [← nonrep_perm hp]
      have hl : st.r2f.length = (nonrep D n).length := by
        rw [inv.r2fLen]
        have := nonrep_length hwf
        omega
      apply List.ext_getElem?
      intro j
      by_cases hj : j < (nonrep D n).length
      · obtain ⟨hk1, hk2⟩ := mem_nonrep.mp (List.getElem_mem hj)
        have h1 := nonrep_getElem hk1 hk2
        have h2 : rank D (nonrep D n)[j] = j := by
          have hlt : rank D (nonrep D n)[j] < (nonrep D n).length := by
            by_contra hc
            rw [List.getElem?_eq_none (by omega)] at h1; cases h1
          rw [List.getElem?_eq_getElem hlt, Option.some.injEq] at h1
          exact (List.Nodup.getElem_inj_iff (nonrep_nodup D n)).mp h1
        have h3 := inv.r2f _ hk1 hk2
        unfold rank at h2
        rw [h2] at h3
        rw [h3]
        simp [hj]
      · rw [List.getElem?_eq_none (by omega), List.getElem?_eq_none (by simpa using hj)]
    · intro k hk hR
      have := inv.f2r k hk (fun h => hR ((hreps k).mp h))
      simp only
      rw [this, ← hrk]; rfl
    · intro k hk hR y
      have hR' : k ∉ reps D := fun h => hR ((hreps k).mp h)
      simp only
      rw [rowEq, stRow, dRow k hR', if_pos ⟨hk, hR'⟩, hrk]
      simp
    · intro d hd y
      have hd' : d ∈ D := hp.mem_iff.mpr hd
      have hR : d.2.1 ∈ reps D := List.mem_map.mpr ⟨d, hd', rfl⟩
      simp only
      rw [rowEq, stRow, dRow1 d hd', if_neg (fun h => h.2 hR)]
      simp [hrk]

/-! ### Bounds -/

theorem Vec.at'_ok {α : Type} {v : Vec α} {i : ℕ} (h : i < v.size) : v.at' i = .ok (v.get i) := by
  simp [Vec.at', h]

theorem Vec.atI_ok {α : Type} {v : Vec α} {i : ℕ} (h : i < v.size) :
    v.atI (i : ℤ) = .ok (v.get i) := by
  simp [Vec.atI, Vec.at'_ok h]

theorem Vec.set_ok {α : Type} {v : Vec α} {i : ℕ} {a : α} (h : i < v.size) :
    v.set i a = .ok ⟨v.size, fun j => if j = i then a else v.get j⟩ := by
  simp [Vec.set, h]

theorem Vec.setI_ok {α : Type} {v : Vec α} {i : ℕ} {a : α} (h : i < v.size) :
    v.setI (i : ℤ) a = .ok ⟨v.size, fun j => if j = i then a else v.get j⟩ := by
  simp [Vec.setI, Vec.set_ok h]

variable [IsStrictOrderedRing K]

/-- The copy loop of `reduceBound`. -/
theorem reduceCopy_ok {n m : ℕ} {XL XU : Vec (Ext K)} (h1 : XL.size = n) (h2 : XU.size = n)
    {l : List ℕ} (hl : l.length = m) (hb : ∀ k ∈ l, k < n) (s : Vec (Ext K) × Vec (Ext K))
    (s1 : s.1.size = m) (s2 : s.2.size = m) :
    ∃ s', forRange m (reduceBoundCopy XL XU (l.map fun k : ℕ => (k : ℤ))) s = .ok s' ∧
      s'.1.size = m ∧ s'.2.size = m ∧
      ∀ (j k : ℕ), l[j]? = some k → s'.1.get j = XL.get k ∧ s'.2.get j = XU.get k := by
  have main : ∃ s', forRange m (reduceBoundCopy XL XU (l.map fun k : ℕ => (k : ℤ))) s = .ok s' ∧
      (s'.1.size = m ∧ s'.2.size = m ∧
      ∀ (j k : ℕ), j < m → l[j]? = some k → s'.1.get j = XL.get k ∧ s'.2.get j = XU.get k) := by
    apply forRange_inv (I := fun i (s : Vec (Ext K) × Vec (Ext K)) => s.1.size = m ∧ s.2.size = m ∧
      ∀ (j k : ℕ), j < i → l[j]? = some k → s.1.get j = XL.get k ∧ s.2.get j = XU.get k)
    · exact ⟨s1, s2, by simp⟩
    · rintro i hi s ⟨z1, z2, g⟩
      have hil : i < l.length := by omega
      have hk := hb l[i] (List.getElem_mem hil)
      refine ⟨(⟨s.1.size, fun j => if j = i then XL.get l[i] else s.1.get j⟩,
        ⟨s.2.size, fun j => if j = i then XU.get l[i] else s.2.get j⟩), ?_, z1, z2, ?_⟩
      · unfold reduceBoundCopy
        have : vecAt (l.map fun k : ℕ => (k : ℤ)) i = .ok ((l[i] : ℕ) : ℤ) := by
          rw [vecAt_eq_ok]; simp [hil]
        rw [this, Out.ok_bind, Vec.atI_ok (by omega), Out.ok_bind, Vec.set_ok (by omega),
          Out.ok_bind, Vec.atI_ok (by omega), Out.ok_bind, Vec.set_ok (by omega)]
        rfl
      · intro j k hj hjk
        simp only
        by_cases hji : j = i
        · subst hji
          rw [List.getElem?_eq_getElem hil] at hjk
          cases hjk
          simp
        · simp only [if_neg hji]
          exact g j k (by omega) hjk
  obtain ⟨s', e, z1, z2, g⟩ := main
  refine ⟨s', e, z1, z2, fun j k hjk => g j k ?_ hjk⟩
  by_contra hc
  rw [List.getElem?_eq_none (by omega)] at hjk; cases hjk

/-- The dependency loop of `reduceBound`: each dependency with nonzero multiplier adds the bounds
of the replica on `multiplier * leader`. -/
theorem reduceDeps_ok {n m : ℕ} {XL XU : Vec (Ext K)} (h1 : XL.size = n) (h2 : XU.size = n)
    {f2r : List ℤ} {rk : ℕ → ℕ} :
    ∀ (L : List (ℕ × ℕ × K)), (∀ d ∈ L, d.2.1 < n ∧ f2r[d.1]? = some (rk d.1 : ℤ) ∧ rk d.1 < m) →
    ∀ (s : Vec (Ext K) × Vec (Ext K)), s.1.size = m → s.2.size = m →
    ∃ s', forEach L (reduceBoundDep XL XU f2r) s = .ok s' ∧ s'.1.size = m ∧ s'.2.size = m ∧
      ∀ y : ℕ → K, InBounds s'.1 s'.2 y ↔ InBounds s.1 s.2 y ∧
        ∀ d ∈ L, d.2.2 ≠ 0 → (XL.get d.2.1).LowerOK (d.2.2 * y (rk d.1)) ∧
          (XU.get d.2.1).UpperOK (d.2.2 * y (rk d.1)) := by
  intro L
  induction L with
  | nil => intro _ s z1 z2; exact ⟨s, rfl, z1, z2, by simp⟩
  | cons d L ih =>
    intro hL s z1 z2
    obtain ⟨b1, b2, b3⟩ := hL d (by simp)
    have step : ∃ s1, reduceBoundDep XL XU f2r d s = .ok s1 ∧ s1.1.size = m ∧ s1.2.size = m ∧
        ∀ y : ℕ → K, InBounds s1.1 s1.2 y ↔ InBounds s.1 s.2 y ∧
          (d.2.2 ≠ 0 → (XL.get d.2.1).LowerOK (d.2.2 * y (rk d.1)) ∧
          (XU.get d.2.1).UpperOK (d.2.2 * y (rk d.1))) := by
      have hv : vecAt f2r d.1 = .ok (rk d.1 : ℤ) := vecAt_eq_ok.mpr b2
      have upd : ∀ (nl nu : Ext K) (y : ℕ → K) (P Q : Prop),
          ((s.1.get (rk d.1)).max nl).LowerOK (y (rk d.1)) =
            ((s.1.get (rk d.1)).LowerOK (y (rk d.1)) ∧ P) →
          ((s.2.get (rk d.1)).min nu).UpperOK (y (rk d.1)) =
            ((s.2.get (rk d.1)).UpperOK (y (rk d.1)) ∧ Q) →
          (InBounds (⟨s.1.size, fun j => if j = rk d.1 then (s.1.get (rk d.1)).max nl
              else s.1.get j⟩ : Vec (Ext K))
            ⟨s.2.size, fun j => if j = rk d.1 then (s.2.get (rk d.1)).min nu else s.2.get j⟩ y ↔
            InBounds s.1 s.2 y ∧ (P ∧ Q)) := by
        intro nl nu y P Q hP hQ
        unfold InBounds
        simp only
        constructor
        · rintro ⟨a1, a2⟩
          have c1 := a1 (rk d.1) (by omega)
          have c2 := a2 (rk d.1) (by omega)
          simp only [if_true] at c1 c2
          rw [hP] at c1
          rw [hQ] at c2
          refine ⟨⟨fun i hi => ?_, fun i hi => ?_⟩, c1.2, c2.2⟩
          · by_cases he : i = rk d.1
            · rw [he]; exact c1.1
            · have := a1 i hi; rwa [if_neg he] at this
          · by_cases he : i = rk d.1
            · rw [he]; exact c2.1
            · have := a2 i hi; rwa [if_neg he] at this
        · rintro ⟨⟨a1, a2⟩, hp, hq⟩
          refine ⟨fun i hi => ?_, fun i hi => ?_⟩
          · by_cases he : i = rk d.1
            · rw [if_pos he, he, hP]; exact ⟨a1 _ (by omega), hp⟩
            · rw [if_neg he]; exact a1 i hi
          · by_cases he : i = rk d.1
            · rw [if_pos he, he, hQ]; exact ⟨a2 _ (by omega), hq⟩
            · rw [if_neg he]; exact a2 i hi
      unfold reduceBoundDep
      rw [hv, Out.ok_bind]
      by_cases h0 : d.2.2 = 0
      · simp only [h0, ne_eq, not_true_eq_false, if_false, Out.pure_eq]
        exact ⟨s, rfl, z1, z2, by simp⟩
      · rw [if_pos h0, Vec.atI_ok (by omega), Out.ok_bind, Vec.atI_ok (by omega), Out.ok_bind,
          Vec.at'_ok (by omega), Out.ok_bind, Vec.at'_ok (by omega), Out.ok_bind]
        by_cases hneg : d.2.2 < 0
        · rw [if_pos hneg, Vec.setI_ok (by omega), Out.ok_bind, Vec.setI_ok (by omega), Out.ok_bind]
          refine ⟨_, rfl, z1, z2, fun y => ?_⟩
          rw [upd _ _ y _ _ (by rw [Ext.lowerOK_max, Ext.lowerOK_divBy_neg hneg])
            (by rw [Ext.upperOK_min, Ext.upperOK_divBy_neg hneg])]
          constructor
          · rintro ⟨a, b, c⟩; exact ⟨a, fun _ => ⟨c, b⟩⟩
          · rintro ⟨a, b⟩; exact ⟨a, (b h0).2, (b h0).1⟩
        · have hpos : 0 < d.2.2 := lt_of_le_of_ne (not_lt.mp hneg) (Ne.symm h0)
          rw [if_neg hneg, Vec.setI_ok (by omega), Out.ok_bind, Vec.setI_ok (by omega), Out.ok_bind]
          refine ⟨_, rfl, z1, z2, fun y => ?_⟩
          rw [upd _ _ y _ _ (by rw [Ext.lowerOK_max, Ext.lowerOK_divBy_pos hpos])
            (by rw [Ext.upperOK_min, Ext.upperOK_divBy_pos hpos])]
          constructor
          · rintro ⟨a, b, c⟩; exact ⟨a, fun _ => ⟨b, c⟩⟩
          · rintro ⟨a, b⟩; exact ⟨a, (b h0).1, (b h0).2⟩
    obtain ⟨s1, e1, y1, y2, g1⟩ := step
    obtain ⟨s2, e2, w1, w2, g2⟩ := ih (fun e he => hL e (by simp [he])) s1 y1 y2
    refine ⟨s2, by simp only [forEach, e1, Out.ok_bind, e2], w1, w2, fun y => ?_⟩
    rw [g2, g1, List.forall_mem_cons, and_assoc]

end Verif
