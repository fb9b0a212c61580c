import Verif.Model.Multi
import Verif.Proofs.Posture
import Verif.Props.Motion

/-!
# Lemmas about the tasks on several robots
-/

set_option autoImplicit false
set_option linter.unusedSectionVars false

namespace Verif

open Finset Spec

namespace Spec

variable {K : Type}

/-- The data is the variable layout of these robots. -/
def IsLayout [Field K] [LinearOrder K] [IsStrictOrderedRing K] (mbs : List (MultiBody K))
    (d : SolverData K) : Prop :=
  ∃ old uni bi deps, GoodInput mbs bi ∧ layout old mbs uni bi = .ok (d, deps)

end Spec

section
variable {K : Type} [CommRing K]

theorem matSetBlock_eq_ok {m b r : Mat K} {i j : ℕ} (h : m.setBlock i j b = .ok r) :
    i + b.rows ≤ m.rows ∧ j + b.cols ≤ m.cols ∧ r = ⟨m.rows, m.cols, fun a c =>
      if (i ≤ a ∧ a < i + b.rows) ∧ (j ≤ c ∧ c < j + b.cols) then b.get (a - i) (c - j)
      else m.get a c⟩ := by
  unfold Mat.setBlock at h
  split at h
  · rename_i hh
    simp only [Out.ok.injEq] at h
    subst h
    exact ⟨hh.1, hh.2, by congr⟩
  · cases h

theorem matBlock_eq_ok {m r : Mat K} {i j p q : ℕ} (h : m.block i j p q = .ok r) :
    i + p ≤ m.rows ∧ j + q ≤ m.cols ∧ r = ⟨p, q, fun a c => m.get (i + a) (j + c)⟩ := by
  unfold Mat.block at h
  split at h
  · rename_i hh
    simp only [Out.ok.injEq] at h
    exact ⟨hh.1, hh.2, h.symm⟩
  · cases h

theorem foldl_min_le (rs : List ℕ) (r0 : ℕ) :
    rs.foldl min r0 ∈ r0 :: rs ∧ ∀ r ∈ r0 :: rs, rs.foldl min r0 ≤ r := by
  induction rs generalizing r0 with
  | nil => simp
  | cons a t ih =>
    obtain ⟨h1, h2⟩ := ih (min r0 a)
    simp only [List.foldl_cons]
    refine ⟨?_, ?_⟩
    · rcases List.mem_cons.1 h1 with h | h
      · rw [h]
        rcases min_choice r0 a with h | h <;> rw [h] <;> simp
      · simp [h]
    · intro r hr
      have h0 := h2 (min r0 a) (by simp)
      rcases List.mem_cons.1 hr with rfl | hr
      · exact h0.trans (min_le_left _ _)
      · rcases List.mem_cons.1 hr with rfl | hr
        · exact h0.trans (min_le_right _ _)
        · exact h2 r (by simp [hr])

theorem le_foldl_max (rs : List ℕ) (r0 : ℕ) :
    rs.foldl max r0 ∈ r0 :: rs ∧ ∀ r ∈ r0 :: rs, r ≤ rs.foldl max r0 := by
  induction rs generalizing r0 with
  | nil => simp
  | cons a t ih =>
    obtain ⟨h1, h2⟩ := ih (max r0 a)
    simp only [List.foldl_cons]
    refine ⟨?_, ?_⟩
    · rcases List.mem_cons.1 h1 with h | h
      · rw [h]
        rcases max_choice r0 a with h | h <;> rw [h] <;> simp
      · simp [h]
    · intro r hr
      have h0 := h2 (max r0 a) (by simp)
      rcases List.mem_cons.1 hr with rfl | hr
      · exact (le_max_left _ _).trans h0
      · rcases List.mem_cons.1 hr with rfl | hr
        · exact (le_max_right _ _).trans h0
        · exact h2 r (by simp [hr])

/-- Column `a` is in the block of robot number `i`. -/
def inB (pos dof : ℕ → ℕ) (i a : ℕ) : Prop := pos i ≤ a ∧ a < pos i + dof i

instance (pos dof : ℕ → ℕ) (i a : ℕ) : Decidable (inB pos dof i a) := by
  unfold inB; infer_instance

/-- Position, dof count and Jacobian of robot number `i`. -/
def MultiT.pos (s : MultiT K) (i : ℕ) : ℕ := s.posInQ.getD i 0
def MultiT.dof (d : SolverData K) (s : MultiT K) (i : ℕ) : ℕ := d.alphaD.getD (s.robots.getD i 0) 0
def MultiHL.J (hl : MultiHL K) (i : ℕ) : Mat K := hl.jac.getD i (Mat.zero 0 0)

/-- Hessian and linear term of robot number `i`, in place. -/
def bq (W : Vec K) (pos dof : ℕ → ℕ) (J : ℕ → Mat K) (i a b : ℕ) : K :=
  if inB pos dof i a ∧ inB pos dof i b then (lsqQ W (J i)).get (a - pos i) (b - pos i) else 0
def bc (W : Vec K) (e : ℕ → K) (pos dof : ℕ → ℕ) (J : ℕ → Mat K) (i a : ℕ) : K :=
  if inB pos dof i a then (lsqC W (J i) e).get (a - pos i) else 0

theorem multiBlocks_ok {d : SolverData K} {hl : MultiHL K} {e : Vec K} {s : MultiT K} {i : ℕ}
    {p : ℕ × ℕ × Mat K × Vec K} (h : s.blocks d hl e i = .ok p) :
    p = (s.pos i, s.dof d i, lsqQ s.dimWeight (hl.J i), lsqC s.dimWeight (hl.J i) e.get) ∧
      (hl.J i).cols = s.dof d i ∧ s.dimWeight.size = (hl.J i).rows ∧ s.dimWeight.size = e.size := by
  unfold MultiT.blocks at h
  obtain ⟨r, hr, h⟩ := Out.bind_eq_ok.1 h
  obtain ⟨b, hb, h⟩ := Out.bind_eq_ok.1 h
  obtain ⟨dof, hd, h⟩ := Out.bind_eq_ok.1 h
  obtain ⟨J, hJ, h⟩ := Out.bind_eq_ok.1 h
  rw [vecAt_eq_ok] at hr hb hd hJ
  split at h
  · cases h
  rename_i hc
  obtain ⟨pre, hp, h⟩ := Out.bind_eq_ok.1 h
  obtain ⟨q, hq, h⟩ := Out.bind_eq_ok.1 h
  obtain ⟨we, hwe, h⟩ := Out.bind_eq_ok.1 h
  obtain ⟨c, hcc, h⟩ := Out.bind_eq_ok.1 h
  simp only [Out.pure_eq, Out.ok.injEq] at h
  obtain ⟨a1, rfl⟩ := diagMulM_eq_ok.1 hp
  obtain ⟨a2, rfl⟩ := trMul_eq_ok.1 hq
  obtain ⟨a3, rfl⟩ := diagMulV_eq_ok.1 hwe
  obtain ⟨a4, rfl⟩ := negTrMulVec_eq_ok.1 hcc
  have e1 : s.pos i = b := by simp [MultiT.pos, List.getD, hb]
  have e2 : s.dof d i = dof := by simp [MultiT.dof, List.getD, hr, hd]
  have e3 : hl.J i = J := by simp [MultiHL.J, List.getD, hJ]
  rw [e1, e2, e3]
  subst h
  exact ⟨rfl, by omega, a1, a3⟩

/-- The blocks loop of `MultiCoMTask::update`, for disjoint blocks. -/
theorem comLoop_ok {d : SolverData K} {hl : MultiHL K} {e : Vec K} {s : MultiT K} {n : ℕ}
    (hdis : ∀ i j, i < n → j < n → i ≠ j → ∀ a, inB s.pos (s.dof d) i a →
      ¬ inB s.pos (s.dof d) j a)
    {st st' : Mat K × Vec K}
    (h : forRange n (MultiT.comStep d hl e s) st = .ok st') :
    (st'.1.rows = st.1.rows ∧ st'.1.cols = st.1.cols ∧ st'.2.size = st.2.size) ∧
    (∀ i < n, s.pos i + s.dof d i ≤ st.1.rows ∧ s.pos i + s.dof d i ≤ st.1.cols ∧
      s.pos i + s.dof d i ≤ st.2.size ∧ (hl.J i).cols = s.dof d i ∧
      s.dimWeight.size = (hl.J i).rows ∧ s.dimWeight.size = e.size) ∧
    (∀ a b, st'.1.get a b =
      if ∃ i < n, inB s.pos (s.dof d) i a ∧ inB s.pos (s.dof d) i b then
        ∑ i ∈ range n, bq s.dimWeight s.pos (s.dof d) hl.J i a b else st.1.get a b) ∧
    (∀ a, st'.2.get a =
      if ∃ i < n, inB s.pos (s.dof d) i a then
        ∑ i ∈ range n, bc s.dimWeight e.get s.pos (s.dof d) hl.J i a else st.2.get a) := by
  classical
  refine forRange_ok_inv (I := fun k (p : Mat K × Vec K) =>
    (p.1.rows = st.1.rows ∧ p.1.cols = st.1.cols ∧ p.2.size = st.2.size) ∧
    (∀ i < k, s.pos i + s.dof d i ≤ st.1.rows ∧ s.pos i + s.dof d i ≤ st.1.cols ∧
      s.pos i + s.dof d i ≤ st.2.size ∧ (hl.J i).cols = s.dof d i ∧
      s.dimWeight.size = (hl.J i).rows ∧ s.dimWeight.size = e.size) ∧
    (∀ a b, p.1.get a b =
      if ∃ i < k, inB s.pos (s.dof d) i a ∧ inB s.pos (s.dof d) i b then
        ∑ i ∈ range k, bq s.dimWeight s.pos (s.dof d) hl.J i a b else st.1.get a b) ∧
    (∀ a, p.2.get a =
      if ∃ i < k, inB s.pos (s.dof d) i a then
        ∑ i ∈ range k, bc s.dimWeight e.get s.pos (s.dof d) hl.J i a else st.2.get a))
    ⟨⟨rfl, rfl, rfl⟩, fun i hi => by omega, fun a b => by simp, fun a => by simp⟩ ?_ h
  rintro k hk ⟨Q, C⟩ ⟨Q', C'⟩ ⟨⟨i1, i2, i3⟩, i4, i5, i6⟩ hs
  unfold MultiT.comStep at hs
  obtain ⟨p, hp, hs⟩ := Out.bind_eq_ok.1 hs
  obtain ⟨Q1, hQ, hs⟩ := Out.bind_eq_ok.1 hs
  obtain ⟨C1, hC, hs⟩ := Out.bind_eq_ok.1 hs
  simp only [Out.pure_eq, Out.ok.injEq, Prod.mk.injEq] at hs
  obtain ⟨rfl, rfl⟩ := hs
  obtain ⟨rfl, b2, b3, b4⟩ := multiBlocks_ok hp
  obtain ⟨q1, q2, rfl⟩ := matSetBlock_eq_ok hQ
  obtain ⟨c1, rfl⟩ := vecSetSegment_eq_ok hC
  simp only [lsqQ, lsqC, b2] at q1 q2 c1
  simp only at i1 i2 i3 i5 i6
  refine ⟨⟨i1, i2, i3⟩, ?_, ?_, ?_⟩
  · intro i hi
    rcases Nat.lt_succ_iff_lt_or_eq.1 hi with hi | rfl
    · exact i4 i hi
    · exact ⟨by omega, by omega, by omega, b2, b3, b4⟩
  · intro a b
    dsimp only
    rw [show (lsqQ s.dimWeight (hl.J k)).rows = s.dof d k from b2,
      show (lsqQ s.dimWeight (hl.J k)).cols = s.dof d k from b2]
    by_cases hin : inB s.pos (s.dof d) k a ∧ inB s.pos (s.dof d) k b
    · refine (if_pos hin).trans ?_
      rw [if_pos ⟨k, Nat.lt_succ_self k, hin⟩, Finset.sum_range_succ,
        Finset.sum_eq_zero, zero_add, bq, if_pos hin]
      intro i hi
      rw [mem_range] at hi
      rw [bq, if_neg]
      exact fun hh => hdis i k (by omega) hk (by omega) a hh.1 hin.1
    · refine (if_neg hin).trans ?_
      rw [i5 a b, Finset.sum_range_succ, bq, if_neg hin, add_zero]
      congr 1
      simp only [eq_iff_iff]
      constructor
      · rintro ⟨i, hi, hh⟩
        exact ⟨i, by omega, hh⟩
      · rintro ⟨i, hi, hh⟩
        rcases Nat.lt_succ_iff_lt_or_eq.1 hi with hi | rfl
        · exact ⟨i, hi, hh⟩
        · exact absurd hh hin
  · intro a
    dsimp only
    rw [show (lsqC s.dimWeight (hl.J k) e.get).size = s.dof d k from b2]
    by_cases hin : inB s.pos (s.dof d) k a
    · refine (if_pos hin).trans ?_
      rw [if_pos ⟨k, Nat.lt_succ_self k, hin⟩, Finset.sum_range_succ,
        Finset.sum_eq_zero, zero_add, bc, if_pos hin]
      intro i hi
      rw [mem_range] at hi
      rw [bc, if_neg]
      exact fun hh => hdis i k (by omega) hk (by omega) a hh hin
    · refine (if_neg hin).trans ?_
      rw [i6 a, Finset.sum_range_succ, bc, if_neg hin, add_zero]
      congr 1
      simp only [eq_iff_iff]
      constructor
      · rintro ⟨i, hi, hh⟩
        exact ⟨i, by omega, hh⟩
      · rintro ⟨i, hi, hh⟩
        rcases Nat.lt_succ_iff_lt_or_eq.1 hi with hi | rfl
        · exact ⟨i, hi, hh⟩
        · exact absurd hh hin

/-- The zeroing loop of `MultiRobotTransformTask::update`. -/
theorem zeroLoop_ok {d : SolverData K} {s : MultiT K} {n : ℕ} {st st' : Mat K × Vec K}
    (h : forRange n (MultiT.zeroStep d s) st = .ok st') :
    (st'.1.rows = st.1.rows ∧ st'.1.cols = st.1.cols ∧ st'.2.size = st.2.size) ∧
    (∀ a b, st'.1.get a b =
      if ∃ i < n, inB s.pos (s.dof d) i a ∧ inB s.pos (s.dof d) i b then 0 else st.1.get a b) ∧
    (∀ a, st'.2.get a = if ∃ i < n, inB s.pos (s.dof d) i a then 0 else st.2.get a) := by
  classical
  refine forRange_ok_inv (I := fun k (p : Mat K × Vec K) =>
    (p.1.rows = st.1.rows ∧ p.1.cols = st.1.cols ∧ p.2.size = st.2.size) ∧
    (∀ a b, p.1.get a b =
      if ∃ i < k, inB s.pos (s.dof d) i a ∧ inB s.pos (s.dof d) i b then 0 else st.1.get a b) ∧
    (∀ a, p.2.get a = if ∃ i < k, inB s.pos (s.dof d) i a then 0 else st.2.get a))
    ⟨⟨rfl, rfl, rfl⟩, fun a b => by simp, fun a => by simp⟩ ?_ h
  rintro k hk ⟨Q, C⟩ ⟨Q', C'⟩ ⟨⟨i1, i2, i3⟩, i5, i6⟩ hs
  unfold MultiT.zeroStep at hs
  obtain ⟨r, hr, hs⟩ := Out.bind_eq_ok.1 hs
  obtain ⟨b, hb, hs⟩ := Out.bind_eq_ok.1 hs
  obtain ⟨dof, hd, hs⟩ := Out.bind_eq_ok.1 hs
  obtain ⟨Q1, hQ, hs⟩ := Out.bind_eq_ok.1 hs
  obtain ⟨C1, hC, hs⟩ := Out.bind_eq_ok.1 hs
  simp only [Out.pure_eq, Out.ok.injEq, Prod.mk.injEq] at hs
  obtain ⟨rfl, rfl⟩ := hs
  rw [vecAt_eq_ok] at hr hb hd
  have e1 : s.pos k = b := by simp [MultiT.pos, List.getD, hb]
  have e2 : s.dof d k = dof := by simp [MultiT.dof, List.getD, hr, hd]
  obtain ⟨q1, q2, rfl⟩ := matSetBlock_eq_ok hQ
  obtain ⟨c1, rfl⟩ := vecSetSegment_eq_ok hC
  simp only at i1 i2 i3 i5 i6
  refine ⟨⟨i1, i2, i3⟩, ?_, ?_⟩
  · intro x y
    dsimp only [Mat.zero]
    by_cases hin : inB s.pos (s.dof d) k x ∧ inB s.pos (s.dof d) k y
    · rw [if_pos ⟨k, Nat.lt_succ_self k, hin⟩]
      exact if_pos (by unfold inB at hin; rw [e1, e2] at hin; exact hin)
    · refine (if_neg (by unfold inB at hin; rw [e1, e2] at hin; exact hin)).trans ?_
      rw [i5]
      congr 1
      simp only [eq_iff_iff]
      constructor
      · rintro ⟨i, hi, hh⟩
        exact ⟨i, by omega, hh⟩
      · rintro ⟨i, hi, hh⟩
        rcases Nat.lt_succ_iff_lt_or_eq.1 hi with hi | rfl
        · exact ⟨i, hi, hh⟩
        · exact absurd hh hin
  · intro x
    dsimp only [Vec.const]
    by_cases hin : inB s.pos (s.dof d) k x
    · rw [if_pos ⟨k, Nat.lt_succ_self k, hin⟩]
      exact if_pos (by unfold inB at hin; rw [e1, e2] at hin; exact hin)
    · refine (if_neg (by unfold inB at hin; rw [e1, e2] at hin; exact hin)).trans ?_
      rw [i6]
      congr 1
      simp only [eq_iff_iff]
      constructor
      · rintro ⟨i, hi, hh⟩
        exact ⟨i, by omega, hh⟩
      · rintro ⟨i, hi, hh⟩
        rcases Nat.lt_succ_iff_lt_or_eq.1 hi with hi | rfl
        · exact ⟨i, hi, hh⟩
        · exact absurd hh hin

/-- The accumulating loop of `MultiRobotTransformTask::update`. -/
theorem addLoop_ok {d : SolverData K} {hl : MultiHL K} {e : Vec K} {s : MultiT K} {n : ℕ}
    {st st' : Mat K × Vec K} (h : forRange n (MultiT.addStep d hl e s) st = .ok st') :
    (st'.1.rows = st.1.rows ∧ st'.1.cols = st.1.cols ∧ st'.2.size = st.2.size) ∧
    (∀ i < n, s.pos i + s.dof d i ≤ st.1.rows ∧ s.pos i + s.dof d i ≤ st.1.cols ∧
      s.pos i + s.dof d i ≤ st.2.size ∧ (hl.J i).cols = s.dof d i ∧
      s.dimWeight.size = (hl.J i).rows ∧ s.dimWeight.size = e.size) ∧
    (∀ a b, st'.1.get a b = st.1.get a b +
        ∑ i ∈ range n, bq s.dimWeight s.pos (s.dof d) hl.J i a b) ∧
    (∀ a, st'.2.get a = st.2.get a +
        ∑ i ∈ range n, bc s.dimWeight e.get s.pos (s.dof d) hl.J i a) := by
  refine forRange_ok_inv (I := fun k (p : Mat K × Vec K) =>
    (p.1.rows = st.1.rows ∧ p.1.cols = st.1.cols ∧ p.2.size = st.2.size) ∧
    (∀ i < k, s.pos i + s.dof d i ≤ st.1.rows ∧ s.pos i + s.dof d i ≤ st.1.cols ∧
      s.pos i + s.dof d i ≤ st.2.size ∧ (hl.J i).cols = s.dof d i ∧
      s.dimWeight.size = (hl.J i).rows ∧ s.dimWeight.size = e.size) ∧
    (∀ a b, p.1.get a b = st.1.get a b +
        ∑ i ∈ range k, bq s.dimWeight s.pos (s.dof d) hl.J i a b) ∧
    (∀ a, p.2.get a = st.2.get a +
        ∑ i ∈ range k, bc s.dimWeight e.get s.pos (s.dof d) hl.J i a))
    ⟨⟨rfl, rfl, rfl⟩, fun i hi => by omega, fun a b => by simp, fun a => by simp⟩ ?_ h
  rintro k hk ⟨Q, C⟩ ⟨Q', C'⟩ ⟨⟨i1, i2, i3⟩, i4, i5, i6⟩ hs
  unfold MultiT.addStep at hs
  obtain ⟨p, hp, hs⟩ := Out.bind_eq_ok.1 hs
  obtain ⟨q0, hq0, hs⟩ := Out.bind_eq_ok.1 hs
  obtain ⟨Q1, hQ, hs⟩ := Out.bind_eq_ok.1 hs
  obtain ⟨c0, hc0, hs⟩ := Out.bind_eq_ok.1 hs
  obtain ⟨C1, hC, hs⟩ := Out.bind_eq_ok.1 hs
  simp only [Out.pure_eq, Out.ok.injEq, Prod.mk.injEq] at hs
  obtain ⟨rfl, rfl⟩ := hs
  obtain ⟨rfl, b2, b3, b4⟩ := multiBlocks_ok hp
  obtain ⟨_, _, rfl⟩ := matBlock_eq_ok hq0
  obtain ⟨_, rfl⟩ := vecSegment_eq_ok hc0
  obtain ⟨q1, q2, rfl⟩ := matSetBlock_eq_ok hQ
  obtain ⟨c1, rfl⟩ := vecSetSegment_eq_ok hC
  simp only at q1 q2 c1
  simp only at i1 i2 i3 i5 i6
  refine ⟨⟨i1, i2, i3⟩, ?_, ?_, ?_⟩
  · intro i hi
    rcases Nat.lt_succ_iff_lt_or_eq.1 hi with hi | rfl
    · exact i4 i hi
    · exact ⟨by omega, by omega, by omega, b2, b3, b4⟩
  · intro a b
    dsimp only
    by_cases hin : inB s.pos (s.dof d) k a ∧ inB s.pos (s.dof d) k b
    · refine (if_pos hin).trans ?_
      obtain ⟨⟨u1, u2⟩, ⟨u3, u4⟩⟩ := hin
      rw [Nat.add_sub_cancel' u1, Nat.add_sub_cancel' u3, i5, Finset.sum_range_succ, bq,
        if_pos ⟨⟨u1, u2⟩, ⟨u3, u4⟩⟩, add_assoc]
    · refine (if_neg hin).trans ?_
      rw [i5 a b, Finset.sum_range_succ, bq, if_neg hin, add_zero]
  · intro a
    dsimp only
    by_cases hin : inB s.pos (s.dof d) k a
    · refine (if_pos hin).trans ?_
      obtain ⟨u1, u2⟩ := hin
      rw [Nat.add_sub_cancel' u1, i6, Finset.sum_range_succ, bc, if_pos ⟨u1, u2⟩, add_assoc]
    · refine (if_neg hin).trans ?_
      rw [i6 a, Finset.sum_range_succ, bc, if_neg hin, add_zero]

end

section
variable {K : Type} [Field K]

/-- A block-diagonal objective is the sum of the objectives of the blocks. -/
theorem multi_obj {W : Vec K} {e : ℕ → K} {pos dof : ℕ → ℕ} {J : ℕ → Mat K} {n N b : ℕ} {w : K}
    {Q : Mat K} {C : Vec K} (h1 : Q.rows = N) (h2 : Q.cols = N)
    (hfit : ∀ i < n, pos i + dof i ≤ N ∧ (J i).cols = dof i)
    (hQ : ∀ x < N, ∀ y < N, Q.get x y = ∑ i ∈ range n, bq W pos dof J i x y)
    (hC : ∀ x < N, C.get x = ∑ i ∈ range n, bc W e pos dof J i x) (x : ℕ → K) :
    TaskQC.obj ⟨Q, C, (b, b), w⟩ x = ∑ i ∈ range n,
      TaskQC.obj ⟨lsqQ W (J i), lsqC W (J i) e, (b + pos i, b + pos i), w⟩ x := by
  have hq : ∑ p ∈ range N, ∑ q ∈ range N, x (b + p) * Q.get p q * x (b + q)
      = ∑ i ∈ range n, ∑ p ∈ range (J i).cols, ∑ q ∈ range (J i).cols,
          x (b + pos i + p) * (lsqQ W (J i)).get p q * x (b + pos i + q) := by
    have e1 : ∀ p ∈ range N, ∀ q ∈ range N, x (b + p) * Q.get p q * x (b + q)
        = ∑ i ∈ range n, x (b + p) * bq W pos dof J i p q * x (b + q) := by
      intro p hp q hq
      rw [hQ p (mem_range.1 hp) q (mem_range.1 hq), Finset.mul_sum, Finset.sum_mul]
    rw [Finset.sum_congr rfl fun p hp => Finset.sum_congr rfl fun q hq => e1 p hp q hq]
    rw [Finset.sum_congr rfl fun p _ => Finset.sum_comm, Finset.sum_comm]
    refine Finset.sum_congr rfl fun i hi => ?_
    obtain ⟨f1, f2⟩ := hfit i (mem_range.1 hi)
    rw [f2]
    have inner : ∀ p, ∑ q ∈ range N, x (b + p) * bq W pos dof J i p q * x (b + q)
        = if pos i ≤ p ∧ p < pos i + dof i then
          ∑ q ∈ range (dof i), x (b + p) * (lsqQ W (J i)).get (p - pos i) q * x (b + (pos i + q))
          else 0 := by
      intro p
      by_cases hp : pos i ≤ p ∧ p < pos i + dof i
      · rw [if_pos hp, ← sum_window N (pos i) (dof i) f1
          (fun j c => x (b + p) * (lsqQ W (J i)).get (p - pos i) c * x (b + j))]
        refine Finset.sum_congr rfl fun q _ => ?_
        by_cases hq : pos i ≤ q ∧ q < pos i + dof i
        · rw [if_pos hq, bq, if_pos ⟨hp, hq⟩]
        · rw [if_neg hq, bq, if_neg (fun hh => hq hh.2), mul_zero, zero_mul]
      · rw [if_neg hp]
        refine Finset.sum_eq_zero fun q _ => ?_
        rw [bq, if_neg (fun hh => hp hh.1), mul_zero, zero_mul]
    rw [Finset.sum_congr rfl fun p _ => inner p]
    rw [sum_window N (pos i) (dof i) f1 (fun p c => ∑ q ∈ range (dof i),
      x (b + p) * (lsqQ W (J i)).get c q * x (b + (pos i + q)))]
    refine Finset.sum_congr rfl fun p _ => Finset.sum_congr rfl fun q _ => ?_
    rw [add_assoc, add_assoc]
  have hc : ∑ p ∈ range N, C.get p * x (b + p)
      = ∑ i ∈ range n, ∑ p ∈ range (J i).cols, (lsqC W (J i) e).get p * x (b + pos i + p) := by
    have e1 : ∀ p ∈ range N, C.get p * x (b + p)
        = ∑ i ∈ range n, bc W e pos dof J i p * x (b + p) := by
      intro p hp
      rw [hC p (mem_range.1 hp), Finset.sum_mul]
    rw [Finset.sum_congr rfl e1, Finset.sum_comm]
    refine Finset.sum_congr rfl fun i hi => ?_
    obtain ⟨f1, f2⟩ := hfit i (mem_range.1 hi)
    rw [f2]
    rw [Finset.sum_congr rfl fun p _ => (show bc W e pos dof J i p * x (b + p)
      = if pos i ≤ p ∧ p < pos i + dof i then (lsqC W (J i) e).get (p - pos i) * x (b + p) else 0 by
        by_cases hp : pos i ≤ p ∧ p < pos i + dof i
        · rw [if_pos hp, bc, if_pos (show inB pos dof i p from hp)]
        · rw [if_neg hp, bc, if_neg (show ¬ inB pos dof i p from hp), zero_mul])]
    rw [sum_window N (pos i) (dof i) f1 (fun p c => (lsqC W (J i) e).get c * x (b + p))]
    refine Finset.sum_congr rfl fun p _ => ?_
    rw [add_assoc]
  unfold TaskQC.obj
  dsimp only
  rw [h1, h2, hq, hc, ← Finset.mul_sum, Finset.sum_add_distrib]
  simp only [div_eq_mul_inv]
  rw [Finset.sum_mul]
  rfl

end

end Verif
