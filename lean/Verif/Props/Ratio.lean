import Verif.Props.Priority

/-!
# C124: do only the ratios of the weights matter?
-/

set_option autoImplicit false
set_option linter.unusedSectionVars false

namespace Verif

open Finset Spec

namespace Spec
variable {K : Type} [Field K] [LinearOrder K] [IsStrictOrderedRing K]

/-- The same constraints, and the same tasks with all weights multiplied by `c`. -/
def Rescaled (c : K) (inp inp' : QPInput K) : Prop :=
  SameConstraints inp inp' ∧ inp'.tasks = inp.tasks.map fun t => { t with weight := c * t.weight }

/-- What the tasks together lose, without the solver's own penalty. -/
def taskSum (inp : QPInput K) (x : ℕ → K) : K := (inp.tasks.map fun t => t.obj x).sum

end Spec

variable {K : Type} [Field K] [LinearOrder K] [IsStrictOrderedRing K]

theorem objective_split (n : ℕ) (inp : QPInput K) (x : ℕ → K) :
    objective n inp x = taskSum inp x + penalty n inp x := rfl

theorem taskSum_rescaled {c : K} {inp inp' : QPInput K} (h : Rescaled c inp inp') (x : ℕ → K) :
    taskSum inp' x = c * taskSum inp x := by
  unfold taskSum
  rw [h.2]
  induction inp.tasks with
  | nil => simp
  | cons t l ih =>
    simp only [List.map_cons, List.sum_cons, obj_eq, mul_add]
    congr 1
    show c * t.weight * unweighted t x = _
    ring

theorem penalty_none {n : ℕ} {inp : QPInput K} (h : ∀ i, ¬ Regularised n inp i) (x : ℕ → K) :
    penalty n inp x = 0 := by
  unfold penalty
  rw [Finset.filter_eq_empty_iff.2 fun i hi hlt => h i ⟨Finset.mem_range.1 hi, hlt⟩]
  simp

theorem Spec.Rescaled.admissible {c : K} {inp inp' : QPInput K} (h : Rescaled c inp inp')
    {mbs : List (MultiBody K)} {n : ℕ} {x : ℕ → K} :
    Admissible mbs n inp' x ↔ Admissible mbs n inp x :=
  ⟨fun hx => SameConstraints.admissible ⟨h.1.1.symm, h.1.2.1.symm, h.1.2.2.1.symm, h.1.2.2.2.symm⟩ hx,
    fun hx => h.1.admissible hx⟩

/-- **C124** (partial): if the solver adds its own penalty to no variable, neither before nor after, only the
ratios of the weights matter: each result is the best for both, and they are equal if the tasks leave no
direction free.  Partial: false when a variable is penalised, see `RatioEx.C124_counterexample`. -/
theorem C124_ratio_partial {b b' : String} {mbs : List (MultiBody K)} {n : ℕ} {inp inp' : QPInput K}
    {x x' : Vec K} {c : K} (hc : 0 < c) (hr : Rescaled c inp inp') (h : Solved b mbs n inp x)
    (h' : Solved b' mbs n inp' x') (h0 : ∀ i, ¬ Regularised n inp i) (h0' : ∀ i, ¬ Regularised n inp' i) :
    Admissible mbs n inp x'.get ∧ Admissible mbs n inp' x.get ∧ taskSum inp x.get = taskSum inp x'.get ∧
    (Definite n inp → ∀ v < n, x.get v = x'.get v) := by
  obtain ⟨a1, -, a2⟩ := solved_optimal h
  obtain ⟨b1, -, b2⟩ := solved_optimal h'
  have c1 := hr.admissible.1 b1
  have c2 := hr.admissible.2 a1
  have l1 := a2 _ c1
  have l2 := b2 _ c2
  rw [objective_split, objective_split, penalty_none h0, penalty_none h0, add_zero, add_zero] at l1
  rw [objective_split, objective_split, penalty_none h0', penalty_none h0', add_zero, add_zero,
    taskSum_rescaled hr, taskSum_rescaled hr] at l2
  have e := le_antisymm l1 (le_of_mul_le_mul_left l2 hc)
  refine ⟨c1, c2, e, fun hdef v hv => ?_⟩
  by_contra hne
  have hpos := hdef (fun v => x.get v - x'.get v) ⟨v, hv, sub_ne_zero.2 hne⟩
  have hm := a2 _ (admissible_mid a1 c1)
  have hmid := objective_mid n inp x.get x'.get
  have e1 : objective n inp x.get = objective n inp x'.get := by
    rw [objective_split, objective_split, penalty_none h0, penalty_none h0, e]
  linarith

/-- **C124** (how much the scale matters): whatever is penalised, the value of the tasks at the two results
differs at most by the penalty on all variables, divided by the factor on one side. -/
theorem C124_scale {b b' : String} {mbs : List (MultiBody K)} {n : ℕ} {inp inp' : QPInput K}
    {x x' : Vec K} {c : K} (hc : 0 < c) (hr : Rescaled c inp inp') (h : Solved b mbs n inp x)
    (h' : Solved b' mbs n inp' x') :
    taskSum inp x.get ≤ taskSum inp x'.get + (∑ i ∈ range n, x'.get i ^ 2) / 20000 ∧
    taskSum inp x'.get ≤ taskSum inp x.get + (∑ i ∈ range n, x.get i ^ 2) / 20000 / c := by
  obtain ⟨a1, -, a2⟩ := solved_optimal h
  obtain ⟨b1, -, b2⟩ := solved_optimal h'
  have l1 := a2 _ (hr.admissible.1 b1)
  have l2 := b2 _ (hr.admissible.2 a1)
  rw [objective_split, objective_split] at l1
  rw [objective_split, objective_split, taskSum_rescaled hr, taskSum_rescaled hr] at l2
  have p1 := penalty_nonneg n inp x.get
  have p2 := penalty_nonneg n inp' x'.get
  have q1 := penalty_le n inp x'.get
  have q2 := penalty_le n inp' x.get
  refine ⟨by linarith, ?_⟩
  have k : c * taskSum inp x'.get ≤ c * (taskSum inp x.get + (∑ i ∈ range n, x.get i ^ 2) / 20000 / c) := by
    rw [mul_add, mul_div_cancel₀ _ hc.ne']
    linarith
  exact le_of_mul_le_mul_left k hc

/-- **C124** (larger weights): if the same variables are penalised before and after, multiplying all weights by
a factor above 1 does not make the tasks together worse, nor the penalty better. -/
theorem C124_larger {b b' : String} {mbs : List (MultiBody K)} {n : ℕ} {inp inp' : QPInput K}
    {x x' : Vec K} {c : K} (hc : 1 < c) (hr : Rescaled c inp inp') (h : Solved b mbs n inp x)
    (h' : Solved b' mbs n inp' x') (hreg : ∀ i, Regularised n inp i ↔ Regularised n inp' i) :
    taskSum inp x'.get ≤ taskSum inp x.get ∧ penalty n inp x.get ≤ penalty n inp x'.get := by
  obtain ⟨a1, -, a2⟩ := solved_optimal h
  obtain ⟨b1, -, b2⟩ := solved_optimal h'
  have l1 := a2 _ (hr.admissible.1 b1)
  have l2 := b2 _ (hr.admissible.2 a1)
  rw [objective_split, objective_split] at l1
  rw [objective_split, objective_split, taskSum_rescaled hr, taskSum_rescaled hr, ← penalty_congr hreg,
    ← penalty_congr hreg] at l2
  have k : (c - 1) * taskSum inp x'.get ≤ (c - 1) * taskSum inp x.get := by linarith
  have k1 := le_of_mul_le_mul_left k (by linarith)
  exact ⟨k1, by linarith⟩

/-! ## Concrete steps -/

namespace RatioEx

open WeightEx

theorem rescaled_pull (a w c : ℚ) : Rescaled c (inpOf [pull a w]) (inpOf [pull a (c * w)]) :=
  ⟨⟨rfl, rfl, rfl, rfl⟩, rfl⟩

/-- **C124 is false of the code**: a single task of weight 1 asks for acceleration 1 and gets it; with weight
`5e-5`, where there is still nothing else to weigh it against, it gets 1/3. -/
theorem C124_counterexample : ∃ x x', Solved "QLD" [robot] 2 (inpOf [pull 1 1]) x ∧
    Solved "QLD" [robot] 2 (inpOf [pull 1 (5 / 100000 * 1)]) x' ∧ x.get 0 = 1 ∧ x'.get 0 = 1 / 3 ∧
    Rescaled (5 / 100000) (inpOf [pull 1 1]) (inpOf [pull 1 (5 / 100000 * 1)]) := by
  obtain ⟨x, hx, ex⟩ := solves [pull 1 1] (by simp [pull_sized])
    (fun i => if i = 0 then 1 else 0) (by
      intro z
      rw [objective_pulls _ 1 (by simp [accDiag, pull_q]) (by simp [accDiag, pull_q]),
        objective_pulls _ 1 (by simp [accDiag, pull_q]) (by simp [accDiag, pull_q])]
      simp only [List.map_cons, List.map_nil, List.sum_cons, List.sum_nil, pull_obj]
      norm_num
      nlinarith [sq_nonneg (z 0 - 1), sq_nonneg (z 1)])
  obtain ⟨x', hx', ex'⟩ := solves [pull 1 (5 / 100000 * 1)] (by simp [pull_sized])
    (fun i => if i = 0 then 1 / 3 else 0) (by
      intro z
      have hw : |(5 / 100000 : ℚ)| < 1 / 10000 := by norm_num [abs_lt]
      rw [objective_pulls _ (5 / 100000) (by simp [accDiag, pull_q]) (by simp [accDiag, pull_q]),
        objective_pulls _ (5 / 100000) (by simp [accDiag, pull_q]) (by simp [accDiag, pull_q])]
      simp only [if_pos hw]
      simp only [List.map_cons, List.map_nil, List.sum_cons, List.sum_nil, pull_obj, if_true]
      rw [if_neg (by norm_num)]
      nlinarith [sq_nonneg (z 0 - 1 / 3), sq_nonneg (z 1)])
  exact ⟨x, x', hx, hx', by rw [ex]; rfl, by rw [ex']; rfl, rescaled_pull 1 1 _⟩

/-- The hypotheses of `C124_ratio_partial`: with tasks on both joints nothing is penalised. -/
example : ∀ i, ¬ Regularised 2 (inpOf [both]) i := by
  rintro i ⟨hi, h⟩
  have : accDiag [both] i = 1 := by
    interval_cases i <;> simp [accDiag, TaskQC.q, both, Mat.ofRows]
  rw [show (inpOf [both]).tasks = [both] from rfl, this] at h
  norm_num at h

end RatioEx

end Verif
