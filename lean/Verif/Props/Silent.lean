import Verif.Props.Response
import Verif.Props.Ratio

/-!
# C125: the influence of a task fades with its weight
-/

set_option autoImplicit false
set_option linter.unusedSectionVars false

namespace Verif

open Finset Spec

namespace Spec
variable {K : Type} [Field K] [LinearOrder K] [IsStrictOrderedRing K]

/-- The same constraints and tasks, and the task `t` with weight `w` among them. -/
def WithTask (t : TaskQC K) (w : K) (inp inp' : QPInput K) : Prop :=
  SameConstraints inp inp' ∧ ∃ pre post, inp.tasks = pre ++ post ∧
    inp'.tasks = pre ++ { t with weight := w } :: post

end Spec

variable {K : Type} [Field K] [LinearOrder K] [IsStrictOrderedRing K]
  {t : TaskQC K} {w : K} {inp inp' : QPInput K}

theorem q_weight (t : TaskQC K) (w : K) (i : ℕ) :
    TaskQC.q { t with weight := w } i i = w * TaskQC.q { t with weight := 1 } i i := by
  unfold TaskQC.q
  dsimp only
  split_ifs <;> ring

theorem Spec.WithTask.diag (h : WithTask t w inp inp') (i : ℕ) :
    accDiag inp'.tasks i = accDiag inp.tasks i + w * TaskQC.q { t with weight := 1 } i i := by
  obtain ⟨-, pre, post, e, e'⟩ := h
  simp only [accDiag, e, e', List.map_append, List.map_cons, List.sum_append, List.sum_cons, q_weight t w]
  ring

theorem Spec.WithTask.taskSum (h : WithTask t w inp inp') (x : ℕ → K) :
    taskSum inp' x = taskSum inp x + w * unweighted t x := by
  obtain ⟨-, pre, post, e, e'⟩ := h
  simp only [Spec.taskSum, e, e', List.map_append, List.map_cons, List.sum_append, List.sum_cons, obj_eq]
  have : unweighted { t with weight := w } x = unweighted t x := rfl
  rw [this]
  ring

theorem Spec.WithTask.admissible (h : WithTask t w inp inp') {mbs : List (MultiBody K)} {n : ℕ} {x : ℕ → K} :
    Admissible mbs n inp' x ↔ Admissible mbs n inp x :=
  ⟨fun hx => h.1.symm.admissible hx, fun hx => h.1.admissible hx⟩

/-- Finitely many positive numbers have a positive lower bound. -/
theorem pos_below (n : ℕ) (P : ℕ → K → Prop) (h : ∀ i < n, ∃ s > 0, ∀ w, 0 ≤ w → w ≤ s → P i w) :
    ∃ s > 0, ∀ w, 0 ≤ w → w ≤ s → ∀ i < n, P i w := by
  induction n with
  | zero => exact ⟨1, one_pos, fun _ _ _ i hi => absurd hi (Nat.not_lt_zero i)⟩
  | succ n ih =>
    obtain ⟨s, hs, h1⟩ := ih fun i hi => h i (by omega)
    obtain ⟨s', hs', h2⟩ := h n (by omega)
    refine ⟨min s s', lt_min hs hs', fun w h0 hw i hi => ?_⟩
    rcases Nat.lt_succ_iff_lt_or_eq.1 hi with hi | rfl
    · exact h1 w h0 (hw.trans (min_le_left _ _)) i hi
    · exact h2 w h0 (hw.trans (min_le_right _ _))

theorem convex_diag {ts : List (TaskQC K)} (h : ∀ s ∈ ts, TaskConvex s) (i : ℕ) : 0 ≤ accDiag ts i := by
  refine List.sum_nonneg fun a ha => ?_
  obtain ⟨s, hs, rfl⟩ := List.mem_map.1 ha
  exact TaskQC.q_diag (h s hs) i

/-- **C125** (weight zero): the problem is the one without the task: the same admissible vectors, the same
objective, and the same variables penalised by the solver. -/
theorem C125_zero (h : WithTask t 0 inp inp') (mbs : List (MultiBody K)) (n : ℕ) :
    (∀ x, Admissible mbs n inp' x ↔ Admissible mbs n inp x) ∧ (∀ x, objective n inp' x = objective n inp x) ∧
    (∀ i, Regularised n inp' i ↔ Regularised n inp i) ∧ (Definite n inp' ↔ Definite n inp) := by
  have hd : accDiag inp'.tasks = accDiag inp.tasks := by
    funext i
    rw [h.diag]
    ring
  have hr : ∀ i, Regularised n inp' i ↔ Regularised n inp i := fun i => by unfold Regularised; rw [hd]
  refine ⟨fun x => h.admissible, fun x => ?_, hr, ?_⟩
  · rw [objective_split, objective_split, h.taskSum, penalty_congr hr]
    ring
  · obtain ⟨-, pre, post, e, e'⟩ := h
    unfold Definite
    rw [hd, e, e']
    simp only [List.map_append, List.map_cons, List.sum_append, List.sum_cons, zero_mul, zero_add]

/-- **C125** (weight zero, the result): a successful step with the task and one without have the same value, and
the same result if the tasks leave no direction free. -/
theorem C125_zero_result {b b' : String} {mbs : List (MultiBody K)} {n : ℕ} {x x' : Vec K}
    (hw : WithTask t 0 inp inp') (h : Solved b mbs n inp x) (h' : Solved b' mbs n inp' x') :
    Admissible mbs n inp x'.get ∧ objective n inp x'.get = objective n inp x.get ∧
    (Definite n inp → ∀ v < n, x'.get v = x.get v) := by
  obtain ⟨a1, -, a2⟩ := solved_optimal h
  obtain ⟨b1, -, b2⟩ := solved_optimal h'
  obtain ⟨hadm, hobj, -, -⟩ := C125_zero hw mbs n
  have c1 := (hadm _).1 b1
  have he : objective n inp x'.get = objective n inp x.get :=
    le_antisymm (by rw [← hobj, ← hobj]; exact b2 _ ((hadm _).2 a1)) (a2 _ c1)
  refine ⟨c1, he, fun hdef v hv => ?_⟩
  by_contra hne
  have hpos := hdef (fun v => x'.get v - x.get v) ⟨v, hv, sub_ne_zero.2 hne⟩
  have k := solved_strong h c1
  unfold curvature at k
  linarith

/-- **C125** (small weights): from some weight on downwards the task changes nothing in what the solver penalises,
and the others lose at most its weight times what it gains. -/
theorem C125_small {mbs : List (MultiBody K)} {n : ℕ} (hconv : ∀ s ∈ inp.tasks, TaskConvex s)
    (ht : TaskConvex { t with weight := 1 }) :
    ∃ w0 > 0, ∀ (w : K) (inp' : QPInput K), 0 ≤ w → w ≤ w0 → WithTask t w inp inp' →
      (∀ i, Regularised n inp' i ↔ Regularised n inp i) ∧
      ∀ (b b' : String) (x x' : Vec K), Solved b mbs n inp x → Solved b' mbs n inp' x' →
        objective n inp x.get + curvature n inp (fun v => x'.get v - x.get v) / 2 ≤ objective n inp x'.get ∧
        objective n inp x'.get ≤ objective n inp x.get + w * (unweighted t x.get - unweighted t x'.get) := by
  have key : ∀ i < n, ∃ s > 0, ∀ w, 0 ≤ w → w ≤ s →
      (|accDiag inp.tasks i + w * TaskQC.q { t with weight := 1 } i i| < 1 / 10000 ↔
        |accDiag inp.tasks i| < 1 / 10000) := by
    intro i _
    have ha := convex_diag hconv i
    have hq : 0 ≤ TaskQC.q { t with weight := 1 } i i := TaskQC.q_diag ht i
    set a := accDiag inp.tasks i
    set q := TaskQC.q { t with weight := 1 } i i
    by_cases hlt : a < 1 / 10000
    · refine ⟨(1 / 10000 - a) / (q + 1), div_pos (by linarith) (by linarith), fun w h0 hw => ?_⟩
      have k : w * (q + 1) ≤ 1 / 10000 - a := (le_div_iff₀ (by linarith)).1 hw
      have hwq := mul_nonneg h0 hq
      rw [abs_of_nonneg ha, abs_of_nonneg (by linarith)]
      refine ⟨fun _ => hlt, fun _ => ?_⟩
      rcases h0.lt_or_eq with h0 | rfl
      · nlinarith
      · simpa using hlt
    · refine ⟨1, one_pos, fun w h0 _ => ?_⟩
      have hwq := mul_nonneg h0 hq
      rw [abs_of_nonneg ha, abs_of_nonneg (by linarith)]
      exact ⟨fun h => absurd (by linarith) hlt, fun h => absurd h hlt⟩
  obtain ⟨w0, hw0, hk⟩ := pos_below n _ key
  refine ⟨w0, hw0, fun w inp' h0 hle hwt => ?_⟩
  have hr : ∀ i, Regularised n inp' i ↔ Regularised n inp i := by
    intro i
    unfold Regularised
    rw [hwt.diag]
    exact ⟨fun h => ⟨h.1, (hk w h0 hle i h.1).1 h.2⟩, fun h => ⟨h.1, (hk w h0 hle i h.1).2 h.2⟩⟩
  refine ⟨hr, fun b b' x x' h h' => ?_⟩
  obtain ⟨a1, -, -⟩ := solved_optimal h
  obtain ⟨b1, -, b2⟩ := solved_optimal h'
  refine ⟨solved_strong h (hwt.admissible.1 b1), ?_⟩
  have k := b2 _ (hwt.admissible.2 a1)
  rw [objective_split, objective_split n inp', hwt.taskSum, hwt.taskSum, penalty_congr hr, penalty_congr hr] at k
  rw [objective_split, objective_split n inp]
  linarith

/-- **C125** (fading): if what the task asks for is bounded below, as for every task of this library (C43), then
for every margin there is a weight below which the others lose less than the margin, and the result moves less
than the margin, measured by the Hessian of the others. -/
theorem C125_fades {mbs : List (MultiBody K)} {n : ℕ} {b : String} {x : Vec K} {m : K}
    (hconv : ∀ s ∈ inp.tasks, TaskConvex s) (ht : TaskConvex { t with weight := 1 })
    (hm : ∀ z, m ≤ unweighted t z) (h : Solved b mbs n inp x) {η : K} (hη : 0 < η) :
    ∃ w0 > 0, ∀ (w : K) (inp' : QPInput K) (b' : String) (x' : Vec K), 0 ≤ w → w ≤ w0 →
      WithTask t w inp inp' → Solved b' mbs n inp' x' →
        objective n inp x'.get ≤ objective n inp x.get + η ∧
        curvature n inp (fun v => x'.get v - x.get v) ≤ η := by
  obtain ⟨w0, hw0, hs⟩ := C125_small (mbs := mbs) (n := n) hconv ht
  have hg : 0 ≤ unweighted t x.get - m := sub_nonneg.2 (hm _)
  refine ⟨min w0 (η / 2 / (unweighted t x.get - m + 1)), lt_min hw0 (div_pos (by linarith) (by linarith)), ?_⟩
  intro w inp' b' x' h0 hle hwt h'
  obtain ⟨k1, k2⟩ := (hs w inp' h0 (hle.trans (min_le_left _ _)) hwt).2 b b' x x' h h'
  have k3 : w * (unweighted t x.get - m + 1) ≤ η / 2 :=
    (le_div_iff₀ (by linarith)).1 (hle.trans (min_le_right _ _))
  have k4 : w * (unweighted t x.get - unweighted t x'.get) ≤ w * (unweighted t x.get - m + 1) :=
    mul_le_mul_of_nonneg_left (by linarith [hm x'.get]) h0
  exact ⟨by linarith, by linarith⟩

/-! ## Concrete steps -/

namespace SilentEx

open WeightEx

theorem pull_convex (a : ℚ) : TaskConvex { pull a 1 with weight := 1 } := by
  refine ⟨rfl, rfl, by norm_num, ?_, fun x => ?_⟩
  · intro i hi j hj
    simp only [pull, Mat.ofRows, List.length_cons, List.length_nil] at hi hj
    obtain rfl : i = 0 := by omega
    obtain rfl : j = 0 := by omega
    rfl
  · simp [pull, Mat.ofRows]
    exact mul_self_nonneg (x 0)

/-- A second pull in the other direction, with weight `w`. -/
theorem with_pull (w : ℚ) : WithTask (pull 5 1) w (inpOf [pull 1 1]) (inpOf [pull 1 1, pull 5 w]) :=
  ⟨⟨rfl, rfl, rfl, rfl⟩, [pull 1 1], [], rfl, rfl⟩

/-- The hypotheses of `C125_fades`. -/
example : (∀ s ∈ (inpOf [pull 1 1]).tasks, TaskConvex s) ∧ TaskConvex { pull 5 1 with weight := 1 } ∧
    ∀ z, -25 / 2 ≤ unweighted (pull 5 1) z := by
  refine ⟨fun s hs => ?_, pull_convex 5, fun z => ?_⟩
  · simp only [inpOf, List.mem_singleton] at hs
    subst hs
    exact pull_convex 1
  · rw [pull_unweighted]
    nlinarith [sq_nonneg (z 0 - 5)]

/-- **C125** (not a matter of continuity at other weights): the only task of a joint asks for acceleration 1.
With weight `1e-4` the joint gets 1; with any smaller weight it gets less than 1/2. -/
theorem C125_jump : (∃ x, Solved "QLD" [robot] 2 (inpOf [pull 1 (1 / 10000)]) x ∧ x.get 0 = 1) ∧
    ∀ w : ℚ, 0 < w → w < 1 / 10000 →
      ∃ x, Solved "QLD" [robot] 2 (inpOf [pull 1 w]) x ∧ x.get 0 = w / (w + 1 / 10000) ∧ x.get 0 < 1 / 2 := by
  constructor
  · obtain ⟨x, hx, ex⟩ := solves [pull 1 (1 / 10000)] (by simp [pull_sized])
      (fun i => if i = 0 then 1 else 0) (by
        intro z
        have hn : ¬ |(1 / 10000 : ℚ)| < 1 / 10000 := by rw [abs_of_pos (by norm_num)]; exact lt_irrefl _
        rw [objective_pulls _ (1 / 10000) (by simp [accDiag, pull_q]) (by simp [accDiag, pull_q]),
          objective_pulls _ (1 / 10000) (by simp [accDiag, pull_q]) (by simp [accDiag, pull_q])]
        simp only [if_neg hn]
        simp only [List.map_cons, List.map_nil, List.sum_cons, List.sum_nil, pull_obj, if_true]
        rw [if_neg (by norm_num)]
        nlinarith [sq_nonneg (z 0 - 1), sq_nonneg (z 1)])
    exact ⟨x, hx, by rw [ex]; rfl⟩
  · intro w h0 h1
    have hp : 0 < w + 1 / 10000 := by linarith
    obtain ⟨x, hx, ex⟩ := solves [pull 1 w] (by simp [pull_sized])
      (fun i => if i = 0 then w / (w + 1 / 10000) else 0) (by
        intro z
        have hw : |w| < 1 / 10000 := by rw [abs_of_pos h0]; exact h1
        rw [objective_pulls _ w (by simp [accDiag, pull_q]) (by simp [accDiag, pull_q]),
          objective_pulls _ w (by simp [accDiag, pull_q]) (by simp [accDiag, pull_q])]
        simp only [if_pos hw]
        simp only [List.map_cons, List.map_nil, List.sum_cons, List.sum_nil, pull_obj, if_true]
        rw [if_neg (by norm_num)]
        set r := w / (w + 1 / 10000) with hr
        have e : r * (w + 1 / 10000) = w := div_mul_cancel₀ _ hp.ne'
        have hsq := mul_nonneg hp.le (sq_nonneg (z 0 - r))
        have e1 : r ^ 2 * (w + 1 / 10000) = r * w := by rw [pow_two, mul_assoc, e]
        have e2 : z 0 * r * (w + 1 / 10000) = z 0 * w := by rw [mul_assoc, e]
        nlinarith [sq_nonneg (z 1)])
    have e0 : x.get 0 = w / (w + 1 / 10000) := by rw [ex]; rfl
    exact ⟨x, hx, e0, by rw [e0, div_lt_iff₀ hp]; linarith⟩

end SilentEx

end Verif
