import Verif.Props.Extra
import Verif.Props.SetPoint

/-!
# C123: how the result follows a change of what one task asks for
-/

set_option autoImplicit false
set_option linter.unusedSectionVars false

namespace Verif

open Finset Spec

variable {K : Type} [Field K] [LinearOrder K] [IsStrictOrderedRing K]

/-- A successful step is better than every other admissible vector by at least half the curvature of the
objective on the way to it. -/
theorem solved_strong {b : String} {mbs : List (MultiBody K)} {n : ℕ} {inp : QPInput K} {x : Vec K}
    (h : Solved b mbs n inp x) {y : ℕ → K} (hy : Admissible mbs n inp y) :
    objective n inp x.get + curvature n inp (fun v => y v - x.get v) / 2 ≤ objective n inp y := by
  obtain ⟨a1, -, a2⟩ := solved_optimal h
  have way : ∀ s : K, 0 < s → s ≤ 1 → objective n inp x.get
      + (1 - s) / 2 * curvature n inp (fun v => y v - x.get v) ≤ objective n inp y := by
    intro s h0 h1
    have hu : Untouched n inp inp x.get :=
      ⟨fun _ h => h, fun _ h => Or.inl h, fun _ h => Or.inl h, fun _ h => Or.inl h⟩
    obtain ⟨s₀, hs0, hs⟩ := soon_admissible a1 hu hy
    have hp : 0 < min s₀ s := lt_min hs0 h0
    have hle : min s₀ s ≤ s := min_le_right _ _
    have k := a2 _ (hs _ hp (min_le_left _ _))
    rw [objective_onWay] at k
    have k' : min s₀ s * (objective n inp x.get + (1 - min s₀ s) / 2 * curvature n inp (fun v => y v - x.get v))
        ≤ min s₀ s * objective n inp y := by linarith
    have k2 := le_of_mul_le_mul_left k' hp
    by_cases hc : 0 ≤ curvature n inp (fun v => y v - x.get v)
    · have : (1 - s) / 2 * curvature n inp (fun v => y v - x.get v)
          ≤ (1 - min s₀ s) / 2 * curvature n inp (fun v => y v - x.get v) :=
        mul_le_mul_of_nonneg_right (by linarith) hc
      linarith
    · have hn := a2 y hy
      have : (1 - s) / 2 * curvature n inp (fun v => y v - x.get v) ≤ 0 :=
        mul_nonpos_of_nonneg_of_nonpos (by linarith) (not_le.1 hc).le
      linarith
  by_contra hlt
  push Not at hlt
  have hc : 0 < curvature n inp (fun v => y v - x.get v) := by
    have := a2 y hy
    linarith
  set κ := curvature n inp (fun v => y v - x.get v) with hκ
  set D := objective n inp x.get + κ / 2 - objective n inp y with hD
  have hDp : 0 < D := by rw [hD]; linarith
  have hs : 0 < min 1 (D / κ) := lt_min one_pos (div_pos hDp hc)
  have k := way _ hs (min_le_left _ _)
  have k2 : min 1 (D / κ) * κ ≤ D := by
    have := mul_le_mul_of_nonneg_right (min_le_right 1 (D / κ)) hc.le
    rwa [div_mul_cancel₀ _ hc.ne'] at this
  have e : (1 - min 1 (D / κ)) / 2 * κ = κ / 2 - min 1 (D / κ) * κ / 2 := by ring
  rw [e] at k
  linarith

theorem rowAt_sub (J : Mat K) (b : ℕ) (x y : ℕ → K) (i : ℕ) :
    rowAt J b (fun v => x v - y v) i = rowAt J b x i - rowAt J b y i := by
  unfold rowAt
  rw [← Finset.sum_sub_distrib]
  exact Finset.sum_congr rfl fun j _ => by ring

theorem rowAt_half (J : Mat K) (b : ℕ) (x : ℕ → K) (i : ℕ) :
    rowAt J b (fun v => (x v + 0) / 2) i = rowAt J b x i / 2 := by
  unfold rowAt
  rw [Finset.sum_div]
  exact Finset.sum_congr rfl fun j _ => by ring

/-- The Hessian block of a least-squares task. -/
theorem quad_of_lsq {t : TaskQC K} {w : K} {W : ℕ → K} {J : Mat K} {nA tgt : ℕ → K} {b : ℕ}
    (h : IsLsq t w W J nA tgt b) (d : ℕ → K) :
    t.weight * ∑ a ∈ range t.Q.rows, ∑ c ∈ range t.Q.cols,
      d (t.begin'.1 + a) * t.Q.get a c * d (t.begin'.2 + c)
      = w * ∑ i ∈ range J.rows, W i * rowAt J b d i ^ 2 := by
  obtain ⟨_, _, _, _, _, c, hc⟩ := h
  have e := obj_mid t d fun _ => 0
  simp only [sub_zero] at e
  rw [hc, hc, hc] at e
  have z : ∀ i, rowAt J b (fun _ => (0 : K)) i = 0 := fun i => by simp [rowAt]
  have e2 : lsq W J nA tgt b d + lsq W J nA tgt b (fun _ => 0)
      = 2 * lsq W J nA tgt b (fun v => (d v + 0) / 2)
        + (∑ i ∈ range J.rows, W i * rowAt J b d i ^ 2) / 4 := by
    unfold lsq
    simp only [rowAt_half, z, Finset.sum_div, Finset.mul_sum, ← Finset.sum_add_distrib]
    exact Finset.sum_congr rfl fun i _ => by ring
  linear_combination -4 * e + 4 * w * e2

theorem q_of_lsq {t : TaskQC K} {w : K} {W : ℕ → K} {J : Mat K} {nA tgt : ℕ → K} {b : ℕ}
    (h : IsLsq t w W J nA tgt b) (i : ℕ) :
    t.q i i = if b ≤ i ∧ i < b + J.cols then w * ∑ k ∈ range J.rows, W k * J.get k (i - b) ^ 2 else 0 := by
  obtain ⟨h1, h2, h3, h4, h5, h6⟩ := h
  have hq := quad_of_lsq ⟨h1, h2, h3, h4, h5, h6⟩ fun v => if v = i then 1 else 0
  unfold TaskQC.q
  rw [h2, h3, h4] at *
  dsimp only at *
  by_cases hi : b ≤ i ∧ i < b + J.cols
  · rw [if_pos ⟨hi, hi⟩, if_pos hi]
    have ex : ∀ a, (b + a = i) ↔ a = i - b := fun a => by omega
    have hm : i - b ∈ range J.cols := by simp; omega
    have l : ∑ a ∈ range J.cols, ∑ c ∈ range J.cols,
        (if b + a = i then (1 : K) else 0) * t.Q.get a c * (if b + c = i then 1 else 0)
        = t.Q.get (i - b) (i - b) := by
      rw [Finset.sum_eq_single_of_mem _ hm, Finset.sum_eq_single_of_mem _ hm]
      · rw [if_pos (by omega)]; ring
      · intro c _ hc
        rw [if_neg (show ¬ b + c = i by omega)]; ring
      · intro a _ ha
        refine Finset.sum_eq_zero fun c _ => ?_
        rw [if_neg (show ¬ b + a = i by omega)]; ring
    rw [l] at hq
    rw [hq]
    congr 1
    refine Finset.sum_congr rfl fun k _ => ?_
    congr 2
    unfold rowAt
    rw [Finset.sum_eq_single_of_mem _ hm]
    · dsimp only
      rw [if_pos (by omega)]; ring
    · intro c _ hc
      dsimp only
      rw [if_neg (show ¬ b + c = i by omega)]; ring
  · rw [if_neg (fun h => hi h.1), if_neg hi]

theorem quad_nonneg {t : TaskQC K} (h : TaskConvex t) (d : ℕ → K) :
    0 ≤ t.weight * ∑ a ∈ range t.Q.rows, ∑ c ∈ range t.Q.cols,
      d (t.begin'.1 + a) * t.Q.get a c * d (t.begin'.2 + c) := by
  obtain ⟨h1, h2, h3, _, h5⟩ := h
  rw [← h2, ← h1]
  exact mul_nonneg h3 (h5 fun a => d (t.begin'.1 + a))

section C123
variable {bk bk' : String} {mbs : List (MultiBody K)} {n : ℕ} {inp inp' : QPInput K} {x x' : Vec K}
  {pre post : List (TaskQC K)} {t t' : TaskQC K} {w : K} {W : ℕ → K} {J : Mat K} {nA nA' tgt tgt' : ℕ → K} {b : ℕ}

/-- **C123** (the result).  Two successful steps with the same constraints and tasks, but one task asks for the
task accelerations `tgt' - nA'` instead of `tgt - nA`.  The difference of the results, measured by the Hessian,
is at most the (weighted) product of the change of what is asked for and the change of what is done. -/
theorem C123_result (hs : SameConstraints inp inp') (h : Solved bk mbs n inp x) (h' : Solved bk' mbs n inp' x')
    (ht : inp.tasks = pre ++ t :: post) (ht' : inp'.tasks = pre ++ t' :: post)
    (hl : IsLsq t w W J nA tgt b) (hl' : IsLsq t' w W J nA' tgt' b) :
    curvature n inp (fun v => x'.get v - x.get v) ≤ w * ∑ i ∈ range J.rows,
      W i * ((tgt' i - nA' i) - (tgt i - nA i)) * (rowAt J b x'.get i - rowAt J b x.get i) := by
  have hacc : accDiag inp'.tasks = accDiag inp.tasks := by
    funext i
    simp only [accDiag, ht, ht', List.map_append, List.map_cons, List.sum_append, List.sum_cons,
      q_of_lsq hl, q_of_lsq hl']
  have hcur : ∀ d, curvature n inp' d = curvature n inp d := by
    intro d
    unfold curvature
    rw [hacc, ht, ht']
    simp only [List.map_append, List.map_cons, List.sum_append, List.sum_cons]
    rw [quad_of_lsq hl, quad_of_lsq hl']
  have hneg : ∀ d, curvature n inp (fun v => -d v) = curvature n inp d := by
    intro d
    unfold curvature
    simp only [neg_mul, mul_neg, neg_neg, even_two, Even.neg_pow]
  obtain ⟨c, hc⟩ := hl.2.2.2.2.2
  obtain ⟨c', hc'⟩ := hl'.2.2.2.2.2
  have hdiff : ∀ z, objective n inp' z - objective n inp z
      = w * lsq W J nA' tgt' b z - c' - (w * lsq W J nA tgt b z - c) := by
    intro z
    unfold objective
    rw [hacc, ht, ht']
    simp only [List.map_append, List.map_cons, List.sum_append, List.sum_cons, hc, hc']
    ring
  have hadm := (solved_optimal h).1
  have hadm' := (solved_optimal h').1
  have hs' : SameConstraints inp' inp := ⟨hs.1.symm, hs.2.1.symm, hs.2.2.1.symm, hs.2.2.2.symm⟩
  have k1 := solved_strong h (hs'.admissible hadm')
  have k2 := solved_strong h' (hs.admissible hadm)
  rw [hcur, show (fun v => x.get v - x'.get v) = fun v => -(x'.get v - x.get v) by funext v; ring, hneg] at k2
  have d1 := hdiff x.get
  have d2 := hdiff x'.get
  have e : w * lsq W J nA' tgt' b x.get - w * lsq W J nA tgt b x.get
      - (w * lsq W J nA' tgt' b x'.get - w * lsq W J nA tgt b x'.get)
      = w * ∑ i ∈ range J.rows,
        W i * ((tgt' i - nA' i) - (tgt i - nA i)) * (rowAt J b x'.get i - rowAt J b x.get i) := by
    unfold lsq
    simp only [Finset.mul_sum, Finset.sum_div, ← Finset.sum_sub_distrib]
    exact Finset.sum_congr rfl fun i _ => by ring
  linarith

/-- **C123** (the task).  If the other tasks are convex: what the task does changes in the direction of what is
asked for, and not by more than that. -/
theorem C123_task (hs : SameConstraints inp inp') (h : Solved bk mbs n inp x) (h' : Solved bk' mbs n inp' x')
    (ht : inp.tasks = pre ++ t :: post) (ht' : inp'.tasks = pre ++ t' :: post)
    (hl : IsLsq t w W J nA tgt b) (hl' : IsLsq t' w W J nA' tgt' b)
    (hconv : ∀ s ∈ pre ++ post, TaskConvex s) (hw : 0 < w) (hW : ∀ i < J.rows, 0 ≤ W i) :
    let done := fun i => rowAt J b x'.get i - rowAt J b x.get i
    let asked := fun i => (tgt' i - nA' i) - (tgt i - nA i)
    (∑ i ∈ range J.rows, W i * done i ^ 2 ≤ ∑ i ∈ range J.rows, W i * asked i * done i) ∧
    (0 ≤ ∑ i ∈ range J.rows, W i * asked i * done i) ∧
    (∑ i ∈ range J.rows, W i * done i ^ 2 ≤ ∑ i ∈ range J.rows, W i * asked i ^ 2) := by
  intro done asked
  have k := C123_result hs h h' ht ht' hl hl'
  have hrest : w * ∑ i ∈ range J.rows, W i * done i ^ 2 ≤ curvature n inp (fun v => x'.get v - x.get v) := by
    unfold curvature
    rw [ht]
    simp only [List.map_append, List.map_cons, List.sum_append, List.sum_cons]
    have hq := quad_of_lsq hl fun v => x'.get v - x.get v
    simp only [rowAt_sub] at hq
    rw [hq]
    have n1 : ∀ l : List (TaskQC K), (∀ s ∈ l, s ∈ pre ++ post) → 0 ≤ (l.map fun s : TaskQC K => s.weight *
        ∑ a ∈ range s.Q.rows, ∑ c ∈ range s.Q.cols, (x'.get (s.begin'.1 + a) - x.get (s.begin'.1 + a))
          * s.Q.get a c * (x'.get (s.begin'.2 + c) - x.get (s.begin'.2 + c))).sum := by
      intro l hl
      refine List.sum_nonneg fun q hq => ?_
      obtain ⟨s, hs, rfl⟩ := List.mem_map.1 hq
      exact quad_nonneg (hconv s (hl s hs)) fun v => x'.get v - x.get v
    have p1 := n1 pre (fun s hs => by simp [hs])
    have p2 := n1 post (fun s hs => by simp [hs])
    have p3 : 0 ≤ ∑ i ∈ (range n).filter (fun i => |accDiag (pre ++ t :: post) i| < 1 / 10000),
        1 / 10000 * (x'.get i - x.get i) ^ 2 := Finset.sum_nonneg fun i _ => by positivity
    linarith
  have k1 : ∑ i ∈ range J.rows, W i * done i ^ 2 ≤ ∑ i ∈ range J.rows, W i * asked i * done i :=
    le_of_mul_le_mul_left (hrest.trans k) hw
  have k0 : 0 ≤ ∑ i ∈ range J.rows, W i * done i ^ 2 :=
    Finset.sum_nonneg fun i hi => mul_nonneg (hW i (Finset.mem_range.1 hi)) (sq_nonneg _)
  refine ⟨k1, k0.trans k1, ?_⟩
  have k2 : 2 * ∑ i ∈ range J.rows, W i * asked i * done i
      ≤ ∑ i ∈ range J.rows, W i * asked i ^ 2 + ∑ i ∈ range J.rows, W i * done i ^ 2 := by
    rw [Finset.mul_sum, ← Finset.sum_add_distrib]
    refine Finset.sum_le_sum fun i hi => ?_
    have := mul_nonneg (hW i (Finset.mem_range.1 hi)) (sq_nonneg (asked i - done i))
    linarith
  linarith

/-- **C123** (one row).  A task of one dimension that asks for more gets more, but not more than the
difference. -/
theorem C123_row (hs : SameConstraints inp inp') (h : Solved bk mbs n inp x) (h' : Solved bk' mbs n inp' x')
    (ht : inp.tasks = pre ++ t :: post) (ht' : inp'.tasks = pre ++ t' :: post)
    (hl : IsLsq t w W J nA tgt b) (hl' : IsLsq t' w W J nA' tgt' b)
    (hconv : ∀ s ∈ pre ++ post, TaskConvex s) (hw : 0 < w) (hJ : J.rows = 1) (hW : 0 < W 0)
    (hle : tgt 0 - nA 0 ≤ tgt' 0 - nA' 0) :
    rowAt J b x.get 0 ≤ rowAt J b x'.get 0 ∧
    rowAt J b x'.get 0 - rowAt J b x.get 0 ≤ (tgt' 0 - nA' 0) - (tgt 0 - nA 0) := by
  obtain ⟨k1, _, _⟩ := C123_task hs h h' ht ht' hl hl' hconv hw (by
    intro i hi
    have : i = 0 := by omega
    subst this
    exact hW.le)
  dsimp only at k1
  rw [hJ, Finset.sum_range_one, Finset.sum_range_one] at k1
  set D := rowAt J b x'.get 0 - rowAt J b x.get 0 with hD
  set A := (tgt' 0 - nA' 0) - (tgt 0 - nA 0) with hA
  have hA0 : 0 ≤ A := by rw [hA]; linarith
  have k2 : D * D ≤ A * D := by
    have : W 0 * (D * D) ≤ W 0 * (A * D) := by linarith
    exact le_of_mul_le_mul_left this hW
  have hD0 : 0 ≤ D := by
    by_contra hn
    push Not at hn
    nlinarith
  refine ⟨by linarith, ?_⟩
  rcases hD0.eq_or_lt with h0 | h0
  · linarith
  · exact le_of_mul_le_mul_right k2 h0

end C123

/-- **C123** (`SetPointTask`).  The same robots in the same state, a set-point task of stiffness `k` with another
target, so another error: the task acceleration changes by no more than `k` times the change of the error. -/
theorem C123_setpoint {bk bk' : String} {mbs : List (MultiBody K)} {n : ℕ} {inp inp' : QPInput K} {x x' : Vec K}
    {sqrt : K → Out K} (hq : SqrtOK sqrt) {mbs' : List (MultiBody K)} {rI dim : ℕ}
    {k0 w : K} {dw : Option (Vec K)} {junk : ℕ → ℕ → K} {s0 s s1 s1' : SetPoint K}
    {ops : List (SetPointOp K)} {hl hl' : HL K}
    (hm : SetPoint.make sqrt mbs' rI dim k0 dw w junk = .ok s0)
    (hr : forEach ops (SetPoint.step sqrt) s0 = .ok s)
    (hu : s.update hl = .ok s1) (hu' : s.update hl' = .ok s1')
    (hj : hl'.jac = hl.jac) (hv : hl'.speed = hl.speed) (hn : hl'.normalAcc = hl.normalAcc)
    (hs : SameConstraints inp inp') (h : Solved bk mbs n inp x) (h' : Solved bk' mbs n inp' x')
    {pre post : List (TaskQC K)} (ht : inp.tasks = pre ++ s1.c.task :: post)
    (ht' : inp'.tasks = pre ++ s1'.c.task :: post) (hconv : ∀ s ∈ pre ++ post, TaskConvex s) (hw : 0 < w) :
    let v := ops.foldl (·.apply rI) (⟨⟨initW dim dw, 0⟩, k0⟩ : SetPointSet K)
    (∀ i < hl.jac.rows, 0 ≤ v.W.get i) →
    ∑ i ∈ range hl.jac.rows, v.W.get i * (rowAt hl.jac v.b x'.get i - rowAt hl.jac v.b x.get i) ^ 2
      ≤ v.k ^ 2 * ∑ i ∈ range hl.jac.rows, v.W.get i * (hl'.eval.get i - hl.eval.get i) ^ 2 := by
  intro v hW
  obtain ⟨⟨d, d0, d1, l1⟩, _⟩ := C43_setpoint hq hm hr hu
  obtain ⟨⟨d', d0', d1', l1'⟩, _⟩ := C43_setpoint hq hm hr hu'
  have hd : d' = d := (mul_self_inj d0' d0).1 (by rw [d1, d1'])
  subst hd
  rw [hj, hv, hn] at l1'
  obtain ⟨_, _, k3⟩ := C123_task hs h h' ht ht' l1 l1' hconv hw hW
  refine k3.trans (le_of_eq ?_)
  rw [Finset.mul_sum]
  exact Finset.sum_congr rfl fun i _ => by ring

/-! ## Concrete steps -/

namespace ResponseEx

open WeightEx

/-- `pull c w` asks joint 0 for the acceleration `c`. -/
theorem pull_lsq (c w : ℚ) : IsLsq (pull c w) w (fun _ => 1) ⟨1, 1, fun _ _ => 1⟩ (fun _ => 0) (fun _ => c) 0 := by
  refine ⟨rfl, rfl, rfl, rfl, rfl, w * c ^ 2 / 2, fun x => ?_⟩
  rw [pull_obj]
  simp [lsq, rowAt]
  ring

/-- A pull to 1 becomes a pull to 3 while another task pulls to 0: asked for 2 more, the joint does 1 more. -/
example : ∃ x x', Solved "QLD" [robot] 2 (inpOf [pull 1 1, pull 0 1]) x ∧
    Solved "QLD" [robot] 2 (inpOf [pull 3 1, pull 0 1]) x' ∧ x.get 0 = 1 / 2 ∧ x'.get 0 = 3 / 2 ∧
    TaskConvex (pull 0 1) := by
  have ho : ∀ (c : ℚ) (z : ℕ → ℚ), objective 2 (inpOf [pull c 1, pull 0 1]) z
      = z 0 ^ 2 - c * z 0 + z 1 ^ 2 / 20000 := by
    intro c z
    rw [objective_pulls _ 2 (by simp [accDiag, pull_q]; norm_num) (by simp [accDiag, pull_q])]
    simp only [List.map_cons, List.map_nil, List.sum_cons, List.sum_nil, pull_obj]
    norm_num
    ring
  obtain ⟨x, hx, ex⟩ := solves [pull 1 1, pull 0 1] (by simp [pull_sized])
    (fun i => if i = 0 then 1 / 2 else 0) (by
      intro z
      rw [ho, ho]
      norm_num
      nlinarith [sq_nonneg (z 0 - 1 / 2), sq_nonneg (z 1)])
  obtain ⟨x', hx', ex'⟩ := solves [pull 3 1, pull 0 1] (by simp [pull_sized])
    (fun i => if i = 0 then 3 / 2 else 0) (by
      intro z
      rw [ho, ho]
      norm_num
      nlinarith [sq_nonneg (z 0 - 3 / 2), sq_nonneg (z 1)])
  refine ⟨x, x', hx, hx', by rw [ex]; rfl, by rw [ex']; rfl, rfl, rfl, by norm_num [pull], ?_, ?_⟩
  · intro a ha c hc
    simp [pull, Mat.ofRows] at ha hc
    subst ha
    subst hc
    rfl
  · intro z
    simp [pull, Mat.ofRows]
    exact mul_self_nonneg (z 0)

end ResponseEx

end Verif
