import Verif.Props.Inexact
import Verif.Props.Together
import Verif.Proofs.Perturbed

/-!
# C89, C90: what a task loses to the others, and where its error ends up

C72 and C74 ask for tasks that can all be achieved, without moving the variables that the solver penalises itself, and
for an exact numerical solver.  Here the tasks may be opposed, the penalty may act and the numerical solver may be
inexact; the loss is bounded.
-/

set_option autoImplicit false
set_option linter.unusedSectionVars false

namespace Verif

open Finset Spec

section C89
variable {K : Type} [Field K] [LinearOrder K] [IsStrictOrderedRing K]

namespace Spec

/-- At `x0`, the sum of these tasks is within `B` of the best value it can take anywhere. -/
def WithinOfBest (ts : List (TaskQC K)) (x0 : ℕ → K) (B : K) : Prop :=
  ∀ z, (ts.map fun t => t.obj x0).sum ≤ (ts.map fun t => t.obj z).sum + B

end Spec

/-- The solver's own penalty is at most that on all variables. -/
theorem penalty_le (n : ℕ) (inp : QPInput K) (x : ℕ → K) :
    penalty n inp x ≤ (∑ i ∈ range n, x i ^ 2) / 20000 := by
  unfold penalty
  have h : ∑ i ∈ (range n).filter (fun i => |accDiag inp.tasks i| < 1 / 10000), 1 / 10000 * x i ^ 2
      ≤ ∑ i ∈ range n, 1 / 10000 * x i ^ 2 :=
    Finset.sum_le_sum_of_subset_of_nonneg (Finset.filter_subset _ _)
      fun i _ _ => mul_nonneg (by norm_num) (sq_nonneg _)
  rw [← Finset.mul_sum, ← Finset.mul_sum] at h
  rw [← Finset.mul_sum]
  linarith

variable {ε δ : K} {bk : String} {mbs : List (MultiBody K)} {n : ℕ} {inp : QPInput K} {x : Vec K}

/-- **C89** (one task among others).  After a successful step, with any numerical solver that is within `δ` of the
optimum: for every task and every admissible `x0`, the task is at most as bad as at `x0`, plus what the other tasks
and the solver's own penalty lose at `x0`, plus `δ`.  The penalty is at most `1e-4` times half the square of `x0`. -/
theorem C89_miss (h : SolvedNear ε δ bk mbs n inp x) {pre post : List (TaskQC K)} {t : TaskQC K}
    (ht : inp.tasks = pre ++ t :: post) {x0 : ℕ → K} (h0 : Admissible mbs n inp x0) {B : K}
    (hB : WithinOfBest (pre ++ post) x0 B) :
    t.weight * (unweighted t x.get - unweighted t x0) ≤ B + penalty n inp x0 + δ ∧
    penalty n inp x0 ≤ (∑ i ∈ range n, x0 i ^ 2) / 20000 := by
  refine ⟨?_, penalty_le n inp x0⟩
  obtain ⟨-, -, -, -, hopt⟩ := solvedNear_spec h
  have k := hopt x0 h0
  have e : ∀ z, objective n inp z
      = ((pre ++ post).map fun t => t.obj z).sum + penalty n inp z + t.weight * unweighted t z := by
    intro z
    unfold objective
    rw [ht]
    simp only [List.map_append, List.map_cons, List.sum_append, List.sum_cons, obj_eq, penalty, ht]
    ring
  rw [e, e] at k
  have k1 := hB x.get
  have k2 := penalty_nonneg n inp x.get
  rw [mul_sub]
  linarith

/-- **C89** (compatible tasks).  If an admissible point minimises every task, no task loses more than the solver's own
penalty at that point and `δ`, whatever the weights.  This is C72 without the condition on the penalised variables. -/
theorem C89_compatible (h : SolvedNear ε δ bk mbs n inp x) {x0 : ℕ → K} (h0 : Admissible mbs n inp x0)
    (hmin : ∀ t ∈ inp.tasks, Minimises t x0) :
    ∀ t ∈ inp.tasks, t.obj x.get ≤ t.obj x0 + penalty n inp x0 + δ := by
  intro t ht
  obtain ⟨pre, post, e⟩ := List.append_of_mem ht
  have hB : WithinOfBest (pre ++ post) x0 0 := by
    intro z
    rw [add_zero]
    refine List.sum_le_sum fun s hs => hmin s ?_ z
    rw [e]
    simp only [List.mem_append, List.mem_cons] at hs ⊢
    tauto
  have := (C89_miss h e h0 hB).1
  rw [mul_sub, ← obj_eq, ← obj_eq] at this
  linarith

/-- **C89** (priorities).  The constraints, the other tasks and a task `t` are given, and an admissible point at which
the others have a bounded loss.  For every margin there is a weight from which on the task is as good as at that
point up to the margin, in every successful step. -/
theorem C89_priority {inp0 : QPInput K} {pre post : List (TaskQC K)} (t : TaskQC K) {x0 : ℕ → K} {B : K}
    (h0 : Admissible mbs n inp0 x0) (hB : WithinOfBest (pre ++ post) x0 B) (δ : K) {η : K} (hη : 0 < η) :
    ∃ w0, 0 < w0 ∧ ∀ (w : K) (ε : K) (bk : String) (inp : QPInput K) (x : Vec K), w0 ≤ w →
      SameConstraints inp0 inp → inp.tasks = pre ++ { t with weight := w } :: post →
      SolvedNear ε δ bk mbs n inp x → unweighted t x.get ≤ unweighted t x0 + η := by
  set C := max (B + (∑ i ∈ range n, x0 i ^ 2) / 20000 + δ) 0 with hC
  refine ⟨C / η + 1, by positivity, fun w ε bk inp x hw hs ht h => ?_⟩
  obtain ⟨k1, k2⟩ := C89_miss h ht (hs.admissible h0) hB
  have k3 : w * (unweighted t x.get - unweighted t x0) ≤ C := by
    have e : unweighted { t with weight := w } = unweighted t := rfl
    simp only [e] at k1
    exact le_trans (by linarith) (le_max_left _ _)
  have hC0 : 0 ≤ C := le_max_right _ _
  have hw0 : 0 < w := lt_of_lt_of_le (by positivity) hw
  by_contra hc
  push Not at hc
  have k4 : w * η < w * (unweighted t x.get - unweighted t x0) := mul_lt_mul_of_pos_left (by linarith) hw0
  have k5 : (C / η + 1) * η ≤ w * η := mul_le_mul_of_nonneg_right hw hη.le
  have k6 : (C / η + 1) * η = C + η := by field_simp
  linarith

/-- **C89** (least squares).  For the tasks of this library (C43): if an admissible point reaches the target of the
task, every row of the task acceleration is within `sqrt (2 (B + penalty + δ) / (weight * dimension weight))` of its
target. -/
theorem C89_row (h : SolvedNear ε δ bk mbs n inp x) {pre post : List (TaskQC K)} {t : TaskQC K}
    (ht : inp.tasks = pre ++ t :: post) {x0 : ℕ → K} (h0 : Admissible mbs n inp x0) {B : K}
    (hB : WithinOfBest (pre ++ post) x0 B) {w : K} {W : ℕ → K} {J : Mat K} {nA tgt : ℕ → K} {b : ℕ}
    (hl : IsLsq t w W J nA tgt b) (hw : 0 ≤ w) (hW : ∀ i < J.rows, 0 ≤ W i)
    (hx0 : ∀ i < J.rows, rowAt J b x0 i + nA i = tgt i) {a : ℕ} (ha : a < J.rows) :
    w * W a * (rowAt J b x.get a + nA a - tgt a) ^ 2 ≤ 2 * (B + penalty n inp x0 + δ) := by
  have k := (C89_miss h ht h0 hB).1
  rw [mul_sub, ← obj_eq, ← obj_eq] at k
  obtain ⟨_, _, _, _, _, c, hc⟩ := hl
  rw [hc, hc] at k
  have e0 : lsq W J nA tgt b x0 = 0 := by
    unfold lsq
    rw [Finset.sum_eq_zero fun i hi => ?_, zero_div]
    rw [hx0 i (Finset.mem_range.1 hi)]; ring
  have e1 : W a * (rowAt J b x.get a + nA a - tgt a) ^ 2 / 2 ≤ lsq W J nA tgt b x.get := by
    unfold lsq
    refine div_le_div_of_nonneg_right ?_ (by norm_num)
    exact Finset.single_le_sum (f := fun i => W i * (rowAt J b x.get i + nA i - tgt i) ^ 2)
      (fun i hi => mul_nonneg (hW i (Finset.mem_range.1 hi)) (sq_nonneg _)) (Finset.mem_range.2 ha)
  have e2 := mul_le_mul_of_nonneg_left e1 hw
  rw [e0] at k
  have e3 : w * W a * (rowAt J b x.get a + nA a - tgt a) ^ 2
      = 2 * (w * (W a * (rowAt J b x.get a + nA a - tgt a) ^ 2 / 2)) := by ring
  rw [e3]
  linarith

end C89

/-! ## C90 -/

namespace Spec

/-- A `SetPointTask` among others in the control loop of a solver: created once with the weight `w`, at every time
`t ≥ 0` any calls are made, it is updated with the values `hl t` and is among the tasks that the solver assembles
(`inp t`); the last stiffness given is `k`, the dimension weights are not negative and that of row `a` is at least `u`,
the unknowns of the robot begin at `b`; some admissible acceleration reaches the target
`k * eval - 2 sqrt k * speed`, at a loss of at most `B` for the other tasks and the solver's own penalty together. -/
def SetPointAmong (mbs : List (MultiBody ℝ)) (n dim : ℕ) (k w u B : ℝ) (b a : ℕ) (hl : ℝ → HL ℝ)
    (inp : ℝ → QPInput ℝ) : Prop :=
  ∃ (sqrt : ℝ → Out ℝ) (mbs' : List (MultiBody ℝ)) (rI : ℕ) (k0 : ℝ) (dw : Option (Vec ℝ))
    (junk : ℕ → ℕ → ℝ) (s0 : SetPoint ℝ) (s s' : ℝ → SetPoint ℝ) (ops : ℝ → List (SetPointOp ℝ)),
    SqrtOK sqrt ∧ SetPoint.make sqrt mbs' rI dim k0 dw w junk = .ok s0 ∧
    (∀ t, 0 ≤ t → forEach (ops t) (SetPoint.step sqrt) s0 = .ok (s t)) ∧
    (∀ t, 0 ≤ t → (s t).update (hl t) = .ok (s' t)) ∧
    (∀ t, 0 ≤ t → let v := (ops t).foldl (·.apply rI) (⟨⟨initW dim dw, 0⟩, k0⟩ : SetPointSet ℝ)
      v.k = k ∧ v.b = b ∧ u ≤ v.W.get a ∧ ∀ i < (hl t).jac.rows, 0 ≤ v.W.get i) ∧
    ∀ t, 0 ≤ t → ∃ pre post x0 B1, (inp t).tasks = pre ++ (s' t).c.task :: post ∧ Admissible mbs n (inp t) x0 ∧
      (∀ i < (hl t).jac.rows, rowAt (hl t).jac b x0 i + (hl t).normalAcc.get i
        = k * (hl t).eval.get i - 2 * Real.sqrt k * (hl t).speed.get i) ∧
      WithinOfBest (pre ++ post) x0 B1 ∧ B1 + penalty n (inp t) x0 ≤ B

end Spec

section C90
variable {mbs : List (MultiBody ℝ)} {n : ℕ} {inp : ℝ → QPInput ℝ} {x : ℝ → Vec ℝ} {bk : ℝ → String}
  {ε δ : ℝ} {dim : ℕ} {k w u B : ℝ} {b a : ℕ} {hl : ℝ → HL ℝ}

/-- The task acceleration is near its target at every time. -/
theorem among_key (hs : ∀ t, 0 ≤ t → SolvedNear ε δ (bk t) mbs n (inp t) (x t)) (hw : 0 < w) (hu : 0 < u)
    (L : SetPointAmong mbs n dim k w u B b a hl inp) (ha : ∀ t, a < (hl t).jac.rows) :
    0 ≤ k ∧ ∀ t, 0 ≤ t → |rowAt (hl t).jac b (x t).get a + (hl t).normalAcc.get a
      - (k * (hl t).eval.get a - 2 * Real.sqrt k * (hl t).speed.get a)| ≤ Real.sqrt (2 * (B + δ) / (w * u)) := by
  obtain ⟨sqrt, mbs', rI, k0, dw, junk, s0, s, s', ops, hq, hm, hr, hup, hset, hin⟩ := L
  have key : ∀ t, 0 ≤ t → 0 ≤ k ∧ |rowAt (hl t).jac b (x t).get a + (hl t).normalAcc.get a
      - (k * (hl t).eval.get a - 2 * Real.sqrt k * (hl t).speed.get a)| ≤ Real.sqrt (2 * (B + δ) / (w * u)) := by
    intro t ht
    obtain ⟨⟨d, d0, d1, hl1⟩, -⟩ := C43_setpoint hq hm (hr t ht) (hup t ht)
    obtain ⟨v1, v2, v3, v4⟩ := hset t ht
    rw [v1] at d1
    rw [v1, v2] at hl1
    have hk : 0 ≤ k := by nlinarith [mul_self_nonneg d]
    have hd : d = 2 * Real.sqrt k := by
      have : (2 * Real.sqrt k) * (2 * Real.sqrt k) = d * d := by
        rw [d1]; have := Real.mul_self_sqrt hk; linarith
      exact ((mul_self_inj (by positivity) d0).1 this).symm
    subst hd
    refine ⟨hk, ?_⟩
    obtain ⟨pre, post, x0, B1, e1, e2, e3, e4, e5⟩ := hin t ht
    have q := C89_row (hs t ht) e1 e2 e4 hl1 hw.le v4 e3 (ha t)
    apply Real.abs_le_sqrt
    rw [le_div_iff₀ (mul_pos hw hu)]
    refine le_trans ?_ (q.trans (by linarith))
    rw [mul_comm]
    refine mul_le_mul_of_nonneg_right (mul_le_mul_of_nonneg_left v3 hw.le) (sq_nonneg _)
  exact ⟨(key 0 le_rfl).1, fun t ht => (key t ht).2⟩

/-- **C90**.  A solver called at every time, with any number of tasks and constraints, opposed or not, an exact or
inexact numerical solver: the error of every row of a `SetPointTask` stays within `ρ / k` of the critically damped
response of its stiffness `k`, where `ρ = sqrt (2 (B + δ) / (w u))` is what C89 allows on the accelerations, and the
distance grows from zero like the step response; so it ends up within any margin of `ρ / k` of the target. -/
theorem C90_ultimate (hs : ∀ t, 0 ≤ t → SolvedNear ε δ (bk t) mbs n (inp t) (x t)) (hw : 0 < w) (hu : 0 < u)
    (L : SetPointAmong mbs n dim k w u B b a hl inp) (ha : ∀ t, a < (hl t).jac.rows)
    (hf : Follows hl b a fun t => (x t).get) (hk : 0 < k) :
    let ρ := Real.sqrt (2 * (B + δ) / (w * u))
    (∀ t, 0 ≤ t → |(hl t).eval.get a - critical (Real.sqrt k) ((hl 0).eval.get a) (-(hl 0).speed.get a) t|
      ≤ ρ / k * (1 - (1 + Real.sqrt k * t) * Real.exp (-(Real.sqrt k * t)))) ∧
    (∀ t, 0 ≤ t → |(hl t).eval.get a - critical (Real.sqrt k) ((hl 0).eval.get a) (-(hl 0).speed.get a) t| ≤ ρ / k) ∧
    ∀ η, 0 < η → ∀ᶠ t in Filter.atTop, |(hl t).eval.get a| ≤ ρ / k + η := by
  intro ρ
  have hρ : 0 ≤ ρ := Real.sqrt_nonneg _
  obtain ⟨-, key⟩ := among_key hs hw hu L ha
  have hω : 0 < Real.sqrt k := Real.sqrt_pos.2 hk
  set ω := Real.sqrt k with hωd
  have hωk : ω * ω = k := Real.mul_self_sqrt hk.le
  set r : ℝ → ℝ := fun t => -(rowAt (hl t).jac b (x t).get a + (hl t).normalAcc.get a
      - (k * (hl t).eval.get a - 2 * ω * (hl t).speed.get a)) with hrd
  have hrb : ∀ t, 0 ≤ t → |r t| ≤ ρ := fun t ht => by rw [hrd]; simp only [abs_neg]; exact key t ht
  have h1 : ∀ t, 0 ≤ t → HasDerivAt (fun τ => (hl τ).eval.get a) ((fun τ => -(hl τ).speed.get a) t) t :=
    fun t ht => (hf.err t ht).congr_deriv (by simp)
  have h2 : ∀ t, 0 ≤ t → HasDerivAt (fun τ => -(hl τ).speed.get a)
      (-(ω * ω * (hl t).eval.get a) - 2 * ω * (-(hl t).speed.get a) + r t) t := fun t ht =>
    (hf.speed t ht).neg.congr_deriv (by rw [hωk, hrd]; ring)
  have h1' : ∀ t, 0 ≤ t → HasDerivAt (fun τ => -(hl τ).eval.get a) ((fun τ => (hl τ).speed.get a) t) t :=
    fun t ht => (h1 t ht).neg.congr_deriv (by simp)
  have h2' : ∀ t, 0 ≤ t → HasDerivAt (fun τ => (hl τ).speed.get a)
      (-(ω * ω * (-(hl t).eval.get a)) - 2 * ω * ((hl t).speed.get a) + -r t) t := fun t ht =>
    (hf.speed t ht).congr_deriv (by rw [hωk, hrd]; ring)
  have main : ∀ t, 0 ≤ t → |(hl t).eval.get a - critical ω ((hl 0).eval.get a) (-(hl 0).speed.get a) t|
      ≤ ρ / k * (1 - (1 + ω * t) * Real.exp (-(ω * t))) := by
    intro t ht
    have p1 := perturbed_le hω h1 h2 (fun t ht => (abs_le.1 (hrb t ht)).2) ht
    have p2 := perturbed_le hω h1' h2' (ρ := ρ)
      (fun t ht => by have := (abs_le.1 (hrb t ht)).1; linarith) ht
    have ep := Real.exp_pos (-(ω * t))
    have ee : Real.exp (-(ω * t)) * Real.exp (ω * t) = 1 := by rw [← Real.exp_add]; simp
    have q1 := mul_le_mul_of_nonneg_left p1 ep.le
    have q2 := mul_le_mul_of_nonneg_left p2 ep.le
    have eR : Real.exp (-(ω * t)) * (ρ / ω * ((Real.exp (ω * t) - 1) / ω - t))
        = ρ / k * (1 - (1 + ω * t) * Real.exp (-(ω * t))) := by
      rw [← hωk]
      have : Real.exp (-(ω * t)) * (ρ / ω * ((Real.exp (ω * t) - 1) / ω - t))
        = ρ / (ω * ω) * (Real.exp (-(ω * t)) * Real.exp (ω * t) - (1 + ω * t) * Real.exp (-(ω * t))) := by
        field_simp
        ring
      rw [this, ee]
    rw [eR] at q1 q2
    have eL : ∀ E e0 v0 : ℝ, Real.exp (-(ω * t)) * (Real.exp (ω * t) * E - (e0 + (v0 + ω * e0) * t))
        = E - critical ω e0 v0 t := by
      intro E e0 v0
      have : Real.exp (-(ω * t)) * (Real.exp (ω * t) * E - (e0 + (v0 + ω * e0) * t))
        = (Real.exp (-(ω * t)) * Real.exp (ω * t)) * E - critical ω e0 v0 t := by unfold critical; ring
      rw [this, ee, one_mul]
    rw [eL] at q1 q2
    have en : critical ω (-(hl 0).eval.get a) ((hl 0).speed.get a) t
        = -critical ω ((hl 0).eval.get a) (-(hl 0).speed.get a) t := by unfold critical; ring
    rw [en] at q2
    exact abs_le.2 ⟨by linarith, q1⟩
  have weak : ∀ t, 0 ≤ t → |(hl t).eval.get a - critical ω ((hl 0).eval.get a) (-(hl 0).speed.get a) t| ≤ ρ / k := by
    intro t ht
    refine (main t ht).trans ?_
    have : 0 ≤ (1 + ω * t) * Real.exp (-(ω * t)) := by positivity
    exact mul_le_of_le_one_right (by positivity) (by linarith)
  refine ⟨main, weak, fun η hη => ?_⟩
  have hc := critical_tendsto hω ((hl 0).eval.get a) (-(hl 0).speed.get a)
  have h3 := (Metric.tendsto_nhds.1 hc) η hη
  filter_upwards [h3, Filter.eventually_ge_atTop 0] with t h4 ht
  rw [Real.dist_eq, sub_zero] at h4
  have h5 := weak t ht
  have h6 := abs_add_le ((hl t).eval.get a - critical ω ((hl 0).eval.get a) (-(hl 0).speed.get a) t)
    (critical ω ((hl 0).eval.get a) (-(hl 0).speed.get a) t)
  rw [sub_add_cancel] at h6
  linarith

end C90

/-! ## Concrete cases -/

namespace PriorityEx

section
open WeightEx

/-- `C89_miss`: two opposed tasks.  The first one would have 1 if the other one did not pull to 0 with a weight of 1/3;
it gets 3/4, a loss of 1/32 where `C89_miss` allows 1/6. -/
example : ∃ x, Solved "QLD" [robot] 2 (inpOf [pull 1 1, pull 0 (1 / 3)]) x ∧
    WithinOfBest [pull 0 (1 / 3)] (fun i => if i = 0 then 1 else 0) (1 / 6) ∧
    Admissible [robot] 2 (inpOf [pull 1 1, pull 0 (1 / 3)]) (fun i => if i = 0 then 1 else 0) ∧ x.get 0 = 3 / 4 ∧
    unweighted (pull 1 1) x.get - unweighted (pull 1 1) (fun i => if i = 0 then 1 else 0) = 1 / 32 := by
  obtain ⟨x, hx, ex⟩ := solves [pull 1 1, pull 0 (1 / 3)] (by simp [pull_sized])
    (fun i => if i = 0 then 3 / 4 else 0) (by
      intro z
      rw [objective_pulls _ (4 / 3) (by simp [accDiag, pull_q]; norm_num) (by simp [accDiag, pull_q]),
        objective_pulls _ (4 / 3) (by simp [accDiag, pull_q]; norm_num) (by simp [accDiag, pull_q])]
      have hw : ¬ |(4 / 3 : ℚ)| < 1 / 10000 := by rw [abs_of_pos (by norm_num)]; norm_num
      simp only [if_neg hw, List.map_cons, List.map_nil, List.sum_cons, List.sum_nil, pull_obj, if_true]
      rw [if_neg one_ne_zero]
      nlinarith [sq_nonneg (z 0 - 3 / 4), sq_nonneg (z 1)])
  refine ⟨x, hx, ?_, ⟨⟨⟨by simp [inpOf], by simp [inpOf], by simp [inpOf]⟩, by simp [inpOf]⟩, ?_⟩, ?_, ?_⟩
  · intro z
    simp only [List.map_cons, List.map_nil, List.sum_cons, List.sum_nil, pull_obj, if_true]
    nlinarith [sq_nonneg (z 0)]
  · refine mimicJoints_of_noMimic ?_ _
    intro mb hmb j hj
    simp only [List.mem_singleton] at hmb
    subst hmb
    simp only [robot, List.mem_cons, List.not_mem_nil, or_false] at hj
    rcases hj with rfl | rfl <;> rfl
  · rw [ex]; rfl
  · rw [pull_unweighted, pull_unweighted, ex]
    norm_num

end

section
open TogetherEx

/-- The first slider is at rest, one unit from its target. -/
def hlC : HL ℝ := ⟨⟨1, 2, fun _ k => if k = 0 then 1 else 0⟩, ⟨1, fun _ => 1⟩, ⟨1, fun _ => 0⟩, ⟨1, fun _ => 0⟩⟩

/-- Another task wants the acceleration of the slider to be -1. -/
def away : TaskQC ℝ := ⟨Mat.ofRows 1 [[1]], Vec.ofList [1], (0, 0), 1⟩

theorem away_obj (z : ℕ → ℝ) : away.obj z = z 0 ^ 2 / 2 + z 0 := by
  simp [TaskQC.obj, away, Mat.ofRows, Vec.ofList]
  ring

theorem hlC_row (z : ℕ → ℝ) (i : ℕ) : rowAt hlC.jac 0 z i = z 0 := by
  simp [rowAt, hlC, Finset.sum_range_succ]

/-- All the hypotheses of `C90_ultimate` hold of a set-point task of stiffness 1 and an opposed task of the same weight,
and the error stays at 1 for ever: it does not tend to zero as in C74, and `C90_ultimate` allows 2. -/
theorem C90_steady : ∃ (inp : ℝ → QPInput ℝ) (x : ℝ → Vec ℝ), (∀ t, SolvedNear 0 0 "QLD" [robot] 2 (inp t) (x t)) ∧
    SetPointAmong [robot] 2 1 1 1 1 2 0 0 (fun _ => hlC) inp ∧ Follows (fun _ => hlC) 0 0 (fun t => (x t).get) ∧
    hlC.eval.get 0 = 1 ∧ Real.sqrt (2 * (2 + 0) / (1 * 1)) = 2 := by
  obtain ⟨s', hu⟩ : ∃ s', (spJ 1).update hlC = .ok s' := ⟨_, setPoint_update_eq_ok.2 ⟨⟨rfl, rfl, rfl, rfl⟩, rfl⟩⟩
  have hz : s'.c.task.Sized 2 ∧ s'.c.task.q 0 0 = 1 ∧ s'.c.task.q 1 1 = 0 := by
    obtain ⟨-, rfl⟩ := setPoint_update_eq_ok.1 hu
    refine ⟨?_, ?_, ?_⟩
    · simp [TaskQC.Sized, SPCommon.task, spJ, lsqQ, lsqC, hlC]
    · simp [TaskQC.q, SPCommon.task, spJ, lsqQ, hlC, Vec.const]
    · simp [TaskQC.q, SPCommon.task, spJ, lsqQ, hlC, Vec.const]
  obtain ⟨⟨d, d0, d1, -, -, -, -, -, c, hc⟩, -⟩ := C43_setpoint RelEx.sqrtR_ok (ops := []) (make 1) rfl hu
  have hobj : ∀ z, s'.c.task.obj z = (z 0 - 1) ^ 2 / 2 - c := by
    intro z
    rw [hc]
    have e1 : hlC.jac.rows = 1 := rfl
    have e2 : ∀ i, rowAt hlC.jac ([].foldl (·.apply 0) (⟨⟨initW 1 none, 0⟩, 1⟩ : SetPointSet ℝ)).b z i = z 0 :=
      hlC_row z
    simp only [lsq, e1, Finset.sum_range_one, e2]
    simp [initW, hlC]
  let inp : QPInput ℝ := ⟨[s'.c.task, away], [], [], [], []⟩
  have a0 : accDiag inp.tasks 0 = 2 := by
    simp only [accDiag, inp, List.map_cons, List.map_nil, List.sum_cons, List.sum_nil, hz.2.1]
    simp [TaskQC.q, away, Mat.ofRows]
    norm_num
  have a1 : accDiag inp.tasks 1 = 0 := by
    simp only [accDiag, inp, List.map_cons, List.map_nil, List.sum_cons, List.sum_nil, hz.2.2]
    simp [TaskQC.q, away, Mat.ofRows]
  have hpen : ∀ z, penalty 2 inp z = z 1 ^ 2 / 20000 := by
    intro z
    unfold penalty
    rw [Finset.sum_filter]
    simp only [Finset.sum_range_succ, Finset.sum_range_zero, a0, a1]
    rw [if_neg (by norm_num), if_pos (by norm_num)]
    ring
  have hno : ∀ mb ∈ [robot], NoMimic mb := by
    intro mb hmb j hj
    simp only [List.mem_singleton] at hmb
    subst hmb
    simp only [robot, List.mem_cons, List.not_mem_nil, or_false] at hj
    rcases hj with rfl | rfl <;> rfl
  have hok : ∀ mb ∈ [robot], MimicOK mb := by
    intro mb hmb
    refine ⟨?_, fun j hj l m h => by rw [hno mb hmb j hj] at h; cases h⟩
    simp only [List.mem_singleton] at hmb
    subst hmb
    simp [robot]
  have hadm : ∀ z, AllSatisfied 2 inp z := fun z => ⟨⟨by simp [inp], by simp [inp], by simp [inp]⟩, by simp [inp]⟩
  have hsol : ∃ x, Solved "QLD" [robot] 2 inp x ∧ ∀ i, x.get i = (fun _ : ℕ => (0 : ℝ)) i := by
    refine realise (mbs := [robot]) (uni := []) (bi := []) (mbcs := [mbc]) (inp := inp) hok hno ?_
      (by intro c hc; simp at hc) rfl ?_ ⟨?_, by simp [inp], by simp [inp], by simp [inp], by simp [inp]⟩
      Nat.two_pos (by simp [inp]) (hadm _) (fun z _ => ?_)
    · intro mb hmb _
      simp only [List.mem_singleton] at hmb
      subst hmb
      refine ⟨rfl, rfl, rfl, ?_⟩
      intro i p h
      match i with
      | 0 => simp [robot] at h; exact Or.inl h.symm
      | 1 => simp [robot] at h; exact Or.inr ⟨0, by omega, h.symm⟩
      | k + 2 => simp [robot] at h
    · intro r mb m hr hmm
      cases r with
      | zero => simp at hr hmm; subst hr; subst hmm; exact ⟨rfl, fun _ => ⟨rfl, rfl, rfl⟩⟩
      | succ r => simp at hr
    · intro t' ht'
      simp only [inp, List.mem_cons, List.not_mem_nil, or_false] at ht'
      rcases ht' with rfl | rfl
      · exact hz.1
      · show TaskQC.Sized 2 away
        simp [TaskQC.Sized, away, Mat.ofRows, Vec.ofList]
    · have e : nrVariables [robot] ([] : List (UniContact ℝ)) [] = 2 := rfl
      rw [e]
      have hp : ∀ z, objective 2 inp z = s'.c.task.obj z + away.obj z + z 1 ^ 2 / 20000 := by
        intro z
        rw [← hpen]
        unfold objective penalty
        simp [inp]
      rw [hp, hp, hobj, hobj, away_obj, away_obj]
      nlinarith [sq_nonneg (z 0), sq_nonneg (z 1)]
  obtain ⟨x, hx, ex⟩ := hsol
  refine ⟨fun _ => inp, fun _ => x, fun _ => hx.near le_rfl le_rfl, ?_, ⟨fun t _ => ?_, fun t _ => ?_⟩, rfl, ?_⟩
  · refine ⟨RelEx.sqrtR, [robot], 0, 1, none, fun _ _ => 7, _, fun _ => _, fun _ => s', fun _ => [], RelEx.sqrtR_ok,
      make 1, fun t _ => rfl, fun t _ => hu, fun t _ => ⟨rfl, rfl, by simp [initW], fun i _ => by simp [initW]⟩,
      fun t _ => ⟨[], [away], fun i => if i = 0 then 1 else 0, 2, rfl, ⟨hadm _, mimicJoints_of_noMimic hno _⟩,
        fun i _ => ?_, fun z => ?_, ?_⟩⟩
    · rw [hlC_row]; simp [hlC]
    · simp only [List.nil_append, List.map_cons, List.map_nil, List.sum_cons, List.sum_nil, away_obj, if_true]
      nlinarith [sq_nonneg (z 0 + 1)]
    · rw [hpen]; simp
  · simpa [hlC] using hasDerivAt_const t (1 : ℝ)
  · refine (hasDerivAt_const t (0 : ℝ)).congr_deriv ?_
    rw [hlC_row, ex]
    simp [hlC]
  · rw [show (2 * (2 + 0) / (1 * 1) : ℝ) = 2 ^ 2 by norm_num]
    exact Real.sqrt_sq (by norm_num)

end

end PriorityEx

end Verif
