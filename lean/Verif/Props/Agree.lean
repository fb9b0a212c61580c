import Verif.Props.Silent
import Verif.Props.Order
import Verif.Props.Inexact

/-!
# C126: inexact numerical solvers agree up to their tolerance
-/

set_option autoImplicit false
set_option linter.unusedSectionVars false

namespace Verif

open Finset Spec

namespace Spec
variable {K : Type} [Field K] [LinearOrder K] [IsStrictOrderedRing K]

/-- Two ways to write the same problem: the same vectors are admissible and have the same objective. -/
def SameProblem (mbs : List (MultiBody K)) (n : ℕ) (inp inp' : QPInput K) : Prop :=
  (∀ x, Admissible mbs n inp' x ↔ Admissible mbs n inp x) ∧ ∀ x, objective n inp' x = objective n inp x

/-- `y` respects the constraints and has an objective at most `κ` above that of `x`. -/
def Corrects (mbs : List (MultiBody K)) (n : ℕ) (inp : QPInput K) (κ : K) (x y : ℕ → K) : Prop :=
  Admissible mbs n inp y ∧ objective n inp y ≤ objective n inp x + κ

end Spec

variable {K : Type} [Field K] [LinearOrder K] [IsStrictOrderedRing K]

section
variable {ε ε' δ δ' κ κ' : K} {bk bk' : String} {mbs : List (MultiBody K)} {n : ℕ} {inp inp' : QPInput K}
  {x x' : Vec K}

/-- **C126** (in general): two successful steps on the same problem, with whatever backends, histories and
tolerances.  Any two vectors that correct the results differ, measured by the Hessian, by at most four times the
sum of the tolerances on the optimum and of what the corrections cost. -/
theorem C126_corrected (hp : SameProblem mbs n inp inp') (h : SolvedNear ε δ bk mbs n inp x)
    (h' : SolvedNear ε' δ' bk' mbs n inp' x') {y y' : ℕ → K} (hy : Corrects mbs n inp κ x.get y)
    (hy' : Corrects mbs n inp' κ' x'.get y') :
    curvature n inp (fun v => y v - y' v) ≤ 4 * (δ + κ + (δ' + κ')) := by
  obtain ⟨-, -, -, -, a⟩ := solvedNear_spec h
  obtain ⟨-, -, -, -, a'⟩ := solvedNear_spec h'
  obtain ⟨ha, hk⟩ := hy
  obtain ⟨ha', hk'⟩ := hy'
  have hm := admissible_mid ha ((hp.1 _).1 ha')
  have l := a _ hm
  have l' := a' _ ((hp.1 _).2 hm)
  rw [hp.2, hp.2] at l' hk'
  have e := objective_mid n inp y y'
  unfold curvature
  linarith

/-- **C126** (the results): if both results respect the constraints, no correction is needed. -/
theorem C126_agree (hp : SameProblem mbs n inp inp') (h : SolvedNear ε δ bk mbs n inp x)
    (h' : SolvedNear ε' δ' bk' mbs n inp' x') (ha : Admissible mbs n inp x.get)
    (ha' : Admissible mbs n inp' x'.get) :
    curvature n inp (fun v => x.get v - x'.get v) ≤ 4 * (δ + δ') := by
  have := C126_corrected hp h h' (κ := 0) (κ' := 0) ⟨ha, by linarith⟩ ⟨ha', by linarith⟩
  linarith

/-- **C126** (one exact solver): half of that. -/
theorem C126_exact (hp : SameProblem mbs n inp inp') (h : Solved bk mbs n inp x)
    (h' : SolvedNear ε' δ' bk' mbs n inp' x') {y' : ℕ → K} (hy' : Corrects mbs n inp' κ' x'.get y') :
    curvature n inp (fun v => y' v - x.get v) ≤ 2 * (δ' + κ') := by
  obtain ⟨-, -, -, -, a'⟩ := solvedNear_spec h'
  obtain ⟨ha', hk'⟩ := hy'
  have k := solved_strong h ((hp.1 _).1 ha')
  have l' := a' _ ((hp.1 _).2 (solved_optimal h).1)
  rw [hp.2, hp.2] at l' hk'
  linarith

/-- **C126** (what a task does): for the tasks of this library (C43) the two steps agree on every row of every
task, up to `4 (δ + δ')` divided by the weight and the dimension weight, under the root. -/
theorem C126_row (hp : SameProblem mbs n inp inp') (h : SolvedNear ε δ bk mbs n inp x)
    (h' : SolvedNear ε' δ' bk' mbs n inp' x') {y y' : ℕ → K} (hy : Corrects mbs n inp κ x.get y)
    (hy' : Corrects mbs n inp' κ' x'.get y') (hconv : ∀ s ∈ inp.tasks, TaskConvex s) {t : TaskQC K}
    (ht : t ∈ inp.tasks) {w : K} {W : ℕ → K} {J : Mat K} {nA tgt : ℕ → K} {b : ℕ} (hl : IsLsq t w W J nA tgt b)
    (hw : 0 ≤ w) (hW : ∀ i < J.rows, 0 ≤ W i) {a : ℕ} (ha : a < J.rows) :
    w * W a * (rowAt J b y a - rowAt J b y' a) ^ 2 ≤ 4 * (δ + κ + (δ' + κ')) := by
  refine le_trans ?_ (C126_corrected hp h h' hy hy')
  obtain ⟨pre, post, e⟩ := List.append_of_mem ht
  unfold curvature
  rw [e]
  simp only [List.map_append, List.map_cons, List.sum_append, List.sum_cons]
  have hq : ∀ l : List (TaskQC K), (∀ s ∈ l, s ∈ inp.tasks) → 0 ≤ (l.map fun t => t.weight *
      ∑ a ∈ range t.Q.rows, ∑ b ∈ range t.Q.cols, (y (t.begin'.1 + a) - y' (t.begin'.1 + a)) * t.Q.get a b *
        (y (t.begin'.2 + b) - y' (t.begin'.2 + b))).sum := by
    intro l hl
    refine List.sum_nonneg fun z hz => ?_
    obtain ⟨s, hs, rfl⟩ := List.mem_map.1 hz
    exact quad_nonneg (hconv s (hl s hs)) fun v => y v - y' v
  have h1 := hq pre fun s hs => by rw [e]; simp [hs]
  have h2 := hq post fun s hs => by rw [e]; simp [hs]
  have h3 : 0 ≤ ∑ i ∈ (range n).filter (fun i => |accDiag (pre ++ t :: post) i| < 1 / 10000),
      1 / 10000 * (y i - y' i) ^ 2 := Finset.sum_nonneg fun i _ => by positivity
  have h4 := quad_of_lsq hl fun v => y v - y' v
  have h5 : w * W a * (rowAt J b y a - rowAt J b y' a) ^ 2
      ≤ w * ∑ i ∈ range J.rows, W i * rowAt J b (fun v => y v - y' v) i ^ 2 := by
    rw [mul_assoc]
    refine mul_le_mul_of_nonneg_left ?_ hw
    rw [← rowAt_sub]
    exact Finset.single_le_sum (f := fun i => W i * rowAt J b (fun v => y v - y' v) i ^ 2)
      (fun i hi => mul_nonneg (hW i (Finset.mem_range.1 hi)) (sq_nonneg _)) (Finset.mem_range.2 ha)
  linarith

/-- **C126** (which problems are the same): those of C121, with the objects in another order, and those of C125,
with tasks of weight zero. -/
theorem C126_same (mbs : List (MultiBody K)) (n : ℕ) :
    (∀ inp : QPInput K, SameProblem mbs n inp inp) ∧
    (∀ inp inp' : QPInput K, SameRows inp inp' → SameProblem mbs n inp inp') ∧
    ∀ (t : TaskQC K) (inp inp' : QPInput K), WithTask t 0 inp inp' → SameProblem mbs n inp inp' := by
  refine ⟨fun inp => ⟨fun _ => Iff.rfl, fun _ => rfl⟩, fun inp inp' h => ?_, fun t inp inp' h => ?_⟩
  · obtain ⟨-, -, h1, h2, -⟩ := C121_problem h mbs n
    exact ⟨h1, h2⟩
  · obtain ⟨h1, h2, -, -⟩ := C125_zero h mbs n
    exact ⟨h1, h2⟩

end

/-! ## Concrete steps -/

namespace AgreeEx

open WeightEx

/-- The joint is pulled to 1 while a row asks for `c` times its acceleration to be 0. -/
def held (c : ℚ) : QPInput ℚ :=
  { inpOf [pull 1 1] with eq := [⟨1, 1, Mat.ofRows 2 [[c, 0]], Vec.ofList [0]⟩] }

theorem held_lines (c : ℚ) (z : ℕ → ℚ) : lineVal 2 (Mat.ofRows 2 [[c, 0]]) 0 z = c * z 0 := by
  simp [lineVal, Finset.sum_range_succ, Mat.ofRows]

theorem pull_objective (z : ℕ → ℚ) :
    objective 2 (inpOf [pull 1 1]) z = z 0 ^ 2 / 2 - z 0 + z 1 ^ 2 / 20000 := by
  rw [objective_pulls _ 1 (by simp [accDiag, pull_q]) (by simp [accDiag, pull_q])]
  simp only [List.map_cons, List.map_nil, List.sum_cons, List.sum_nil, pull_obj]
  norm_num

/-- Steps with tolerances, with and without the row. -/
theorem near {ε δ : ℚ} (hε : 0 ≤ ε) (eqs : List (EqC ℚ)) (hs : ∀ c ∈ eqs, c.Sized 2) (y : ℕ → ℚ)
    (hl : ∀ c ∈ eqs, ∀ i < c.nrEq, |lineVal 2 c.A i y - c.b.get i| ≤ ε)
    (hy : ∀ z, (∀ c ∈ eqs, ∀ i < c.nrEq, lineVal 2 c.A i z = c.b.get i) →
      objective 2 (inpOf [pull 1 1]) y ≤ objective 2 (inpOf [pull 1 1]) z + δ) :
    ∃ x, SolvedNear ε δ "QLD" [robot] 2 { inpOf [pull 1 1] with eq := eqs } x ∧ ∀ v, x.get v = y v := by
  refine realiseNear hε (mbs := [robot]) (uni := []) (bi := []) (mbcs := [mbc])
    (inp := { inpOf [pull 1 1] with eq := eqs }) robot_ok ?_ ?_ (by intro c hc; simp at hc) rfl ?_
    ⟨by simp [inpOf]; exact pull_sized 1 1, hs, by simp [inpOf], by simp [inpOf], by simp [inpOf]⟩
    Nat.two_pos (by simp [inpOf]) ⟨hl, by simp [inpOf], by simp [inpOf]⟩ (z0 := y) (by simp [inpOf])
    (fun v _ => by simpa using hε) (fun z hz => hy z hz.1.1)
  · intro mb hmb j hj
    simp only [List.mem_singleton] at hmb
    subst hmb
    simp only [robot, List.mem_cons, List.not_mem_nil, or_false] at hj
    rcases hj with rfl | rfl <;> rfl
  · intro mb hmb _
    simp only [List.mem_singleton] at hmb
    subst hmb
    exact robot_tree
  · intro r mb m hr hmm
    cases r with
    | zero => simp at hr hmm; subst hr; subst hmm; exact ⟨rfl, fun _ => ⟨rfl, rfl, rfl⟩⟩
    | succ r => simp at hr

/-- The bound of `C126_agree` is reached: two solvers within 1/2 of the optimum may return 0 and 2. -/
theorem C126_sharp : ∃ x x', SolvedNear 0 (1 / 2) "QLD" [robot] 2 (inpOf [pull 1 1]) x ∧
    SolvedNear 0 (1 / 2) "QLD" [robot] 2 (inpOf [pull 1 1]) x' ∧
    curvature 2 (inpOf [pull 1 1]) (fun v => x.get v - x'.get v) = 4 * (1 / 2 + 1 / 2) := by
  have key : ∀ a : ℚ, a ^ 2 / 2 - a ≤ 0 → ∃ x, SolvedNear 0 (1 / 2) "QLD" [robot] 2 (inpOf [pull 1 1]) x ∧
      ∀ v, x.get v = if v = 0 then a else 0 := by
    intro a ha
    refine near (δ := 1 / 2) le_rfl [] (by simp) (fun v => if v = 0 then a else 0) (by simp) fun z _ => ?_
    rw [pull_objective, pull_objective]
    simp only [if_true]
    rw [if_neg (by norm_num)]
    nlinarith [sq_nonneg (z 0 - 1), sq_nonneg (z 1)]
  obtain ⟨x, hx, ex⟩ := key 0 (by norm_num)
  obtain ⟨x', hx', ex'⟩ := key 2 (by norm_num)
  refine ⟨x, x', hx, hx', ?_⟩
  unfold curvature
  simp only [ex, ex']
  rw [Finset.sum_filter]
  simp [inpOf, pull, Mat.ofRows, Finset.sum_range_succ, accDiag, TaskQC.q]
  norm_num

/-- A correction is needed in general: however small the tolerance on the rows, and with none on the optimum, two
results of the same problem may differ by 1 in the same acceleration. -/
theorem C126_rows_counterexample {ε : ℚ} (hε : 0 < ε) : ∃ inp x x', SolvedNear ε 0 "QLD" [robot] 2 inp x ∧
    SolvedNear ε 0 "QLD" [robot] 2 inp x' ∧ x.get 0 = 0 ∧ x'.get 0 = 1 := by
  have hsz : ∀ c ∈ (held ε).eq, c.Sized 2 := by
    intro c hc
    simp only [held, List.mem_singleton] at hc
    subst hc
    simp [EqC.Sized, Mat.ofRows, Vec.ofList]
  have hrow : ∀ (z : ℕ → ℚ) (P : ℚ → Prop), P (ε * z 0) →
      ∀ c ∈ (held ε).eq, ∀ i < c.nrEq, P (lineVal 2 c.A i z - c.b.get i) := by
    intro z P hP c hc i hi
    simp only [held, List.mem_singleton] at hc
    subst hc
    obtain rfl : i = 0 := by
      have : i < 1 := hi
      omega
    rw [held_lines]
    simpa [Vec.ofList] using hP
  obtain ⟨x, hx, ex⟩ := near (δ := 0) hε.le (held ε).eq hsz (fun _ => 0) (hrow _ (|·| ≤ ε) (by simpa using hε.le))
    (by
      intro z hz
      have h0 := hz _ (List.mem_singleton.2 rfl) 0 Nat.one_pos
      rw [held_lines] at h0
      have h1 : z 0 = 0 := by
        have : ε * z 0 = 0 := by simpa [Vec.ofList] using h0
        exact (mul_eq_zero.1 this).resolve_left hε.ne'
      rw [pull_objective, pull_objective, h1]
      nlinarith [sq_nonneg (z 1)])
  obtain ⟨x', hx', ex'⟩ := near (δ := 0) hε.le (held ε).eq hsz (fun v => if v = 0 then 1 else 0)
    (hrow _ (|·| ≤ ε) (by simp [abs_of_pos hε])) (by
      intro z _
      rw [pull_objective, pull_objective]
      simp only [if_true]
      rw [if_neg (by norm_num)]
      nlinarith [sq_nonneg (z 0 - 1), sq_nonneg (z 1)])
  exact ⟨_, x, x', hx, hx', ex 0, by rw [ex']; rfl⟩

end AgreeEx

end Verif
