import Verif.Props.Realise
import Mathlib.Algebra.BigOperators.Field

/-!
# C71–C73: what the weights of the tasks do, and uniqueness of the solution
-/

set_option autoImplicit false
set_option linter.unusedSectionVars false

namespace Verif

open Finset Spec

namespace Spec
variable {K : Type} [Field K] [LinearOrder K] [IsStrictOrderedRing K]

/-- What a task asks for, without its weight: `1/2 x'Qx + C'x` on its block. -/
def unweighted (t : TaskQC K) (x : ℕ → K) : K :=
  (∑ a ∈ range t.Q.rows, ∑ b ∈ range t.Q.cols, x (t.begin'.1 + a) * t.Q.get a b * x (t.begin'.2 + b)) / 2
    + ∑ a ∈ range t.Q.rows, t.C.get a * x (t.begin'.1 + a)

/-- The variables to which the solver adds a small penalty of its own: those whose diagonal entry in the sum of
the tasks is below `1e-4`. -/
def Regularised (n : ℕ) (inp : QPInput K) (i : ℕ) : Prop :=
  i < n ∧ |accDiag inp.tasks i| < 1 / 10000

/-- The same constraints. -/
def SameConstraints (a b : QPInput K) : Prop :=
  a.eq = b.eq ∧ a.inEq = b.inEq ∧ a.gen = b.gen ∧ a.bound = b.bound

end Spec

variable {K : Type} [Field K] [LinearOrder K] [IsStrictOrderedRing K]

theorem obj_eq (t : TaskQC K) (x : ℕ → K) : t.obj x = t.weight * unweighted t x := rfl

/-- The penalty on the regularised variables. -/
def penalty (n : ℕ) (inp : QPInput K) (x : ℕ → K) : K :=
  (∑ i ∈ (range n).filter (fun i => |accDiag inp.tasks i| < 1 / 10000), 1 / 10000 * x i ^ 2) / 2

theorem penalty_congr {n : ℕ} {a b : QPInput K} (h : ∀ i, Regularised n a i ↔ Regularised n b i) (x : ℕ → K) :
    penalty n a x = penalty n b x := by
  unfold penalty
  have : (range n).filter (fun i => |accDiag a.tasks i| < 1 / 10000)
      = (range n).filter (fun i => |accDiag b.tasks i| < 1 / 10000) := by
    ext i
    have := h i
    simp only [Regularised] at this
    simp only [mem_filter, mem_range]
    exact this
  rw [this]

theorem penalty_nonneg (n : ℕ) (inp : QPInput K) (x : ℕ → K) : 0 ≤ penalty n inp x :=
  div_nonneg (Finset.sum_nonneg fun i _ => mul_nonneg (by positivity) (sq_nonneg _)) (by norm_num)

theorem Spec.SameConstraints.admissible {mbs : List (MultiBody K)} {n : ℕ} {a b : QPInput K}
    (h : SameConstraints a b) {x : ℕ → K} (hx : Admissible mbs n a x) : Admissible mbs n b x := by
  obtain ⟨⟨⟨h1, h2, h3⟩, h4⟩, h5⟩ := hx
  obtain ⟨e1, e2, e3, e4⟩ := h
  exact ⟨⟨⟨e1 ▸ h1, e2 ▸ h2, e3 ▸ h3⟩, e4 ▸ h4⟩, h5⟩

theorem Spec.SameConstraints.symm {a b : QPInput K} (h : SameConstraints a b) : SameConstraints b a :=
  ⟨h.1.symm, h.2.1.symm, h.2.2.1.symm, h.2.2.2.symm⟩

/-! ## C71 -/

/-- **C71**: two control steps with the same constraints and tasks, but for the weight of one task (raised from
`w` to `w'`): the objective of that task, without its weight, is not larger at the solution with the larger
weight, and the sum of the others (with their weights and the solver's own penalty) is not smaller.  Partial:
provided the solver penalises the same variables of its own in both steps; false otherwise, see
`WeightEx.C71_counterexample`. -/
theorem C71_raise_weight_partial {b b' : String} {mbs : List (MultiBody K)} {n : ℕ} {inp inp' : QPInput K} {x x' : Vec K}
    (h : Solved b mbs n inp x) (h' : Solved b' mbs n inp' x') (hc : SameConstraints inp inp')
    {pre post : List (TaskQC K)} {t : TaskQC K} {w' : K} (ht : inp.tasks = pre ++ t :: post)
    (ht' : inp'.tasks = pre ++ { t with weight := w' } :: post) (hw : t.weight < w')
    (hreg : ∀ i, Regularised n inp i ↔ Regularised n inp' i) :
    unweighted t x'.get ≤ unweighted t x.get ∧
    (t.weight ≤ 0 ∨
      ((pre ++ post).map fun t => t.obj x.get).sum + penalty n inp x.get
        ≤ ((pre ++ post).map fun t => t.obj x'.get).sum + penalty n inp x'.get) := by
  obtain ⟨a1, -, a2⟩ := solved_optimal h
  obtain ⟨b1, -, b2⟩ := solved_optimal h'
  have k1 := a2 _ (hc.symm.admissible b1)
  have k2 := b2 _ (hc.admissible a1)
  have e1 : ∀ z, objective n inp z
      = ((pre ++ post).map fun t => t.obj z).sum + penalty n inp z + t.weight * unweighted t z := by
    intro z
    unfold objective
    rw [ht]
    simp only [List.map_append, List.map_cons, List.sum_append, List.sum_cons, obj_eq, penalty, ht]
    ring
  have e2 : ∀ z, objective n inp' z
      = ((pre ++ post).map fun t => t.obj z).sum + penalty n inp z + w' * unweighted t z := by
    intro z
    rw [penalty_congr hreg]
    unfold objective
    rw [ht']
    simp only [List.map_append, List.map_cons, List.sum_append, List.sum_cons, obj_eq, penalty, ht']
    have : unweighted { t with weight := w' } z = unweighted t z := rfl
    rw [this]
    ring
  rw [e1, e1] at k1
  rw [e2, e2] at k2
  have hu : unweighted t x'.get ≤ unweighted t x.get := by
    by_contra hn
    push Not at hn
    nlinarith
  refine ⟨hu, ?_⟩
  by_cases hz : t.weight ≤ 0
  · exact .inl hz
  · push Not at hz
    right
    nlinarith

/-- **C71** (only ratios matter): multiplying all weights by the same positive number does not change which
points are solutions, provided no variable is penalised by the solver itself in either step. -/
theorem C71_scale_weights_partial {b b' : String} {mbs : List (MultiBody K)} {n : ℕ} {inp inp' : QPInput K} {x x' : Vec K}
    (h : Solved b mbs n inp x) (h' : Solved b' mbs n inp' x') (hc : SameConstraints inp inp') {c : K} (hpos : 0 < c)
    (ht : inp'.tasks = inp.tasks.map fun t => { t with weight := c * t.weight })
    (hreg : ∀ i, ¬ Regularised n inp i) (hreg' : ∀ i, ¬ Regularised n inp' i) :
    objective n inp x'.get = objective n inp x.get := by
  obtain ⟨a1, -, a2⟩ := solved_optimal h
  obtain ⟨b1, -, b2⟩ := solved_optimal h'
  have k1 := a2 _ (hc.symm.admissible b1)
  have k2 := b2 _ (hc.admissible a1)
  have z1 : ∀ (p : QPInput K) z, (∀ i, ¬ Regularised n p i) → penalty n p z = 0 := by
    intro p z hp
    unfold penalty
    rw [Finset.sum_eq_zero, zero_div]
    intro i hi
    simp only [mem_filter, mem_range] at hi
    exact absurd hi (hp i)
  have e : ∀ z, objective n inp' z = c * objective n inp z := by
    intro z
    have p1 := z1 inp z hreg
    have p2 := z1 inp' z hreg'
    unfold penalty at p1 p2
    unfold objective
    rw [p1, p2, ht, List.map_map, add_zero, add_zero, ← List.sum_map_mul_left]
    congr 1
    refine List.map_congr_left fun t _ => ?_
    simp only [Function.comp, TaskQC.obj]
    ring
  rw [e, e] at k2
  exact le_antisymm (le_of_mul_le_mul_left k2 hpos) k1

/-! ## C72 -/

/-- **C72**: if some admissible point minimises every task at once, every task is at its minimum at the
solution, whatever the weights.  Partial: the point must vanish on the variables that the solver penalises
itself; false otherwise, see `WeightEx.C72_counterexample`. -/
theorem C72_compatible_partial {b : String} {mbs : List (MultiBody K)} {n : ℕ} {inp : QPInput K} {x : Vec K}
    (h : Solved b mbs n inp x) {x0 : ℕ → K} (h0 : Admissible mbs n inp x0)
    (hmin : ∀ t ∈ inp.tasks, ∀ z, t.obj x0 ≤ t.obj z) (hreg : ∀ i, Regularised n inp i → x0 i = 0) :
    (∀ t ∈ inp.tasks, t.obj x.get = t.obj x0) ∧ (∀ t ∈ inp.tasks, ∀ z, t.obj x.get ≤ t.obj z) ∧
    ∀ i, Regularised n inp i → x.get i = 0 := by
  obtain ⟨a1, -, a2⟩ := solved_optimal h
  have k := a2 _ h0
  have p0 : penalty n inp x0 = 0 := by
    unfold penalty
    rw [Finset.sum_eq_zero, zero_div]
    intro i hi
    simp only [mem_filter, mem_range] at hi
    rw [hreg i hi]
    ring
  have pn := penalty_nonneg n inp x.get
  have k' : (inp.tasks.map fun t => t.obj x.get).sum + penalty n inp x.get
      ≤ (inp.tasks.map fun t => t.obj x0).sum := by
    have : objective n inp x.get ≤ objective n inp x0 := k
    unfold objective at this
    unfold penalty at p0 ⊢
    rw [p0] at this
    linarith
  have hle : ∀ l : List (TaskQC K), (∀ t ∈ l, t.obj x0 ≤ t.obj x.get) →
      (l.map fun t => t.obj x0).sum ≤ (l.map fun t => t.obj x.get).sum ∧
      ((l.map fun t => t.obj x.get).sum ≤ (l.map fun t => t.obj x0).sum →
        ∀ t ∈ l, t.obj x.get = t.obj x0) := by
    intro l
    induction l with
    | nil => intro _; exact ⟨le_rfl, fun _ t ht => by simp at ht⟩
    | cons a l ih =>
      intro hl
      obtain ⟨i1, i2⟩ := ih fun t ht => hl t (List.mem_cons_of_mem _ ht)
      have ha := hl a List.mem_cons_self
      simp only [List.map_cons, List.sum_cons]
      refine ⟨add_le_add ha i1, fun hs t ht => ?_⟩
      rcases List.mem_cons.1 ht with rfl | ht
      · linarith
      · exact i2 (by linarith) t ht
  obtain ⟨l1, l2⟩ := hle inp.tasks fun t ht => hmin t ht _
  have heq := l2 (by linarith)
  refine ⟨heq, fun t ht z => (heq t ht).trans_le (hmin t ht z), fun i hi => ?_⟩
  have hp : penalty n inp x.get = 0 := le_antisymm (by linarith) pn
  unfold penalty at hp
  have hs : ∑ i ∈ (range n).filter (fun i => |accDiag inp.tasks i| < 1 / 10000), 1 / 10000 * x.get i ^ 2 = 0 := by
    linarith
  have := (Finset.sum_eq_zero_iff_of_nonneg fun i _ => mul_nonneg (by positivity) (sq_nonneg _)).1 hs i
    (by simp only [mem_filter, mem_range]; exact hi)
  have h2 : x.get i ^ 2 = 0 := by
    have hne : (1 : K) / 10000 ≠ 0 := by positivity
    exact (mul_eq_zero.1 this).resolve_left hne
  exact pow_eq_zero_iff two_ne_zero |>.1 h2

/-! ## C73 -/

namespace Spec

/-- The Hessian handed to the backend is positive definite: the tasks and the solver's own penalty leave no
direction free. -/
def Definite (n : ℕ) (inp : QPInput K) : Prop :=
  ∀ d : ℕ → K, (∃ v < n, d v ≠ 0) →
    0 < (inp.tasks.map fun t => t.weight * ∑ a ∈ range t.Q.rows, ∑ b ∈ range t.Q.cols,
        d (t.begin'.1 + a) * t.Q.get a b * d (t.begin'.2 + b)).sum
      + ∑ i ∈ (range n).filter (fun i => |accDiag inp.tasks i| < 1 / 10000), 1 / 10000 * d i ^ 2

end Spec

/-- A task between two points: the parallelogram identity. -/
theorem obj_mid (t : TaskQC K) (x y : ℕ → K) :
    t.obj x + t.obj y = 2 * t.obj (fun v => (x v + y v) / 2)
      + (t.weight * ∑ a ∈ range t.Q.rows, ∑ b ∈ range t.Q.cols,
          (x (t.begin'.1 + a) - y (t.begin'.1 + a)) * t.Q.get a b * (x (t.begin'.2 + b) - y (t.begin'.2 + b))) / 4 := by
  have e : ∑ a ∈ range t.Q.rows, ∑ b ∈ range t.Q.cols, x (t.begin'.1 + a) * t.Q.get a b * x (t.begin'.2 + b)
      + ∑ a ∈ range t.Q.rows, ∑ b ∈ range t.Q.cols, y (t.begin'.1 + a) * t.Q.get a b * y (t.begin'.2 + b)
      = 2 * ∑ a ∈ range t.Q.rows, ∑ b ∈ range t.Q.cols,
          (x (t.begin'.1 + a) + y (t.begin'.1 + a)) / 2 * t.Q.get a b * ((x (t.begin'.2 + b) + y (t.begin'.2 + b)) / 2)
        + (∑ a ∈ range t.Q.rows, ∑ b ∈ range t.Q.cols,
          (x (t.begin'.1 + a) - y (t.begin'.1 + a)) * t.Q.get a b * (x (t.begin'.2 + b) - y (t.begin'.2 + b))) / 2 := by
    simp only [Finset.mul_sum, Finset.sum_div, ← Finset.sum_add_distrib]
    refine Finset.sum_congr rfl fun a _ => Finset.sum_congr rfl fun b _ => ?_
    ring
  have l : ∑ a ∈ range t.Q.rows, t.C.get a * x (t.begin'.1 + a) + ∑ a ∈ range t.Q.rows, t.C.get a * y (t.begin'.1 + a)
      = 2 * ∑ a ∈ range t.Q.rows, t.C.get a * ((x (t.begin'.1 + a) + y (t.begin'.1 + a)) / 2) := by
    simp only [Finset.mul_sum, ← Finset.sum_add_distrib]
    refine Finset.sum_congr rfl fun a _ => ?_
    ring
  unfold TaskQC.obj
  linear_combination t.weight / 2 * e + t.weight * l

theorem objective_mid (n : ℕ) (inp : QPInput K) (x y : ℕ → K) :
    objective n inp x + objective n inp y = 2 * objective n inp (fun v => (x v + y v) / 2)
      + ((inp.tasks.map fun t => t.weight * ∑ a ∈ range t.Q.rows, ∑ b ∈ range t.Q.cols,
          (x (t.begin'.1 + a) - y (t.begin'.1 + a)) * t.Q.get a b * (x (t.begin'.2 + b) - y (t.begin'.2 + b))).sum
        + ∑ i ∈ (range n).filter (fun i => |accDiag inp.tasks i| < 1 / 10000), 1 / 10000 * (x i - y i) ^ 2) / 4 := by
  have ht : ∀ l : List (TaskQC K), (l.map fun t => t.obj x).sum + (l.map fun t => t.obj y).sum
      = 2 * (l.map fun t => t.obj (fun v => (x v + y v) / 2)).sum
        + (l.map fun t => t.weight * ∑ a ∈ range t.Q.rows, ∑ b ∈ range t.Q.cols,
          (x (t.begin'.1 + a) - y (t.begin'.1 + a)) * t.Q.get a b * (x (t.begin'.2 + b) - y (t.begin'.2 + b))).sum / 4 := by
    intro l
    induction l with
    | nil => simp
    | cons a l ih =>
      simp only [List.map_cons, List.sum_cons]
      linear_combination ih + obj_mid a x y
  have hp : ∀ S : Finset ℕ, ∑ i ∈ S, 1 / 10000 * x i ^ 2 + ∑ i ∈ S, 1 / 10000 * y i ^ 2
      = 2 * ∑ i ∈ S, 1 / 10000 * ((x i + y i) / 2) ^ 2 + (∑ i ∈ S, 1 / 10000 * (x i - y i) ^ 2) / 2 := by
    intro S
    simp only [Finset.mul_sum, Finset.sum_div, ← Finset.sum_add_distrib]
    refine Finset.sum_congr rfl fun i _ => ?_
    ring
  unfold objective
  linear_combination ht inp.tasks + 1 / 2 * hp ((range n).filter (fun i => |accDiag inp.tasks i| < 1 / 10000))

/-- Bounds are intervals. -/
theorem lowerOK_mid {e : Ext K} {a b : K} (ha : e.LowerOK a) (hb : e.LowerOK b) : e.LowerOK ((a + b) / 2) := by
  cases e with
  | negInf => trivial
  | posInf => exact ha
  | fin c =>
    simp only [Ext.LowerOK] at *
    linarith

theorem upperOK_mid {e : Ext K} {a b : K} (ha : e.UpperOK a) (hb : e.UpperOK b) : e.UpperOK ((a + b) / 2) := by
  cases e with
  | negInf => exact ha
  | posInf => trivial
  | fin c =>
    simp only [Ext.UpperOK] at *
    linarith

theorem lineVal_mid (n : ℕ) (A : Mat K) (i : ℕ) (x y : ℕ → K) :
    lineVal n A i (fun v => (x v + y v) / 2) = (lineVal n A i x + lineVal n A i y) / 2 := by
  unfold lineVal
  rw [← Finset.sum_add_distrib, Finset.sum_div]
  exact Finset.sum_congr rfl fun j _ => by ring

/-- The admissible set is convex. -/
theorem admissible_mid {mbs : List (MultiBody K)} {n : ℕ} {inp : QPInput K} {x y : ℕ → K}
    (hx : Admissible mbs n inp x) (hy : Admissible mbs n inp y) :
    Admissible mbs n inp (fun v => (x v + y v) / 2) := by
  obtain ⟨⟨⟨x1, x2, x3⟩, x4⟩, x5⟩ := hx
  obtain ⟨⟨⟨y1, y2, y3⟩, y4⟩, y5⟩ := hy
  refine ⟨⟨⟨fun c hc i hi => ?_, fun c hc i hi => ?_, fun c hc i hi => ?_⟩, fun c hc => ?_⟩, ?_⟩
  · rw [lineVal_mid, x1 c hc i hi, y1 c hc i hi]; ring
  · rw [lineVal_mid]; exact upperOK_mid (x2 c hc i hi) (y2 c hc i hi)
  · rw [lineVal_mid]
    exact ⟨lowerOK_mid (x3 c hc i hi).1 (y3 c hc i hi).1, upperOK_mid (x3 c hc i hi).2 (y3 c hc i hi).2⟩
  · exact ⟨fun i hi => lowerOK_mid ((x4 c hc).1 i hi) ((y4 c hc).1 i hi),
      fun i hi => upperOK_mid ((x4 c hc).2 i hi) ((y4 c hc).2 i hi)⟩
  · intro r mb hr i k j j' hi hk m hm
    have a := x5 r mb hr i k j j' hi hk m hm
    have b := y5 r mb hr i k j j' hi hk m hm
    dsimp only
    rw [a, b]
    ring

/-- **C73**: two successful steps on the same problem, with whatever backends, histories and numerical solvers
(meeting their contract): the objectives reached are equal; and if the Hessian is positive definite the
results are equal.  Partial: C73 claims equality always; false for semidefinite Hessians, see
`WeightEx.C73_counterexample`. -/
theorem C73_unique_partial {b b' : String} {mbs : List (MultiBody K)} {n : ℕ} {inp : QPInput K} {x x' : Vec K}
    (h : Solved b mbs n inp x) (h' : Solved b' mbs n inp x') :
    objective n inp x.get = objective n inp x'.get ∧
    (Definite n inp → ∀ v < n, x.get v = x'.get v) := by
  obtain ⟨a1, -, a2⟩ := solved_optimal h
  obtain ⟨b1, -, b2⟩ := solved_optimal h'
  have he := le_antisymm (a2 _ b1) (b2 _ a1)
  refine ⟨he, fun hdef v hv => ?_⟩
  by_contra hne
  have hpos := hdef (fun v => x.get v - x'.get v) ⟨v, hv, sub_ne_zero.2 hne⟩
  have hm := a2 _ (admissible_mid a1 b1)
  have := objective_mid n inp x.get x'.get
  linarith

/-! ## Concrete steps and counterexamples -/

namespace WeightEx

/-- Two prismatic joints. -/
def robot : MultiBody ℚ := ⟨[⟨"a", 1, none⟩, ⟨"b", 1, none⟩], 2, [-1, 0], [0, 1]⟩

def mbc : Mbc ℚ Unit := ⟨[[0], [0]], [PT.one, PT.one], [0, 0], [0, 0], ()⟩

/-- Given tasks, no constraint. -/
def inpOf (ts : List (TaskQC ℚ)) : QPInput ℚ := ⟨ts, [], [], [], []⟩

theorem robot_ok : ∀ mb ∈ [robot], MimicOK mb := by
  intro mb hmb
  simp only [List.mem_singleton] at hmb
  subst hmb
  refine ⟨by simp [robot], ?_⟩
  intro j hj l m h
  simp only [robot, List.mem_cons, List.not_mem_nil, or_false] at hj
  rcases hj with rfl | rfl <;> simp at h

theorem robot_tree : Tree robot := by
  refine ⟨rfl, rfl, rfl, ?_⟩
  intro i p h
  match i with
  | 0 => simp [robot] at h; exact Or.inl h.symm
  | 1 => simp [robot] at h; exact Or.inr ⟨0, by omega, h.symm⟩
  | n + 2 => simp [robot] at h

/-- Any tasks on the robot and any minimiser of their sum: there is a successful step with that result. -/
theorem solves (ts : List (TaskQC ℚ)) (hs : ∀ t ∈ ts, t.Sized 2) (y : ℕ → ℚ)
    (hy : ∀ z, objective 2 (inpOf ts) y ≤ objective 2 (inpOf ts) z) :
    ∃ x, Solved "QLD" [robot] 2 (inpOf ts) x ∧ ∀ v, x.get v = y v := by
  refine realise (mbs := [robot]) (uni := []) (bi := []) (mbcs := [mbc]) (inp := inpOf ts) robot_ok ?_ ?_
    (by intro c hc; simp at hc) rfl ?_ ⟨hs, by simp [inpOf], by simp [inpOf], by simp [inpOf], by simp [inpOf]⟩
    Nat.two_pos (by simp [inpOf]) ⟨⟨by simp [inpOf], by simp [inpOf], by simp [inpOf]⟩, by simp [inpOf]⟩ (fun z _ => hy z)
  · intro mb hmb j hj
    simp only [List.mem_singleton] at hmb
    subst hmb
    simp only [robot, List.mem_cons, List.not_mem_nil, or_false] at hj
    rcases hj with rfl | rfl <;> rfl
  · intro mb hmb _
    simp only [List.mem_singleton] at hmb
    subst hmb
    exact robot_tree
  · intro r mb m hr hmm
    cases r with
    | zero => simp at hr hmm; subst hr; subst hmm; exact ⟨rfl, fun _ => ⟨rfl, rfl, rfl⟩⟩
    | succ r => simp at hr

/-- The task `(x₀ - c)² / 2` (up to a constant) with weight `w`. -/
def pull (c w : ℚ) : TaskQC ℚ := ⟨Mat.ofRows 1 [[1]], Vec.ofList [-c], (0, 0), w⟩

theorem pull_sized (c w : ℚ) : (pull c w).Sized 2 := by
  simp [TaskQC.Sized, pull, Mat.ofRows, Vec.ofList]

theorem pull_obj (c w : ℚ) (x : ℕ → ℚ) : (pull c w).obj x = w * (x 0 ^ 2 / 2 - c * x 0) := by
  simp only [TaskQC.obj, pull, Mat.ofRows, Vec.ofList, List.length_cons, List.length_nil, Finset.sum_range_succ,
    Finset.sum_range_zero, List.getD_cons_zero]
  simp
  ring_nf
  simp

theorem pull_unweighted (c w : ℚ) (x : ℕ → ℚ) : unweighted (pull c w) x = x 0 ^ 2 / 2 - c * x 0 := by
  simp [unweighted, pull, Mat.ofRows, Vec.ofList]
  ring

theorem pull_q (c w : ℚ) (i : ℕ) : (pull c w).q i i = if i = 0 then w else 0 := by
  cases i with
  | zero => simp [TaskQC.q, pull, Mat.ofRows]
  | succ i => simp [TaskQC.q, pull, Mat.ofRows]

/-- The objective of pulls: the penalty is on joint 1, and on joint 0 if the weights are small. -/
theorem objective_pulls (ts : List (TaskQC ℚ)) (w : ℚ) (h0 : accDiag ts 0 = w) (h1 : accDiag ts 1 = 0) (x : ℕ → ℚ) :
    objective 2 (inpOf ts) x = (ts.map fun t => t.obj x).sum
      + (if |w| < 1 / 10000 then x 0 ^ 2 / 20000 else 0) + x 1 ^ 2 / 20000 := by
  unfold objective
  rw [Finset.sum_filter]
  simp only [Finset.sum_range_succ, Finset.sum_range_zero, inpOf, h0, h1]
  rw [if_pos (show |(0 : ℚ)| < 1 / 10000 by norm_num)]
  split_ifs <;> ring

/-- **C71 is false of the code**: the weight of a task is raised from `4e-5` to `5e-5`, nothing else changes, and
the task gets worse: the solver stops adding its own penalty on the joint. -/
theorem C71_counterexample : ∃ x x', Solved "QLD" [robot] 2 (inpOf [pull 0 (4 / 100000), pull 1 (5 / 100000)]) x ∧
    Solved "QLD" [robot] 2 (inpOf [pull 0 (5 / 100000), pull 1 (5 / 100000)]) x' ∧
    unweighted (pull 0 (4 / 100000)) x.get < unweighted (pull 0 (4 / 100000)) x'.get := by
  obtain ⟨x, hx, ex⟩ := solves [pull 0 (4 / 100000), pull 1 (5 / 100000)] (by simp [pull_sized])
    (fun i => if i = 0 then 5 / 19 else 0) (by
      intro z
      have hw : |(9 / 100000 : ℚ)| < 1 / 10000 := by norm_num [abs_lt]
      rw [objective_pulls _ (9 / 100000) (by simp [accDiag, pull_q]; norm_num) (by simp [accDiag, pull_q]),
        objective_pulls _ (9 / 100000) (by simp [accDiag, pull_q]; norm_num) (by simp [accDiag, pull_q])]
      simp only [if_pos hw]
      simp only [List.map_cons, List.map_nil, List.sum_cons, List.sum_nil, pull_obj, if_true]
      rw [if_neg (by norm_num)]
      nlinarith [sq_nonneg (z 0 - 5 / 19), sq_nonneg (z 1)])
  obtain ⟨x', hx', ex'⟩ := solves [pull 0 (5 / 100000), pull 1 (5 / 100000)] (by simp [pull_sized])
    (fun i => if i = 0 then 1 / 2 else 0) (by
      intro z
      rw [objective_pulls _ (1 / 10000) (by simp [accDiag, pull_q]; norm_num) (by simp [accDiag, pull_q]),
        objective_pulls _ (1 / 10000) (by simp [accDiag, pull_q]; norm_num) (by simp [accDiag, pull_q])]
      rw [if_neg (by norm_num [abs_lt]), if_neg (by norm_num [abs_lt])]
      simp only [List.map_cons, List.map_nil, List.sum_cons, List.sum_nil, pull_obj, if_true]
      rw [if_neg (by norm_num)]
      nlinarith [sq_nonneg (z 0 - 1 / 2), sq_nonneg (z 1)])
  refine ⟨x, x', hx, hx', ?_⟩
  rw [pull_unweighted, pull_unweighted, ex, ex']
  norm_num

/-- **C72 is false of the code**: a single task of weight `5e-5` asks for acceleration 1; nothing opposes it, and
the solution is 1/3. -/
theorem C72_counterexample : ∃ x, Solved "QLD" [robot] 2 (inpOf [pull 1 (5 / 100000)]) x ∧
    (∀ z, (pull 1 (5 / 100000)).obj (fun _ => 1) ≤ (pull 1 (5 / 100000)).obj z) ∧
    Admissible [robot] 2 (inpOf [pull 1 (5 / 100000)]) (fun _ => 1) ∧
    (pull 1 (5 / 100000)).obj (fun _ => 1) < (pull 1 (5 / 100000)).obj x.get := by
  obtain ⟨x, hx, ex⟩ := solves [pull 1 (5 / 100000)] (by simp [pull_sized])
    (fun i => if i = 0 then 1 / 3 else 0) (by
      intro z
      have hw : |(5 / 100000 : ℚ)| < 1 / 10000 := by norm_num [abs_lt]
      rw [objective_pulls _ (5 / 100000) (by simp [accDiag, pull_q]) (by simp [accDiag, pull_q]),
        objective_pulls _ (5 / 100000) (by simp [accDiag, pull_q]) (by simp [accDiag, pull_q])]
      simp only [if_pos hw]
      simp only [List.map_cons, List.map_nil, List.sum_cons, List.sum_nil, pull_obj, if_true]
      rw [if_neg (by norm_num)]
      nlinarith [sq_nonneg (z 0 - 1 / 3), sq_nonneg (z 1)])
  refine ⟨x, hx, fun z => ?_, ⟨⟨⟨by simp [inpOf], by simp [inpOf], by simp [inpOf]⟩, by simp [inpOf]⟩, ?_⟩, ?_⟩
  · rw [pull_obj, pull_obj]
    nlinarith [sq_nonneg (z 0 - 1)]
  · intro r mb hr i k j j' hi hk m hm
    have : mb = robot := by
      have := List.mem_of_getElem? hr
      simpa using this
    subst this
    have := List.mem_of_getElem? hi
    simp only [robot, List.mem_cons, List.not_mem_nil, or_false] at this
    rcases this with rfl | rfl <;> simp at hm
  · rw [pull_obj, pull_obj, ex]
    norm_num

/-- The task `(x₀ + x₁ - 2)² / 2`. -/
def both : TaskQC ℚ := ⟨Mat.ofRows 2 [[1, 1], [1, 1]], Vec.ofList [-2, -2], (0, 0), 1⟩

theorem both_objective (x : ℕ → ℚ) : objective 2 (inpOf [both]) x = (x 0 + x 1) ^ 2 / 2 - 2 * (x 0 + x 1) := by
  have h : ∀ i < 2, accDiag [both] i = 1 := by
    intro i hi
    interval_cases i <;> simp [accDiag, both, TaskQC.q, Mat.ofRows]
  unfold objective
  rw [Finset.sum_filter]
  simp only [Finset.sum_range_succ, Finset.sum_range_zero, inpOf, h 0 (by norm_num), h 1 (by norm_num)]
  rw [if_neg (by norm_num), if_neg (by norm_num)]
  simp [TaskQC.obj, both, Mat.ofRows, Vec.ofList, Finset.sum_range_succ]
  ring

/-- **C73 is false of the code**: one task on the sum of two accelerations; a solver may return (2, 0) and another
one (0, 2).  The penalty added on the diagonal does not choose between them. -/
theorem C73_counterexample : ∃ x x', Solved "QLD" [robot] 2 (inpOf [both]) x ∧ Solved "QLD" [robot] 2 (inpOf [both]) x' ∧
    x.get 0 ≠ x'.get 0 := by
  have hs : ∀ t ∈ [both], t.Sized 2 := by simp [TaskQC.Sized, both, Mat.ofRows, Vec.ofList]
  obtain ⟨x, hx, ex⟩ := solves [both] hs (fun i => if i = 0 then 2 else 0) (by
    intro z
    rw [both_objective, both_objective]
    norm_num
    nlinarith [sq_nonneg (z 0 + z 1 - 2)])
  obtain ⟨x', hx', ex'⟩ := solves [both] hs (fun i => if i = 0 then 0 else 2) (by
    intro z
    rw [both_objective, both_objective]
    norm_num
    nlinarith [sq_nonneg (z 0 + z 1 - 2)])
  refine ⟨x, x', hx, hx', ?_⟩
  rw [ex, ex']
  norm_num

/-- `C71_raise_weight_partial`, `C72_compatible_partial` and `C73_unique_partial` apply to usual weights: the
weight of one of two opposed tasks goes from 1 to 3. -/
example : ∃ x x', Solved "QLD" [robot] 2 (inpOf [pull 0 1, pull 1 1]) x ∧
    Solved "QLD" [robot] 2 (inpOf [pull 0 3, pull 1 1]) x' ∧
    (∀ i, Regularised 2 (inpOf [pull 0 1, pull 1 1]) i ↔ Regularised 2 (inpOf [pull 0 3, pull 1 1]) i) ∧
    x.get 0 = 1 / 2 ∧ x'.get 0 = 1 / 4 := by
  obtain ⟨x, hx, ex⟩ := solves [pull 0 1, pull 1 1] (by simp [pull_sized])
    (fun i => if i = 0 then 1 / 2 else 0) (by
      intro z
      rw [objective_pulls _ 2 (by simp [accDiag, pull_q]; norm_num) (by simp [accDiag, pull_q]),
        objective_pulls _ 2 (by simp [accDiag, pull_q]; norm_num) (by simp [accDiag, pull_q])]
      rw [if_neg (by norm_num [abs_lt]), if_neg (by norm_num [abs_lt])]
      simp only [List.map_cons, List.map_nil, List.sum_cons, List.sum_nil, pull_obj, if_true]
      rw [if_neg (by norm_num)]
      nlinarith [sq_nonneg (z 0 - 1 / 2), sq_nonneg (z 1)])
  obtain ⟨x', hx', ex'⟩ := solves [pull 0 3, pull 1 1] (by simp [pull_sized])
    (fun i => if i = 0 then 1 / 4 else 0) (by
      intro z
      rw [objective_pulls _ 4 (by simp [accDiag, pull_q]; norm_num) (by simp [accDiag, pull_q]),
        objective_pulls _ 4 (by simp [accDiag, pull_q]; norm_num) (by simp [accDiag, pull_q])]
      rw [if_neg (by norm_num [abs_lt]), if_neg (by norm_num [abs_lt])]
      simp only [List.map_cons, List.map_nil, List.sum_cons, List.sum_nil, pull_obj, if_true]
      rw [if_neg (by norm_num)]
      nlinarith [sq_nonneg (z 0 - 1 / 4), sq_nonneg (z 1)])
  refine ⟨x, x', hx, hx', fun i => ?_, by rw [ex]; rfl, by rw [ex']; rfl⟩
  unfold Regularised inpOf
  match i with
  | 0 => simp [accDiag, pull_q]; norm_num
  | k + 1 => simp [accDiag, pull_q]

/-- A definite problem, and a point that minimises every task. -/
example : Definite 2 (inpOf [pull 1 1]) := by
  intro d hd
  have h0 : accDiag [pull 1 1] 0 = 1 := by simp [accDiag, pull_q]
  have h1 : accDiag [pull 1 1] 1 = 0 := by simp [accDiag, pull_q]
  rw [Finset.sum_filter]
  simp only [Finset.sum_range_succ, Finset.sum_range_zero, inpOf, h0, h1]
  rw [if_neg (by norm_num), if_pos (by norm_num)]
  simp [pull, Mat.ofRows]
  obtain ⟨v, hv, hne⟩ := hd
  have : v = 0 ∨ v = 1 := by omega
  rcases this with rfl | rfl
  · nlinarith [sq_nonneg (d 1), mul_self_pos.2 hne]
  · nlinarith [sq_nonneg (d 0), mul_self_pos.2 hne]

end WeightEx

end Verif
