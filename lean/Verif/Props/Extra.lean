import Verif.Props.Order

/-!
# C122: what an additional constraint does to the result
-/

set_option autoImplicit false
set_option linter.unusedSectionVars false

namespace Verif

open Finset Spec

namespace Spec
variable {K : Type} [Field K] [LinearOrder K] [IsStrictOrderedRing K]

/-- `inp'` has the tasks and all constraints of `inp`, and perhaps more constraints. -/
structure Extends (inp inp' : QPInput K) : Prop where
  tasks : inp'.tasks = inp.tasks
  eq : inp.eq ⊆ inp'.eq
  inEq : inp.inEq ⊆ inp'.inEq
  gen : inp.gen ⊆ inp'.gen
  bound : inp.bound ⊆ inp'.bound

/-- `x` stays away from an upper bound. -/
def UpperSlack : Ext K → K → Prop
  | .negInf, _ => False
  | .fin u, x => x < u
  | .posInf, _ => True

/-- `x` stays away from a lower bound. -/
def LowerSlack : Ext K → K → Prop
  | .negInf, _ => True
  | .fin l, x => l < x
  | .posInf, _ => False

/-- The additional constraints are inequalities and bounds, and `x` does not touch any of them. -/
structure Untouched (n : ℕ) (inp inp' : QPInput K) (x : ℕ → K) : Prop where
  eq : inp'.eq ⊆ inp.eq
  inEq : ∀ c ∈ inp'.inEq, c ∈ inp.inEq ∨ ∀ i < c.nrInEq, UpperSlack (c.b.get i) (lineVal n c.A i x)
  gen : ∀ c ∈ inp'.gen, c ∈ inp.gen ∨ ∀ i < c.nrGen,
    LowerSlack (c.L.get i) (lineVal n c.A i x) ∧ UpperSlack (c.U.get i) (lineVal n c.A i x)
  bound : ∀ c ∈ inp'.bound, c ∈ inp.bound ∨
    ((∀ i < c.lower.size, LowerSlack (c.lower.get i) (x (c.beginVar + i))) ∧
      ∀ i < c.upper.size, UpperSlack (c.upper.get i) (x (c.beginVar + i)))

/-- What the Hessian handed to the backend makes of a direction. -/
def curvature (n : ℕ) (inp : QPInput K) (d : ℕ → K) : K :=
  (inp.tasks.map fun t => t.weight * ∑ a ∈ range t.Q.rows, ∑ b ∈ range t.Q.cols,
      d (t.begin'.1 + a) * t.Q.get a b * d (t.begin'.2 + b)).sum
    + ∑ i ∈ (range n).filter (fun i => |accDiag inp.tasks i| < 1 / 10000), 1 / 10000 * d i ^ 2

/-- The objective is convex. -/
def Curved (n : ℕ) (inp : QPInput K) : Prop := ∀ d : ℕ → K, 0 ≤ curvature n inp d

/-- The point at `s` on the way from `x` to `y`. -/
def onWay (s : K) (x y : ℕ → K) : ℕ → K := fun v => x v + s * (y v - x v)

/-- For all small positive numbers. -/
def Soon (P : K → Prop) : Prop := ∃ s₀ > 0, ∀ s, 0 < s → s ≤ s₀ → P s

end Spec

variable {K : Type} [Field K] [LinearOrder K] [IsStrictOrderedRing K]

/-! ## Convexity -/

theorem obj_onWay (t : TaskQC K) (s : K) (x y : ℕ → K) :
    t.obj (onWay s x y) = (1 - s) * t.obj x + s * t.obj y
      - s * (1 - s) / 2 * (t.weight * ∑ a ∈ range t.Q.rows, ∑ b ∈ range t.Q.cols,
          (y (t.begin'.1 + a) - x (t.begin'.1 + a)) * t.Q.get a b * (y (t.begin'.2 + b) - x (t.begin'.2 + b))) := by
  have e : ∑ a ∈ range t.Q.rows, ∑ b ∈ range t.Q.cols,
        onWay s x y (t.begin'.1 + a) * t.Q.get a b * onWay s x y (t.begin'.2 + b)
      = (1 - s) * ∑ a ∈ range t.Q.rows, ∑ b ∈ range t.Q.cols, x (t.begin'.1 + a) * t.Q.get a b * x (t.begin'.2 + b)
        + s * ∑ a ∈ range t.Q.rows, ∑ b ∈ range t.Q.cols, y (t.begin'.1 + a) * t.Q.get a b * y (t.begin'.2 + b)
        - s * (1 - s) * ∑ a ∈ range t.Q.rows, ∑ b ∈ range t.Q.cols,
          (y (t.begin'.1 + a) - x (t.begin'.1 + a)) * t.Q.get a b * (y (t.begin'.2 + b) - x (t.begin'.2 + b)) := by
    simp only [onWay, Finset.mul_sum, ← Finset.sum_add_distrib, ← Finset.sum_sub_distrib]
    refine Finset.sum_congr rfl fun a _ => Finset.sum_congr rfl fun b _ => ?_
    ring
  have l : ∑ a ∈ range t.Q.rows, t.C.get a * onWay s x y (t.begin'.1 + a)
      = (1 - s) * ∑ a ∈ range t.Q.rows, t.C.get a * x (t.begin'.1 + a)
        + s * ∑ a ∈ range t.Q.rows, t.C.get a * y (t.begin'.1 + a) := by
    simp only [onWay, Finset.mul_sum, ← Finset.sum_add_distrib]
    refine Finset.sum_congr rfl fun a _ => ?_
    ring
  unfold TaskQC.obj
  linear_combination t.weight / 2 * e + t.weight * l

theorem objective_onWay (n : ℕ) (inp : QPInput K) (s : K) (x y : ℕ → K) :
    objective n inp (onWay s x y) = (1 - s) * objective n inp x + s * objective n inp y
      - s * (1 - s) / 2 * curvature n inp (fun v => y v - x v) := by
  have ht : ∀ l : List (TaskQC K), (l.map fun t => t.obj (onWay s x y)).sum
      = (1 - s) * (l.map fun t => t.obj x).sum + s * (l.map fun t => t.obj y).sum
        - s * (1 - s) / 2 * (l.map fun t => t.weight * ∑ a ∈ range t.Q.rows, ∑ b ∈ range t.Q.cols,
          (y (t.begin'.1 + a) - x (t.begin'.1 + a)) * t.Q.get a b * (y (t.begin'.2 + b) - x (t.begin'.2 + b))).sum := by
    intro l
    induction l with
    | nil => simp
    | cons a l ih =>
      simp only [List.map_cons, List.sum_cons]
      linear_combination ih + obj_onWay a s x y
  have hp : ∀ S : Finset ℕ, ∑ i ∈ S, 1 / 10000 * onWay s x y i ^ 2
      = (1 - s) * ∑ i ∈ S, 1 / 10000 * x i ^ 2 + s * ∑ i ∈ S, 1 / 10000 * y i ^ 2
        - s * (1 - s) * ∑ i ∈ S, 1 / 10000 * (y i - x i) ^ 2 := by
    intro S
    simp only [onWay, Finset.mul_sum, ← Finset.sum_add_distrib, ← Finset.sum_sub_distrib]
    refine Finset.sum_congr rfl fun i _ => ?_
    ring
  unfold objective curvature
  linear_combination ht inp.tasks + 1 / 2 * hp ((range n).filter (fun i => |accDiag inp.tasks i| < 1 / 10000))

/-- Tasks with weights that are not negative and positive semidefinite matrices make a convex objective. -/
theorem curved_of_tasks {n : ℕ} {inp : QPInput K} (h : ∀ t ∈ inp.tasks, 0 ≤ t.weight ∧
    ∀ d : ℕ → K, 0 ≤ ∑ a ∈ range t.Q.rows, ∑ b ∈ range t.Q.cols,
      d (t.begin'.1 + a) * t.Q.get a b * d (t.begin'.2 + b)) : Curved n inp := by
  intro d
  refine add_nonneg (List.sum_nonneg fun a ha => ?_) (Finset.sum_nonneg fun i _ => by positivity)
  obtain ⟨t, ht, rfl⟩ := List.mem_map.1 ha
  exact mul_nonneg (h t ht).1 ((h t ht).2 d)

/-! ## Small steps -/

theorem soon_true {P : K → Prop} (h : ∀ s, 0 < s → s ≤ 1 → P s) : Soon P := ⟨1, one_pos, h⟩

theorem soon_and {P Q : K → Prop} (hp : Soon P) (hq : Soon Q) : Soon fun s => P s ∧ Q s := by
  obtain ⟨a, ha, hp⟩ := hp
  obtain ⟨b, hb, hq⟩ := hq
  exact ⟨min a b, lt_min ha hb, fun s hs hle =>
    ⟨hp s hs (hle.trans (min_le_left _ _)), hq s hs (hle.trans (min_le_right _ _))⟩⟩

theorem soon_range {P : ℕ → K → Prop} (n : ℕ) (h : ∀ i < n, Soon (P i)) : Soon fun s => ∀ i < n, P i s := by
  induction n with
  | zero => exact soon_true fun s _ _ i hi => absurd hi (by omega)
  | succ n ih =>
    obtain ⟨a, ha, hs⟩ := soon_and (ih fun i hi => h i (by omega)) (h n (by omega))
    refine ⟨a, ha, fun s h0 h1 i hi => ?_⟩
    rcases Nat.lt_succ_iff_lt_or_eq.1 hi with hi | rfl
    · exact (hs s h0 h1).1 i hi
    · exact (hs s h0 h1).2

theorem soon_list {α : Type} {P : α → K → Prop} (l : List α) (h : ∀ c ∈ l, Soon (P c)) :
    Soon fun s => ∀ c ∈ l, P c s := by
  induction l with
  | nil => exact soon_true fun s _ _ c hc => absurd hc (by simp)
  | cons a l ih =>
    obtain ⟨b, hb, hs⟩ := soon_and (h a (by simp)) (ih fun c hc => h c (by simp [hc]))
    refine ⟨b, hb, fun s h0 h1 c hc => ?_⟩
    rcases List.mem_cons.1 hc with rfl | hc
    · exact (hs s h0 h1).1
    · exact (hs s h0 h1).2 c hc

theorem soon_upper {e : Ext K} {a : K} (h : UpperSlack e a) (b : K) :
    Soon fun s => e.UpperOK (a + s * (b - a)) := by
  cases e with
  | negInf => exact absurd h id
  | posInf => exact soon_true fun _ _ _ => trivial
  | fin u =>
    have h' : a < u := h
    have hp : 0 < |b - a| + 1 := by positivity
    refine ⟨(u - a) / (|b - a| + 1), div_pos (sub_pos.2 h') hp, fun s h0 h1 => ?_⟩
    rw [le_div_iff₀ hp] at h1
    have : s * (b - a) ≤ s * (|b - a| + 1) :=
      mul_le_mul_of_nonneg_left (by linarith [le_abs_self (b - a)]) h0.le
    show a + s * (b - a) ≤ u
    linarith

theorem soon_lower {e : Ext K} {a : K} (h : LowerSlack e a) (b : K) :
    Soon fun s => e.LowerOK (a + s * (b - a)) := by
  cases e with
  | posInf => exact absurd h id
  | negInf => exact soon_true fun _ _ _ => trivial
  | fin l =>
    have h' : l < a := h
    have hp : 0 < |b - a| + 1 := by positivity
    refine ⟨(a - l) / (|b - a| + 1), div_pos (sub_pos.2 h') hp, fun s h0 h1 => ?_⟩
    rw [le_div_iff₀ hp] at h1
    have : s * -(b - a) ≤ s * (|b - a| + 1) :=
      mul_le_mul_of_nonneg_left (by linarith [neg_le_abs (b - a)]) h0.le
    show l ≤ a + s * (b - a)
    linarith

theorem lineVal_onWay (n : ℕ) (A : Mat K) (i : ℕ) (s : K) (x y : ℕ → K) :
    lineVal n A i (onWay s x y) = lineVal n A i x + s * (lineVal n A i y - lineVal n A i x) := by
  unfold lineVal onWay
  rw [← Finset.sum_sub_distrib, Finset.mul_sum, ← Finset.sum_add_distrib]
  exact Finset.sum_congr rfl fun j _ => by ring

theorem upperOK_onWay {e : Ext K} {a b s : K} (h0 : 0 < s) (h1 : s ≤ 1) (ha : e.UpperOK a) (hb : e.UpperOK b) :
    e.UpperOK (a + s * (b - a)) := by
  cases e with
  | negInf => exact ha
  | posInf => trivial
  | fin c =>
    simp only [Ext.UpperOK] at *
    nlinarith

theorem lowerOK_onWay {e : Ext K} {a b s : K} (h0 : 0 < s) (h1 : s ≤ 1) (ha : e.LowerOK a) (hb : e.LowerOK b) :
    e.LowerOK (a + s * (b - a)) := by
  cases e with
  | posInf => exact ha
  | negInf => trivial
  | fin c =>
    simp only [Ext.LowerOK] at *
    nlinarith

/-- On the way from a vector that respects all constraints and does not touch the additional ones to one that
respects the others, all are respected for a while. -/
theorem soon_admissible {mbs : List (MultiBody K)} {n : ℕ} {inp inp' : QPInput K} {x y : ℕ → K}
    (hx : Admissible mbs n inp' x) (hu : Untouched n inp inp' x) (hy : Admissible mbs n inp y) :
    Soon fun s => Admissible mbs n inp' (onWay s x y) := by
  obtain ⟨⟨⟨x1, x2, x3⟩, x4⟩, x5⟩ := hx
  obtain ⟨⟨⟨y1, y2, y3⟩, y4⟩, y5⟩ := hy
  refine soon_and (soon_and (soon_and ?_ (soon_and ?_ ?_)) ?_) ?_
  · refine soon_true fun s _ _ c hc i hi => ?_
    rw [lineVal_onWay, x1 c hc i hi, y1 c (hu.eq hc) i hi]
    ring
  · refine soon_list _ fun c hc => soon_range _ fun i hi => ?_
    simp only [lineVal_onWay]
    rcases hu.inEq c hc with h | h
    · exact soon_true fun s h0 h1 => upperOK_onWay h0 h1 (x2 c hc i hi) (y2 c h i hi)
    · exact soon_upper (h i hi) _
  · refine soon_list _ fun c hc => soon_range _ fun i hi => ?_
    simp only [lineVal_onWay]
    rcases hu.gen c hc with h | h
    · exact soon_true fun s h0 h1 => ⟨lowerOK_onWay h0 h1 (x3 c hc i hi).1 (y3 c h i hi).1,
        upperOK_onWay h0 h1 (x3 c hc i hi).2 (y3 c h i hi).2⟩
    · exact soon_and (soon_lower (h i hi).1 _) (soon_upper (h i hi).2 _)
  · refine soon_list _ fun c hc => ?_
    rcases hu.bound c hc with h | h
    · exact soon_true fun s h0 h1 => ⟨fun i hi => lowerOK_onWay h0 h1 ((x4 c hc).1 i hi) ((y4 c h).1 i hi),
        fun i hi => upperOK_onWay h0 h1 ((x4 c hc).2 i hi) ((y4 c h).2 i hi)⟩
    · exact soon_and (soon_range _ fun i hi => soon_lower (h.1 i hi) _)
        (soon_range _ fun i hi => soon_upper (h.2 i hi) _)
  · refine soon_true fun s _ _ r mb hr i k j j' hi hk m hm => ?_
    have a := x5 r mb hr i k j j' hi hk m hm
    have b := y5 r mb hr i k j j' hi hk m hm
    dsimp only [onWay]
    rw [a, b]
    ring

/-! ## C122 -/

theorem Spec.Extends.admissible {mbs : List (MultiBody K)} {n : ℕ} {inp inp' : QPInput K} (h : Extends inp inp')
    {x : ℕ → K} (hx : Admissible mbs n inp' x) : Admissible mbs n inp x :=
  ⟨⟨⟨fun c hc => hx.1.1.1 c (h.eq hc), fun c hc => hx.1.1.2.1 c (h.inEq hc),
    fun c hc => hx.1.1.2.2 c (h.gen hc)⟩, fun c hc => hx.1.2 c (h.bound hc)⟩, hx.2⟩

theorem Spec.Extends.objective {n : ℕ} {inp inp' : QPInput K} (h : Extends inp inp') (x : ℕ → K) :
    Spec.objective n inp' x = Spec.objective n inp x := by
  simp only [Spec.objective, h.tasks]

theorem unique_of_definite {mbs : List (MultiBody K)} {n : ℕ} {inp : QPInput K} {x y : ℕ → K}
    (hx : Admissible mbs n inp x) (hy : Admissible mbs n inp y)
    (hbest : ∀ z, Admissible mbs n inp z → objective n inp x ≤ objective n inp z)
    (he : objective n inp x = objective n inp y) (hd : Definite n inp) : ∀ v < n, x v = y v := by
  intro v hv
  by_contra hne
  have hpos := hd (fun v => x v - y v) ⟨v, hv, sub_ne_zero.2 hne⟩
  have hm := hbest _ (admissible_mid hx hy)
  have := objective_mid n inp x y
  linarith

/-- **C122** (more constraints): the result with more constraints respects the fewer, and the tasks together
are not served better by it.  If the result without the additional constraints happens to respect them, they
cost nothing, and change nothing if the tasks leave no direction free. -/
theorem C122_more {b b' : String} {mbs : List (MultiBody K)} {n : ℕ} {inp inp' : QPInput K} {x x' : Vec K}
    (he : Extends inp inp') (h : Solved b mbs n inp x) (h' : Solved b' mbs n inp' x') :
    Admissible mbs n inp x'.get ∧ objective n inp x.get ≤ objective n inp' x'.get ∧
    (Admissible mbs n inp' x.get → objective n inp x.get = objective n inp' x'.get ∧
      (Definite n inp → ∀ v < n, x.get v = x'.get v)) := by
  obtain ⟨a1, -, a2⟩ := solved_optimal h
  obtain ⟨b1, -, b2⟩ := solved_optimal h'
  have c1 := he.admissible b1
  have le1 : objective n inp x.get ≤ objective n inp' x'.get := by rw [he.objective]; exact a2 _ c1
  refine ⟨c1, le1, fun hx => ?_⟩
  have le2 := b2 _ hx
  rw [he.objective x.get] at le2
  have e := le_antisymm le1 le2
  exact ⟨e, unique_of_definite a1 c1 a2 (e.trans (he.objective _))⟩

/-- **C122** (constraints that are not touched): if the result does not touch any of the additional
constraints, it is the best also without them; taking them away changes nothing if the tasks leave no direction
free. -/
theorem C122_untouched {b' : String} {mbs : List (MultiBody K)} {n : ℕ} {inp inp' : QPInput K} {x' : Vec K}
    (he : Extends inp inp') (h' : Solved b' mbs n inp' x') (hc : Curved n inp)
    (hu : Untouched n inp inp' x'.get) :
    (∀ z, Admissible mbs n inp z → objective n inp x'.get ≤ objective n inp z) ∧
    ∀ {b : String} {x : Vec K}, Solved b mbs n inp x →
      objective n inp x.get = objective n inp x'.get ∧ (Definite n inp → ∀ v < n, x.get v = x'.get v) := by
  obtain ⟨b1, -, b2⟩ := solved_optimal h'
  have best : ∀ z, Admissible mbs n inp z → objective n inp x'.get ≤ objective n inp z := by
    intro z hz
    obtain ⟨s₀, h0, hs⟩ := soon_admissible b1 hu hz
    have hp : 0 < min s₀ 1 := lt_min h0 one_pos
    have hle : min s₀ 1 ≤ 1 := min_le_right _ _
    have ha := b2 _ (hs (min s₀ 1) hp (min_le_left _ _))
    rw [he.objective, he.objective, objective_onWay] at ha
    have hq := hc fun v => z v - x'.get v
    have hq' : 0 ≤ min s₀ 1 * (1 - min s₀ 1) / 2 * curvature n inp fun v => z v - x'.get v :=
      mul_nonneg (div_nonneg (mul_nonneg hp.le (by linarith)) (by norm_num)) hq
    have : min s₀ 1 * objective n inp x'.get ≤ min s₀ 1 * objective n inp z := by linarith
    exact le_of_mul_le_mul_left this hp
  refine ⟨best, fun {b x} h => ?_⟩
  obtain ⟨a1, -, a2⟩ := solved_optimal h
  have c1 := he.admissible b1
  have e := le_antisymm (a2 _ c1) (best _ a1)
  exact ⟨e, unique_of_definite a1 c1 a2 e⟩

/-- **C122** (constraints that matter): if the result without the additional inequalities and bounds is better
for the tasks than the one with them, the one with them touches at least one of them. -/
theorem C122_touched {b b' : String} {mbs : List (MultiBody K)} {n : ℕ} {inp inp' : QPInput K} {x x' : Vec K}
    (he : Extends inp inp') (h : Solved b mbs n inp x) (h' : Solved b' mbs n inp' x') (hc : Curved n inp)
    (hne : objective n inp x.get ≠ objective n inp' x'.get) : ¬ Untouched n inp inp' x'.get := by
  intro hu
  refine hne ?_
  rw [he.objective]
  exact ((C122_untouched he h' hc hu).2 h).1

/-! ## Bounds on the same variable -/

/-- The first of the two bounds of `exOverlap`. -/
def exFirst : QPInput ℚ := ⟨[], [], [], [], [⟨0, Vec.ofList [.fin 0], Vec.ofList [.fin 1]⟩]⟩

theorem exFirst_extends : Extends exFirst exOverlap :=
  ⟨rfl, fun _ h => h, fun _ h => h, fun _ h => h, fun c h => by
    simp only [exFirst, exOverlap, List.mem_cons, List.not_mem_nil, or_false] at h ⊢
    exact Or.inl h⟩

/-- **C122** needs bounds on different variables: adding a second bound constraint on a variable makes the
solver accept a vector that it refused before. -/
theorem C122_bounds_counterexample :
    Extends exFirst exOverlap ∧
    (∀ (s0 : Qld ℚ) (p : QldProblem ℚ), DepsAre 1 [] s0.dep → QldRun 1 0 0 0 [] exFirst s0 p →
      ¬ InBounds p.XL p.XU fun _ => 5) ∧
    (∀ (s0 : Qld ℚ) (p : QldProblem ℚ), DepsAre 1 [] s0.dep → QldRun 1 0 0 0 [] exOverlap s0 p →
      InBounds p.XL p.XU fun _ => 5) := by
  refine ⟨exFirst_extends, fun s0 p hd hp h => ?_, fun s0 p hd hp =>
    (C121_bounds_counterexample.1 s0 p hd hp _).2 (by norm_num)⟩
  have hf : InputFits 1 0 0 0 exFirst := by
    refine ⟨⟨by simp [exFirst], by simp [exFirst], by simp [exFirst], by simp [exFirst], ?_⟩,
      by decide, by decide, by decide⟩
    intro c hc
    simp only [exFirst, List.mem_singleton] at hc
    subst hc
    exact ⟨by decide, by decide⟩
  have h1 := ((C08_bounds_enforced_partial (n := 1) (e := 0) (i := 0) (g := 0) (hist := []) (inp := exFirst)
    (by intro j hj; simp at hj; subst hj; exact hf) (by simp [exFirst])).1 s0 p hd hp _).1 h _
    (List.mem_singleton.2 rfl)
  have := h1.2 0 (by decide)
  simp only [Vec.ofList, Ext.UpperOK] at this
  norm_num at this

/-! ## Concrete steps -/

namespace ExtraEx

open WeightEx

/-- Tasks, and a bound of joint 0 from above. -/
def capped (ts : List (TaskQC ℚ)) (u : ℚ) : QPInput ℚ :=
  { inpOf ts with bound := [⟨0, Vec.ofList [.negInf], Vec.ofList [.fin u]⟩] }

theorem extends_capped (ts : List (TaskQC ℚ)) (u : ℚ) : Extends (inpOf ts) (capped ts u) :=
  ⟨rfl, fun _ h => h, fun _ h => h, fun _ h => h, fun _ h => by simp [inpOf] at h⟩

/-- Any tasks and any minimiser below the bound: there is a successful step with that result. -/
theorem solves_capped (ts : List (TaskQC ℚ)) (u : ℚ) (hs : ∀ t ∈ ts, t.Sized 2) (y : ℕ → ℚ) (hyu : y 0 ≤ u)
    (hy : ∀ z : ℕ → ℚ, z 0 ≤ u → objective 2 (inpOf ts) y ≤ objective 2 (inpOf ts) z) :
    ∃ x, Solved "QLD" [robot] 2 (capped ts u) x ∧ ∀ v, x.get v = y v := by
  refine realise (mbs := [robot]) (uni := []) (bi := []) (mbcs := [mbc]) (inp := capped ts u) robot_ok ?_ ?_
    (by intro c hc; simp at hc) rfl ?_ ⟨hs, by simp [capped, inpOf], by simp [capped, inpOf], by simp [capped, inpOf], ?_⟩
    Nat.two_pos (by simp [capped]) ⟨⟨by simp [capped, inpOf], by simp [capped, inpOf], by simp [capped, inpOf]⟩, ?_⟩
    (fun z hz => ?_)
  · intro mb hmb j hj
    simp only [List.mem_singleton] at hmb
    subst hmb
    simp only [robot, List.mem_cons, List.not_mem_nil, or_false] at hj
    rcases hj with rfl | rfl <;> rfl
  · intro mb hmb _
    simp only [List.mem_singleton] at hmb
    subst hmb
    exact robot_tree
  · intro r mb m hr hmm
    cases r with
    | zero => simp at hr hmm; subst hr; subst hmm; exact ⟨rfl, fun _ => ⟨rfl, rfl, rfl⟩⟩
    | succ r => simp at hr
  · intro c hc
    simp only [capped, List.mem_singleton] at hc
    subst hc
    show _ ∧ _
    exact ⟨Nat.le_succ 1, Nat.le_succ 1⟩
  · intro c hc
    simp only [capped, List.mem_singleton] at hc
    subst hc
    refine ⟨fun i hi => ?_, fun i hi => ?_⟩
    · have : i = 0 := by simp [Vec.ofList] at hi; omega
      subst this
      trivial
    · have : i = 0 := by simp [Vec.ofList] at hi; omega
      subst this
      exact hyu
  · have := (hz.2 _ (List.mem_singleton.2 rfl)).2 0 (Nat.one_pos)
    exact hy z this

theorem pull_curved (c w : ℚ) (hw : 0 ≤ w) : Curved 2 (inpOf [pull c w]) := by
  refine curved_of_tasks fun t ht => ?_
  simp only [inpOf, List.mem_singleton] at ht
  subst ht
  refine ⟨hw, fun d => ?_⟩
  simp [pull, Mat.ofRows]
  exact mul_self_nonneg (d 0)

/-- The joint is pulled to 1; a bound at 3 is not touched. -/
example : ∃ x, Solved "QLD" [robot] 2 (capped [pull 1 1] 3) x ∧
    Untouched 2 (inpOf [pull 1 1]) (capped [pull 1 1] 3) x.get ∧ Curved 2 (inpOf [pull 1 1]) := by
  obtain ⟨x, hx, ex⟩ := solves_capped [pull 1 1] 3 (by simp [pull_sized]) (fun i => if i = 0 then 1 else 0)
    (by norm_num) (by
      intro z _
      rw [objective_pulls _ 1 (by simp [accDiag, pull_q]) (by simp [accDiag, pull_q]),
        objective_pulls _ 1 (by simp [accDiag, pull_q]) (by simp [accDiag, pull_q])]
      simp only [List.map_cons, List.map_nil, List.sum_cons, List.sum_nil, pull_obj]
      norm_num
      nlinarith [sq_nonneg (z 0 - 1), sq_nonneg (z 1)])
  refine ⟨x, hx, ⟨fun _ h => h, by simp [capped, inpOf], by simp [capped, inpOf], ?_⟩, pull_curved 1 1 (by norm_num)⟩
  intro c hc
  simp only [capped, List.mem_singleton] at hc
  subst hc
  refine Or.inr ⟨fun i hi => ?_, fun i hi => ?_⟩
  · have : i = 0 := by simp [Vec.ofList] at hi; omega
    subst this
    trivial
  · have : i = 0 := by simp [Vec.ofList] at hi; omega
    subst this
    show x.get 0 < 3
    rw [ex]
    norm_num

/-- A single task may gain from a constraint: the joint is pulled to 0 and to 1, and a bound at 1/4 brings it
closer to 0. -/
theorem C122_single : ∃ x x', Solved "QLD" [robot] 2 (inpOf [pull 0 1, pull 1 1]) x ∧
    Solved "QLD" [robot] 2 (capped [pull 0 1, pull 1 1] (1 / 4)) x' ∧
    (pull 0 1).obj x'.get < (pull 0 1).obj x.get ∧
    objective 2 (inpOf [pull 0 1, pull 1 1]) x.get < objective 2 (inpOf [pull 0 1, pull 1 1]) x'.get := by
  have ho : ∀ z : ℕ → ℚ, objective 2 (inpOf [pull 0 1, pull 1 1]) z = z 0 ^ 2 - z 0 + z 1 ^ 2 / 20000 := by
    intro z
    rw [objective_pulls _ 2 (by simp [accDiag, pull_q]; norm_num) (by simp [accDiag, pull_q])]
    simp only [List.map_cons, List.map_nil, List.sum_cons, List.sum_nil, pull_obj]
    norm_num
    ring
  obtain ⟨x, hx, ex⟩ := solves [pull 0 1, pull 1 1] (by simp [pull_sized])
    (fun i => if i = 0 then 1 / 2 else 0) (by
      intro z
      rw [ho, ho]
      norm_num
      nlinarith [sq_nonneg (z 0 - 1 / 2), sq_nonneg (z 1)])
  obtain ⟨x', hx', ex'⟩ := solves_capped [pull 0 1, pull 1 1] (1 / 4) (by simp [pull_sized])
    (fun i => if i = 0 then 1 / 4 else 0) (by norm_num) (by
      intro z hz
      rw [ho, ho]
      norm_num
      nlinarith [sq_nonneg (z 0 - 1 / 4), sq_nonneg (z 1)])
  refine ⟨x, x', hx, hx', ?_, ?_⟩
  · rw [pull_obj, pull_obj, ex, ex']
    norm_num
  · rw [ho, ho, ex, ex, ex', ex']
    norm_num

end ExtraEx

end Verif
