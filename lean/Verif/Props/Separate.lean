import Verif.Props.Weights
import Verif.Model.SetPoint
import Verif.Proofs.MotionRun

/-!
# C102: robots that share nothing are controlled as if each had a solver of its own
-/

set_option autoImplicit false
set_option linter.unusedSectionVars false

namespace Verif

open Finset Spec

namespace Spec
variable {K : Type} [Field K] [LinearOrder K] [IsStrictOrderedRing K]

/-- A function of the decision variables that does not look at the variables `e 0`, ..., `e (n' - 1)`. -/
def Ignores {β : Type} (e : ℕ → ℕ) (n' : ℕ) (f : (ℕ → K) → β) : Prop :=
  ∀ z z' : ℕ → K, (∀ v, (∀ u < n', e u ≠ v) → z v = z' v) → f z = f z'

/-- A line of the problem: coefficients, lower and upper bound. -/
structure Row (K : Type) where
  coef : ℕ → K
  lower : Ext K
  upper : Ext K

/-- The active lines of the registered constraints. -/
def IsRow (inp : QPInput K) (ρ : Row K) : Prop :=
  (∃ c ∈ inp.eq, ∃ i < c.nrEq, ρ = ⟨c.A.get i, .fin (c.b.get i), .fin (c.b.get i)⟩) ∨
  (∃ c ∈ inp.inEq, ∃ i < c.nrInEq, ρ = ⟨c.A.get i, .negInf, c.b.get i⟩) ∨
  (∃ c ∈ inp.gen, ∃ i < c.nrGen, ρ = ⟨c.A.get i, c.L.get i, c.U.get i⟩)

/-- The bound constraints let variable `v` be `a`. -/
def Allowed (inp : QPInput K) (v : ℕ) (a : K) : Prop :=
  ∀ c ∈ inp.bound, (∀ i < c.lower.size, c.beginVar + i = v → (c.lower.get i).LowerOK a) ∧
    ∀ i < c.upper.size, c.beginVar + i = v → (c.upper.get i).UpperOK a

/-- The problem `inp'` of some of the robots and contacts is a separate part of the problem `inp` of all of
them: variable `v` of the part is variable `e v` of the whole, robot `r` of the part is robot `σ r`; every task
of the whole is a task of the part or does not look at its variables; a point meets the constraints of the whole
when its part meets those of the part, and it meets other constraints (`Rest`), that do not look at the part. -/
structure PartOf (e σ : ℕ → ℕ) (mbs' : List (MultiBody K)) (n' : ℕ) (inp' : QPInput K)
    (mbs : List (MultiBody K)) (n : ℕ) (inp : QPInput K) : Prop where
  lt : ∀ v < n', e v < n
  inj : ∀ v < n', ∀ u < n', e v = e u → v = u
  robot : ∀ r mb, mbs'[r]? = some mb → mbs[σ r]? = some mb ∧
    ∀ i < mb.nrDof, aBegin mbs' r + i < n' ∧ e (aBegin mbs' r + i) = aBegin mbs (σ r) + i
  other : ∀ r mb, mbs[r]? = some mb → (∃ r' < mbs'.length, σ r' = r) ∨
    ∀ i < mb.nrDof, ∀ u < n', e u ≠ aBegin mbs r + i
  tasks : ∃ mine others, inp.tasks.Perm (mine ++ others) ∧
    List.Forall₂ (fun t' t => ∀ z, TaskQC.obj t z = TaskQC.obj t' (fun v => z (e v))) inp'.tasks mine ∧
    ∀ t ∈ others, Ignores e n' (TaskQC.obj t)
  sat : ∃ Rest : (ℕ → K) → Prop, Ignores e n' Rest ∧
    ∀ z, AllSatisfied n inp z ↔ AllSatisfied n' inp' (fun v => z (e v)) ∧ Rest z

/-- The constraints of one kind of the whole are those of the part (which mean the same in the part) and others,
that do not look at the variables of the part. -/
def KindPart {γ : Type} (e : ℕ → ℕ) (n' : ℕ) (Sat Sat' : γ → (ℕ → K) → Prop) (l' l : List γ) : Prop :=
  ∃ mine others, l.Perm (mine ++ others) ∧
    List.Forall₂ (fun c' c => ∀ z, Sat c z ↔ Sat' c' (fun v => z (e v))) l' mine ∧
    ∀ c ∈ others, Ignores e n' (Sat c)

/-- Lines of an equality, inequality or general constraint. -/
def EqHolds (n : ℕ) (c : EqC K) (x : ℕ → K) : Prop := ∀ i < c.nrEq, lineVal n c.A i x = c.b.get i
def InEqHolds (n : ℕ) (c : InEqC K) (x : ℕ → K) : Prop :=
  ∀ i < c.nrInEq, (c.b.get i).UpperOK (lineVal n c.A i x)
def GenHolds (n : ℕ) (c : GenC K) (x : ℕ → K) : Prop :=
  ∀ i < c.nrGen, (c.L.get i).LowerOK (lineVal n c.A i x) ∧ (c.U.get i).UpperOK (lineVal n c.A i x)

/-- `PartOf`, object by object: every constraint of the whole is a constraint of the part or does not look at its
variables. -/
structure ObjectPart (e : ℕ → ℕ) (n' : ℕ) (inp' : QPInput K) (n : ℕ) (inp : QPInput K) : Prop where
  eq : KindPart e n' (EqHolds n) (EqHolds n') inp'.eq inp.eq
  inEq : KindPart e n' (InEqHolds n) (InEqHolds n') inp'.inEq inp.inEq
  gen : KindPart e n' (GenHolds n) (GenHolds n') inp'.gen inp.gen
  bound : KindPart e n' SatBound SatBound inp'.bound inp.bound

/-- The block of a task lies in the variables `b`, ..., `b + k - 1`. -/
def TaskIn (b k : ℕ) (t : TaskQC K) : Prop :=
  b ≤ t.begin'.1 ∧ t.begin'.1 + t.Q.rows ≤ b + k ∧ b ≤ t.begin'.2 ∧ t.begin'.2 + t.Q.cols ≤ b + k

/-- The block of a task avoids these variables. -/
def TaskOut (b k : ℕ) (t : TaskQC K) : Prop :=
  (∀ i < t.Q.rows, ¬ (b ≤ t.begin'.1 + i ∧ t.begin'.1 + i < b + k)) ∧
  ∀ i < t.Q.cols, ¬ (b ≤ t.begin'.2 + i ∧ t.begin'.2 + i < b + k)

/-- The first `m` lines of a matrix of `n` columns are about these variables only. -/
def LinesIn (n b k m : ℕ) (A : Mat K) : Prop := ∀ i < m, ∀ v < n, ¬ (b ≤ v ∧ v < b + k) → A.get i v = 0

/-- They are about the others only. -/
def LinesOut (b k m : ℕ) (A : Mat K) : Prop := ∀ i < m, ∀ v, b ≤ v → v < b + k → A.get i v = 0

/-- The bounds are on these variables only. -/
def BoundsIn (b k : ℕ) (c : BoundC K) : Prop :=
  b ≤ c.beginVar ∧ c.beginVar + c.lower.size ≤ b + k ∧ c.beginVar + c.upper.size ≤ b + k

/-- They are on the others only. -/
def BoundsOut (b k : ℕ) (c : BoundC K) : Prop :=
  (∀ i < c.lower.size, ¬ (b ≤ c.beginVar + i ∧ c.beginVar + i < b + k)) ∧
  ∀ i < c.upper.size, ¬ (b ≤ c.beginVar + i ∧ c.beginVar + i < b + k)

/-- The columns of a matrix from column `b` on. -/
def shiftCols (b k : ℕ) (A : Mat K) : Mat K := ⟨A.rows, k, fun i v => A.get i (b + v)⟩

/-- A task with its block moved down by `b` variables. -/
def aloneTask (b : ℕ) (t : TaskQC K) : TaskQC K := { t with begin' := (t.begin'.1 - b, t.begin'.2 - b) }

open Classical in
/-- The problem of the variables `b`, ..., `b + k - 1` alone: the tasks and constraints about these variables. -/
noncomputable def alone (n b k : ℕ) (inp : QPInput K) : QPInput K where
  tasks := (inp.tasks.filter fun t => TaskIn b k t).map (aloneTask b)
  eq := (inp.eq.filter fun c => LinesIn n b k c.nrEq c.A).map fun c => { c with A := shiftCols b k c.A }
  inEq := (inp.inEq.filter fun c => LinesIn n b k c.nrInEq c.A).map fun c => { c with A := shiftCols b k c.A }
  gen := (inp.gen.filter fun c => LinesIn n b k c.nrGen c.A).map fun c => { c with A := shiftCols b k c.A }
  bound := (inp.bound.filter fun c => BoundsIn b k c).map fun c => { c with beginVar := c.beginVar - b }

/-- Every task and constraint is about these variables only, or about the others only. -/
structure Splits (n b k : ℕ) (inp : QPInput K) : Prop where
  tasks : ∀ t ∈ inp.tasks, TaskIn b k t ∨ TaskOut b k t
  eq : ∀ c ∈ inp.eq, LinesIn n b k c.nrEq c.A ∨ LinesOut b k c.nrEq c.A
  inEq : ∀ c ∈ inp.inEq, LinesIn n b k c.nrInEq c.A ∨ LinesOut b k c.nrInEq c.A
  gen : ∀ c ∈ inp.gen, LinesIn n b k c.nrGen c.A ∨ LinesOut b k c.nrGen c.A
  bound : ∀ c ∈ inp.bound, BoundsIn b k c ∨ BoundsOut b k c

end Spec

variable {K : Type} [Field K] [LinearOrder K] [IsStrictOrderedRing K]

/-- The lines of a problem hold at `x`. -/
theorem satLines_iff {n : ℕ} {inp : QPInput K} {x : ℕ → K} :
    SatLines n inp x ↔ ∀ ρ, IsRow inp ρ →
      ρ.lower.LowerOK (∑ j ∈ range n, ρ.coef j * x j) ∧ ρ.upper.UpperOK (∑ j ∈ range n, ρ.coef j * x j) := by
  constructor
  · rintro ⟨h1, h2, h3⟩ ρ (⟨c, hc, i, hi, rfl⟩ | ⟨c, hc, i, hi, rfl⟩ | ⟨c, hc, i, hi, rfl⟩)
    · have := h1 c hc i hi
      unfold lineVal at this
      simp only [Ext.LowerOK, Ext.UpperOK, this, le_refl, and_self]
    · exact ⟨trivial, h2 c hc i hi⟩
    · exact h3 c hc i hi
  · intro h
    refine ⟨fun c hc i hi => ?_, fun c hc i hi => ?_, fun c hc i hi => ?_⟩
    · obtain ⟨a, b⟩ := h _ (.inl ⟨c, hc, i, hi, rfl⟩)
      simp only [Ext.LowerOK, Ext.UpperOK] at a b
      exact le_antisymm b a
    · exact (h _ (.inr (.inl ⟨c, hc, i, hi, rfl⟩))).2
    · exact h _ (.inr (.inr ⟨c, hc, i, hi, rfl⟩))

/-- The bounds of a problem hold at `x`. -/
theorem satBounds_iff {inp : QPInput K} {x : ℕ → K} :
    (∀ c ∈ inp.bound, SatBound c x) ↔ ∀ v, Allowed inp v (x v) := by
  constructor
  · intro h v c hc
    obtain ⟨a, b⟩ := h c hc
    exact ⟨fun i hi hv => hv ▸ a i hi, fun i hi hv => hv ▸ b i hi⟩
  · intro h c hc
    exact ⟨fun i hi => (h _ c hc).1 i hi rfl, fun i hi => (h _ c hc).2 i hi rfl⟩

/-- The bounds of a problem that fits `n` variables hold at `x`. -/
theorem satBounds_lt {n : ℕ} {inp : QPInput K} (hs : InputSized n inp) {x : ℕ → K} :
    (∀ c ∈ inp.bound, SatBound c x) ↔ ∀ v < n, Allowed inp v (x v) := by
  rw [satBounds_iff]
  refine ⟨fun h v _ => h v, fun h v => ?_⟩
  by_cases hv : v < n
  · exact h v hv
  · intro c hc
    have := hs.2.2.2.2 c hc
    unfold BoundC.Sized at this
    exact ⟨fun i hi hv' => by omega, fun i hi hv' => by omega⟩

theorem sum_part {e : ℕ → ℕ} {n' n : ℕ} (hlt : ∀ v < n', e v < n) (hinj : ∀ v < n', ∀ u < n', e v = e u → v = u)
    (f : ℕ → K) : ∑ v ∈ range n, f v
      = ∑ u ∈ range n', f (e u) + ∑ v ∈ (range n).filter (fun v => ∀ u < n', e u ≠ v), f v := by
  have h : (range n).filter (fun v => ¬ ∀ u < n', e u ≠ v) = (range n').image e := by
    ext v
    simp only [mem_filter, mem_range, mem_image]
    constructor
    · rintro ⟨_, h⟩
      push Not at h
      exact h
    · rintro ⟨u, hu, rfl⟩
      exact ⟨hlt u hu, fun h => h u hu rfl⟩
  rw [← Finset.sum_filter_add_sum_filter_not (range n) (fun v => ∀ u < n', e u ≠ v), h,
    Finset.sum_image (fun a ha b hb => hinj a (mem_range.1 ha) b (mem_range.1 hb)), add_comm]

/-- The value of a line of the part. -/
theorem line_part {e : ℕ → ℕ} {n' n : ℕ} (hlt : ∀ v < n', e v < n) (hinj : ∀ v < n', ∀ u < n', e v = e u → v = u)
    {c c' x : ℕ → K} (h1 : ∀ u < n', c (e u) = c' u) (h2 : ∀ v < n, (∀ u < n', e u ≠ v) → c v = 0) :
    ∑ j ∈ range n, c j * x j = ∑ j ∈ range n', c' j * x (e j) := by
  rw [sum_part hlt hinj, Finset.sum_eq_zero (s := filter _ _), add_zero]
  · exact Finset.sum_congr rfl fun u hu => by rw [h1 u (mem_range.1 hu)]
  · intro v hv
    simp only [mem_filter, mem_range] at hv
    rw [h2 v hv.1 hv.2, zero_mul]

/-- The value of a line of the rest. -/
theorem line_rest {e : ℕ → ℕ} {n' n : ℕ} (hlt : ∀ v < n', e v < n) (hinj : ∀ v < n', ∀ u < n', e v = e u → v = u)
    {c : ℕ → K} (h : ∀ u < n', c (e u) = 0) : Ignores e n' (fun x => ∑ j ∈ range n, c j * x j) := by
  intro z z' hz
  dsimp only
  rw [sum_part hlt hinj, sum_part hlt hinj]
  congr 1
  · exact Finset.sum_congr rfl fun u hu => by rw [h u (mem_range.1 hu), zero_mul, zero_mul]
  · refine Finset.sum_congr rfl fun v hv => ?_
    simp only [mem_filter, mem_range] at hv
    rw [hz v hv.2]

/-- The diagonal of a task, from its objective. -/
theorem q_diag (t : TaskQC K) (i : ℕ) :
    t.q i i = t.obj (fun v => if v = i then 1 else 0) + t.obj (fun v => if v = i then -1 else 0) := by
  have key : ∀ c : K, ∑ a ∈ range t.Q.rows, ∑ b ∈ range t.Q.cols,
      (if t.begin'.1 + a = i then c else 0) * t.Q.get a b * (if t.begin'.2 + b = i then c else 0)
      = if (t.begin'.1 ≤ i ∧ i < t.begin'.1 + t.Q.rows) ∧ (t.begin'.2 ≤ i ∧ i < t.begin'.2 + t.Q.cols)
        then c * t.Q.get (i - t.begin'.1) (i - t.begin'.2) * c else 0 := by
    intro c
    by_cases h1 : t.begin'.1 ≤ i ∧ i < t.begin'.1 + t.Q.rows
    · rw [Finset.sum_eq_single (i - t.begin'.1)]
      · have e1 : t.begin'.1 + (i - t.begin'.1) = i := by omega
        simp only [e1, if_true]
        by_cases h2 : t.begin'.2 ≤ i ∧ i < t.begin'.2 + t.Q.cols
        · have e2 : t.begin'.2 + (i - t.begin'.2) = i := by omega
          rw [Finset.sum_eq_single (i - t.begin'.2), if_pos e2, if_pos ⟨h1, h2⟩]
          · intro b _ hb
            have : ¬ t.begin'.2 + b = i := by omega
            rw [if_neg this, mul_zero]
          · intro hb
            exact absurd (mem_range.2 (by omega)) hb
        · rw [if_neg (c := _ ∧ _) (fun h => h2 h.2), Finset.sum_eq_zero]
          intro b hb
          have := mem_range.1 hb
          have : ¬ t.begin'.2 + b = i := by omega
          rw [if_neg this, mul_zero]
      · intro a _ ha
        refine Finset.sum_eq_zero fun b _ => ?_
        have : ¬ t.begin'.1 + a = i := by omega
        rw [if_neg this, zero_mul, zero_mul]
      · intro ha
        exact absurd (mem_range.2 (by omega)) ha
    · rw [if_neg (c := _ ∧ _) (fun h => h1 h.1), Finset.sum_eq_zero]
      intro a ha
      have := mem_range.1 ha
      refine Finset.sum_eq_zero fun b _ => ?_
      have : ¬ t.begin'.1 + a = i := by omega
      rw [if_neg this, zero_mul, zero_mul]
  have lin : ∑ a ∈ range t.Q.rows, t.C.get a * (if t.begin'.1 + a = i then (-1 : K) else 0)
      = - ∑ a ∈ range t.Q.rows, t.C.get a * (if t.begin'.1 + a = i then (1 : K) else 0) := by
    rw [← Finset.sum_neg_distrib]
    refine Finset.sum_congr rfl fun a _ => ?_
    split_ifs <;> ring
  unfold TaskQC.obj TaskQC.q
  rw [key, key, lin]
  split_ifs <;> ring

/-- A task reads the variables it fits. -/
theorem obj_congr {n : ℕ} {t : TaskQC K} (ht : t.Sized n) {x y : ℕ → K} (h : ∀ v < n, x v = y v) :
    t.obj x = t.obj y := by
  obtain ⟨h1, h2, _⟩ := ht
  unfold TaskQC.obj
  congr 2
  · congr 1
    refine Finset.sum_congr rfl fun a ha => Finset.sum_congr rfl fun b hb => ?_
    rw [h _ (by have := mem_range.1 ha; omega), h _ (by have := mem_range.1 hb; omega)]
  · refine Finset.sum_congr rfl fun a ha => ?_
    rw [h _ (by have := mem_range.1 ha; omega)]

theorem obj_zero (t : TaskQC K) : t.obj (fun _ => 0) = 0 := by
  simp [TaskQC.obj]

section
variable {e σ : ℕ → ℕ} {mbs mbs' : List (MultiBody K)} {n n' : ℕ} {inp inp' : QPInput K}

/-- The solver adds its own penalty to the same variables. -/
theorem Spec.PartOf.accDiag (h : PartOf e σ mbs' n' inp' mbs n inp) (hs' : InputSized n' inp') {u : ℕ}
    (hu : u < n') : accDiag inp.tasks (e u) = accDiag inp'.tasks u := by
  obtain ⟨mine, others, hp, hm, ho⟩ := h.tasks
  unfold Verif.accDiag
  rw [(hp.map _).sum_eq, List.map_append, List.sum_append]
  have h0 : (others.map fun t => t.q (e u) (e u)).sum = 0 := by
    refine List.sum_eq_zero fun q hq => ?_
    obtain ⟨t, ht, rfl⟩ := List.mem_map.1 hq
    have hz : ∀ c : K, t.obj (fun v => if v = e u then c else 0) = 0 := by
      intro c
      rw [ho t ht _ (fun _ => 0) (fun v hv => if_neg (fun hh => hv u hu hh.symm)), obj_zero]
    rw [q_diag, hz, hz, add_zero]
  rw [h0, add_zero]
  have hsz := hs'.1
  clear h0 hp ho
  revert hsz hm
  generalize inp'.tasks = l'
  intro hm
  induction hm with
  | nil => intro _; rfl
  | @cons t' t l' l ht _ ih =>
    intro hsz
    simp only [List.map_cons, List.sum_cons]
    rw [ih fun s hs => hsz s (List.mem_cons_of_mem _ hs)]
    congr 1
    have hc : ∀ c : K, t.obj (fun v => if v = e u then c else 0) = t'.obj (fun v => if v = u then c else 0) := by
      intro c
      rw [ht]
      refine obj_congr (hsz t' List.mem_cons_self) fun v hv => ?_
      by_cases hvu : v = u
      · rw [if_pos (by rw [hvu]), if_pos hvu]
      · rw [if_neg (fun hh => hvu (h.inj v hv u hu hh)), if_neg hvu]
    rw [q_diag, q_diag, hc, hc]

/-- The objective of the whole is that of the part, plus something that does not look at the part. -/
theorem Spec.PartOf.objective (h : PartOf e σ mbs' n' inp' mbs n inp) (hs' : InputSized n' inp') :
    ∃ rest : (ℕ → K) → K, Ignores e n' rest ∧
      ∀ z, objective n inp z = objective n' inp' (fun v => z (e v)) + rest z := by
  obtain ⟨mine, others, hp, hm, ho⟩ := h.tasks
  refine ⟨fun z => (others.map fun t => t.obj z).sum
    + (∑ v ∈ (range n).filter (fun v => ∀ u < n', e u ≠ v),
        if |Verif.accDiag inp.tasks v| < 1 / 10000 then 1 / 10000 * z v ^ 2 else 0) / 2, ?_, fun z => ?_⟩
  · intro z z' hz
    dsimp only
    congr 1
    · congr 1
      exact List.map_congr_left fun t ht => ho t ht z z' hz
    · congr 1
      refine Finset.sum_congr rfl fun v hv => ?_
      rw [hz v (mem_filter.1 hv).2]
  · have e1 : (inp.tasks.map fun t => t.obj z).sum
        = (inp'.tasks.map fun t => t.obj fun v => z (e v)).sum + (others.map fun t => t.obj z).sum := by
      rw [(hp.map _).sum_eq, List.map_append, List.sum_append]
      congr 1
      have hl : ∀ l' l, List.Forall₂ (fun t' t => ∀ z, TaskQC.obj t z = TaskQC.obj t' (fun v => z (e v))) l' l →
          (l.map fun t => t.obj z).sum = (l'.map fun t => t.obj fun v => z (e v)).sum := by
        intro l' l hl
        induction hl with
        | nil => rfl
        | cons ht _ ih => simp only [List.map_cons, List.sum_cons, ih, ht]
      exact hl _ _ hm
    unfold Spec.objective
    rw [e1, Finset.sum_filter, sum_part h.lt h.inj, Finset.sum_filter (s := range n')]
    have e2 : ∑ u ∈ range n', (if |Verif.accDiag inp.tasks (e u)| < 1 / 10000 then 1 / 10000 * z (e u) ^ 2 else 0)
        = ∑ u ∈ range n', if |Verif.accDiag inp'.tasks u| < 1 / 10000 then 1 / 10000 * z (e u) ^ 2 else 0 :=
      Finset.sum_congr rfl fun u hu => by rw [h.accDiag hs' (mem_range.1 hu)]
    rw [e2]
    ring

/-- Separate constraints, line by line. -/
theorem sat_of_rows (hlt : ∀ v < n', e v < n) (hinj : ∀ v < n', ∀ u < n', e v = e u → v = u)
    (hs : InputSized n inp) (hs' : InputSized n' inp')
    (rows : ∀ ρ, IsRow inp ρ → (∀ u < n', ρ.coef (e u) = 0) ∨
      ∃ ρ', IsRow inp' ρ' ∧ ρ'.lower = ρ.lower ∧ ρ'.upper = ρ.upper ∧ (∀ u < n', ρ.coef (e u) = ρ'.coef u) ∧
        ∀ v < n, (∀ u < n', e u ≠ v) → ρ.coef v = 0)
    (rows' : ∀ ρ', IsRow inp' ρ' → ∃ ρ, IsRow inp ρ ∧ ρ.lower = ρ'.lower ∧ ρ.upper = ρ'.upper ∧
      (∀ u < n', ρ.coef (e u) = ρ'.coef u) ∧ ∀ v < n, (∀ u < n', e u ≠ v) → ρ.coef v = 0)
    (bounds : ∀ u < n', ∀ a, Allowed inp (e u) a ↔ Allowed inp' u a) :
    ∃ Rest : (ℕ → K) → Prop, Ignores e n' Rest ∧
      ∀ z, AllSatisfied n inp z ↔ AllSatisfied n' inp' (fun v => z (e v)) ∧ Rest z := by
  refine ⟨fun z => (∀ ρ, IsRow inp ρ → (∀ u < n', ρ.coef (e u) = 0) →
      ρ.lower.LowerOK (∑ j ∈ range n, ρ.coef j * z j) ∧ ρ.upper.UpperOK (∑ j ∈ range n, ρ.coef j * z j)) ∧
    ∀ v < n, (∀ u < n', e u ≠ v) → Allowed inp v (z v), ?_, fun z => ?_⟩
  · intro z z' hz
    have h1 : ∀ ρ : Row K, (∀ u < n', ρ.coef (e u) = 0) →
        ∑ j ∈ range n, ρ.coef j * z j = ∑ j ∈ range n, ρ.coef j * z' j :=
      fun ρ h0 => line_rest hlt hinj h0 z z' hz
    refine propext (and_congr (forall_congr' fun ρ => forall_congr' fun _ => forall_congr' fun h0 => ?_)
      (forall_congr' fun v => forall_congr' fun _ => forall_congr' fun hv => ?_))
    · rw [h1 ρ h0]
    · rw [hz v hv]
  · unfold AllSatisfied
    rw [satLines_iff, satLines_iff, satBounds_lt hs, satBounds_lt hs']
    constructor
    · rintro ⟨h1, h2⟩
      refine ⟨⟨fun ρ' hρ' => ?_, fun u hu => (bounds u hu _).1 (h2 _ (hlt u hu))⟩,
        fun ρ hρ _ => h1 ρ hρ, fun v hv _ => h2 v hv⟩
      obtain ⟨ρ, hρ, l, u, c1, c2⟩ := rows' ρ' hρ'
      rw [← line_part (x := z) hlt hinj c1 c2, ← l, ← u]
      exact h1 ρ hρ
    · rintro ⟨⟨h1, h2⟩, h3, h4⟩
      refine ⟨fun ρ hρ => ?_, fun v hv => ?_⟩
      · rcases rows ρ hρ with h0 | ⟨ρ', hρ', l, u, c1, c2⟩
        · exact h3 ρ hρ h0
        · rw [line_part hlt hinj c1 c2, ← l, ← u]
          exact h1 ρ' hρ'
      · by_cases hv' : ∀ u < n', e u ≠ v
        · exact h4 v hv hv'
        · push Not at hv'
          obtain ⟨u, hu, rfl⟩ := hv'
          exact (bounds u hu _).2 (h2 u hu)

theorem kindPart_iff {γ : Type} {Sat Sat' : γ → (ℕ → K) → Prop} {l' l : List γ} (h : KindPart e n' Sat Sat' l' l) :
    ∃ Rest : (ℕ → K) → Prop, Ignores e n' Rest ∧
      ∀ z, (∀ c ∈ l, Sat c z) ↔ (∀ c ∈ l', Sat' c (fun v => z (e v))) ∧ Rest z := by
  obtain ⟨mine, others, hp, hm, ho⟩ := h
  refine ⟨fun z => ∀ c ∈ others, Sat c z, fun z z' hz => propext ?_, fun z => ?_⟩
  · exact forall_congr' fun c => forall_congr' fun hc => by rw [ho c hc z z' hz]
  · have e1 : (∀ c ∈ l, Sat c z) ↔ (∀ c ∈ mine, Sat c z) ∧ ∀ c ∈ others, Sat c z := by
      simp only [hp.mem_iff, List.mem_append, or_imp, forall_and]
    rw [e1]
    refine and_congr_left fun _ => ?_
    clear hp e1
    induction hm with
    | nil => simp
    | cons hc _ ih => simp only [List.forall_mem_cons, ih, hc z]

/-- Separate constraints, object by object. -/
theorem sat_of_objects (h : ObjectPart e n' inp' n inp) :
    ∃ Rest : (ℕ → K) → Prop, Ignores e n' Rest ∧
      ∀ z, AllSatisfied n inp z ↔ AllSatisfied n' inp' (fun v => z (e v)) ∧ Rest z := by
  obtain ⟨R1, i1, s1⟩ := kindPart_iff h.eq
  obtain ⟨R2, i2, s2⟩ := kindPart_iff h.inEq
  obtain ⟨R3, i3, s3⟩ := kindPart_iff h.gen
  obtain ⟨R4, i4, s4⟩ := kindPart_iff h.bound
  refine ⟨fun z => R1 z ∧ R2 z ∧ R3 z ∧ R4 z, fun z z' hz => ?_, fun z => ?_⟩
  · dsimp only
    rw [i1 z z' hz, i2 z z' hz, i3 z z' hz, i4 z z' hz]
  · have a : ∀ (m : ℕ) (i : QPInput K) (x : ℕ → K), AllSatisfied m i x ↔ (∀ c ∈ i.eq, EqHolds m c x) ∧
        (∀ c ∈ i.inEq, InEqHolds m c x) ∧ (∀ c ∈ i.gen, GenHolds m c x) ∧ ∀ c ∈ i.bound, SatBound c x := by
      intro m i x
      unfold AllSatisfied SatLines EqHolds InEqHolds GenHolds
      tauto
    rw [a, a, s1 z, s2 z, s3 z, s4 z]
    tauto

/-- The variables of a joint belong to its robot. -/
theorem dof_lt_of_mimic {mb : MultiBody K} (hok : MimicOK mb) {i k : ℕ} {j j' : Joint K}
    (hi : mb.joints[i]? = some j) (hk : mb.joints[k]? = some j') {m : K} (hm : j.mimic = some (j'.name, m)) :
    dofBefore mb i < mb.nrDof ∧ dofBefore mb k < mb.nrDof := by
  obtain ⟨hd, j'', hj'', hn, _, hd''⟩ := hok.2 j (List.mem_of_getElem? hi) _ _ hm
  have : j'' = j' := by
    obtain ⟨a, ha⟩ := List.getElem?_of_mem hj''
    have h1 : (mb.joints.map Joint.name)[a]? = some j'.name := by simp [ha, hn]
    have h2 : (mb.joints.map Joint.name)[k]? = some j'.name := by simp [hk]
    have : a = k := by
      have hlt : a < (mb.joints.map Joint.name).length := (List.getElem?_eq_some_iff.1 h1).1
      exact (List.getElem?_inj hlt hok.1).1 (h1.trans h2.symm)
    subst this
    exact Option.some.inj (ha.symm.trans hk)
  subst this
  exact ⟨dofBefore_lt hi (by omega), dofBefore_lt hk (by omega)⟩

/-- A point of the whole is admissible if its part is, and the rest is that of an admissible point. -/
theorem Spec.PartOf.admissible (h : PartOf e σ mbs' n' inp' mbs n inp) (hok : ∀ mb ∈ mbs, MimicOK mb)
    {x z : ℕ → K} (hx : Admissible mbs n inp x)
    (ho : ∀ v, (∀ u < n', e u ≠ v) → z v = x v) (hz : Admissible mbs' n' inp' (fun v => z (e v))) :
    Admissible mbs n inp z := by
  obtain ⟨hx1, hx3⟩ := hx
  obtain ⟨hz1, hz3⟩ := hz
  obtain ⟨Rest, hR, hsat⟩ := h.sat
  refine ⟨(hsat z).2 ⟨hz1, ?_⟩, ?_⟩
  · rw [hR z x ho]
    exact ((hsat x).1 hx1).2
  · intro r mb hr i k j j' hi hk m hm
    obtain ⟨di, dk⟩ := dof_lt_of_mimic (hok mb (List.mem_of_getElem? hr)) hi hk hm
    rcases h.other r mb hr with ⟨r', hr', rfl⟩ | hout
    · have hr2 : mbs'[r']? = some mbs'[r'] := List.getElem?_eq_getElem hr'
      obtain ⟨q1, q2⟩ := h.robot r' _ hr2
      have : mbs'[r'] = mb := Option.some.inj (q1.symm.trans hr)
      rw [this] at hr2 q2
      have := hz3 r' mb hr2 i k j j' hi hk m hm
      have a := (q2 _ di).2
      have b := (q2 _ dk).2
      unfold aBegin at a b
      rw [← a, ← b]
      exact this
    · have a := ho _ (hout _ di)
      have b := ho _ (hout _ dk)
      unfold aBegin at a b
      rw [a, b]
      exact hx3 r mb hr i k j j' hi hk m hm

/-- The part of an admissible point is admissible. -/
theorem Spec.PartOf.restrict (h : PartOf e σ mbs' n' inp' mbs n inp) (hok : ∀ mb ∈ mbs, MimicOK mb)
    {x : ℕ → K} (hx : Admissible mbs n inp x) :
    Admissible mbs' n' inp' (fun v => x (e v)) := by
  obtain ⟨hx1, hx3⟩ := hx
  obtain ⟨Rest, hR, hsat⟩ := h.sat
  refine ⟨((hsat x).1 hx1).1, ?_⟩
  · intro r mb hr i k j j' hi hk m hm
    obtain ⟨q1, q2⟩ := h.robot r mb hr
    obtain ⟨di, dk⟩ := dof_lt_of_mimic (hok mb (List.mem_of_getElem? q1)) hi hk hm
    have := hx3 _ mb q1 i k j j' hi hk m hm
    have a := (q2 _ di).2
    have b := (q2 _ dk).2
    unfold aBegin at a b
    dsimp only
    rw [a, b]
    exact this

/-- The robots of a successful step. -/
theorem solved_mimicOK {b : String} {x : Vec K} (h : Solved b mbs n inp x) : ∀ mb ∈ mbs, MimicOK mb := by
  obtain ⟨uni, bi, d, h, -⟩ := h
  obtain ⟨Ob, W, R, _, ob, hasLssol, pre, post, sw0, s, s', w, w', eng, mbcs, mbcs', h1, -⟩ := h
  exact h1

open Classical in
/-- A point of the whole whose part is `y` and whose rest is `x`. -/
noncomputable def glue (e : ℕ → ℕ) (n' : ℕ) (y x : ℕ → K) : ℕ → K :=
  fun v => if h : ∃ u, u < n' ∧ e u = v then y h.choose else x v

theorem glue_rest (y x : ℕ → K) {v : ℕ} (hv : ∀ u < n', e u ≠ v) : glue e n' y x v = x v :=
  dif_neg fun ⟨u, hu, h⟩ => hv u hu h

theorem glue_part (hinj : ∀ v < n', ∀ u < n', e v = e u → v = u) (y x : ℕ → K) {u : ℕ} (hu : u < n') :
    glue e n' y x (e u) = y u := by
  have hex : ∃ u', u' < n' ∧ e u' = e u := ⟨u, hu, rfl⟩
  unfold glue
  rw [dif_pos hex]
  rw [hinj _ hex.choose_spec.1 u hu hex.choose_spec.2]

theorem admissible_congr (hok : ∀ mb ∈ mbs, MimicOK mb) (hn : (mbs.map MultiBody.nrDof).sum ≤ n)
    (hs : InputSized n inp) {x y : ℕ → K} (h : ∀ v < n, x v = y v) (hx : Admissible mbs n inp x) :
    Admissible mbs n inp y := by
  obtain ⟨⟨hx1, hx2⟩, hx3⟩ := hx
  rw [satLines_iff] at hx1
  rw [satBounds_lt hs] at hx2
  refine ⟨⟨satLines_iff.2 fun ρ hρ => ?_, (satBounds_lt hs).2 fun u hu => h u hu ▸ hx2 u hu⟩, ?_⟩
  · have : ∑ j ∈ range n, ρ.coef j * y j = ∑ j ∈ range n, ρ.coef j * x j :=
      Finset.sum_congr rfl fun j hj => by rw [h j (mem_range.1 hj)]
    rw [this]
    exact hx1 ρ hρ
  · intro r mb hr i k j j' hi hk m hm
    obtain ⟨di, dk⟩ := dof_lt_of_mimic (hok mb (List.mem_of_getElem? hr)) hi hk hm
    have hle : ((mbs.take r).map MultiBody.nrDof).sum + mb.nrDof ≤ (mbs.map MultiBody.nrDof).sum := by
      have hr' : r < mbs.length := (List.getElem?_eq_some_iff.1 hr).1
      have hd : mbs = mbs.take r ++ mb :: mbs.drop (r + 1) := by
        have : mbs[r] = mb := (List.getElem?_eq_some_iff.1 hr).2
        rw [← this, ← List.drop_eq_getElem_cons hr', List.take_append_drop]
      conv_rhs => rw [hd]
      simp only [List.map_append, List.map_cons, List.sum_append, List.sum_cons]
      omega
    rw [← h _ (by omega), ← h _ (by omega)]
    exact hx3 r mb hr i k j j' hi hk m hm

/-- The variables of the robots of a successful step. -/
theorem solved_dofs {b : String} {x : Vec K} (h : Solved b mbs n inp x) : (mbs.map MultiBody.nrDof).sum ≤ n := by
  obtain ⟨uni, bi, d, h, rfl⟩ := h
  obtain ⟨hg, ⟨old, d0, deps, hl, hsame⟩, -⟩ := solvedIn_data h
  obtain ⟨d1, deps1, e1, sp⟩ := layout_ok old mbs uni bi hg.1 hg.2
  rw [hl] at e1
  cases e1
  rw [hsame.nrVars, sp.nrVars, sp.totalAlphaD]
  omega

/-! ## C102 -/

/-- **C102**: several robots are controlled by one solver, and some of them (with the contacts that concern them)
are a separate part of its problem.  What a successful step gives these robots is an optimal solution of their
own problem: it meets all their constraints and reaches the best value of their objective. -/
theorem C102_part_optimal {b : String} {x : Vec K} (hx : Solved b mbs n inp x)
    (h : PartOf e σ mbs' n' inp' mbs n inp) (hs' : InputSized n' inp')
    (hn' : (mbs'.map MultiBody.nrDof).sum ≤ n') :
    Admissible mbs' n' inp' (fun v => x.get (e v)) ∧
      ∀ y, Admissible mbs' n' inp' y → objective n' inp' (fun v => x.get (e v)) ≤ objective n' inp' y := by
  obtain ⟨a1, hs, a2⟩ := solved_optimal hx
  have hok := solved_mimicOK hx
  refine ⟨h.restrict hok a1, fun y hy => ?_⟩
  have hok' : ∀ mb ∈ mbs', MimicOK mb := by
    intro mb hmb
    obtain ⟨r, hr⟩ := List.getElem?_of_mem hmb
    exact hok mb (List.mem_of_getElem? (h.robot r mb hr).1)
  have ey : ∀ v < n', y v = glue e n' y x.get (e v) := fun v hv => (glue_part h.inj y x.get hv).symm
  have hz := h.admissible hok a1 (fun v hv => glue_rest y x.get hv)
    (admissible_congr hok' hn' hs' ey hy)
  obtain ⟨rest, r1, r2⟩ := h.objective hs'
  have k := a2 _ hz
  rw [r2, r2, r1 _ _ (fun v hv => glue_rest y x.get hv), ← objective_congr hs'.1 ey] at k
  linarith

/-- **C102** (as if they had a solver of their own): compared with a successful step of a solver that controls
these robots alone, with the same tasks and constraints, the objective reached is the same; and so are the
accelerations and forces, if the Hessian of their problem is positive definite (otherwise two solvers that
control the same robots may already differ: C73). -/
theorem C102_alone {b b' : String} {x x' : Vec K} (hx : Solved b mbs n inp x) (hx' : Solved b' mbs' n' inp' x')
    (h : PartOf e σ mbs' n' inp' mbs n inp) :
    objective n' inp' (fun v => x.get (e v)) = objective n' inp' x'.get ∧
      (Definite n' inp' → ∀ v < n', x.get (e v) = x'.get v) := by
  obtain ⟨b1, hs', b2⟩ := solved_optimal hx'
  obtain ⟨a1, a2⟩ := C102_part_optimal hx h hs' (solved_dofs hx')
  have he := le_antisymm (a2 _ b1) (b2 _ a1)
  refine ⟨he, fun hdef v hv => ?_⟩
  by_contra hne
  have hpos := hdef (fun v => x.get (e v) - x'.get v) ⟨v, hv, sub_ne_zero.2 hne⟩
  have hm := b2 _ (admissible_mid a1 b1)
  have := objective_mid n' inp' (fun v => x.get (e v)) x'.get
  linarith

/-- **C102** (one robot that cannot be controlled stops all): if no point meets the constraints of some of the
robots, no step of the solver of all of them succeeds. -/
theorem C102_stopped {b : String} {x : Vec K} (h : PartOf e σ mbs' n' inp' mbs n inp)
    (hno : ∀ y, ¬ Admissible mbs' n' inp' y) : ¬ Solved b mbs n inp x := by
  intro hx
  obtain ⟨a1, hs, -⟩ := solved_optimal hx
  exact hno _ (h.restrict (solved_mimicOK hx) a1)

/-- **C102** (and conversely): any solutions of two separate parts, put together (with what the step gave to
the other variables), are a solution of the whole: admissible, and with the objective that any successful step of
the solver of all robots reaches. -/
theorem C102_together {e₁ σ₁ e₂ σ₂ : ℕ → ℕ} {mbs₁ mbs₂ : List (MultiBody K)} {n₁ n₂ : ℕ} {inp₁ inp₂ : QPInput K}
    {b b₁ b₂ : String} {x x₁ x₂ : Vec K} (hx : Solved b mbs n inp x) (hx₁ : Solved b₁ mbs₁ n₁ inp₁ x₁)
    (hx₂ : Solved b₂ mbs₂ n₂ inp₂ x₂) (h₁ : PartOf e₁ σ₁ mbs₁ n₁ inp₁ mbs n inp)
    (h₂ : PartOf e₂ σ₂ mbs₂ n₂ inp₂ mbs n inp) {z : ℕ → K}
    (hz : ∀ v, (∀ u < n₁, e₁ u ≠ v) → (∀ u < n₂, e₂ u ≠ v) → z v = x.get v)
    (hz₁ : ∀ u < n₁, z (e₁ u) = x₁.get u) (hz₂ : ∀ u < n₂, z (e₂ u) = x₂.get u) :
    Admissible mbs n inp z ∧ objective n inp z = objective n inp x.get := by
  obtain ⟨a, hs, opt⟩ := solved_optimal hx
  obtain ⟨a₁, hs₁, opt₁⟩ := solved_optimal hx₁
  obtain ⟨a₂, hs₂, opt₂⟩ := solved_optimal hx₂
  have hok := solved_mimicOK hx
  -- first the variables of part 1, then those of part 2
  have hg := h₁.admissible hok a (z := glue e₁ n₁ x₁.get x.get) (fun v hv => glue_rest _ _ hv)
    (admissible_congr (solved_mimicOK hx₁) (solved_dofs hx₁) hs₁
      (fun v hv => (glue_part h₁.inj _ _ hv).symm) a₁)
  have hout : ∀ v, (∀ u < n₂, e₂ u ≠ v) → z v = glue e₁ n₁ x₁.get x.get v := by
    intro v hv
    by_cases hc : ∀ u < n₁, e₁ u ≠ v
    · rw [glue_rest _ _ hc, hz v hc hv]
    · push Not at hc
      obtain ⟨u, hu, rfl⟩ := hc
      rw [glue_part h₁.inj _ _ hu, hz₁ u hu]
  have hA : Admissible mbs n inp z :=
    h₂.admissible hok hg hout
      (admissible_congr (solved_mimicOK hx₂) (solved_dofs hx₂) hs₂ (fun v hv => (hz₂ v hv).symm) a₂)
  refine ⟨hA, le_antisymm ?_ (opt _ hA)⟩
  obtain ⟨r₁, i₁, o₁⟩ := h₁.objective hs₁
  obtain ⟨r₂, i₂, o₂⟩ := h₂.objective hs₂
  have s1 : objective n inp (glue e₁ n₁ x₁.get x.get) ≤ objective n inp x.get := by
    rw [o₁, o₁, i₁ _ _ (fun v hv => glue_rest x₁.get x.get hv),
      objective_congr hs₁.1 (fun v hv => glue_part h₁.inj x₁.get x.get hv)]
    linarith [opt₁ _ (h₁.restrict hok a)]
  have s2 : objective n inp z ≤ objective n inp (glue e₁ n₁ x₁.get x.get) := by
    rw [o₂, o₂ (glue _ _ _ _), i₂ _ _ hout, objective_congr hs₂.1 hz₂]
    linarith [opt₂ _ (h₂.restrict hok hg)]
  exact s2.trans s1

/-! ### One robot -/

/-- A task moved down has the same objective on the moved variables. -/
theorem aloneTask_obj {b k : ℕ} {t : TaskQC K} (h : TaskIn b k t) (z : ℕ → K) :
    t.obj z = (aloneTask b t).obj (fun v => z (b + v)) := by
  obtain ⟨h1, -, h2, -⟩ := h
  unfold TaskQC.obj aloneTask
  dsimp only
  congr 2
  · congr 1
    refine Finset.sum_congr rfl fun a _ => Finset.sum_congr rfl fun c _ => ?_
    rw [show b + (t.begin'.1 - b + a) = t.begin'.1 + a by omega,
      show b + (t.begin'.2 - b + c) = t.begin'.2 + c by omega]
  · refine Finset.sum_congr rfl fun a _ => ?_
    rw [show b + (t.begin'.1 - b + a) = t.begin'.1 + a by omega]

theorem taskOut_ignores {b k : ℕ} {t : TaskQC K} (h : TaskOut b k t) : Ignores (fun v => b + v) k t.obj := by
  intro z z' hz
  have hv : ∀ v, ¬ (b ≤ v ∧ v < b + k) → z v = z' v := by
    intro v hv
    refine hz v fun u hu he => hv ?_
    dsimp only at he
    omega
  unfold TaskQC.obj
  congr 2
  · congr 1
    refine Finset.sum_congr rfl fun a ha => Finset.sum_congr rfl fun c hc => ?_
    rw [hv _ (h.1 a (mem_range.1 ha)), hv _ (h.2 c (mem_range.1 hc))]
  · refine Finset.sum_congr rfl fun a ha => ?_
    rw [hv _ (h.1 a (mem_range.1 ha))]

/-- The window of one robot. -/
theorem robot_window {r : ℕ} {mb : MultiBody K} (hr : mbs[r]? = some mb) {r' : ℕ} {mb' : MultiBody K}
    (hr' : mbs[r']? = some mb') (hne : r' ≠ r) {i : ℕ} (hi : i < mb'.nrDof) :
    ¬ (aBegin mbs r ≤ aBegin mbs r' + i ∧ aBegin mbs r' + i < aBegin mbs r + mb.nrDof) := by
  have step : ∀ {a : ℕ} {m : MultiBody K}, mbs[a]? = some m → aBegin mbs (a + 1) = aBegin mbs a + m.nrDof := by
    intro a m ha
    have ha' : a < mbs.length := (List.getElem?_eq_some_iff.1 ha).1
    unfold aBegin
    rw [List.take_add_one, ha]
    simp
  have mono : ∀ {a c : ℕ}, a ≤ c → aBegin mbs a ≤ aBegin mbs c := by
    intro a c hac
    unfold aBegin
    obtain ⟨d, rfl⟩ := Nat.exists_eq_add_of_le hac
    rw [List.take_add, List.map_append, List.sum_append]
    omega
  rcases Nat.lt_or_gt_of_ne hne with hlt | hlt
  · have := mono (show r' + 1 ≤ r from hlt)
    rw [step hr'] at this
    omega
  · have := mono (show r + 1 ≤ r' from hlt)
    rw [step hr] at this
    omega

theorem alone_sized {b k : ℕ} (hs : InputSized n inp) : InputSized k (alone n b k inp) := by
  classical
  obtain ⟨h1, h2, h3, h4, h5⟩ := hs
  refine ⟨fun t ht => ?_, fun c hc => ?_, fun c hc => ?_, fun c hc => ?_, fun c hc => ?_⟩
  · simp only [alone, List.mem_map, List.mem_filter, decide_eq_true_eq] at ht
    obtain ⟨t, ⟨ht, a1, a2, a3, a4⟩, rfl⟩ := ht
    have := h1 t ht
    unfold TaskQC.Sized aloneTask at *
    dsimp only
    omega
  · simp only [alone, List.mem_map, List.mem_filter, decide_eq_true_eq] at hc
    obtain ⟨c, ⟨hc, -⟩, rfl⟩ := hc
    obtain ⟨a1, a2, a3, a4⟩ := h2 c hc
    exact ⟨a1, a2, le_rfl, a4⟩
  · simp only [alone, List.mem_map, List.mem_filter, decide_eq_true_eq] at hc
    obtain ⟨c, ⟨hc, -⟩, rfl⟩ := hc
    obtain ⟨a1, a2, a3, a4⟩ := h3 c hc
    exact ⟨a1, a2, le_rfl, a4⟩
  · simp only [alone, List.mem_map, List.mem_filter, decide_eq_true_eq] at hc
    obtain ⟨c, ⟨hc, -⟩, rfl⟩ := hc
    obtain ⟨a1, a2, a3, a4⟩ := h4 c hc
    exact ⟨a1, a2, le_rfl, a4⟩
  · simp only [alone, List.mem_map, List.mem_filter, decide_eq_true_eq] at hc
    obtain ⟨c, ⟨hc, a1, a2, a3⟩, rfl⟩ := hc
    unfold BoundC.Sized
    dsimp only
    omega

/-- The problem of one robot is a part of the problem of all. -/
theorem partOf_alone {r : ℕ} {mb : MultiBody K} (hr : mbs[r]? = some mb) (hs : InputSized n inp)
    (hn : aBegin mbs r + mb.nrDof ≤ n) (hsp : Splits n (aBegin mbs r) mb.nrDof inp) :
    PartOf (fun v => aBegin mbs r + v) (fun _ => r) [mb] mb.nrDof (alone n (aBegin mbs r) mb.nrDof inp)
      mbs n inp := by
  classical
  generalize hb : aBegin mbs r = b at *
  have inW : ∀ v, (∀ u < mb.nrDof, b + u ≠ v) ↔ ¬ (b ≤ v ∧ v < b + mb.nrDof) := by
    intro v
    constructor
    · intro h hv
      exact h (v - b) (by omega) (by omega)
    · intro h u hu he
      exact h (by omega)
  have bnd : ∀ c : BoundC K, BoundsIn b mb.nrDof c ∨ BoundsOut b mb.nrDof c → ∀ u < mb.nrDof, ∀ a : K,
      (((∀ i < c.lower.size, c.beginVar + i = b + u → (c.lower.get i).LowerOK a) ∧
        ∀ i < c.upper.size, c.beginVar + i = b + u → (c.upper.get i).UpperOK a) ↔
      (BoundsIn b mb.nrDof c → (∀ i < c.lower.size, c.beginVar - b + i = u → (c.lower.get i).LowerOK a) ∧
        ∀ i < c.upper.size, c.beginVar - b + i = u → (c.upper.get i).UpperOK a)) := by
    intro c hc u hu a
    rcases hc with hc | hc
    · have := hc.1
      constructor
      · rintro ⟨h1, h2⟩ -
        exact ⟨fun i hi he => h1 i hi (by omega), fun i hi he => h2 i hi (by omega)⟩
      · intro h
        obtain ⟨h1, h2⟩ := h hc
        exact ⟨fun i hi he => h1 i hi (by omega), fun i hi he => h2 i hi (by omega)⟩
    · constructor
      · rintro ⟨h1, h2⟩ hin
        have := hin.1
        exact ⟨fun i hi he => h1 i hi (by omega), fun i hi he => h2 i hi (by omega)⟩
      · intro _
        refine ⟨fun i hi he => absurd ?_ (hc.1 i hi), fun i hi he => absurd ?_ (hc.2 i hi)⟩ <;> omega
  refine ⟨fun v hv => by omega, fun v _ u _ h => by omega, ?_, ?_, ?_, sat_of_rows (fun v hv => by omega)
    (fun v _ u _ h => by omega) hs (alone_sized hs) ?_ ?_ ?_⟩
  · intro a m ha
    cases a with
    | succ a => simp at ha
    | zero =>
      simp only [List.getElem?_cons_zero, Option.some.injEq] at ha
      subst ha
      exact ⟨hr, fun i hi => ⟨by simpa [aBegin] using hi, by rw [hb]; simp [aBegin]⟩⟩
  · intro a m ha
    by_cases har : a = r
    · exact .inl ⟨0, by simp, har.symm⟩
    · refine .inr fun i hi u hu he => ?_
      have := robot_window hr ha har hi
      rw [hb] at this
      omega
  · refine ⟨inp.tasks.filter (fun t => TaskIn b mb.nrDof t), inp.tasks.filter (fun t => ¬ TaskIn b mb.nrDof t), ?_, ?_, ?_⟩
    · have := List.filter_append_perm (fun t => decide (TaskIn b mb.nrDof t)) inp.tasks
      simpa using this.symm
    · simp only [alone]
      rw [List.forall₂_map_left_iff]
      refine List.forall₂_same.2 fun t ht z => ?_
      simp only [List.mem_filter, decide_eq_true_eq] at ht
      exact aloneTask_obj ht.2 z
    · intro t ht
      simp only [List.mem_filter, decide_eq_true_eq] at ht
      exact taskOut_ignores ((hsp.tasks t ht.1).resolve_left ht.2)
  · intro ρ hρ
    rcases hρ with ⟨c, hc, i, hi, rfl⟩ | ⟨c, hc, i, hi, rfl⟩ | ⟨c, hc, i, hi, rfl⟩
    · rcases hsp.eq c hc with h | h
      · exact .inr ⟨_, .inl ⟨{ c with A := shiftCols b mb.nrDof c.A }, by
          simp only [alone, List.mem_map, List.mem_filter, decide_eq_true_eq]; exact ⟨c, ⟨hc, h⟩, rfl⟩, i, hi, rfl⟩,
          rfl, rfl, fun u _ => rfl, fun v hv hv' => h i hi v hv ((inW v).1 hv')⟩
      · exact .inl fun u hu => h i hi _ (by omega) (by omega)
    · rcases hsp.inEq c hc with h | h
      · exact .inr ⟨_, .inr (.inl ⟨{ c with A := shiftCols b mb.nrDof c.A }, by
          simp only [alone, List.mem_map, List.mem_filter, decide_eq_true_eq]; exact ⟨c, ⟨hc, h⟩, rfl⟩, i, hi, rfl⟩),
          rfl, rfl, fun u _ => rfl, fun v hv hv' => h i hi v hv ((inW v).1 hv')⟩
      · exact .inl fun u hu => h i hi _ (by omega) (by omega)
    · rcases hsp.gen c hc with h | h
      · exact .inr ⟨_, .inr (.inr ⟨{ c with A := shiftCols b mb.nrDof c.A }, by
          simp only [alone, List.mem_map, List.mem_filter, decide_eq_true_eq]; exact ⟨c, ⟨hc, h⟩, rfl⟩, i, hi, rfl⟩),
          rfl, rfl, fun u _ => rfl, fun v hv hv' => h i hi v hv ((inW v).1 hv')⟩
      · exact .inl fun u hu => h i hi _ (by omega) (by omega)
  · intro ρ hρ
    rcases hρ with ⟨c, hc, i, hi, rfl⟩ | ⟨c, hc, i, hi, rfl⟩ | ⟨c, hc, i, hi, rfl⟩ <;>
      simp only [alone, List.mem_map, List.mem_filter, decide_eq_true_eq] at hc <;>
      obtain ⟨c, ⟨hc, h⟩, rfl⟩ := hc
    · exact ⟨_, .inl ⟨c, hc, i, hi, rfl⟩, rfl, rfl, fun u _ => rfl, fun v hv hv' => h i hi v hv ((inW v).1 hv')⟩
    · exact ⟨_, .inr (.inl ⟨c, hc, i, hi, rfl⟩), rfl, rfl, fun u _ => rfl,
        fun v hv hv' => h i hi v hv ((inW v).1 hv')⟩
    · exact ⟨_, .inr (.inr ⟨c, hc, i, hi, rfl⟩), rfl, rfl, fun u _ => rfl,
        fun v hv hv' => h i hi v hv ((inW v).1 hv')⟩
  · intro u hu a
    constructor
    · intro h c hc
      simp only [alone, List.mem_map, List.mem_filter, decide_eq_true_eq] at hc
      obtain ⟨c, ⟨hc, hin⟩, rfl⟩ := hc
      exact (bnd c (hsp.bound c hc) u hu a).1 (h c hc) hin
    · intro h c hc
      refine (bnd c (hsp.bound c hc) u hu a).2 fun hin => ?_
      exact h { c with beginVar := c.beginVar - b } (by
        simp only [alone, List.mem_map, List.mem_filter, decide_eq_true_eq]
        exact ⟨c, ⟨hc, hin⟩, rfl⟩)

theorem aBegin_le {r : ℕ} {mb : MultiBody K} (hr : mbs[r]? = some mb) :
    aBegin mbs r + mb.nrDof ≤ (mbs.map MultiBody.nrDof).sum := by
  have hr' : r < mbs.length := (List.getElem?_eq_some_iff.1 hr).1
  have hd : mbs = mbs.take r ++ mb :: mbs.drop (r + 1) := by
    have : mbs[r] = mb := (List.getElem?_eq_some_iff.1 hr).2
    rw [← this, ← List.drop_eq_getElem_cons hr', List.take_append_drop]
  conv_rhs => rw [hd]
  simp only [List.map_append, List.map_cons, List.sum_append, List.sum_cons, aBegin]
  omega

/-- **C102** (one robot): if every task and constraint is either about robot `r` alone or not about it, the
accelerations of robot `r` are an optimal solution of the problem made of its tasks and constraints alone; and
they are those of a solver that controls robot `r` alone, if the Hessian of that problem is positive definite. -/
theorem C102_robot {b : String} {x : Vec K} (hx : Solved b mbs n inp x) {r : ℕ} {mb : MultiBody K}
    (hr : mbs[r]? = some mb) (hsp : Splits n (aBegin mbs r) mb.nrDof inp) :
    (Admissible [mb] mb.nrDof (alone n (aBegin mbs r) mb.nrDof inp) (fun v => x.get (aBegin mbs r + v)) ∧
      ∀ y, Admissible [mb] mb.nrDof (alone n (aBegin mbs r) mb.nrDof inp) y →
        objective mb.nrDof (alone n (aBegin mbs r) mb.nrDof inp) (fun v => x.get (aBegin mbs r + v))
          ≤ objective mb.nrDof (alone n (aBegin mbs r) mb.nrDof inp) y) ∧
    ∀ (b' : String) (x' : Vec K), Solved b' [mb] mb.nrDof (alone n (aBegin mbs r) mb.nrDof inp) x' →
      Definite mb.nrDof (alone n (aBegin mbs r) mb.nrDof inp) →
        ∀ v < mb.nrDof, x.get (aBegin mbs r + v) = x'.get v := by
  obtain ⟨-, hs, -⟩ := solved_optimal hx
  have hP := partOf_alone hr hs ((aBegin_le hr).trans (solved_dofs hx)) hsp
  exact ⟨C102_part_optimal hx hP (alone_sized hs) (by simp),
    fun b' x' hx' hd => (C102_alone hx hx' hP).2 hd⟩

theorem alphaDBegin_robot {old d : SolverData K} {uni : List (UniContact K)} {bi : List (BiContact K)}
    {deps : List (Dep K)} (hl : layout old mbs uni bi = .ok (d, deps)) (hg : GoodInput mbs bi) {r : ℕ} {mb : MultiBody K}
    (hr : mbs[r]? = some mb) : vecAt d.alphaDBegin r = .ok (aBegin mbs r) := by
  obtain ⟨d1, deps1, e1, sp⟩ := layout_ok old mbs uni bi hg.1 hg.2
  rw [hl] at e1
  cases e1
  have hlt : r < mbs.length := (List.getElem?_eq_some_iff.1 hr).1
  unfold vecAt
  rw [sp.alphaDBegin, List.getElem?_eq_getElem (by simpa using hlt), getElem_starts]
  simp [aBegin, List.map_take]

/-- **C102** (set-point, tracking, trajectory, PID and target objective tasks): the same task on the same robot in
the same state, in the solver of all robots and in a solver of robot `r` alone, whatever the contacts: its block
lies in the variables of robot `r` in the first, and is the same block moved to the front in the second. -/
theorem C102_setpoint {old old' d d' : SolverData K} {uni uni' : List (UniContact K)} {bi bi' : List (BiContact K)}
    {deps deps' : List (Dep K)} {r : ℕ} {mb : MultiBody K} (hr : mbs[r]? = some mb)
    (hl : layout old mbs uni bi = .ok (d, deps)) (hg : GoodInput mbs bi)
    (hl' : layout old' [mb] uni' bi' = .ok (d', deps')) (hg' : GoodInput [mb] bi')
    {s s' s1 s1' s2 s2' : SPCommon K} (hi : s.robotIndex = r) (hi' : s'.robotIndex = 0)
    (hw : s'.weight = s.weight) (hd : s'.dimWeight = s.dimWeight)
    (hu : s.updateNrVars d = .ok s1) (hu' : s'.updateNrVars d' = .ok s1')
    {hl err err2 err2'} (hcols : hl.jac.cols = mb.nrDof)
    (hc : s1.computeQC hl err = .ok (err2, s2)) (hc' : s1'.computeQC hl err = .ok (err2', s2')) :
    TaskIn (aBegin mbs r) mb.nrDof s2.task ∧ s2'.task = aloneTask (aBegin mbs r) s2.task := by
  have a1 : s1 = { s with alphaDBegin := aBegin mbs r } := by
    unfold SPCommon.updateNrVars at hu
    rw [hi, alphaDBegin_robot ‹layout old mbs uni bi = _› hg hr] at hu
    rw [hi]
    exact (Out.ok.inj hu).symm
  have a1' : s1' = { s' with alphaDBegin := 0 } := by
    unfold SPCommon.updateNrVars at hu'
    have := alphaDBegin_robot hl' hg' (r := 0) (mb := mb) rfl
    rw [hi', this] at hu'
    rw [hi']
    exact (Out.ok.inj hu').symm
  have b : ∀ {u u2 : SPCommon K} {z}, u.computeQC hl err = .ok (z, u2) →
      ∃ Q C, u2 = { u with Q := Q, C := C } ∧ Q.rows = hl.jac.cols ∧ Q.cols = hl.jac.cols := by
    intro u u2 z h
    unfold SPCommon.computeQC at h
    simp only [Out.bind_eq_ok] at h
    obtain ⟨e1, -, e2, -, C, -, M, hM, Q, hQ, h⟩ := h
    simp only [Out.pure_eq, Out.ok.injEq, Prod.mk.injEq] at h
    unfold Mat.trMul at hQ
    unfold Mat.diagMul at hM
    split_ifs at hQ hM
    cases hQ
    cases hM
    exact ⟨_, _, h.2.symm, rfl, rfl⟩
  obtain ⟨Q, C, e2, q1, q2⟩ := b hc
  have same : s2'.Q = s2.Q ∧ s2'.C = s2.C := by
    have hdw : s1'.dimWeight = s1.dimWeight := by rw [a1, a1']; exact hd
    unfold SPCommon.computeQC at hc hc'
    simp only [Out.bind_eq_ok] at hc hc'
    obtain ⟨e1, p1, v1, p2, C1, p3, M1, p4, Q1, p5, h⟩ := hc
    obtain ⟨e1', p1', v1', p2', C1', p3', M1', p4', Q1', p5', h'⟩ := hc'
    rw [hdw] at p2' p4'
    cases p1.symm.trans p1'
    cases p2.symm.trans p2'
    cases p3.symm.trans p3'
    cases p4.symm.trans p4'
    cases p5.symm.trans p5'
    simp only [Out.pure_eq, Out.ok.injEq, Prod.mk.injEq] at h h'
    rw [← h.2, ← h'.2]
    exact ⟨rfl, rfl⟩
  obtain ⟨Q', C', e2', -, -⟩ := b hc'
  subst e2 e2' a1 a1'
  obtain ⟨sq, sc⟩ := same
  dsimp only at sq sc
  subst sq sc
  unfold TaskIn SPCommon.task aloneTask
  dsimp only
  rw [q1, q2, hcols]
  refine ⟨⟨le_rfl, le_rfl, le_rfl, le_rfl⟩, ?_⟩
  simp [hw]

end

/-! ### A concrete case -/

namespace SeparateEx

/-- A slider. -/
def robot : MultiBody ℚ := ⟨[⟨"a", 1, none⟩], 1, [-1], [0]⟩

def mbc : Mbc ℚ Unit := ⟨[[0]], [PT.one], [0], [0], ()⟩

/-- The task `(x_v - c)² / 2` (up to a constant). -/
def pull (v : ℕ) (c : ℚ) : TaskQC ℚ := ⟨Mat.ofRows 1 [[1]], Vec.ofList [-c], (v, v), 1⟩

/-- Two sliders, each with a task of its own; the acceleration of the second is at most 1/2. -/
def inp : QPInput ℚ := ⟨[pull 0 3, pull 1 2], [], [], [], [⟨1, Vec.const 1 .negInf, Vec.const 1 (.fin (1 / 2))⟩]⟩

theorem robot_ok : MimicOK robot := by
  refine ⟨by simp [robot], ?_⟩
  intro j hj l m h
  simp only [robot, List.mem_cons, List.not_mem_nil, or_false] at hj
  subst hj
  simp at h

theorem robot_tree : Tree robot := by
  refine ⟨rfl, rfl, rfl, ?_⟩
  intro i p h
  match i with
  | 0 => simp [robot] at h; exact Or.inl h.symm
  | n + 1 => simp [robot] at h

theorem robot_noMimic : NoMimic robot := by
  intro j hj
  simp only [robot, List.mem_cons, List.not_mem_nil, or_false] at hj
  subst hj
  rfl

theorem splits : Splits 2 1 1 inp := by
  refine ⟨?_, by simp [inp], by simp [inp], by simp [inp], ?_⟩
  · intro t ht
    simp only [inp, List.mem_cons, List.not_mem_nil, or_false] at ht
    rcases ht with rfl | rfl
    · right; simp [TaskOut, pull, Mat.ofRows]
    · left; simp [TaskIn, pull, Mat.ofRows]
  · intro c hc
    simp only [inp, List.mem_cons, List.not_mem_nil, or_false] at hc
    subst hc
    left
    simp [BoundsIn, Vec.const]

theorem pull_obj (v : ℕ) (c : ℚ) (x : ℕ → ℚ) : (pull v c).obj x = x v ^ 2 / 2 - c * x v := by
  simp only [TaskQC.obj, pull, Mat.ofRows, Vec.ofList, List.length_cons, List.length_nil, Finset.sum_range_succ,
    Finset.sum_range_zero, List.getD_cons_zero]
  simp
  ring_nf

theorem pull_q (v : ℕ) (c : ℚ) (i : ℕ) : (pull v c).q i i = if i = v then 1 else 0 := by
  rw [q_diag, pull_obj, pull_obj]
  by_cases h : i = v
  · subst h; norm_num
  · rw [if_neg h, if_neg (fun h' => h h'.symm), if_neg (fun h' => h h'.symm)]; norm_num

theorem objective_inp (x : ℕ → ℚ) : objective 2 inp x = x 0 ^ 2 / 2 - 3 * x 0 + (x 1 ^ 2 / 2 - 2 * x 1) := by
  unfold objective
  rw [Finset.sum_filter]
  simp only [Finset.sum_range_succ, Finset.sum_range_zero, inp, accDiag, List.map_cons, List.map_nil, List.sum_cons,
    List.sum_nil, pull_q, pull_obj]
  norm_num

/-- A step of the two sliders: `C102_robot` applies to the second, which gets the acceleration 1/2 it would get
alone. -/
example : ∃ x, Solved "QLD" [robot, robot] 2 inp x ∧ x.get 0 = 3 ∧ x.get 1 = 1 / 2 ∧
    Splits 2 (aBegin [robot, robot] 1) robot.nrDof inp := by
  obtain ⟨x, hx, ex⟩ := realise (mbs := [robot, robot]) (uni := []) (bi := []) (mbcs := [mbc, mbc]) (inp := inp)
    (y := fun v => if v = 0 then 3 else 1 / 2)
    (by simp [robot_ok]) (by simp [robot_noMimic]) (by simp [robot_tree]) (by intro c hc; simp at hc) rfl
    (by
      intro r mb m hr hm
      match r with
      | 0 => simp at hr hm; subst hr hm; exact ⟨rfl, fun _ => ⟨rfl, rfl, rfl⟩⟩
      | 1 => simp at hr hm; subst hr hm; exact ⟨rfl, fun _ => ⟨rfl, rfl, rfl⟩⟩
      | r + 2 => simp at hr)
    (by
      refine ⟨?_, by simp [inp], by simp [inp], by simp [inp], ?_⟩
      · intro t ht
        simp only [inp, List.mem_cons, List.not_mem_nil, or_false] at ht
        rcases ht with rfl | rfl <;> exact ⟨by decide, by decide, rfl⟩
      · intro c hc
        simp only [inp, List.mem_cons, List.not_mem_nil, or_false] at hc
        subst hc
        exact ⟨by decide, by decide⟩)
    (by decide) (by simp [inp])
    (by
      refine ⟨⟨by simp [inp], by simp [inp], by simp [inp]⟩, ?_⟩
      intro c hc
      simp only [inp, List.mem_cons, List.not_mem_nil, or_false] at hc
      subst hc
      refine ⟨fun i _ => trivial, fun i hi => ?_⟩
      simp only [Vec.const, Ext.UpperOK]
      rw [if_neg (by omega)])
    (by
      intro z hz
      have h := (hz.2 _ (List.mem_singleton.2 rfl)).2 0 (by simp [Vec.const])
      simp only [Vec.const, Ext.UpperOK] at h
      have hn : nrVariables [robot, robot] [] [] = 2 := rfl
      rw [hn, objective_inp, objective_inp]
      norm_num at h ⊢
      nlinarith [sq_nonneg (z 0 - 3), sq_nonneg (z 1 - 1 / 2)])
  exact ⟨x, hx, by rw [ex]; rfl, by rw [ex]; rfl, splits⟩

end SeparateEx

end Verif
