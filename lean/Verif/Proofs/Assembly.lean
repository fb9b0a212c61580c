import Verif.Proofs.Mimic

/-! # The problems the two backends hand to their solver -/

set_option autoImplicit false
set_option linter.unusedSectionVars false

namespace Verif

open Finset

/-! ## Meaning of the registered constraints, independent of the assembly -/

namespace Spec
variable {K : Type} [Field K] [LinearOrder K]

/-- `A x` on line `i` of a constraint matrix, for `n` variables. -/
def lineVal (n : ℕ) (A : Mat K) (i : ℕ) (x : ℕ → K) : K := ∑ j ∈ range n, A.get i j * x j

/-- Every active line of every registered constraint holds at `x`. -/
def SatLines (n : ℕ) (inp : QPInput K) (x : ℕ → K) : Prop :=
  (∀ c ∈ inp.eq, ∀ i < c.nrEq, lineVal n c.A i x = c.b.get i) ∧
  (∀ c ∈ inp.inEq, ∀ i < c.nrInEq, (c.b.get i).UpperOK (lineVal n c.A i x)) ∧
  (∀ c ∈ inp.gen, ∀ i < c.nrGen,
    (c.L.get i).LowerOK (lineVal n c.A i x) ∧ (c.U.get i).UpperOK (lineVal n c.A i x))

/-- The bounds of a bound constraint hold at `x`. -/
def SatBound (c : BoundC K) (x : ℕ → K) : Prop :=
  (∀ i < c.lower.size, (c.lower.get i).LowerOK (x (c.beginVar + i))) ∧
  (∀ i < c.upper.size, (c.upper.get i).UpperOK (x (c.beginVar + i)))

/-- Everything fits in `n` variables. -/
def InputSized (n : ℕ) (inp : QPInput K) : Prop :=
  (∀ t ∈ inp.tasks, t.Sized n) ∧ (∀ c ∈ inp.eq, c.Sized n) ∧ (∀ c ∈ inp.inEq, c.Sized n) ∧
  (∀ c ∈ inp.gen, c.Sized n) ∧ (∀ c ∈ inp.bound, c.Sized n)

/-- Weighted sum of the task objectives plus the diagonal regularisation. -/
def objective (n : ℕ) (inp : QPInput K) (x : ℕ → K) : K :=
  (inp.tasks.map fun t => t.obj x).sum +
    (∑ i ∈ (range n).filter (fun i => |accDiag inp.tasks i| < 1 / 10000), 1 / 10000 * x i ^ 2) / 2

/-- Value of the expanded vector `M y`. -/
def expand (M : Mat K) (y : ℕ → K) : ℕ → K := fun i => ∑ j ∈ range M.cols, M.get i j * y j

/-- Bounds of variable `v` after overwriting: last registered constraint covering it. -/
def LastBounds (inp : QPInput K) (v : ℕ) (a : K) : Prop :=
  (lastLower inp.bound v .negInf).LowerOK a ∧ (lastUpper inp.bound v .posInf).UpperOK a

/-- Sums of the maximum number of lines (`updateConstrSize`, QPSolver.cpp:76-80). -/
def maxEq (inp : QPInput K) : ℕ := (inp.eq.map EqC.maxEq).sum
/-- See `maxEq`. -/
def maxInEq (inp : QPInput K) : ℕ := (inp.inEq.map InEqC.maxInEq).sum
/-- See `maxEq`. -/
def maxGen (inp : QPInput K) : ℕ := (inp.gen.map GenC.maxGen).sum

end Spec

open Spec

variable {K : Type} [Field K] [LinearOrder K]

theorem sum_map_le {α : Type} (l : List α) (f g : α → ℕ) (h : ∀ a ∈ l, f a ≤ g a) :
    (l.map f).sum ≤ (l.map g).sum := by
  induction l with
  | nil => simp
  | cons a t ih =>
    simp only [List.map_cons, List.sum_cons]
    have := h a (by simp)
    have := ih (fun b hb => h b (by simp [hb]))
    omega

theorem sum_map_double {α : Type} (l : List α) (f : α → ℕ) :
    (l.map fun a => f a + f a).sum = (l.map f).sum * 2 := by
  induction l with
  | nil => simp
  | cons a t ih => simp only [List.map_cons, List.sum_cons, ih]; omega

section Reduction

theorem reduce_row (A M : Mat K) (h : A.cols = M.rows) {R : Mat K} (hR : reduceA A M = .ok R)
    (i : ℕ) (y : ℕ → K) :
    R.rowMul i y = ∑ k ∈ range A.cols, A.get i k * expand M y k := by
  unfold reduceA at hR
  rw [if_pos h] at hR
  cases hR
  unfold Mat.rowMul expand
  simp only [h, Finset.sum_mul, Finset.mul_sum]
  rw [Finset.sum_comm]
  apply Finset.sum_congr rfl
  intro k _
  apply Finset.sum_congr rfl
  intro j _
  ring

theorem reduceA_ok {A M : Mat K} (h : A.cols = M.rows) :
    ∃ R, reduceA A M = .ok R ∧ R.rows = A.rows ∧ R.cols = M.cols := by
  refine ⟨⟨A.rows, M.cols, fun i j => ∑ k ∈ range M.rows, A.get i k * M.get k j⟩, ?_, rfl, rfl⟩
  unfold reduceA; rw [if_pos h]

theorem reduceQC_ok {Q : Mat K} {C : Vec K} {M : Mat K} (h1 : Q.rows = M.rows)
    (h2 : Q.cols = M.rows) (h3 : C.size = M.rows) :
    ∃ QC, reduceQC Q C M = .ok QC ∧ QC.1.rows = M.cols ∧ QC.1.cols = M.cols ∧ QC.2.size = M.cols ∧
      ∀ y : ℕ → K, quadObj M.cols QC.1.get QC.2.get y = quadObj M.rows Q.get C.get (expand M y) := by
  refine ⟨_, by unfold reduceQC; rw [if_pos ⟨h1, h2, h3⟩], rfl, rfl, rfl, ?_⟩
  intro y
  unfold quadObj expand
  simp only
  have quad : ∑ i ∈ range M.cols, ∑ j ∈ range M.cols,
        y i * (∑ l ∈ range M.rows, (∑ k ∈ range M.rows, M.get k i * Q.get k l) * M.get l j) * y j
      = ∑ k ∈ range M.rows, ∑ l ∈ range M.rows,
        (∑ i ∈ range M.cols, M.get k i * y i) * Q.get k l *
          (∑ j ∈ range M.cols, M.get l j * y j) := by
    have lhs : ∀ i j, y i * (∑ l ∈ range M.rows,
          (∑ k ∈ range M.rows, M.get k i * Q.get k l) * M.get l j) * y j
        = ∑ l ∈ range M.rows, ∑ k ∈ range M.rows,
            (M.get k i * y i) * Q.get k l * (M.get l j * y j) := by
      intro i j
      rw [Finset.mul_sum, Finset.sum_mul]
      apply Finset.sum_congr rfl
      intro l _
      rw [Finset.sum_mul, Finset.mul_sum, Finset.sum_mul]
      apply Finset.sum_congr rfl
      intro k _
      ring
    have rhs : ∀ k l, (∑ i ∈ range M.cols, M.get k i * y i) * Q.get k l *
          (∑ j ∈ range M.cols, M.get l j * y j)
        = ∑ i ∈ range M.cols, ∑ j ∈ range M.cols,
            (M.get k i * y i) * Q.get k l * (M.get l j * y j) := by
      intro k l
      rw [Finset.sum_mul, Finset.sum_mul_sum]
    simp only [lhs, rhs]
    calc _ = ∑ i ∈ range M.cols, ∑ l ∈ range M.rows, ∑ j ∈ range M.cols, ∑ k ∈ range M.rows,
            (M.get k i * y i) * Q.get k l * (M.get l j * y j) := by
          apply Finset.sum_congr rfl; intro i _; exact Finset.sum_comm
      _ = ∑ l ∈ range M.rows, ∑ i ∈ range M.cols, ∑ j ∈ range M.cols, ∑ k ∈ range M.rows,
            (M.get k i * y i) * Q.get k l * (M.get l j * y j) := Finset.sum_comm
      _ = ∑ l ∈ range M.rows, ∑ i ∈ range M.cols, ∑ k ∈ range M.rows, ∑ j ∈ range M.cols,
            (M.get k i * y i) * Q.get k l * (M.get l j * y j) := by
          apply Finset.sum_congr rfl; intro l _
          apply Finset.sum_congr rfl; intro i _; exact Finset.sum_comm
      _ = ∑ l ∈ range M.rows, ∑ k ∈ range M.rows, ∑ i ∈ range M.cols, ∑ j ∈ range M.cols,
            (M.get k i * y i) * Q.get k l * (M.get l j * y j) := by
          apply Finset.sum_congr rfl; intro l _; exact Finset.sum_comm
      _ = _ := Finset.sum_comm
  have lin : ∑ i ∈ range M.cols, (∑ k ∈ range M.rows, M.get k i * C.get k) * y i
      = ∑ k ∈ range M.rows, C.get k * ∑ i ∈ range M.cols, M.get k i * y i := by
    simp only [Finset.sum_mul, Finset.mul_sum]
    rw [Finset.sum_comm]
    apply Finset.sum_congr rfl
    intro k _
    apply Finset.sum_congr rfl
    intro i _
    ring
  rw [quad, lin]

theorem quadObj_congr {n : ℕ} {Q : ℕ → ℕ → K} {C : ℕ → K} {x x' : ℕ → K}
    (h : ∀ i < n, x i = x' i) : quadObj n Q C x = quadObj n Q C x' := by
  unfold quadObj
  congr 1
  · congr 1
    apply Finset.sum_congr rfl
    intro i hi
    apply Finset.sum_congr rfl
    intro j hj
    rw [h i (mem_range.mp hi), h j (mem_range.mp hj)]
  · apply Finset.sum_congr rfl
    intro i hi
    rw [h i (mem_range.mp hi)]

variable [IsStrictOrderedRing K]

/-- `reduceBound` on a well-formed dependency state. -/
theorem reduceBound_ok {n : ℕ} {deps : List (ℕ × ℕ × K)} {ds : DepSt K} (hd : DepSpec n deps ds)
    (hwf : DepsWF n deps) {XL XU : Vec (Ext K)} (h1 : XL.size = n) (h2 : XU.size = n)
    (s : Vec (Ext K) × Vec (Ext K)) (s1 : s.1.size = n - deps.length)
    (s2 : s.2.size = n - deps.length) :
    ∃ s', reduceBound XL XU ds s = .ok s' ∧ s'.1.size = n - deps.length ∧
      s'.2.size = n - deps.length ∧
      ∀ y : ℕ → K, InBounds s'.1 s'.2 y ↔
        (∀ k < n, k ∉ reps deps → (XL.get k).LowerOK (expand ds.M y k) ∧
          (XU.get k).UpperOK (expand ds.M y k)) ∧
        ∀ d ∈ deps, d.2.2 ≠ 0 → (XL.get d.2.1).LowerOK (expand ds.M y d.2.1) ∧
          (XU.get d.2.1).UpperOK (expand ds.M y d.2.1) := by
  have hnl := nonrep_length hwf
  obtain ⟨t, e1, z1, z2, g1⟩ := reduceCopy_ok (m := n - deps.length) h1 h2
    (l := nonrep deps n) (by omega) (fun k hk => (mem_nonrep.mp hk).1) s s1 s2
  obtain ⟨t2, e2, w1, w2, g2⟩ := reduceDeps_ok (m := n - deps.length) h1 h2
    (f2r := ds.fullToReduced) (rk := rank deps) ds.deps (by
      intro d hdm
      have hdm' : d ∈ deps := hd.perm.mem_iff.mp hdm
      have hl : d.1 ∉ reps deps := by
        intro hc
        obtain ⟨e, he, heq⟩ := List.mem_map.mp hc
        exact hwf.2.2 d hdm' e he heq.symm
      have hlt := (hwf.2.1 d hdm').1
      exact ⟨(hwf.2.1 d hdm').2, hd.f2r d.1 hlt hl, rank_lt hwf hlt hl⟩) t z1 z2
  refine ⟨t2, ?_, w1, w2, fun y => ?_⟩
  · unfold reduceBound
    rw [s1, hd.r2fEq, e1, Out.ok_bind, e2]
  · rw [g2]
    apply and_congr
    · unfold InBounds
      rw [z1, z2]
      constructor
      · rintro ⟨a1, a2⟩ k hk hR
        have hr := rank_lt hwf hk hR
        have hg := g1 _ _ (nonrep_getElem hk hR)
        have hx : expand ds.M y k = y (rank deps k) := hd.mulKeep k hk hR y
        rw [hx, ← hg.1, ← hg.2]
        exact ⟨a1 _ hr, a2 _ hr⟩
      · intro h
        have key : ∀ i < n - deps.length, (t.1.get i).LowerOK (y i) ∧ (t.2.get i).UpperOK (y i) := by
          intro i hi
          have hil : i < (nonrep deps n).length := by omega
          obtain ⟨hk, hR⟩ := mem_nonrep.mp (List.getElem_mem hil)
          have hg := g1 i _ (List.getElem?_eq_getElem hil)
          have hrk : rank deps (nonrep deps n)[i] = i := by
            have h1 := nonrep_getElem hk hR
            have hlt : rank deps (nonrep deps n)[i] < (nonrep deps n).length := by
              by_contra hc
              rw [List.getElem?_eq_none (by omega)] at h1; cases h1
            rw [List.getElem?_eq_getElem hlt, Option.some.injEq] at h1
            exact (List.Nodup.getElem_inj_iff (nonrep_nodup deps n)).mp h1
          have hx : expand ds.M y (nonrep deps n)[i] = y (rank deps (nonrep deps n)[i]) :=
            hd.mulKeep _ hk hR y
          have := h _ hk hR
          rw [hx, hrk] at this
          rw [hg.1, hg.2]
          exact this
        exact ⟨fun i hi => (key i hi).1, fun i hi => (key i hi).2⟩
    · constructor
      · intro h d hdm h0
        have hx : expand ds.M y d.2.1 = d.2.2 * y (rank deps d.1) := hd.mulRep d hdm y
        rw [hx]
        exact h d (hd.perm.mem_iff.mpr hdm) h0
      · intro h d hdm h0
        have hdm' := hd.perm.mem_iff.mp hdm
        have hx : expand ds.M y d.2.1 = d.2.2 * y (rank deps d.1) := hd.mulRep d hdm' y
        have := h d hdm' h0
        rwa [hx] at this

end Reduction

namespace Spec

/-- The inputs of one assembly fit what `updateSize n e i g` allocated. -/
def InputFits (n e i g : ℕ) (inp : QPInput K) : Prop :=
  InputSized n inp ∧ maxEq inp ≤ e ∧ maxInEq inp ≤ i ∧ maxGen inp ≤ g

/-- The backend knows the dependencies `deps`: it was just created (none) or they were given to
`setDependencies`, whatever it knew before. -/
def DepsAre (n : ℕ) (deps : List (ℕ × ℕ × K)) (ds : DepSt K) : Prop :=
  DepsWF n deps ∧ ((deps = [] ∧ ds = DepSt.init) ∨ ∃ prev, setDependencies n deps prev = .ok ds)

/-- `p` is what QLD gets when a backend in any state `s0` is sized, used for any number of
previous control steps `hist`, and then for `inp`. -/
def QldRun (n e i g : ℕ) (hist : List (QPInput K)) (inp : QPInput K) (s0 : Qld K)
    (p : QldProblem K) : Prop :=
  ∃ s s1, forEach hist Qld.updateMatrix (s0.updateSize n e i g) = .ok s ∧
    s.updateMatrix inp = .ok s1 ∧ s1.problem = .ok p

/-- Same for LSSOL. -/
def LssolRun (n e i g : ℕ) (hist : List (QPInput K)) (inp : QPInput K) (s0 : Lssol K)
    (p : LssolProblem K) : Prop :=
  ∃ s s1, forEach hist Lssol.updateMatrix (s0.updateSize n e i g) = .ok s ∧
    s.updateMatrix inp = .ok s1 ∧ s1.problem = .ok p

end Spec

/-! ## QLD -/

/-- The allocated sizes of a `QLDQPSolver`. -/
structure Qld.SizedFor (n e q : ℕ) (s : Qld K) : Prop where
  Qr : s.QFull.rows = n
  Qc : s.QFull.cols = n
  C : s.CFull.size = n
  Er : s.AeqFull.rows = e
  Ec : s.AeqFull.cols = n
  b : s.beq.size = e
  Ir : s.AineqFull.rows = q
  Ic : s.AineqFull.cols = n
  bi : s.bineq.size = q
  XL : s.XLFull.size = n
  XU : s.XUFull.size = n
  rXL : s.dep.deps.length ≠ 0 → s.XL.size = n - s.dep.deps.length
  rXU : s.dep.deps.length ≠ 0 → s.XU.size = n - s.dep.deps.length

theorem Qld.updateSize_sized (n e i g : ℕ) (s : Qld K) :
    (s.updateSize n e i g).SizedFor n e (i + g * 2) ∧ (s.updateSize n e i g).dep = s.dep := by
  unfold Qld.updateSize
  by_cases h : s.dep.deps.length ≠ 0
  · simp only [if_pos h]
    refine ⟨⟨rfl, rfl, rfl, rfl, rfl, rfl, rfl, rfl, rfl, rfl, rfl, fun _ => rfl, fun _ => rfl⟩, trivial⟩
  · simp only [if_neg h]
    refine ⟨⟨rfl, rfl, rfl, rfl, rfl, rfl, rfl, rfl, rfl, rfl, rfl, fun h' => absurd h' h,
      fun h' => absurd h' h⟩, trivial⟩

/-- The dependency state is the default one, or was set for `n` variables by `setDependencies`. -/
def DepOK (n : ℕ) (ds : DepSt K) : Prop :=
  ds.deps = [] ∨ ∃ deps, DepsWF n deps ∧ DepSpec n deps ds

/-- Bounds handed to the backend, at the level of the variables `x`. -/
def BoundsAt (n : ℕ) (inp : QPInput K) (deps : List (ℕ × ℕ × K)) (x : ℕ → K) : Prop :=
  ∀ v < n, (v ∉ reps deps ∨ ∃ d ∈ deps, d.2.1 = v ∧ d.2.2 ≠ 0) → LastBounds inp v (x v)

/-- From the decision vector of the backend to the full one. -/
def fullX (ds : DepSt K) (y : ℕ → K) : ℕ → K := if ds.deps.length ≠ 0 then expand ds.M y else y

section
variable [IsStrictOrderedRing K]

theorem std_eq_sat {n k : ℕ} {cs : List (EqC K)} {A : Mat K} {b : Vec K}
    (h : stdLines n k A b = cs.flatMap (EqC.lines n)) (x : ℕ → K) :
    (∀ i < k, ∑ j ∈ range n, A.get i j * x j = b.get i) ↔
      ∀ c ∈ cs, ∀ i < c.nrEq, lineVal n c.A i x = c.b.get i := by
  have key := mem_stdLines (n := n) (k := k) (A := A) (b := b)
    (P := fun r v => ∑ j ∈ range n, r j * x j = v)
  simp only [row_mul] at key
  rw [← key, h]
  simp only [List.mem_flatMap]
  constructor
  · intro hl c hc i hi
    have := hl (row n c.A i, c.b.get i) ⟨c, hc, by
      simp only [EqC.lines, stdLines, List.mem_map, List.mem_range]; exact ⟨i, hi, rfl⟩⟩
    simp only [row_mul] at this
    exact this
  · rintro hc l ⟨c, hcm, hl⟩
    simp only [EqC.lines, stdLines, List.mem_map, List.mem_range] at hl
    obtain ⟨i, hi, rfl⟩ := hl
    simp only [row_mul]
    exact hc c hcm i hi

theorem lineVal_neg (n : ℕ) (A : Mat K) (i : ℕ) (x : ℕ → K) :
    lineVal n A.neg i x = - lineVal n A i x := by
  simp [lineVal, Mat.neg]

theorem std_ineq_sat {n k : ℕ} {cs : List (InEqC K)} {gs : List (GenC K)} {A : Mat K}
    {b : Vec (Ext K)}
    (h : stdLines n k A b = cs.flatMap (InEqC.lines n) ++ gs.flatMap (GenC.lines2 n))
    (x : ℕ → K) :
    (∀ i < k, (b.get i).UpperOK (∑ j ∈ range n, A.get i j * x j)) ↔
      (∀ c ∈ cs, ∀ i < c.nrInEq, (c.b.get i).UpperOK (lineVal n c.A i x)) ∧
      (∀ c ∈ gs, ∀ i < c.nrGen,
        (c.L.get i).LowerOK (lineVal n c.A i x) ∧ (c.U.get i).UpperOK (lineVal n c.A i x)) := by
  have key := mem_stdLines (n := n) (k := k) (A := A) (b := b)
    (P := fun r v => v.UpperOK (∑ j ∈ range n, r j * x j))
  simp only [row_mul] at key
  rw [← key, h]
  simp only [List.mem_append, List.mem_flatMap]
  constructor
  · intro hl
    refine ⟨fun c hc i hi => ?_, fun c hc i hi => ⟨?_, ?_⟩⟩
    · have := hl (row n c.A i, c.b.get i) (Or.inl ⟨c, hc, by
        simp only [InEqC.lines, stdLines, List.mem_map, List.mem_range]; exact ⟨i, hi, rfl⟩⟩)
      simp only [row_mul] at this
      exact this
    · have := hl (row n c.A.neg i, (c.L.get i).neg) (Or.inr ⟨c, hc, by
        simp only [GenC.lines2, stdLines, List.mem_append, List.mem_map, List.mem_range]
        exact Or.inl ⟨i, hi, rfl⟩⟩)
      simp only [row_mul] at this
      have h2 := lineVal_neg n c.A i x
      unfold lineVal at h2
      rw [h2, Ext.upperOK_neg] at this
      exact this
    · have := hl (row n c.A i, c.U.get i) (Or.inr ⟨c, hc, by
        simp only [GenC.lines2, stdLines, List.mem_append, List.mem_map, List.mem_range]
        exact Or.inr ⟨i, hi, rfl⟩⟩)
      simp only [row_mul] at this
      exact this
  · rintro ⟨h1, h2⟩ l (⟨c, hc, hl⟩ | ⟨c, hc, hl⟩)
    · simp only [InEqC.lines, stdLines, List.mem_map, List.mem_range] at hl
      obtain ⟨i, hi, rfl⟩ := hl
      simp only [row_mul]
      exact h1 c hc i hi
    · simp only [GenC.lines2, stdLines, List.mem_append, List.mem_map, List.mem_range] at hl
      rcases hl with ⟨i, hi, rfl⟩ | ⟨i, hi, rfl⟩
      · simp only [row_mul]
        have h3 := lineVal_neg n c.A i x
        unfold lineVal at h3
        rw [h3, Ext.upperOK_neg]
        exact (h2 c hc i hi).1
      · simp only [row_mul]
        exact (h2 c hc i hi).2

theorem gen_sat {n k : ℕ} {es : List (EqC K)} {cs : List (InEqC K)} {gs : List (GenC K)}
    {A : Mat K} {L U : Vec (Ext K)}
    (h : genLines n k A L U = es.flatMap (EqC.gLines n) ++ cs.flatMap (InEqC.gLines n) ++
      gs.flatMap (GenC.gLines n)) (x : ℕ → K) :
    (∀ i < k, (L.get i).LowerOK (∑ j ∈ range n, A.get i j * x j) ∧
        (U.get i).UpperOK (∑ j ∈ range n, A.get i j * x j)) ↔
      (∀ c ∈ es, ∀ i < c.nrEq, lineVal n c.A i x = c.b.get i) ∧
      (∀ c ∈ cs, ∀ i < c.nrInEq, (c.b.get i).UpperOK (lineVal n c.A i x)) ∧
      (∀ c ∈ gs, ∀ i < c.nrGen,
        (c.L.get i).LowerOK (lineVal n c.A i x) ∧ (c.U.get i).UpperOK (lineVal n c.A i x)) := by
  have key := mem_genLines (n := n) (k := k) (A := A) (L := L) (U := U)
    (P := fun r l u => l.LowerOK (∑ j ∈ range n, r j * x j) ∧ u.UpperOK (∑ j ∈ range n, r j * x j))
  simp only [row_mul] at key
  rw [← key, h]
  simp only [List.mem_append, List.mem_flatMap]
  constructor
  · intro hl
    refine ⟨fun c hc i hi => ?_, fun c hc i hi => ?_, fun c hc i hi => ?_⟩
    · have := hl (row n c.A i, .fin (c.b.get i), .fin (c.b.get i)) (Or.inl (Or.inl ⟨c, hc, by
        simp only [EqC.gLines, genLines, List.mem_map, List.mem_range]; exact ⟨i, hi, rfl⟩⟩))
      simp only [row_mul, Ext.lowerOK_fin, Ext.upperOK_fin] at this
      exact le_antisymm this.2 this.1
    · have := hl (row n c.A i, .negInf, c.b.get i) (Or.inl (Or.inr ⟨c, hc, by
        simp only [InEqC.gLines, genLines, List.mem_map, List.mem_range]; exact ⟨i, hi, rfl⟩⟩))
      simp only [row_mul] at this
      exact this.2
    · have := hl (row n c.A i, c.L.get i, c.U.get i) (Or.inr ⟨c, hc, by
        simp only [GenC.gLines, genLines, List.mem_map, List.mem_range]; exact ⟨i, hi, rfl⟩⟩)
      simp only [row_mul] at this
      exact this
  · rintro ⟨h1, h2, h3⟩ l ((⟨c, hc, hl⟩ | ⟨c, hc, hl⟩) | ⟨c, hc, hl⟩)
    · simp only [EqC.gLines, genLines, List.mem_map, List.mem_range] at hl
      obtain ⟨i, hi, rfl⟩ := hl
      have := h1 c hc i hi
      simp only [row_mul, Ext.lowerOK_fin, Ext.upperOK_fin]
      unfold lineVal at this
      exact ⟨this.ge, this.le⟩
    · simp only [InEqC.gLines, genLines, List.mem_map, List.mem_range] at hl
      obtain ⟨i, hi, rfl⟩ := hl
      simp only [row_mul]
      exact ⟨trivial, h2 c hc i hi⟩
    · simp only [GenC.gLines, genLines, List.mem_map, List.mem_range] at hl
      obtain ⟨i, hi, rfl⟩ := hl
      simp only [row_mul]
      exact h3 c hc i hi

theorem active_le {n : ℕ} {inp : QPInput K} (h : InputSized n inp) :
    (inp.eq.map EqC.nrEq).sum ≤ maxEq inp ∧ (inp.inEq.map InEqC.nrInEq).sum ≤ maxInEq inp ∧
      (inp.gen.map GenC.nrGen).sum ≤ maxGen inp := by
  obtain ⟨_, he, hi, hg, _⟩ := h
  exact ⟨sum_map_le _ _ _ (fun c hc => (he c hc).1), sum_map_le _ _ _ (fun c hc => (hi c hc).1),
    sum_map_le _ _ _ (fun c hc => (hg c hc).1)⟩

/-- Everything about the QP `QLDQPSolver` hands to QLD. -/
theorem Qld.assembled {n : ℕ} {inp : QPInput K} (hin : InputSized n inp) {s : Qld K}
    {re ri : ℕ} (hs : s.SizedFor n re ri) (le1 : (inp.eq.map EqC.nrEq).sum ≤ re)
    (le2 : (inp.inEq.map InEqC.nrInEq).sum + (inp.gen.map GenC.nrGen).sum * 2 ≤ ri) (hd : DepOK n s.dep) :
    ∃ s1 p, s.updateMatrix inp = .ok s1 ∧ s1.dep = s.dep ∧
      s1.SizedFor n re ri ∧ s1.problem = .ok p ∧
      p.C.size = n - s.dep.deps.length ∧ p.Q.rows = n - s.dep.deps.length ∧
      p.Q.cols = n - s.dep.deps.length ∧
      p.Aeq.cols = n - s.dep.deps.length ∧ p.Aineq.cols = n - s.dep.deps.length ∧
      p.XL.size = n - s.dep.deps.length ∧ p.XU.size = n - s.dep.deps.length ∧
      s1.nrAeqLines = (inp.eq.map EqC.nrEq).sum ∧
      s1.nrAineqLines = (inp.inEq.map InEqC.nrInEq).sum + (inp.gen.map GenC.nrGen).sum * 2 ∧
      (∀ y, p.Lines y ↔ SatLines n inp (fullX s.dep y)) ∧
      (∀ y, InBounds p.XL p.XU y ↔ BoundsAt n inp s.dep.deps (fullX s.dep y)) ∧
      (∀ y, p.obj y = objective n inp (fullX s.dep y)) ∧
      p.Aeq.rows = s1.nrAeqLines ∧ p.Aineq.rows = s1.nrAineqLines ∧
      (s.dep.deps.length = 0 → ∀ a b, p.Q.get a b = (inp.tasks.map fun t => t.q a b).sum +
        if a = b ∧ a < n ∧ |accDiag inp.tasks a| < diagConstant K then diagConstant K else 0) := by
  obtain ⟨ht, he, hi, hg, hb⟩ := hin
  obtain ⟨e, fe, ⟨e1, e2, e3⟩, e4, e5⟩ := fillEqStd_ok n re inp.eq
    ⟨0, Mat.zero s.AeqFull.rows s.AeqFull.cols, Vec.const s.beq.size 0⟩ he
    ⟨hs.Er, hs.Ec, hs.b⟩ (by simpa using le1)
  obtain ⟨q0, fq0, hq0, q04, q05⟩ := fillInEqStd_ok n ri inp.inEq
    ⟨0, Mat.zero s.AineqFull.rows s.AineqFull.cols, Vec.const s.bineq.size (.fin 0)⟩ hi
    ⟨hs.Ir, hs.Ic, hs.bi⟩ (by simp only; omega)
  obtain ⟨q, fq, ⟨q1, q2, q3⟩, q4, q5⟩ := fillGenStd_ok n ri inp.gen
    q0 hg hq0 (by rw [q04, sum_map_double]; simp only; omega)
  obtain ⟨b, fb, b1, b2, b3, b4⟩ := fillBound_ok n inp.bound
    (Vec.const s.XLFull.size .negInf, Vec.const s.XUFull.size .posInf) hb hs.XL hs.XU
  obtain ⟨o, fo, o1, o2, o3, o4, o5⟩ := fillQC_ok n inp.tasks ht
  have hline_e : e.line = (inp.eq.map EqC.nrEq).sum := by rw [e4]; simp
  have hline_q : q.line = (inp.inEq.map InEqC.nrInEq).sum + (inp.gen.map GenC.nrGen).sum * 2 := by
    rw [q4, q04, sum_map_double]; simp
  have eqL : stdLines n e.line e.A e.b = inp.eq.flatMap (EqC.lines n) := by
    rw [e5]; simp [stdLines]
  have inL : stdLines n q.line q.A q.b
      = inp.inEq.flatMap (InEqC.lines n) ++ inp.gen.flatMap (GenC.lines2 n) := by
    rw [q5, q05]; simp [stdLines]
  have hobj : ∀ x, quadObj n o.1.get o.2.get x = objective n inp x := by
    intro x
    rw [assembled_obj n inp.tasks ht o4 o5 x]
    rfl
  have linesIff : ∀ x, ((∀ i < e.line, ∑ j ∈ range n, e.A.get i j * x j = e.b.get i) ∧
      ∀ i < q.line, (q.b.get i).UpperOK (∑ j ∈ range n, q.A.get i j * x j)) ↔
      SatLines n inp x := by
    intro x
    unfold SatLines
    rw [std_eq_sat eqL x, std_ineq_sat inL x]
  have lastB : ∀ v a, (b.1.get v).LowerOK a ∧ (b.2.get v).UpperOK a ↔ LastBounds inp v a := by
    intro v a
    rw [b3, b4]
    rfl
  by_cases hdep : s.dep.deps.length ≠ 0
  · -- with mimic reduction
    have hd' : ∃ deps, DepsWF n deps ∧ DepSpec n deps s.dep := by
      rcases hd with h | h
      · rw [h] at hdep; simp at hdep
      · exact h
    obtain ⟨deps, hwf, hds⟩ := hd'
    have hlen : s.dep.deps.length = deps.length := hds.perm.length_eq
    obtain ⟨Aeq, r1, r1r, r1c⟩ := reduceA_ok (A := e.A) (M := s.dep.M) (by rw [e2, hds.rows])
    obtain ⟨Ain, r2, r2r, r2c⟩ := reduceA_ok (A := q.A) (M := s.dep.M) (by rw [q2, hds.rows])
    obtain ⟨X, r3, x1, x2, x3⟩ := reduceBound_ok hds hwf b1 b2
      (Vec.const s.XL.size .negInf, Vec.const s.XU.size .posInf)
      (by rw [← hlen]; exact hs.rXL hdep) (by rw [← hlen]; exact hs.rXU hdep)
    obtain ⟨QC, r4, c1, c2, c3, c4⟩ := reduceQC_ok (Q := o.1) (C := o.2) (M := s.dep.M)
      (by rw [o1, hds.rows]) (by rw [o2, hds.rows]) (by rw [o3, hds.rows])
    have hcols : s.dep.M.cols = n - s.dep.deps.length := by rw [hlen]; exact hds.cols
    refine ⟨{ s with
        AeqFull := e.A, beq := e.b, nrAeqLines := e.line
        AineqFull := q.A, bineq := q.b, nrAineqLines := q.line
        XLFull := b.1, XUFull := b.2, QFull := o.1, CFull := o.2
        Aeq := Aeq, Aineq := Ain, XL := X.1, XU := X.2, Q := QC.1, C := QC.2 },
      ⟨QC.1, QC.2, ⟨e.line, Aeq.cols, fun a c => Aeq.get (0 + a) (0 + c)⟩,
        ⟨e.line, fun i => e.b.get (0 + i)⟩,
        ⟨q.line, Ain.cols, fun a c => Ain.get (0 + a) (0 + c)⟩,
        ⟨q.line, fun i => q.b.get (0 + i)⟩, X.1, X.2⟩, ?_, rfl, ?_, ?_, ?_, ?_, ?_, ?_, ?_, ?_, ?_,
      ?_, ?_, ?_, ?_, ?_, ?_, ?_, ?_⟩
    · unfold Qld.updateMatrix
      simp only [hs.Qr, hs.Qc, hs.C]
      rw [fe, Out.ok_bind, fq0, Out.ok_bind, fq, Out.ok_bind, fb, Out.ok_bind, fo, Out.ok_bind,
        if_pos hdep, r1, Out.ok_bind, r2, Out.ok_bind, r3, Out.ok_bind, r4, Out.ok_bind]
      rfl
    · exact ⟨o1, o2, o3, e1, e2, e3, q1, q2, q3, b1, b2, fun _ => by rw [hlen]; exact x1,
        fun _ => by rw [hlen]; exact x2⟩
    · unfold Qld.problem
      simp only
      rw [if_pos hdep, Mat.block_ok (by omega) (by omega), Out.ok_bind, Vec.segment_ok (by omega),
        Out.ok_bind, Mat.block_ok (by omega) (by omega), Out.ok_bind, Vec.segment_ok (by omega),
        Out.ok_bind]
      rfl
    · simp only; omega
    · simp only; omega
    · simp only; omega
    · simp only; omega
    · simp only; omega
    · simp only; omega
    · simp only; omega
    · exact hline_e
    · exact hline_q
    · intro y
      unfold fullX
      rw [if_pos hdep, ← linesIff]
      have k1 := fun i => reduce_row e.A s.dep.M (by rw [e2, hds.rows]) r1 i y
      have k2 := fun i => reduce_row q.A s.dep.M (by rw [q2, hds.rows]) r2 i y
      simp only [e2, q2] at k1 k2
      unfold QldProblem.Lines
      have f1 : ∀ i, (Mat.mk e.line Aeq.cols fun a c => Aeq.get a c).rowMul i y
          = Aeq.rowMul i y := by intro i; simp [Mat.rowMul]
      have f2 : ∀ i, (Mat.mk q.line Ain.cols fun a c => Ain.get a c).rowMul i y
          = Ain.rowMul i y := by intro i; simp [Mat.rowMul]
      simp only [f1, f2, k1, k2, zero_add]
    · intro y
      unfold fullX
      simp only
      rw [if_pos hdep, x3 y]
      unfold BoundsAt
      have hreps : ∀ v, v ∈ reps s.dep.deps ↔ v ∈ reps deps := fun v => (hds.perm.map _).mem_iff
      constructor
      · rintro ⟨h1, h2⟩ v hv (hR | ⟨d, hd, rfl, h0⟩)
        · exact (lastB _ _).mp (h1 v hv (fun h => hR ((hreps v).mpr h)))
        · exact (lastB _ _).mp (h2 d (hds.perm.mem_iff.mp hd) h0)
      · intro h
        refine ⟨fun k hk hR => (lastB _ _).mpr (h k hk (Or.inl fun h => hR ((hreps k).mp h))),
          fun d hd h0 => (lastB _ _).mpr (h d.2.1 (hwf.2.1 d hd).2
            (Or.inr ⟨d, hds.perm.mem_iff.mpr hd, rfl, h0⟩))⟩
    · intro y
      unfold fullX QldProblem.obj
      simp only
      rw [if_pos hdep, c3, c4 y, hds.rows, hobj]
    · rfl
    · rfl
    · exact fun h => absurd h hdep
  · -- without reduction
    have hnil : s.dep.deps = [] := by
      rw [← List.length_eq_zero_iff]; exact not_not.mp hdep
    have hlen : s.dep.deps.length = 0 := not_not.mp hdep
    refine ⟨{ s with
        AeqFull := e.A, beq := e.b, nrAeqLines := e.line
        AineqFull := q.A, bineq := q.b, nrAineqLines := q.line
        XLFull := b.1, XUFull := b.2, QFull := o.1, CFull := o.2 },
      ⟨o.1, o.2, ⟨e.line, e.A.cols, fun a c => e.A.get (0 + a) (0 + c)⟩,
        ⟨e.line, fun i => e.b.get (0 + i)⟩,
        ⟨q.line, q.A.cols, fun a c => q.A.get (0 + a) (0 + c)⟩,
        ⟨q.line, fun i => q.b.get (0 + i)⟩, b.1, b.2⟩, ?_, rfl, ?_, ?_, ?_, ?_, ?_, ?_, ?_, ?_, ?_,
      ?_, ?_, ?_, ?_, ?_, ?_, ?_, ?_⟩
    · unfold Qld.updateMatrix
      simp only [hs.Qr, hs.Qc, hs.C]
      rw [fe, Out.ok_bind, fq0, Out.ok_bind, fq, Out.ok_bind, fb, Out.ok_bind, fo, Out.ok_bind,
        if_neg hdep]
      rfl
    · exact ⟨o1, o2, o3, e1, e2, e3, q1, q2, q3, b1, b2, fun h => absurd h hdep,
        fun h => absurd h hdep⟩
    · unfold Qld.problem
      simp only
      rw [if_neg hdep, Mat.block_ok (by omega) (by omega), Out.ok_bind, Vec.segment_ok (by omega),
        Out.ok_bind, Mat.block_ok (by omega) (by omega), Out.ok_bind, Vec.segment_ok (by omega),
        Out.ok_bind]
      rfl
    · simp only; omega
    · simp only; omega
    · simp only; omega
    · simp only; omega
    · simp only; omega
    · simp only; omega
    · simp only; omega
    · exact hline_e
    · exact hline_q
    · intro y
      unfold fullX
      rw [if_neg hdep, ← linesIff]
      unfold QldProblem.Lines
      simp only [Mat.rowMul, e2, q2, zero_add]
    · intro y
      unfold fullX InBounds BoundsAt
      rw [if_neg hdep]
      simp only [b1, b2]
      constructor
      · rintro ⟨h1, h2⟩ v hv _
        exact (lastB _ _).mp ⟨h1 v hv, h2 v hv⟩
      · intro h
        have := fun v hv => (lastB _ _).mpr (h v hv (Or.inl (by simp [reps, hnil])))
        exact ⟨fun v hv => (this v hv).1, fun v hv => (this v hv).2⟩
    · intro y
      unfold fullX QldProblem.obj
      simp only
      rw [if_neg hdep, o3, hobj]
    · rfl
    · rfl
    · exact fun _ => o4

/-! ## LSSOL -/

/-- The allocated sizes of a `LSSOLQPSolver`. -/
structure Lssol.SizedFor (n a : ℕ) (s : Lssol K) : Prop where
  Qr : s.QFull.rows = n
  Qc : s.QFull.cols = n
  C : s.CFull.size = n
  Ar : s.AFull.rows = a
  Ac : s.AFull.cols = n
  AL : s.AL.size = a
  AU : s.AU.size = a
  XL : s.XLFull.size = n
  XU : s.XUFull.size = n
  rXL : s.dep.deps.length ≠ 0 → s.XL.size = n - s.dep.deps.length
  rXU : s.dep.deps.length ≠ 0 → s.XU.size = n - s.dep.deps.length

theorem Lssol.updateSize_sized (n e i g : ℕ) (s : Lssol K) :
    (s.updateSize n e i g).SizedFor n (e + i + g) ∧ (s.updateSize n e i g).dep = s.dep := by
  unfold Lssol.updateSize
  by_cases h : s.dep.deps.length ≠ 0
  · simp only [if_pos h]
    refine ⟨⟨rfl, rfl, rfl, rfl, rfl, rfl, rfl, rfl, rfl, fun _ => rfl, fun _ => rfl⟩, trivial⟩
  · simp only [if_neg h]
    refine ⟨⟨rfl, rfl, rfl, rfl, rfl, rfl, rfl, rfl, rfl, fun h' => absurd h' h,
      fun h' => absurd h' h⟩, trivial⟩

/-- Everything about the QP `LSSOLQPSolver` hands to LSSOL. -/
theorem Lssol.assembled {n : ℕ} {inp : QPInput K} (hin : InputSized n inp) {s : Lssol K}
    {ra : ℕ} (hs : s.SizedFor n ra) (le : (inp.eq.map EqC.nrEq).sum +
      (inp.inEq.map InEqC.nrInEq).sum + (inp.gen.map GenC.nrGen).sum ≤ ra) (hd : DepOK n s.dep) :
    ∃ s1 p, s.updateMatrix inp = .ok s1 ∧ s1.dep = s.dep ∧
      s1.SizedFor n ra ∧ s1.problem = .ok p ∧
      p.C.size = n - s.dep.deps.length ∧ p.Q.rows = n - s.dep.deps.length ∧
      p.Q.cols = n - s.dep.deps.length ∧
      p.A.cols = n - s.dep.deps.length ∧
      p.XL.size = n - s.dep.deps.length ∧ p.XU.size = n - s.dep.deps.length ∧
      s1.nrALines = (inp.eq.map EqC.nrEq).sum + (inp.inEq.map InEqC.nrInEq).sum +
        (inp.gen.map GenC.nrGen).sum ∧
      (∀ y, p.Lines y ↔ SatLines n inp (fullX s.dep y)) ∧
      (∀ y, InBounds p.XL p.XU y ↔ BoundsAt n inp s.dep.deps (fullX s.dep y)) ∧
      (∀ y, p.obj y = objective n inp (fullX s.dep y)) ∧
      p.A.rows = s1.nrALines ∧
      (s.dep.deps.length = 0 → ∀ a b, p.Q.get a b = (inp.tasks.map fun t => t.q a b).sum +
        if a = b ∧ a < n ∧ |accDiag inp.tasks a| < diagConstant K then diagConstant K else 0) ∧
      (s.dep.deps.length = 0 →
        genLines n p.A.rows p.A p.AL p.AU = inp.eq.flatMap (EqC.gLines n) ++
          inp.inEq.flatMap (InEqC.gLines n) ++ inp.gen.flatMap (GenC.gLines n)) := by
  obtain ⟨ht, he, hi, hg, hb⟩ := hin
  obtain ⟨a0, fa0, ha0, l0, n0⟩ := fillEqGen_ok n ra inp.eq
    ⟨0, Mat.zero s.AFull.rows s.AFull.cols, Vec.const s.AL.size (.fin 0),
      Vec.const s.AU.size (.fin 0)⟩ he
    ⟨hs.Ar, hs.Ac, hs.AL, hs.AU⟩ (by simp only; omega)
  obtain ⟨a1, fa1, ha1, l1, n1⟩ := fillInEqGen_ok n _ inp.inEq a0 hi ha0
    (by rw [l0]; simp only; omega)
  obtain ⟨a, fa, ⟨z1, z2, z3, z4⟩, l2, n2⟩ := fillGenGen_ok n _ inp.gen a1 hg ha1
    (by rw [l1, l0]; simp only; omega)
  obtain ⟨b, fb, b1, b2, b3, b4⟩ := fillBound_ok n inp.bound
    (Vec.const s.XLFull.size .negInf, Vec.const s.XUFull.size .posInf) hb hs.XL hs.XU
  obtain ⟨o, fo, o1, o2, o3, o4, o5⟩ := fillQC_ok n inp.tasks ht
  have hline : a.line = (inp.eq.map EqC.nrEq).sum + (inp.inEq.map InEqC.nrInEq).sum +
        (inp.gen.map GenC.nrGen).sum := by rw [l2, l1, l0]; simp
  have aL : genLines n a.line a.A a.AL a.AU = inp.eq.flatMap (EqC.gLines n) ++
        inp.inEq.flatMap (InEqC.gLines n) ++ inp.gen.flatMap (GenC.gLines n) := by
    have : genLines n a.line a.A a.AL a.AU = a.lines n := rfl
    rw [this, n2, n1, n0]; simp [genLines, GenSt.lines]
  have hobj : ∀ x, quadObj n o.1.get o.2.get x = objective n inp x := by
    intro x
    rw [assembled_obj n inp.tasks ht o4 o5 x]
    rfl
  have linesIff : ∀ x, (∀ i < a.line, (a.AL.get i).LowerOK (∑ j ∈ range n, a.A.get i j * x j) ∧
      (a.AU.get i).UpperOK (∑ j ∈ range n, a.A.get i j * x j)) ↔ SatLines n inp x := by
    intro x
    exact gen_sat aL x
  have lastB : ∀ v c, (b.1.get v).LowerOK c ∧ (b.2.get v).UpperOK c ↔ LastBounds inp v c := by
    intro v c
    rw [b3, b4]
    rfl
  by_cases hdep : s.dep.deps.length ≠ 0
  · have hd' : ∃ deps, DepsWF n deps ∧ DepSpec n deps s.dep := by
      rcases hd with h | h
      · rw [h] at hdep; simp at hdep
      · exact h
    obtain ⟨deps, hwf, hds⟩ := hd'
    have hlen : s.dep.deps.length = deps.length := hds.perm.length_eq
    obtain ⟨A, r1, r1r, r1c⟩ := reduceA_ok (A := a.A) (M := s.dep.M) (by rw [z2, hds.rows])
    obtain ⟨X, r3, x1, x2, x3⟩ := reduceBound_ok hds hwf b1 b2 (s.XL, s.XU)
      (by rw [← hlen]; exact hs.rXL hdep) (by rw [← hlen]; exact hs.rXU hdep)
    obtain ⟨QC, r4, c1, c2, c3, c4⟩ := reduceQC_ok (Q := o.1) (C := o.2) (M := s.dep.M)
      (by rw [o1, hds.rows]) (by rw [o2, hds.rows]) (by rw [o3, hds.rows])
    have hcols : s.dep.M.cols = n - s.dep.deps.length := by rw [hlen]; exact hds.cols
    refine ⟨{ s with
        AFull := a.A, AL := a.AL, AU := a.AU, nrALines := a.line
        XLFull := b.1, XUFull := b.2, QFull := o.1, CFull := o.2
        A := A, XL := X.1, XU := X.2, Q := QC.1, C := QC.2 },
      ⟨QC.1, QC.2, ⟨a.line, A.cols, fun i c => A.get (0 + i) (0 + c)⟩,
        ⟨a.line, fun i => a.AL.get (0 + i)⟩, ⟨a.line, fun i => a.AU.get (0 + i)⟩, X.1, X.2⟩,
      ?_, rfl, ?_, ?_, ?_, ?_, ?_, ?_, ?_, ?_, ?_, ?_, ?_, ?_, ?_, ?_, ?_⟩
    · unfold Lssol.updateMatrix
      simp only [hs.Qr, hs.Qc, hs.C]
      rw [fa0, Out.ok_bind, fa1, Out.ok_bind, fa, Out.ok_bind, fb, Out.ok_bind, fo, Out.ok_bind,
        if_pos hdep, r1, Out.ok_bind, r3, Out.ok_bind, r4, Out.ok_bind]
      rfl
    · exact ⟨o1, o2, o3, z1, z2, z3, z4, b1, b2, fun _ => by rw [hlen]; exact x1,
        fun _ => by rw [hlen]; exact x2⟩
    · unfold Lssol.problem
      simp only
      rw [if_pos hdep, Mat.block_ok (by omega) (by omega), Out.ok_bind, Vec.segment_ok (by omega),
        Out.ok_bind, Vec.segment_ok (by omega), Out.ok_bind]
      rfl
    · simp only; omega
    · simp only; omega
    · simp only; omega
    · simp only; omega
    · simp only; omega
    · simp only; omega
    · exact hline
    · intro y
      unfold fullX
      rw [if_pos hdep, ← linesIff]
      have k1 := fun i => reduce_row a.A s.dep.M (by rw [z2, hds.rows]) r1 i y
      simp only [z2] at k1
      unfold LssolProblem.Lines
      have f1 : ∀ i, (Mat.mk a.line A.cols fun i c => A.get i c).rowMul i y
          = A.rowMul i y := by intro i; simp [Mat.rowMul]
      simp only [f1, k1, zero_add]
    · intro y
      unfold fullX
      simp only
      rw [if_pos hdep, x3 y]
      unfold BoundsAt
      have hreps : ∀ v, v ∈ reps s.dep.deps ↔ v ∈ reps deps := fun v => (hds.perm.map _).mem_iff
      constructor
      · rintro ⟨h1, h2⟩ v hv (hR | ⟨d, hd, rfl, h0⟩)
        · exact (lastB _ _).mp (h1 v hv (fun h => hR ((hreps v).mpr h)))
        · exact (lastB _ _).mp (h2 d (hds.perm.mem_iff.mp hd) h0)
      · intro h
        refine ⟨fun k hk hR => (lastB _ _).mpr (h k hk (Or.inl fun h => hR ((hreps k).mp h))),
          fun d hd h0 => (lastB _ _).mpr (h d.2.1 (hwf.2.1 d hd).2
            (Or.inr ⟨d, hds.perm.mem_iff.mpr hd, rfl, h0⟩))⟩
    · intro y
      unfold fullX LssolProblem.obj
      simp only
      rw [if_pos hdep, c3, c4 y, hds.rows, hobj]
    · rfl
    · exact fun h => absurd h hdep
    · exact fun h => absurd h hdep
  · have hnil : s.dep.deps = [] := by
      rw [← List.length_eq_zero_iff]; exact not_not.mp hdep
    have hlen : s.dep.deps.length = 0 := not_not.mp hdep
    refine ⟨{ s with
        AFull := a.A, AL := a.AL, AU := a.AU, nrALines := a.line
        XLFull := b.1, XUFull := b.2, QFull := o.1, CFull := o.2 },
      ⟨o.1, o.2, ⟨a.line, a.A.cols, fun i c => a.A.get (0 + i) (0 + c)⟩,
        ⟨a.line, fun i => a.AL.get (0 + i)⟩, ⟨a.line, fun i => a.AU.get (0 + i)⟩, b.1, b.2⟩,
      ?_, rfl, ?_, ?_, ?_, ?_, ?_, ?_, ?_, ?_, ?_, ?_, ?_, ?_, ?_, ?_, ?_⟩
    · unfold Lssol.updateMatrix
      simp only [hs.Qr, hs.Qc, hs.C]
      rw [fa0, Out.ok_bind, fa1, Out.ok_bind, fa, Out.ok_bind, fb, Out.ok_bind, fo, Out.ok_bind,
        if_neg hdep]
      rfl
    · exact ⟨o1, o2, o3, z1, z2, z3, z4, b1, b2, fun h => absurd h hdep,
        fun h => absurd h hdep⟩
    · unfold Lssol.problem
      simp only
      rw [if_neg hdep, Mat.block_ok (by omega) (by omega), Out.ok_bind, Vec.segment_ok (by omega),
        Out.ok_bind, Vec.segment_ok (by omega), Out.ok_bind]
      rfl
    · simp only; omega
    · simp only; omega
    · simp only; omega
    · simp only; omega
    · simp only; omega
    · simp only; omega
    · exact hline
    · intro y
      unfold fullX
      rw [if_neg hdep, ← linesIff]
      unfold LssolProblem.Lines
      simp only [Mat.rowMul, z2, zero_add]
    · intro y
      unfold fullX InBounds BoundsAt
      rw [if_neg hdep]
      simp only [b1, b2]
      constructor
      · rintro ⟨h1, h2⟩ v hv _
        exact (lastB _ _).mp ⟨h1 v hv, h2 v hv⟩
      · intro h
        have := fun v hv => (lastB _ _).mpr (h v hv (Or.inl (by simp [reps, hnil])))
        exact ⟨fun v hv => (this v hv).1, fun v hv => (this v hv).2⟩
    · intro y
      unfold fullX LssolProblem.obj
      simp only
      rw [if_neg hdep, o3, hobj]
    · rfl
    · exact fun _ => o4
    · intro _
      rw [← aL]
      simp only [genLines, zero_add]
      exact List.map_congr_left fun _ _ => rfl

theorem Spec.DepsAre.ok {n : ℕ} {deps : List (ℕ × ℕ × K)} {ds : DepSt K}
    (h : DepsAre n deps ds) : DepOK n ds ∧ ds.deps.Perm deps ∧
      (deps ≠ [] → DepSpec n deps ds) := by
  obtain ⟨hwf, h | ⟨prev, h⟩⟩ := h
  · obtain ⟨rfl, rfl⟩ := h
    exact ⟨Or.inl rfl, List.Perm.nil, fun h => absurd rfl h⟩
  · obtain ⟨ds', e, hs⟩ := setDependencies_ok hwf (setDependencies_pos h) prev
    rw [h] at e
    cases e
    exact ⟨Or.inr ⟨deps, hwf, hs⟩, hs.perm, fun _ => hs⟩

theorem Qld.hist_ok {n e i g : ℕ} {hist : List (QPInput K)}
    (h : ∀ j ∈ hist, InputFits n e i g j) {s : Qld K} (hs : s.SizedFor n e (i + g * 2))
    (hd : DepOK n s.dep) :
    ∃ s', forEach hist Qld.updateMatrix s = .ok s' ∧ s'.SizedFor n e (i + g * 2) ∧
      s'.dep = s.dep := by
  induction hist generalizing s with
  | nil => exact ⟨s, rfl, hs, rfl⟩
  | cons a t ih =>
    obtain ⟨ha, m1, m2, m3⟩ := h a (by simp)
    obtain ⟨l1, l2, l3⟩ := active_le ha
    obtain ⟨s1, p, e1, hdep, hs1, _⟩ := Qld.assembled ha hs (by omega) (by omega) hd
    obtain ⟨s', e2, hs', hd'⟩ := ih (fun j hj => h j (by simp [hj])) hs1 (by rw [hdep]; exact hd)
    exact ⟨s', by rw [forEach, e1, Out.ok_bind, e2], hs', by rw [hd', hdep]⟩

theorem Lssol.hist_ok {n e i g : ℕ} {hist : List (QPInput K)}
    (h : ∀ j ∈ hist, InputFits n e i g j) {s : Lssol K} (hs : s.SizedFor n (e + i + g))
    (hd : DepOK n s.dep) :
    ∃ s', forEach hist Lssol.updateMatrix s = .ok s' ∧ s'.SizedFor n (e + i + g) ∧
      s'.dep = s.dep := by
  induction hist generalizing s with
  | nil => exact ⟨s, rfl, hs, rfl⟩
  | cons a t ih =>
    obtain ⟨ha, m1, m2, m3⟩ := h a (by simp)
    obtain ⟨l1, l2, l3⟩ := active_le ha
    obtain ⟨s1, p, e1, hdep, hs1, _⟩ := Lssol.assembled ha hs (by omega) hd
    obtain ⟨s', e2, hs', hd'⟩ := ih (fun j hj => h j (by simp [hj])) hs1 (by rw [hdep]; exact hd)
    exact ⟨s', by rw [forEach, e1, Out.ok_bind, e2], hs', by rw [hd', hdep]⟩

/-- Everything about the problem of a run, for QLD. -/
theorem qldRun_spec {n e i g : ℕ} {hist : List (QPInput K)} {inp : QPInput K}
    (h : ∀ j ∈ hist ++ [inp], InputFits n e i g j) {s0 : Qld K} {deps : List (ℕ × ℕ × K)}
    (hd : DepsAre n deps s0.dep) :
    ∃ p, QldRun n e i g hist inp s0 p ∧ (∀ p', QldRun n e i g hist inp s0 p' → p' = p) ∧
      p.C.size = n - deps.length ∧ p.Q.rows = n - deps.length ∧ p.Q.cols = n - deps.length ∧
      p.Aeq.cols = n - deps.length ∧ p.Aineq.cols = n - deps.length ∧
      p.XL.size = n - deps.length ∧ p.XU.size = n - deps.length ∧
      p.Aeq.rows = (inp.eq.map EqC.nrEq).sum ∧
      p.Aineq.rows = (inp.inEq.map InEqC.nrInEq).sum + (inp.gen.map GenC.nrGen).sum * 2 ∧
      (∀ y, p.Lines y ↔ SatLines n inp (fullX s0.dep y)) ∧
      (∀ y, InBounds p.XL p.XU y ↔ BoundsAt n inp s0.dep.deps (fullX s0.dep y)) ∧
      (∀ y, p.obj y = objective n inp (fullX s0.dep y)) ∧
      (deps = [] → ∀ a b, p.Q.get a b = (inp.tasks.map fun t => t.q a b).sum +
        if a = b ∧ a < n ∧ |accDiag inp.tasks a| < diagConstant K then diagConstant K else 0) := by
  obtain ⟨hdok, hperm, _⟩ := hd.ok
  obtain ⟨hs0, hdep0⟩ := Qld.updateSize_sized n e i g s0
  obtain ⟨s, e1, hs, hdep⟩ := Qld.hist_ok (hist := hist) (fun j hj => h j (by simp [hj])) hs0
    (by rw [hdep0]; exact hdok)
  obtain ⟨ha, m1, m2, m3⟩ := h inp (by simp)
  obtain ⟨l1, l2, l3⟩ := active_le ha
  rw [hdep0] at hdep
  obtain ⟨s1, p, e2, _, _, e3, r⟩ := Qld.assembled ha hs (by omega) (by omega)
    (by rw [hdep]; exact hdok)
  rw [hdep, hperm.length_eq] at r
  obtain ⟨r1, r2, r3, r4, r5, r6, r7, r8, r9, r10, r11, r12, r13, r14, r15⟩ := r
  refine ⟨p, ⟨s, s1, e1, e2, e3⟩, ?_, r1, r2, r3, r4, r5, r6, r7, r13.trans r8, r14.trans r9,
    r10, r11, r12, fun hnil => r15 (by simp [hnil])⟩
  rintro p' ⟨t, t1, f1, f2, f3⟩
  rw [e1] at f1; cases f1
  rw [e2] at f2; cases f2
  rw [e3] at f3; cases f3
  rfl

/-- Everything about the problem of a run, for LSSOL. -/
theorem lssolRun_spec {n e i g : ℕ} {hist : List (QPInput K)} {inp : QPInput K}
    (h : ∀ j ∈ hist ++ [inp], InputFits n e i g j) {s0 : Lssol K} {deps : List (ℕ × ℕ × K)}
    (hd : DepsAre n deps s0.dep) :
    ∃ p, LssolRun n e i g hist inp s0 p ∧ (∀ p', LssolRun n e i g hist inp s0 p' → p' = p) ∧
      p.C.size = n - deps.length ∧ p.Q.rows = n - deps.length ∧ p.Q.cols = n - deps.length ∧
      p.A.cols = n - deps.length ∧
      p.XL.size = n - deps.length ∧ p.XU.size = n - deps.length ∧
      p.A.rows = (inp.eq.map EqC.nrEq).sum + (inp.inEq.map InEqC.nrInEq).sum +
        (inp.gen.map GenC.nrGen).sum ∧
      (∀ y, p.Lines y ↔ SatLines n inp (fullX s0.dep y)) ∧
      (∀ y, InBounds p.XL p.XU y ↔ BoundsAt n inp s0.dep.deps (fullX s0.dep y)) ∧
      (∀ y, p.obj y = objective n inp (fullX s0.dep y)) ∧
      (deps = [] → ∀ a b, p.Q.get a b = (inp.tasks.map fun t => t.q a b).sum +
        if a = b ∧ a < n ∧ |accDiag inp.tasks a| < diagConstant K then diagConstant K else 0) ∧
      (deps = [] → genLines n p.A.rows p.A p.AL p.AU = inp.eq.flatMap (EqC.gLines n) ++
          inp.inEq.flatMap (InEqC.gLines n) ++ inp.gen.flatMap (GenC.gLines n)) := by
  obtain ⟨hdok, hperm, _⟩ := hd.ok
  obtain ⟨hs0, hdep0⟩ := Lssol.updateSize_sized n e i g s0
  obtain ⟨s, e1, hs, hdep⟩ := Lssol.hist_ok (hist := hist) (fun j hj => h j (by simp [hj])) hs0
    (by rw [hdep0]; exact hdok)
  obtain ⟨ha, m1, m2, m3⟩ := h inp (by simp)
  obtain ⟨l1, l2, l3⟩ := active_le ha
  rw [hdep0] at hdep
  obtain ⟨s1, p, e2, _, _, e3, r⟩ := Lssol.assembled ha hs (by omega)
    (by rw [hdep]; exact hdok)
  rw [hdep, hperm.length_eq] at r
  obtain ⟨r1, r2, r3, r4, r6, r7, r8, r10, r11, r12, r13, r15, r16⟩ := r
  refine ⟨p, ⟨s, s1, e1, e2, e3⟩, ?_, r1, r2, r3, r4, r6, r7, r13.trans r8,
    r10, r11, r12, fun hnil => r15 (by simp [hnil]), fun hnil => r16 (by simp [hnil])⟩
  rintro p' ⟨t, t1, f1, f2, f3⟩
  rw [e1] at f1; cases f1
  rw [e2] at f2; cases f2
  rw [e3] at f3; cases f3
  rfl

theorem fullX_nil {n : ℕ} {ds : DepSt K} (hd : DepsAre n [] ds) (y : ℕ → K) : fullX ds y = y := by
  have := hd.ok.2.1
  rw [List.perm_nil] at this
  simp [fullX, this]

end

end Verif
