import Verif.Proofs.Multi
import Verif.Props.SetPoint
import Mathlib.Data.List.GetD

/-!
# Properties of the tasks on several robots (C49)
-/

set_option autoImplicit false
set_option linter.unusedSectionVars false

namespace Verif

open Finset Spec

namespace Spec

variable {K : Type}

/-- Which of the two tasks. -/
inductive MultiKind
  | com
  | transform

/-- `update` of the two tasks. -/
def MultiKind.update [CommRing K] (k : MultiKind) (d : SolverData K) (hl : MultiHL K)
    (s : MultiT K) : Out (MultiT K) :=
  match k with
  | .com => s.updateCoM d hl
  | .transform => s.updateTransform d hl

/-- The executions of a task on `robots` of weight `w`: it is constructed, then its stiffness and
dimension weights are set, `updateNrVars` is called with layouts of the robots, and `update` with
the data of the last `updateNrVars`, in any order. -/
inductive MultiRun [Field K] [LinearOrder K] [IsStrictOrderedRing K] (kind : MultiKind)
    (sqrt : K → Out K) (mbs : List (MultiBody K)) (robots : List ℕ) (w : K) :
    Option (SolverData K) → K → Vec K → MultiT K → Prop
  | make (k : K) (W : Vec K) (s : MultiT K) : MultiT.make sqrt mbs robots k W w = .ok s →
      MultiRun kind sqrt mbs robots w none k W s
  | stiffness {od : Option (SolverData K)} {k : K} {W : Vec K} {s : MultiT K} (k' : K)
      (s' : MultiT K) : MultiRun kind sqrt mbs robots w od k W s →
      s.setStiffness sqrt k' = .ok s' → MultiRun kind sqrt mbs robots w od k' W s'
  | dimWeight {od : Option (SolverData K)} {k : K} {W : Vec K} {s : MultiT K} (W' : Vec K) :
      MultiRun kind sqrt mbs robots w od k W s →
      MultiRun kind sqrt mbs robots w od k W' { s with
        dimWeight := W' }
  | nrVars {od : Option (SolverData K)} {k : K} {W : Vec K} {s : MultiT K} (d : SolverData K)
      (s' : MultiT K) : MultiRun kind sqrt mbs robots w od k W s → IsLayout mbs d →
      s.updateNrVars d = .ok s' → MultiRun kind sqrt mbs robots w (some d) k W s'
  | update {d : SolverData K} {k : K} {W : Vec K} {s : MultiT K} (hl : MultiHL K)
      (s' : MultiT K) : MultiRun kind sqrt mbs robots w (some d) k W s →
      kind.update d hl s = .ok s' → MultiRun kind sqrt mbs robots w (some d) k W s'

/-- `1/2 ||sum_i J_i x_i + nA - target||²` weighted by `W`, the Jacobians being applied to the
variables starting at `b i`. -/
def multiLsq [Field K] (W : ℕ → K) (n m : ℕ) (J : ℕ → Mat K) (nA target : ℕ → K) (b : ℕ → ℕ)
    (x : ℕ → K) : K :=
  (∑ a ∈ range m, W a * ((∑ i ∈ range n, rowAt (J i) (b i) x a) + nA a - target a) ^ 2) / 2

/-- First variable of robot number `i` of the list. -/
def robotBegin (mbs : List (MultiBody K)) (robots : List ℕ) (i : ℕ) : ℕ :=
  aBegin mbs (robots.getD i 0)

/-- The acceleration the task asks for. -/
def multiTarget [CommRing K] (k c : K) (hl : MultiHL K) (a : ℕ) : K :=
  k * hl.eval.get a - c * hl.speed.get a

end Spec

section
variable {K : Type} [Field K] [LinearOrder K] [IsStrictOrderedRing K]

theorem isLayout_data {mbs : List (MultiBody K)} {d : SolverData K} (h : IsLayout mbs d) {r : ℕ}
    {mb : MultiBody K} (hr : mbs[r]? = some mb) :
    d.alphaDBegin[r]? = some (aBegin mbs r) ∧ d.alphaD[r]? = some mb.nrDof := by
  obtain ⟨old, uni, bi, deps, g, e⟩ := h
  obtain ⟨d', deps', e', L⟩ := layout_ok old mbs uni bi g.1 g.2
  rw [e] at e'
  cases e'
  refine ⟨(L.dataOK hr).hB, ?_⟩
  rw [L.alphaD, List.getElem?_map, hr]
  rfl

theorem aBegin_succ {mbs : List (MultiBody K)} {r : ℕ} {mb : MultiBody K}
    (hr : mbs[r]? = some mb) : aBegin mbs (r + 1) = aBegin mbs r + mb.nrDof := by
  unfold aBegin
  rw [List.take_add_one, hr]
  simp

theorem aBegin_mono (mbs : List (MultiBody K)) {r r' : ℕ} (h : r ≤ r') :
    aBegin mbs r ≤ aBegin mbs r' := by
  unfold aBegin
  obtain ⟨k, rfl⟩ := Nat.exists_eq_add_of_le h
  rw [List.take_add]
  simp

theorem posLoop_ok {mbs : List (MultiBody K)} {d : SolverData K} (hd : IsLayout mbs d) (b : ℕ)
    (rs : List ℕ) (hrs : ∀ r ∈ rs, ∃ mb, mbs[r]? = some mb) (acc acc' : List ℕ)
    (h : forEach rs (fun r (acc : List ℕ) => do
      let br ← vecAt d.alphaDBegin r
      if br < b then .ub else pure (acc ++ [br - b])) acc = .ok acc') :
    acc' = acc ++ rs.map fun r => aBegin mbs r - b := by
  induction rs generalizing acc with
  | nil =>
    simp only [forEach, Out.ok.injEq] at h
    simp [h]
  | cons r t ih =>
    simp only [forEach] at h
    obtain ⟨m, h1, h2⟩ := Out.bind_eq_ok.1 h
    obtain ⟨br, h3, h4⟩ := Out.bind_eq_ok.1 h1
    obtain ⟨mb, hm⟩ := hrs r (by simp)
    rw [vecAt_eq_ok, (isLayout_data hd hm).1] at h3
    cases h3
    split at h4
    · cases h4
    simp only [Out.pure_eq, Out.ok.injEq] at h4
    subst h4
    rw [ih (fun r' hr' => hrs r' (by simp [hr'])) _ h2]
    simp

theorem massLoop_ok {mbs : List (MultiBody K)} (rs : List ℕ) (m m' : ℕ)
    (h : forEach rs (fun r (m : ℕ) => do
      let mb ← vecAt mbs r
      pure (max m mb.nrDof)) m = .ok m') : ∀ r ∈ rs, ∃ mb, mbs[r]? = some mb := by
  induction rs generalizing m with
  | nil => simp
  | cons r t ih =>
    simp only [forEach] at h
    obtain ⟨m1, h1, h2⟩ := Out.bind_eq_ok.1 h
    obtain ⟨mb, h3, h4⟩ := Out.bind_eq_ok.1 h1
    rw [vecAt_eq_ok] at h3
    intro r' hr'
    rcases List.mem_cons.1 hr' with rfl | hr'
    · exact ⟨mb, h3⟩
    · exact ih _ h2 r' hr'

/-- The state after `updateNrVars` and any number of updates. -/
structure MultiView (mbs : List (MultiBody K)) (robots : List ℕ) (d : SolverData K)
    (s : MultiT K) : Prop where
  layout : IsLayout mbs d
  len : s.posInQ.length = robots.length
  begin_le : ∀ i < robots.length, s.alphaDBegin + s.pos i = robotBegin mbs robots i
  dof : ∀ i < robots.length, ∃ mb, mbs[robots.getD i 0]? = some mb ∧ s.dof d i = mb.nrDof
  square : s.Q.cols = s.Q.rows ∧ s.C.size = s.Q.rows
  Q0 : ∀ a b, ¬ (∃ i < robots.length, inB s.pos (s.dof d) i a ∧ inB s.pos (s.dof d) i b) →
    s.Q.get a b = 0
  C0 : ∀ a, ¬ (∃ i < robots.length, inB s.pos (s.dof d) i a) → s.C.get a = 0

/-- Blocks of different robots are disjoint. -/
theorem MultiView.disjoint {mbs : List (MultiBody K)} {robots : List ℕ} {d : SolverData K}
    {s : MultiT K} (v : MultiView mbs robots d s) (hn : robots.Nodup) (i j : ℕ)
    (hi : i < robots.length) (hj : j < robots.length) (hij : i ≠ j) (a : ℕ)
    (h1 : inB s.pos (s.dof d) i a) : ¬ inB s.pos (s.dof d) j a := by
  intro h2
  obtain ⟨mi, ei, di⟩ := v.dof i hi
  obtain ⟨mj, ej, dj⟩ := v.dof j hj
  have bi := v.begin_le i hi
  have bj := v.begin_le j hj
  unfold robotBegin at bi bj
  unfold inB at h1 h2
  have hne : robots.getD i 0 ≠ robots.getD j 0 := by
    rw [List.getD_eq_getElem _ _ hi, List.getD_eq_getElem _ _ hj]
    intro h
    exact hij ((List.Nodup.getElem_inj_iff hn).1 h)
  rcases Nat.lt_or_gt_of_ne hne with h | h
  · have := aBegin_mono mbs (Nat.succ_le_of_lt h)
    rw [Nat.succ_eq_add_one, aBegin_succ ei] at this
    omega
  · have := aBegin_mono mbs (Nat.succ_le_of_lt h)
    rw [Nat.succ_eq_add_one, aBegin_succ ej] at this
    omega

theorem multi_nrVars_view {mbs : List (MultiBody K)} {d : SolverData K} (hd : IsLayout mbs d)
    {s s' : MultiT K} (hr : ∀ r ∈ s.robots, ∃ mb, mbs[r]? = some mb)
    (h : s.updateNrVars d = .ok s') :
    MultiView mbs s.robots d s' ∧ s'.weight = s.weight ∧ s'.stiffness = s.stiffness ∧
      s'.stiffnessSqrt = s.stiffnessSqrt ∧ s'.dimWeight = s.dimWeight ∧ s'.robots = s.robots := by
  unfold MultiT.updateNrVars at h
  split at h
  · cases h
  rename_i r0 rs hrs
  obtain ⟨b, hb, h⟩ := Out.bind_eq_ok.1 h
  obtain ⟨lb, hlb, h⟩ := Out.bind_eq_ok.1 h
  obtain ⟨la, hla, h⟩ := Out.bind_eq_ok.1 h
  split at h
  · cases h
  dsimp only at h
  obtain ⟨pos, hp, h⟩ := Out.bind_eq_ok.1 h
  simp only [Out.pure_eq, Out.ok.injEq] at h
  subst h
  obtain ⟨m1, m2⟩ := foldl_min_le rs r0
  rw [← hrs] at m1 m2
  obtain ⟨mb, hmb⟩ := hr _ m1
  rw [vecAt_eq_ok, (isLayout_data hd hmb).1] at hb
  cases hb
  have hpos := posLoop_ok hd _ s.robots hr _ _ hp
  rw [List.nil_append] at hpos
  subst hpos
  refine ⟨⟨hd, by simp, ?_, ?_, ⟨rfl, rfl⟩, fun _ _ _ => rfl, fun _ _ => rfl⟩,
    rfl, rfl, rfl, rfl, rfl⟩
  · intro i hi
    have hm : s.robots.getD i 0 ∈ s.robots := by
      rw [List.getD_eq_getElem _ _ hi]
      exact List.getElem_mem _
    have := aBegin_mono mbs (m2 _ hm)
    simp only [MultiT.pos, robotBegin]
    rw [List.getD_eq_getElem _ _ (by simpa using hi), List.getElem_map]
    rw [List.getD_eq_getElem _ _ hi] at this ⊢
    omega
  · intro i hi
    have hm : s.robots.getD i 0 ∈ s.robots := by
      rw [List.getD_eq_getElem _ _ hi]
      exact List.getElem_mem _
    obtain ⟨mb', hmb'⟩ := hr _ hm
    refine ⟨mb', hmb', ?_⟩
    simp only [MultiT.dof]
    rw [List.getD_eq_getElem?_getD, (isLayout_data hd hmb').2]
    rfl

/-- One update: the result, and that the state stays as described. -/
theorem multi_update_view {kind : MultiKind} {mbs : List (MultiBody K)} {robots : List ℕ}
    (hn : kind = .com → robots.Nodup) {d : SolverData K} {s s' : MultiT K}
    (v : MultiView mbs robots d s) {hl : MultiHL K} (h : kind.update d hl s = .ok s') :
    MultiView mbs robots d s' ∧ s'.weight = s.weight ∧ s'.stiffness = s.stiffness ∧
      s'.stiffnessSqrt = s.stiffnessSqrt ∧ s'.dimWeight = s.dimWeight ∧ s'.robots = s.robots ∧
      s'.alphaDBegin = s.alphaDBegin ∧ s'.posInQ = s.posInQ ∧
      ∃ e, s.cSum hl = .ok e ∧
      (∀ i < robots.length, s.pos i + s.dof d i ≤ s'.Q.rows ∧ (hl.J i).cols = s.dof d i ∧
        s.dimWeight.size = (hl.J i).rows) ∧
      (∀ a b, s'.Q.get a b =
        ∑ i ∈ range robots.length, bq s.dimWeight s.pos (s.dof d) hl.J i a b) ∧
      (∀ a, s'.C.get a =
        ∑ i ∈ range robots.length, bc s.dimWeight e.get s.pos (s.dof d) hl.J i a) := by
  have key : ∃ (e : Vec K) (st : Mat K × Vec K), s.cSum hl = .ok e ∧ s' = { s with
        Q := st.1, C := st.2 } ∧ (st.1.rows = s.Q.rows ∧ st.1.cols = s.Q.cols ∧
          st.2.size = s.C.size) ∧
      (∀ i < robots.length, s.pos i + s.dof d i ≤ s.Q.rows ∧ (hl.J i).cols = s.dof d i ∧
        s.dimWeight.size = (hl.J i).rows) ∧
      (∀ a b, st.1.get a b =
        ∑ i ∈ range robots.length, bq s.dimWeight s.pos (s.dof d) hl.J i a b) ∧
      (∀ a, st.2.get a =
        ∑ i ∈ range robots.length, bc s.dimWeight e.get s.pos (s.dof d) hl.J i a) := by
    have hq0 : ∀ a b, ¬ (∃ i < robots.length, inB s.pos (s.dof d) i a ∧ inB s.pos (s.dof d) i b) →
        ∑ i ∈ range robots.length, bq s.dimWeight s.pos (s.dof d) hl.J i a b = 0 := by
      intro a b hne
      refine Finset.sum_eq_zero fun i hi => ?_
      rw [bq, if_neg]
      exact fun hh => hne ⟨i, mem_range.1 hi, hh⟩
    have hc0 : ∀ (e : Vec K) a, ¬ (∃ i < robots.length, inB s.pos (s.dof d) i a) →
        ∑ i ∈ range robots.length, bc s.dimWeight e.get s.pos (s.dof d) hl.J i a = 0 := by
      intro e a hne
      refine Finset.sum_eq_zero fun i hi => ?_
      rw [bc, if_neg]
      exact fun hh => hne ⟨i, mem_range.1 hi, hh⟩
    cases kind with
    | com =>
      simp only [MultiKind.update, MultiT.updateCoM] at h
      split at h
      · cases h
      obtain ⟨e, he, h⟩ := Out.bind_eq_ok.1 h
      obtain ⟨st, hst, h⟩ := Out.bind_eq_ok.1 h
      simp only [Out.pure_eq, Out.ok.injEq] at h
      rw [v.len] at hst
      obtain ⟨l1, l2, l3, l4⟩ := comLoop_ok (v.disjoint (hn rfl)) hst
      refine ⟨e, st, he, h.symm, l1, fun i hi => ⟨(l2 i hi).1, (l2 i hi).2.2.2.1,
        (l2 i hi).2.2.2.2.1⟩, ?_, ?_⟩
      · intro a b
        rw [l3 a b]
        split
        · rfl
        · rename_i hne
          rw [hq0 a b hne]
          exact v.Q0 a b hne
      · intro a
        rw [l4 a]
        split
        · rfl
        · rename_i hne
          rw [hc0 e a hne]
          exact v.C0 a hne
    | transform =>
      simp only [MultiKind.update, MultiT.updateTransform] at h
      split at h
      · cases h
      obtain ⟨e, he, h⟩ := Out.bind_eq_ok.1 h
      obtain ⟨st0, hst0, h⟩ := Out.bind_eq_ok.1 h
      obtain ⟨st, hst, h⟩ := Out.bind_eq_ok.1 h
      simp only [Out.pure_eq, Out.ok.injEq] at h
      rw [v.len] at hst hst0
      obtain ⟨z1, z3, z4⟩ := zeroLoop_ok hst0
      obtain ⟨l1, l2, l3, l4⟩ := addLoop_ok hst
      refine ⟨e, st, he, h.symm, ⟨l1.1.trans z1.1, l1.2.1.trans z1.2.1, l1.2.2.trans z1.2.2⟩,
        fun i hi => ⟨z1.1 ▸ (l2 i hi).1, (l2 i hi).2.2.2.1, (l2 i hi).2.2.2.2.1⟩, ?_, ?_⟩
      · intro a b
        rw [l3 a b, z3 a b]
        split
        · rw [zero_add]
        · rename_i hne
          rw [show (s.Q, s.C).1.get a b = 0 from v.Q0 a b hne, zero_add]
      · intro a
        rw [l4 a, z4 a]
        split
        · rw [zero_add]
        · rename_i hne
          rw [show (s.Q, s.C).2.get a = 0 from v.C0 a hne, zero_add]
  obtain ⟨e, st, he, rfl, ⟨k1, k2, k3⟩, k4, k5, k6⟩ := key
  refine ⟨⟨v.layout, v.len, v.begin_le, v.dof, ⟨?_, ?_⟩, ?_, ?_⟩, rfl, rfl, rfl, rfl, rfl, rfl, rfl,
    e, he, ?_, k5, k6⟩
  · exact k2.trans (v.square.1.trans k1.symm)
  · exact k3.trans (v.square.2.trans k1.symm)
  · intro a b hne
    refine (k5 a b).trans (Finset.sum_eq_zero fun i hi => ?_)
    rw [bq, if_neg]
    exact fun hh => hne ⟨i, mem_range.1 hi, hh⟩
  · intro a hne
    refine (k6 a).trans (Finset.sum_eq_zero fun i hi => ?_)
    rw [bc, if_neg]
    exact fun hh => hne ⟨i, mem_range.1 hi, hh⟩
  · intro i hi
    exact ⟨(k4 i hi).1.trans (le_of_eq k1.symm), (k4 i hi).2⟩

theorem multi_run_view {kind : MultiKind} {sqrt : K → Out K} (hs : SqrtOK sqrt)
    {mbs : List (MultiBody K)} {robots : List ℕ} (hn : kind = .com → robots.Nodup) {w : K}
    {od : Option (SolverData K)} {k : K} {W : Vec K} {s : MultiT K}
    (R : MultiRun kind sqrt mbs robots w od k W s) :
    s.weight = w ∧ s.stiffness = k ∧ s.dimWeight = W ∧ s.robots = robots ∧
      (0 ≤ s.stiffnessSqrt ∧ s.stiffnessSqrt ^ 2 = 4 * k) ∧
      (∀ r ∈ robots, ∃ mb, mbs[r]? = some mb) ∧
      ∀ d, od = some d → MultiView mbs robots d s := by
  induction R with
  | make k W s h =>
    unfold MultiT.make at h
    obtain ⟨r, hr, h⟩ := Out.bind_eq_ok.1 h
    obtain ⟨m, hm, h⟩ := Out.bind_eq_ok.1 h
    simp only [Out.pure_eq, Out.ok.injEq] at h
    subst h
    obtain ⟨r0, r1⟩ := hs.2 _ _ hr
    refine ⟨rfl, rfl, rfl, rfl, ⟨by dsimp only; linarith, ?_⟩, massLoop_ok _ _ _ hm,
      fun d hd => by cases hd⟩
    dsimp only
    rw [← r1]
    ring
  | stiffness k' s' R h ih =>
    obtain ⟨i1, i2, i3, i4, i5, i6, i7⟩ := ih
    unfold MultiT.setStiffness at h
    obtain ⟨r, hr, h⟩ := Out.bind_eq_ok.1 h
    simp only [Out.pure_eq, Out.ok.injEq] at h
    subst h
    obtain ⟨r0, r1⟩ := hs.2 _ _ hr
    refine ⟨i1, rfl, i3, i4, ⟨by dsimp only; linarith, ?_⟩, i6, fun d hd => ?_⟩
    · dsimp only
      rw [← r1]
      ring
    · have v := i7 d hd
      exact ⟨v.layout, v.len, v.begin_le, v.dof, v.square, v.Q0, v.C0⟩
  | dimWeight W' R ih =>
    obtain ⟨i1, i2, i3, i4, i5, i6, i7⟩ := ih
    refine ⟨i1, i2, rfl, i4, i5, i6, fun d hd => ?_⟩
    have v := i7 d hd
    exact ⟨v.layout, v.len, v.begin_le, v.dof, v.square, v.Q0, v.C0⟩
  | nrVars d s' R hd h ih =>
    obtain ⟨i1, i2, i3, i4, i5, i6, i7⟩ := ih
    obtain ⟨v, j1, j2, j3, j4, j5⟩ := multi_nrVars_view hd (by rw [i4]; exact i6) h
    refine ⟨j1.trans i1, j2.trans i2, j4.trans i3, j5.trans i4, by rw [j3]; exact i5, i6, ?_⟩
    intro d' hd'
    cases hd'
    rw [i4] at v
    exact v
  | update hl s' R h ih =>
    obtain ⟨i1, i2, i3, i4, i5, i6, i7⟩ := ih
    obtain ⟨v, j1, j2, j3, j4, j5, _⟩ := multi_update_view hn (i7 _ rfl) h
    refine ⟨j1.trans i1, j2.trans i2, j4.trans i3, j5.trans i4, by rw [j3]; exact i5, i6, ?_⟩
    intro d' hd'
    cases hd'
    exact v

/-- What the code computes, for both tasks and every execution (the robots of a `MultiCoMTask` being
different): the objective is, up to a constant, the sum over the robots of the squares
`1/2 ||J_i x_i + nA - target||²`, each robot being asked for the whole target on its own.  Missing
for the claim: the cross terms between robots. -/
theorem C49_decoupled_partial {kind : MultiKind} {sqrt : K → Out K} (hs : SqrtOK sqrt)
    {mbs : List (MultiBody K)} {robots : List ℕ} (hn : kind = .com → robots.Nodup) {w : K}
    {d : SolverData K} {k : K} {W : Vec K} {s s' : MultiT K}
    (R : MultiRun kind sqrt mbs robots w (some d) k W s) {hl : MultiHL K}
    (h : kind.update d hl s = .ok s') :
    ∃ c, (0 ≤ c ∧ c ^ 2 = 4 * k) ∧
      (∀ i < robots.length, (hl.J i).rows = W.size ∧
        ∃ mb, mbs[robots.getD i 0]? = some mb ∧ (hl.J i).cols = mb.nrDof) ∧
      ∀ x, s'.task.obj x = ∑ i ∈ range robots.length,
        (w * lsq W.get (hl.J i) hl.normalAcc.get (multiTarget k c hl) (robotBegin mbs robots i) x
          - w * ((∑ a ∈ range W.size,
              W.get a * (multiTarget k c hl a - hl.normalAcc.get a) ^ 2) / 2)) := by
  obtain ⟨i1, i2, i3, i4, i5, i6, i7⟩ := multi_run_view hs hn R
  have v := i7 d rfl
  obtain ⟨v', j1, j2, j3, j4, j5, j6, j7, e, he, hfit, hQ, hC⟩ := multi_update_view hn v h
  refine ⟨s.stiffnessSqrt, i5, ?_, ?_⟩
  · intro i hi
    obtain ⟨_, f2, f3⟩ := hfit i hi
    obtain ⟨mb, m1, m2⟩ := v.dof i hi
    exact ⟨by rw [← f3, i3], mb, m1, by rw [f2, m2]⟩
  · intro x
    have he' : e.get = fun a => multiTarget k s.stiffnessSqrt hl a - hl.normalAcc.get a := by
      unfold MultiT.cSum at he
      obtain ⟨e0, g1, g2⟩ := Out.bind_eq_ok.1 he
      obtain ⟨_, rfl⟩ := subV_eq_ok.1 g1
      obtain ⟨_, rfl⟩ := subV_eq_ok.1 g2
      funext a
      simp [multiTarget, Vec.scale, i2]
    unfold MultiT.task
    rw [multi_obj (n := robots.length) rfl v'.square.1 (fun i hi => ⟨(hfit i hi).1, (hfit i hi).2.1⟩)
      (fun a _ b _ => hQ a b) (fun a _ => hC a) x]
    refine Finset.sum_congr rfl fun i hi => ?_
    rw [mem_range] at hi
    rw [he', lsq_expand, j6, v.begin_le i hi, j1, i1, i3, ← (hfit i hi).2.2, i3]

/-- The claim holds when at most one of the robots can move. -/
theorem C49_one_mobile_partial {kind : MultiKind} {sqrt : K → Out K} (hs : SqrtOK sqrt)
    {mbs : List (MultiBody K)} {robots : List ℕ} (hn : kind = .com → robots.Nodup) {w : K}
    {d : SolverData K} {k : K} {W : Vec K} {s s' : MultiT K}
    (R : MultiRun kind sqrt mbs robots w (some d) k W s) {hl : MultiHL K}
    (h : kind.update d hl s = .ok s') {i0 : ℕ} (hi0 : i0 < robots.length)
    (hone : ∀ i < robots.length, i ≠ i0 → ∀ mb, mbs[robots.getD i 0]? = some mb → mb.nrDof = 0) :
    ∃ c const, (0 ≤ c ∧ c ^ 2 = 4 * k) ∧ ∀ x, s'.task.obj x
      = w * multiLsq W.get robots.length W.size hl.J hl.normalAcc.get (multiTarget k c hl)
          (robotBegin mbs robots) x - const := by
  obtain ⟨c, hc, hsz, hobj⟩ := C49_decoupled_partial hs hn R h
  refine ⟨c, w * ((∑ a ∈ range W.size,
      W.get a * (multiTarget k c hl a - hl.normalAcc.get a) ^ 2) / 2), hc,
    fun x => (hobj x).trans ?_⟩
  have hz : ∀ i ∈ range robots.length, i ≠ i0 → ∀ a,
      rowAt (hl.J i) (robotBegin mbs robots i) x a = 0 := by
    intro i hi hne a
    obtain ⟨_, mb, m1, m2⟩ := hsz i (mem_range.1 hi)
    unfold rowAt
    rw [m2, hone i (mem_range.1 hi) hne mb m1]
    rfl
  rw [Finset.sum_eq_single_of_mem i0 (mem_range.2 hi0)]
  · unfold multiLsq lsq
    rw [(hsz i0 hi0).1]
    congr 3
    refine Finset.sum_congr rfl fun a _ => ?_
    rw [Finset.sum_eq_single_of_mem i0 (mem_range.2 hi0) fun i hi hne => hz i hi hne a]
  · intro i hi hne
    unfold lsq
    rw [(hsz i (mem_range.1 hi)).1, sub_eq_zero]
    congr 2
    refine Finset.sum_congr rfl fun a _ => ?_
    rw [hz i hi hne a]
    ring

/-- How far the code is from the claim: with positive weights, whenever each robot can produce the
target on its own, every minimiser of the task's objective makes the robots together produce the
target plus one extra share `target - nA` for each further robot. -/
theorem C49_overshoot {kind : MultiKind} {sqrt : K → Out K} (hs : SqrtOK sqrt)
    {mbs : List (MultiBody K)} {robots : List ℕ} (hn : kind = .com → robots.Nodup) {w : K}
    (hw : 0 < w) {d : SolverData K} {k : K} {W : Vec K} (hW : ∀ a < W.size, 0 < W.get a)
    {s s' : MultiT K}
    (R : MultiRun kind sqrt mbs robots w (some d) k W s) {hl : MultiHL K}
    (h : kind.update d hl s = .ok s') :
    ∃ c, (0 ≤ c ∧ c ^ 2 = 4 * k) ∧ ∀ x0, (∀ i < robots.length, ∀ a < W.size,
        rowAt (hl.J i) (robotBegin mbs robots i) x0 a + hl.normalAcc.get a
          = multiTarget k c hl a) →
      ∀ x, (∀ y, s'.task.obj x ≤ s'.task.obj y) → ∀ a < W.size,
        (∑ i ∈ range robots.length, rowAt (hl.J i) (robotBegin mbs robots i) x a)
            + hl.normalAcc.get a
          = multiTarget k c hl a
            + ((robots.length : K) - 1) * (multiTarget k c hl a - hl.normalAcc.get a) := by
  obtain ⟨c, hc, hsz, hobj⟩ := C49_decoupled_partial hs hn R h
  refine ⟨c, hc, fun x0 hx0 x hx a ha => ?_⟩
  have hle := hx x0
  rw [hobj, hobj, Finset.sum_sub_distrib, Finset.sum_sub_distrib] at hle
  have h0 : ∀ i ∈ range robots.length,
      w * lsq W.get (hl.J i) hl.normalAcc.get (multiTarget k c hl) (robotBegin mbs robots i) x0
        = 0 := by
    intro i hi
    unfold lsq
    rw [Finset.sum_eq_zero, zero_div, mul_zero]
    intro a ha
    rw [(hsz i (mem_range.1 hi)).1, mem_range] at ha
    rw [hx0 i (mem_range.1 hi) a ha]
    ring
  rw [Finset.sum_eq_zero h0] at hle
  have hterm : ∀ i ∈ range robots.length, ∀ b ∈ range W.size,
      0 ≤ W.get b * (rowAt (hl.J i) (robotBegin mbs robots i) x b + hl.normalAcc.get b
        - multiTarget k c hl b) ^ 2 := fun i _ b hb =>
    mul_nonneg (hW b (mem_range.1 hb)).le (sq_nonneg _)
  have hnn : ∀ i ∈ range robots.length, 0 ≤
      w * lsq W.get (hl.J i) hl.normalAcc.get (multiTarget k c hl) (robotBegin mbs robots i) x := by
    intro i hi
    unfold lsq
    rw [(hsz i (mem_range.1 hi)).1]
    exact mul_nonneg hw.le (div_nonneg (Finset.sum_nonneg (hterm i hi)) (by norm_num))
  have hsum := (Finset.sum_eq_zero_iff_of_nonneg hnn).1
    (le_antisymm (by linarith) (Finset.sum_nonneg hnn))
  have hrow : ∀ i ∈ range robots.length,
      rowAt (hl.J i) (robotBegin mbs robots i) x a = multiTarget k c hl a - hl.normalAcc.get a := by
    intro i hi
    have e := hsum i hi
    unfold lsq at e
    rw [(hsz i (mem_range.1 hi)).1, mul_eq_zero, or_iff_right hw.ne', div_eq_zero_iff,
      or_iff_left (by norm_num)] at e
    have e2 := (Finset.sum_eq_zero_iff_of_nonneg (hterm i hi)).1 e a (mem_range.2 ha)
    rw [mul_eq_zero, or_iff_right (hW a ha).ne', sq_eq_zero_iff] at e2
    linarith
  rw [Finset.sum_congr rfl hrow, Finset.sum_const, card_range, nsmul_eq_mul]
  ring

/-- Without robots, `updateNrVars` is undefined behaviour. -/
theorem C49_no_robot_ub (d : SolverData K) (s : MultiT K) (h : s.robots = []) :
    s.updateNrVars d = .ub := by
  unfold MultiT.updateNrVars
  rw [h]

end

/-! ## The high-level MultiCoMTask -/

namespace Spec

variable {K : Type}

/-- Total mass of robot `r`. -/
def robotMass [CommRing K] (masses : List (List K)) (r : ℕ) : K := ((masses.getD r [])).sum

/-- Total mass of the robots of the task. -/
def totalMass [CommRing K] (masses : List (List K)) (robots : List ℕ) : K :=
  (robots.map (robotMass masses)).sum

end Spec

section
variable {K : Type} [Field K] [DecidableEq K]

theorem foldl_add_eq_sum (l : List K) (a : K) : l.foldl (· + ·) a = a + l.sum := by
  induction l generalizing a with
  | nil => simp
  | cons b t ih => rw [List.foldl_cons, ih, List.sum_cons, add_assoc]

theorem weightLoop1_ok (masses : List (List K)) (rs : List ℕ) (st : List K × K)
    (hr : ∀ r ∈ rs, r < masses.length) :
    forEach rs (fun r (st : List K × K) => do
      let l ← vecAt masses r
      let rm := l.foldl (· + ·) 0
      pure (st.1 ++ [rm], st.2 + rm)) st
      = .ok (st.1 ++ rs.map (robotMass masses), st.2 + totalMass masses rs) := by
  induction rs generalizing st with
  | nil => simp [forEach, totalMass]
  | cons r t ih =>
    have h0 := hr r (by simp)
    have e : masses.getD r [] = masses[r] := List.getD_eq_getElem _ _ h0
    simp only [forEach]
    rw [vecAt_ok h0, Out.ok_bind]
    refine (ih _ (fun r' hr' => hr r' (by simp [hr']))).trans ?_
    simp only [foldl_add_eq_sum, zero_add]
    simp only [totalMass, List.map_cons, List.sum_cons, robotMass, e, List.append_assoc,
      List.singleton_append, add_assoc]

theorem weightLoop2_ok (M : K) (hM : M ≠ 0) (ws acc : List K) :
    forEach ws (fun w (acc : List K) => do
      let q ← fdiv w M
      pure (acc ++ [q])) acc = .ok (acc ++ ws.map (· / M)) := by
  induction ws generalizing acc with
  | nil => simp [forEach]
  | cons w t ih =>
    have e : fdiv w M = .ok (w / M) := if_neg hM
    simp only [forEach, e, Out.ok_bind]
    refine (ih _).trans ?_
    simp

/-- The weights: with a non-zero total mass, each robot gets its share of it and the shares sum to
one; with a zero total mass (and some robot) the result is undefined. -/
theorem C49_weights (masses : List (List K)) (robots : List ℕ)
    (hr : ∀ r ∈ robots, r < masses.length) :
    (totalMass masses robots ≠ 0 → ∃ ws, computeRobotsWeight masses robots = .ok ws ∧
      ws.length = robots.length ∧ ws.sum = 1 ∧
      ∀ i < robots.length, ws[i]? = some (robotMass masses (robots.getD i 0)
        / totalMass masses robots)) ∧
    (totalMass masses robots = 0 → robots ≠ [] → computeRobotsWeight masses robots = .ub) := by
  unfold computeRobotsWeight
  rw [weightLoop1_ok masses robots _ hr, Out.ok_bind]
  dsimp only
  rw [List.nil_append, zero_add]
  constructor
  · intro hM
    refine ⟨_, weightLoop2_ok _ hM _ _, by simp, ?_, ?_⟩
    · rw [List.nil_append, List.map_map]
      have : ∀ l : List ℕ, (l.map ((· / totalMass masses robots) ∘ robotMass masses)).sum
          = (l.map (robotMass masses)).sum / totalMass masses robots := by
        intro l
        induction l with
        | nil => simp
        | cons a t ih => simp only [List.map_cons, List.sum_cons, ih, Function.comp, add_div]
      rw [this]
      exact div_self hM
    · intro i hi
      rw [List.nil_append, List.map_map, List.getElem?_map, List.getElem?_eq_getElem hi,
        List.getD_eq_getElem _ _ hi]
      rfl
  · intro hM hne
    cases robots with
    | nil => exact absurd rfl hne
    | cons r t =>
      simp only [List.map_cons, forEach, hM, fdiv, if_true]
      rfl

namespace Spec

/-- The executions of a high-level `MultiCoMTask` on `robots`, with the masses last used to compute
the weights and the last target. -/
inductive MCoMRun (robots : List ℕ) : List (List K) → V3 K → MultiCoMHL K → Prop
  | make (masses : List (List K)) (target : V3 K) (s : MultiCoMHL K) :
      MultiCoMHL.make masses robots target = .ok s → MCoMRun robots masses target s
  | com {masses : List (List K)} {target : V3 K} {s : MultiCoMHL K} (c : V3 K) :
      MCoMRun robots masses target s → MCoMRun robots masses c (s.setCom c)
  | inertial {masses : List (List K)} {target : V3 K} {s : MultiCoMHL K} (masses' : List (List K))
      (s' : MultiCoMHL K) : MCoMRun robots masses target s → s.updateInertial masses' = .ok s' →
      MCoMRun robots masses' target s'
  | update {masses : List (List K)} {target : V3 K} {s : MultiCoMHL K} (env : List (CoMEnv K))
      (s' : MultiCoMHL K) : MCoMRun robots masses target s → s.update env = .ok s' →
      MCoMRun robots masses target s'

/-- What RBDyn gives for robot number `i` of the list. -/
def comEnvOf (env : List (CoMEnv K)) (robots : List ℕ) (i : ℕ) : CoMEnv K :=
  env.getD (robots.getD i 0) ⟨0, 0, 0, Mat.zero 0 0⟩

/-- Share of robot number `i` of the list in the total mass. -/
def massShare (masses : List (List K)) (robots : List ℕ) (i : ℕ) : K :=
  robotMass masses (robots.getD i 0) / totalMass masses robots

end Spec

theorem mcomRun_inv {robots : List ℕ} {masses : List (List K)} {target : V3 K} {s : MultiCoMHL K}
    (R : MCoMRun robots masses target s) :
    s.com = target ∧ s.robots = robots ∧ computeRobotsWeight masses robots = .ok s.weights := by
  induction R with
  | make masses target s h =>
    unfold MultiCoMHL.make at h
    obtain ⟨w, hw, h⟩ := Out.bind_eq_ok.1 h
    simp only [Out.pure_eq, Out.ok.injEq] at h
    subst h
    exact ⟨rfl, rfl, hw⟩
  | com c R ih => exact ⟨rfl, ih.2.1, ih.2.2⟩
  | inertial masses' s' R h ih =>
    unfold MultiCoMHL.updateInertial at h
    obtain ⟨w, hw, h⟩ := Out.bind_eq_ok.1 h
    simp only [Out.pure_eq, Out.ok.injEq] at h
    subst h
    rw [ih.2.1] at hw
    exact ⟨ih.1, ih.2.1, hw⟩
  | update env s' R h ih =>
    unfold MultiCoMHL.update at h
    obtain ⟨w, hw, h⟩ := Out.bind_eq_ok.1 h
    simp only [Out.pure_eq, Out.ok.injEq] at h
    subst h
    exact ih

/-- What `update` computes, after every history of calls: the error between the target and the
weighted mean of the CoMs, their weighted mean velocity and normal acceleration, and each robot's
weighted Jacobian; the weights are the shares in the total mass (of the masses last given). -/
theorem C49_error {masses : List (List K)} {robots : List ℕ} {target : V3 K} {s : MultiCoMHL K}
    {env : List (CoMEnv K)} (hr : ∀ r ∈ robots, r < masses.length)
    (hM : totalMass masses robots ≠ 0) (he : ∀ r ∈ robots, r < env.length)
    (R : MCoMRun robots masses target s) :
    ∃ s', s.update env = .ok s' ∧
      s'.eval = target - ∑ i ∈ range robots.length,
        massShare masses robots i • (comEnvOf env robots i).com ∧
      s'.speed = ∑ i ∈ range robots.length,
        massShare masses robots i • (comEnvOf env robots i).vel ∧
      s'.normalAcc = ∑ i ∈ range robots.length,
        massShare masses robots i • (comEnvOf env robots i).nacc ∧
      s'.jac = (List.range robots.length).map fun i =>
        ⟨3, (comEnvOf env robots i).jac.cols, fun a b =>
          massShare masses robots i * (comEnvOf env robots i).jac.get a b⟩ := by
  obtain ⟨h1, h2, h3⟩ := mcomRun_inv R
  obtain ⟨ws, w1, w2, w3, w4⟩ := (C49_weights masses robots hr).1 hM
  rw [h3] at w1
  cases w1
  unfold MultiCoMHL.update
  rw [h1, h2]
  obtain ⟨st, hst, I⟩ := forRange_inv (n := robots.length) (f := MultiCoMHL.robotStep env s)
    (s := (target, 0, 0, []))
    (fun n (st : V3 K × V3 K × V3 K × List (Mat K)) =>
      st.1 = target - ∑ i ∈ range n, massShare masses robots i • (comEnvOf env robots i).com ∧
      st.2.1 = ∑ i ∈ range n, massShare masses robots i • (comEnvOf env robots i).vel ∧
      st.2.2.1 = ∑ i ∈ range n, massShare masses robots i • (comEnvOf env robots i).nacc ∧
      st.2.2.2 = (List.range n).map fun i =>
        ⟨3, (comEnvOf env robots i).jac.cols, fun a b =>
          massShare masses robots i * (comEnvOf env robots i).jac.get a b⟩)
    ⟨by simp, by simp, by simp, by simp⟩ (by
      rintro i hi ⟨a, b, c, l⟩ ⟨i1, i2, i3, i4⟩
      simp only at i1 i2 i3 i4
      have hm : robots.getD i 0 = robots[i] := List.getD_eq_getElem _ _ hi
      have hel := he robots[i] (List.getElem_mem _)
      have e1 : vecAt s.robots i = .ok (robots.getD i 0) := by
        rw [h2, vecAt_eq_ok, List.getElem?_eq_getElem hi, hm]
      have e2 : vecAt env (robots.getD i 0) = .ok (comEnvOf env robots i) := by
        unfold comEnvOf
        rw [hm, vecAt_ok hel, List.getD_eq_getElem _ _ hel]
      have e3 : vecAt s.weights i = .ok (massShare masses robots i) := by
        rw [vecAt_eq_ok, w4 i hi]
        rfl
      refine ⟨_, by unfold MultiCoMHL.robotStep; rw [e1, Out.ok_bind, e2, Out.ok_bind, e3]; rfl,
        ?_, ?_, ?_, ?_⟩
      · dsimp only
        rw [i1, Finset.sum_range_succ, sub_sub]
      · dsimp only
        rw [i2, Finset.sum_range_succ]
      · dsimp only
        rw [i3, Finset.sum_range_succ]
      · dsimp only
        rw [i4, List.range_succ, List.map_append]
        rfl)
  rw [hst]
  exact ⟨_, rfl, I.1, I.2.1, I.2.2.1, I.2.2.2⟩

end

namespace MultiEx

/-- Two robots with one prismatic joint each. -/
def mb : MultiBody ℚ := ⟨[⟨"a", 1, none⟩], 1, [-1], [0]⟩

def data : SolverData ℚ :=
  ((layout SolverData.init [mb, mb] [] []).val?.map Prod.fst).getD SolverData.init

theorem isLayout_data : IsLayout [mb, mb] data :=
  ⟨SolverData.init, [], [], [], ⟨by
    intro m hm
    simp only [List.mem_cons, List.not_mem_nil, or_false, or_self] at hm
    subst hm
    intro j hj
    simp [mb] at hj
    subst hj
    simp, by simp⟩, rfl⟩

/-- Each robot moves the mean position along the first axis; the error is one unit along it. -/
def hl : MultiHL ℚ :=
  ⟨[Mat.ofRows 1 [[1], [0], [0]], Mat.ofRows 1 [[1], [0], [0]]],
    Vec.ofList [1, 0, 0], Vec.ofList [0, 0, 0], Vec.ofList [0, 0, 0]⟩

/-- Setting a task up and updating it. -/
def steps (kind : MultiKind) : Out (MultiT ℚ × MultiT ℚ) := do
  let s0 ← MultiT.make SetPointEx.sq [mb, mb] [0, 1] 1 (Vec.ofList [1, 1, 1]) 10
  let s ← s0.updateNrVars data
  let s' ← kind.update data hl s
  pure (s, s')

theorem run {kind : MultiKind} {s s' : MultiT ℚ} (h : steps kind = .ok (s, s')) :
    MultiRun kind SetPointEx.sq [mb, mb] [0, 1] 10 (some data) 1 (Vec.ofList [1, 1, 1]) s ∧
      kind.update data hl s = .ok s' := by
  unfold steps at h
  obtain ⟨s0, h0, h⟩ := Out.bind_eq_ok.1 h
  obtain ⟨s1, h1, h⟩ := Out.bind_eq_ok.1 h
  obtain ⟨s2, h2, h⟩ := Out.bind_eq_ok.1 h
  simp only [Out.pure_eq, Out.ok.injEq, Prod.mk.injEq] at h
  obtain ⟨rfl, rfl⟩ := h
  exact ⟨.nrVars data _ (.make 1 _ s0 h0) isLayout_data h1, h2⟩

end MultiEx

open MultiEx in
/-- Two robots: the objective is not the square of the joint error, for either task and whatever
the constant: the code's objective is `10 (1/2 (x0 - 1)² + 1/2 (x1 - 1)² - 1)`, the joint one would
be `10 * 1/2 (x0 + x1 - 1)²` up to a constant. -/
theorem C49_counterexample (kind : MultiKind) : ∃ s s',
    MultiRun kind SetPointEx.sq [mb, mb] [0, 1] 10 (some data) 1 (Vec.ofList [1, 1, 1]) s ∧
    kind.update data hl s = .ok s' ∧
    (∀ x, s'.task.obj x = 10 * ((x 0 - 1) ^ 2 / 2 + (x 1 - 1) ^ 2 / 2 - 1)) ∧
    ¬ ∃ const, ∀ x, s'.task.obj x
      = 10 * multiLsq (Vec.ofList [1, 1, 1]).get 2 3 hl.J hl.normalAcc.get (multiTarget 1 2 hl)
          (robotBegin [mb, mb] [0, 1]) x - const := by
  have h : ∃ s s', steps kind = .ok (s, s') ∧
      ∀ x, s'.task.obj x = 10 * ((x 0 - 1) ^ 2 / 2 + (x 1 - 1) ^ 2 / 2 - 1) := by
    cases kind
    · refine ⟨_, _, rfl, fun x => ?_⟩
      simp [TaskQC.obj, MultiT.task, Finset.sum_range_succ, hl, Vec.ofList, Mat.ofRows, mb,
        MultiBody.nrDof, Mat.zero, Vec.const, Vec.scale]
      ring
    · refine ⟨_, _, rfl, fun x => ?_⟩
      simp [TaskQC.obj, MultiT.task, Finset.sum_range_succ, hl, Vec.ofList, Mat.ofRows, mb,
        MultiBody.nrDof, Mat.zero, Vec.const, Vec.scale]
      ring
  obtain ⟨s, s', h1, h2⟩ := h
  obtain ⟨h3, h4⟩ := run h1
  refine ⟨s, s', h3, h4, h2, ?_⟩
  rintro ⟨c, hc⟩
  have e0 := hc (fun _ => 0)
  have e1 := hc (fun i => if i = 0 then 1 else -1)
  rw [h2] at e0 e1
  simp [multiLsq, rowAt, Finset.sum_range_succ, hl, MultiHL.J, robotBegin, aBegin, mb,
    MultiBody.nrDof, Vec.ofList, Mat.ofRows, multiTarget] at e0 e1
  linarith

open MultiEx in
/-- A fixed robot and a mobile one meet the hypothesis of `C49_one_mobile_partial`. -/
example : ∀ i < [0, 1].length, i ≠ 1 →
    ∀ m, [(⟨[⟨"f", 0, none⟩], 1, [-1], [0]⟩ : MultiBody ℚ), mb][[0, 1].getD i 0]? = some m →
      m.nrDof = 0 := by
  intro i hi hne m hm
  have : i = 0 := by simp at hi; omega
  subst this
  simp at hm
  subst hm
  simp [MultiBody.nrDof]

/-- Two robots of masses 1 and 3: the weights are a quarter and three quarters. -/
example : computeRobotsWeight [[1], [1, 2]] [0, 1] = .ok [(1 : ℚ) / 4, 3 / 4] := by
  simp [computeRobotsWeight, forEach, vecAt, fdiv]
  norm_num

/-- The hypotheses of `C49_error` are met by these robots. -/
example : ∃ s : MultiCoMHL ℚ, MCoMRun [0, 1] [[1], [1, 2]] ⟨1, 0, 0⟩ s ∧
    totalMass [[1], [1, 2]] [0, 1] ≠ (0 : ℚ) := by
  have h : ∃ s : MultiCoMHL ℚ, MultiCoMHL.make [[1], [1, 2]] [0, 1] ⟨1, 0, 0⟩ = .ok s := by
    have e : computeRobotsWeight [[1], [1, 2]] [0, 1] = .ok [(1 : ℚ) / 4, 3 / 4] := by
      simp [computeRobotsWeight, forEach, vecAt, fdiv]
      norm_num
    unfold MultiCoMHL.make
    rw [e]
    exact ⟨_, rfl⟩
  obtain ⟨s, hs⟩ := h
  exact ⟨s, .make _ _ s hs, by norm_num [totalMass, robotMass]⟩

end Verif
