import Verif.Model.Gripper
import Verif.Props.Contacts
import Verif.Proofs.Layout
import Verif.Proofs.Assembly

/-! # Helper lemmas for the gripper torque constraint -/

set_option autoImplicit false
set_option linter.unusedSectionVars false

namespace Verif

open Finset Spec

section
variable {K : Type} [Field K] [LinearOrder K] [IsStrictOrderedRing K]

namespace Spec

/-- `c` is the first contact with this id and its position is `k`. -/
def FirstContact (l : List (BiContact K)) (id : ContactId) (k : ℕ) (c : BiContact K) : Prop :=
  l[k]? = some c ∧ c.id = id ∧ ∀ (j : ℕ) e, j < k → l[j]? = some e → e.id ≠ id

/-- `Σ |axis · ((pᵢ - origin) × gᵢₖ)| λᵢₖ` over the points `i` of the contact and the generators `k` of
their cones; the weights of the contact start at variable `a` and are stored point after point. -/
def absTorque (g : GripperData K) (c : BiContact K) (a : ℕ) (x : ℕ → K) : K :=
  ∑ i ∈ range c.r1Points.length, ∑ k ∈ range (c.r1Cones.getD i ⟨[]⟩).generators.length,
    |g.axis.dot ((c.r1Points.getD i 0 - g.origin).cross ((c.r1Cones.getD i ⟨[]⟩).generators.getD k 0))|
      * x (a + lamBefore c i + k)

end Spec

theorem gripFind_some {id : ContactId} {l : List (BiContact K)} {k k' : ℕ} {c : BiContact K}
    (h : gripFind id l k = some (k', c)) : ∃ i, k' = k + i ∧ FirstContact l id i c := by
  induction l generalizing k with
  | nil => cases h
  | cons e t ih =>
    unfold gripFind at h
    split at h
    · rename_i he
      cases h
      exact ⟨0, rfl, rfl, (ContactId.eq_iff _ _).mp he, fun j _ hj => by omega⟩
    · rename_i he
      obtain ⟨i, rfl, h1, h2, h3⟩ := ih h
      refine ⟨i + 1, by omega, h1, h2, ?_⟩
      intro j e' hj hje
      cases j with
      | zero =>
        simp at hje
        subst hje
        exact fun h => he ((ContactId.eq_iff _ _).mpr h)
      | succ j => exact h3 j e' (by omega) hje

theorem gripFind_none {id : ContactId} {l : List (BiContact K)} {k : ℕ} :
    gripFind id l k = none ↔ ∀ c ∈ l, c.id ≠ id := by
  induction l generalizing k with
  | nil => simp [gripFind]
  | cons e t ih =>
    unfold gripFind
    split
    · rename_i he
      simp [(ContactId.eq_iff _ _).mp he]
    · rename_i he
      rw [ih]
      simp only [List.mem_cons, forall_eq_or_imp]
      exact ⟨fun h => ⟨fun h' => he ((ContactId.eq_iff _ _).mpr h'), h⟩, fun h => h.2⟩

theorem firstContact_unique {l : List (BiContact K)} {id : ContactId} {k k' : ℕ} {c c' : BiContact K}
    (h : FirstContact l id k c) (h' : FirstContact l id k' c') : k = k' ∧ c = c' := by
  have hk : k = k' := by
    rcases lt_trichotomy k k' with hl | hl | hl
    · exact absurd h.2.1 (h'.2.2 k c hl h.1)
    · exact hl
    · exact absurd h'.2.1 (h.2.2 k' c' hl h'.1)
  subst hk
  have := h.1.symm.trans h'.1
  cases this
  exact ⟨rfl, rfl⟩

theorem lineVal_setAt {A : Mat K} {n i j : ℕ} {v : K} (hj : j < n) (h0 : A.get i j = 0) (x : ℕ → K) :
    lineVal n (⟨A.rows, A.cols, fun a c => if a = i ∧ c = j then v else A.get a c⟩ : Mat K) i x
      = lineVal n A i x + v * x j := by
  unfold lineVal
  dsimp only
  have : ∀ c ∈ range n, (if i = i ∧ c = j then v else A.get i c) * x c
      = A.get i c * x c + if c = j then v * x c else 0 := by
    intro c _
    by_cases h : c = j
    · subst h; simp [h0]
    · simp [h]
  rw [sum_congr rfl this, sum_add_distrib, sum_ite_eq' (range n) j, if_pos (mem_range.mpr hj)]

/-- What is kept while a row is written. -/
structure RowWrite (n line : ℕ) (A A' : Mat K) (col' : ℕ) : Prop where
  rows : A'.rows = A.rows
  cols : A'.cols = A.cols
  other : ∀ i, i ≠ line → ∀ c, A'.get i c = A.get i c
  zero : ∀ c, col' ≤ c → A'.get line c = 0

theorem gripGens_ok (axis T : V3 K) (n line : ℕ) (gens : List (V3 K)) (A : Mat K) (col : ℕ)
    (hl : line < A.rows) (hn : A.cols = n) (hc : col + gens.length ≤ n)
    (h0 : ∀ c, col ≤ c → A.get line c = 0) :
    ∃ A', gripGens axis T line gens (A, col) = .ok (A', col + gens.length) ∧
      RowWrite n line A A' (col + gens.length) ∧
      ∀ x, lineVal n A' line x = lineVal n A line x
        + ∑ k ∈ range gens.length, |axis.dot (T.cross (gens.getD k 0))| * x (col + k) := by
  induction gens generalizing A col with
  | nil => exact ⟨A, rfl, ⟨rfl, rfl, fun _ _ _ => rfl, h0⟩, by simp⟩
  | cons g t ih =>
    simp only [List.length_cons] at hc
    have hset : A.setAt line col |axis.dot (T.cross g)| = .ok ⟨A.rows, A.cols, fun a c =>
        if a = line ∧ c = col then |axis.dot (T.cross g)| else A.get a c⟩ := if_pos ⟨hl, by omega⟩
    obtain ⟨A', e, W, hx⟩ := ih ⟨A.rows, A.cols, fun a c =>
        if a = line ∧ c = col then |axis.dot (T.cross g)| else A.get a c⟩ (col + 1) hl hn (by omega)
      (by
        intro c hcc
        dsimp only
        rw [if_neg (by omega)]
        exact h0 c (by omega))
    refine ⟨A', ?_, ⟨W.rows, W.cols, ?_, ?_⟩, ?_⟩
    · unfold gripGens at e ⊢
      simp only [forEach, hset, Out.ok_bind, Out.pure_eq]
      simp only [Out.pure_eq] at e
      rw [e]
      simp only [List.length_cons]
      congr 2
      omega
    · intro i hi c
      rw [W.other i hi c]
      dsimp only
      rw [if_neg (fun h => hi h.1)]
    · intro c hcc
      simp only [List.length_cons] at hcc
      exact W.zero c (by omega)
    · intro x
      rw [hx x, lineVal_setAt (by omega) (h0 col le_rfl), List.length_cons, sum_range_succ']
      simp only [List.getD_cons_succ, List.getD_cons_zero, add_zero]
      have : ∀ k, col + 1 + k = col + (k + 1) := fun k => by omega
      simp only [this]
      ring

theorem gripPoints_ok (g : GripperData K) (c : BiContact K) (hc : c.r1Cones.length = c.r1Points.length)
    (n line : ℕ) (A : Mat K) (col : ℕ) (hl : line < A.rows) (hn : A.cols = n)
    (hcol : col + lamBefore c c.r1Points.length ≤ n) (h0 : ∀ c, A.get line c = 0) :
    ∃ A', gripPoints g c line (A, col) = .ok (A', col + lamBefore c c.r1Points.length) ∧
      RowWrite n line A A' (col + lamBefore c c.r1Points.length) ∧
      ∀ x, lineVal n A' line x = absTorque g c col x := by
  unfold gripPoints
  rw [hc]
  obtain ⟨s', e, hs⟩ := forRange_inv (n := c.r1Points.length) (s := ((A, col) : Mat K × ℕ))
    (f := fun i s => do
      let p ← vecAt c.r1Points i
      let cone ← vecAt c.r1Cones i
      gripGens g.axis (p - g.origin) line cone.generators s)
    (fun m s => s.2 = col + lamBefore c m ∧ RowWrite n line A s.1 (col + lamBefore c m) ∧
      ∀ x, lineVal n s.1 line x = ∑ i ∈ range m, ∑ k ∈ range (c.r1Cones.getD i ⟨[]⟩).generators.length,
        |g.axis.dot ((c.r1Points.getD i 0 - g.origin).cross
          ((c.r1Cones.getD i ⟨[]⟩).generators.getD k 0))| * x (col + lamBefore c i + k))
    ⟨by simp [lamBefore], ⟨rfl, rfl, fun _ _ _ => rfl, fun c _ => h0 c⟩, fun x => by
      simp [lineVal, h0]⟩
    (by
      rintro i hi ⟨B, col'⟩ ⟨rfl, W, hx⟩
      have hi' : i < c.r1Cones.length := by omega
      have e1 : c.r1Points.getD i 0 = c.r1Points[i] := by simp [hi]
      have e2 : c.r1Cones.getD i ⟨[]⟩ = c.r1Cones[i] := by simp [List.getElem?_eq_getElem hi']
      have e3 : lamBefore c (i + 1) = lamBefore c i + c.r1Cones[i].generators.length := by
        rw [← e2]; simp [lamBefore, Finset.sum_range_succ]
      have hle := lamBefore_mono c (show i + 1 ≤ c.r1Points.length by omega)
      obtain ⟨B', e', W', hx'⟩ := gripGens_ok g.axis (c.r1Points[i] - g.origin) n line
        c.r1Cones[i].generators B (col + lamBefore c i) (by rw [W.rows]; exact hl)
        (W.cols.trans hn) (by omega) W.zero
      refine ⟨(B', col + lamBefore c i + c.r1Cones[i].generators.length), ?_, by rw [e3]; omega, ?_, ?_⟩
      · rw [vecAt_ok hi, Out.ok_bind, vecAt_ok hi', Out.ok_bind]
        exact e'
      · refine ⟨W'.rows.trans W.rows, W'.cols.trans W.cols,
          fun k hk q => (W'.other k hk q).trans (W.other k hk q), ?_⟩
        intro q hq
        exact W'.zero q (by rw [e3] at hq; omega)
      · intro x
        rw [hx' x, hx x, sum_range_succ, e1, e2])
  obtain ⟨h1, h2, h3⟩ := hs
  refine ⟨s'.1, ?_, h2, h3⟩
  rw [e, ← h1]

/-- The grippers whose contact is in the problem. -/
def presents (d : SolverData K) (l : List (GripperData K)) : List (GripperData K) :=
  l.filter fun g => (gripFind g.id d.biCont 0).isSome

/-- Invariant of the loop over the grippers. -/
structure GripInv (d : SolverData K) (N : ℕ) (done : List (GripperData K)) (s : GripSt K) : Prop where
  rows : s.A.rows = N
  cols : s.A.cols = d.nrVars
  bsize : s.b.size = N
  line : s.line = (presents d done).length
  row : ∀ (i : ℕ) g, (presents d done)[i]? = some g → s.b.get i = g.limit ∧
    ∃ k c a, FirstContact d.biCont g.id k c ∧ d.lambdaBegin[k + d.uniCont.length]? = some a ∧
      ∀ x, lineVal d.nrVars s.A i x = absTorque g c a x
  rest : ∀ i, s.line ≤ i → s.b.get i = 0 ∧ ∀ c, s.A.get i c = 0

theorem gripLoop {d : SolverData K} (hlen : ∀ c ∈ d.biCont, c.r1Cones.length = c.r1Points.length)
    (hlam : ∀ (k : ℕ) c, d.biCont[k]? = some c → ∃ a, d.lambdaBegin[k + d.uniCont.length]? = some a ∧
      a + lamBefore c c.r1Points.length ≤ d.nrVars) (N : ℕ) (l done : List (GripperData K))
    (hN : (done ++ l).length ≤ N) (s : GripSt K) (I : GripInv d N done s) :
    ∃ s', forEach l (gripStep d) s = .ok s' ∧ GripInv d N (done ++ l) s' := by
  induction l generalizing done s with
  | nil => exact ⟨s, rfl, by simpa using I⟩
  | cons g t ih =>
    have step : ∃ s1, gripStep d g s = .ok s1 ∧ GripInv d N (done ++ [g]) s1 := by
      cases hf : gripFind g.id d.biCont 0 with
      | none =>
        have hp : presents d (done ++ [g]) = presents d done := by
          simp [presents, List.filter_append, hf]
        refine ⟨s, by unfold gripStep; rw [hf], I.rows, I.cols, I.bsize, ?_, ?_, I.rest⟩
        · rw [hp]; exact I.line
        · rw [hp]; exact I.row
      | some kc =>
        obtain ⟨k, c⟩ := kc
        obtain ⟨k', hk', F⟩ := gripFind_some hf
        rw [Nat.zero_add] at hk'
        subst hk'
        obtain ⟨a, ha, hfit⟩ := hlam k c F.1
        have hp : presents d (done ++ [g]) = presents d done ++ [g] := by
          simp [presents, List.filter_append, hf]
        have hline : s.line < N := by
          have h1 : (presents d done).length ≤ done.length := List.length_filter_le _ _
          have := I.line
          simp at hN
          omega
        obtain ⟨A', e, W, hx⟩ := gripPoints_ok g c (hlen c (List.mem_of_getElem? F.1)) d.nrVars s.line
          s.A a (by rw [I.rows]; exact hline) I.cols hfit (I.rest s.line le_rfl).2
        have hb : s.b.set s.line g.limit = .ok ⟨s.b.size, fun j => if j = s.line then g.limit
            else s.b.get j⟩ := if_pos (by rw [I.bsize]; exact hline)
        refine ⟨⟨A', ⟨s.b.size, fun j => if j = s.line then g.limit else s.b.get j⟩, s.line + 1⟩, ?_,
          W.rows.trans I.rows, W.cols.trans I.cols, I.bsize, ?_, ?_, ?_⟩
        · unfold gripStep
          rw [hf]
          dsimp only
          rw [vecAt_eq_ok.mpr ha, Out.ok_bind, e, Out.ok_bind, hb, Out.ok_bind]
          rfl
        · rw [hp, List.length_append, ← I.line]; rfl
        · rw [hp]
          intro i g' hi
          by_cases hil : i < (presents d done).length
          · rw [List.getElem?_append_left hil] at hi
            obtain ⟨h1, k2, c2, a2, h2, h3, h4⟩ := I.row i g' hi
            have hne : i ≠ s.line := by rw [I.line]; omega
            refine ⟨?_, k2, c2, a2, h2, h3, fun x => ?_⟩
            · dsimp only; rw [if_neg hne]; exact h1
            · rw [← h4 x]
              unfold lineVal
              exact sum_congr rfl fun q _ => by dsimp only; rw [W.other i hne q]
          · have hi2 : i = s.line := by
              have := (List.getElem?_eq_some_iff.mp hi).1
              simp at this
              rw [I.line]
              omega
            subst hi2
            rw [I.line] at hi
            simp at hi
            subst hi
            exact ⟨by simp, k, c, a, F, ha, hx⟩
        · intro i hi
          dsimp only at hi ⊢
          have hne : i ≠ s.line := by omega
          obtain ⟨h1, h2⟩ := I.rest i (by omega)
          rw [if_neg hne]
          exact ⟨h1, fun q => by rw [W.other i hne q]; exact h2 q⟩
    obtain ⟨s1, e1, I1⟩ := step
    obtain ⟨s', e', I'⟩ := ih (done ++ [g]) (by simpa using hN) s1 I1
    refine ⟨s', ?_, by simpa using I'⟩
    simp only [forEach, e1, Out.ok_bind]
    exact e'

end

end Verif
