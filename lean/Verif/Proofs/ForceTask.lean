import Verif.Model.ForceTask
import Verif.Proofs.Multi
import Verif.Props.Gripper

/-!
# Lemmas about the contact force tasks
-/

set_option autoImplicit false
set_option linter.unusedSectionVars false

namespace Verif

open Finset Spec

section
variable {K : Type} [Field K] [LinearOrder K] [IsStrictOrderedRing K]

theorem isLayout_lambda {mbs : List (MultiBody K)} {d : SolverData K} (h : IsLayout mbs d) :
    d.lambdaBegin = starts d.totalAlphaD (d.allCont.map BiContact.nL) ∧
    d.lambda = d.allCont.map BiContact.nL ∧
    d.nrVars = d.totalAlphaD + (d.allCont.map BiContact.nL).sum ∧
    (∀ c ∈ d.allCont, c.r1Points.length ≤ c.r1Cones.length) ∧
    d.allCont = d.uniCont.map BiContact.ofUni ++ d.biCont ∧
    d.bilateralBegin = d.totalAlphaD + ((d.uniCont.map BiContact.ofUni).map BiContact.nL).sum := by
  obtain ⟨old, uni, bi, deps, g, e⟩ := h
  obtain ⟨d', deps', e', s⟩ := layout_ok old mbs uni bi g.1 g.2
  rw [e] at e'
  cases e'
  have hu : (uni.map BiContact.ofUni).map BiContact.nL = uni.map UniContact.nL := by
    rw [List.map_map]
    refine List.map_congr_left fun c _ => ?_
    simp [BiContact.nL, BiContact.ofUni, UniContact.nL]
  have e : d.allCont.map BiContact.nL = uni.map UniContact.nL ++ bi.map BiContact.nL := by
    rw [s.allCont, List.map_append, hu]
  refine ⟨by rw [s.lambdaBegin, e], by rw [s.lambda, e], ?_, ?_, ?_, ?_⟩
  · rw [s.nrVars, s.totalLambda, s.nrUniLambda, s.nrBiLambda, e, List.sum_append]
  · rw [s.allCont]
    intro c hc
    rcases List.mem_append.1 hc with hc | hc
    · obtain ⟨u, _, rfl⟩ := List.mem_map.1 hc
      simp [BiContact.ofUni]
    · exact g.2 c hc
  · rw [s.allCont, s.uniCont, s.biCont]
  · unfold SolverData.bilateralBegin SolverData.unilateralBegin SolverData.lambdaBegin0
    rw [s.nrUniLambda, s.uniCont, hu]

theorem contactFind_ok (id : ContactId) (l : List (BiContact K)) (b : ℕ)
    (h : ∀ c ∈ l, c.r1Points.length ≤ c.r1Cones.length) :
    (∃ k c, FirstContact l id k c ∧
      contactFind id l b = .ok (b + ((l.take k).map BiContact.nL).sum, c.nL, c.r1Cones)) ∨
    ((∀ c ∈ l, c.id ≠ id) ∧ contactFind id l b = .ok (b + (l.map BiContact.nL).sum, 0, [])) := by
  induction l generalizing b with
  | nil => exact Or.inr ⟨by simp, by simp [contactFind]⟩
  | cons c t ih =>
    have hc : c.nrLambda = .ok c.nL := BiContact.nrLambda_ok c (h c (by simp))
    unfold contactFind
    rw [hc, Out.ok_bind]
    by_cases he : c.id.eq id = true
    · refine Or.inl ⟨0, c, ⟨rfl, (ContactId.eq_iff _ _).mp he, fun j _ hj => by omega⟩, ?_⟩
      rw [if_pos he]
      simp
    · rw [if_neg he]
      have he' : c.id ≠ id := fun h => he ((ContactId.eq_iff _ _).mpr h)
      rcases ih (b + c.nL) (fun c' hc' => h c' (by simp [hc'])) with ⟨k, c', ⟨f1, f2, f3⟩, e⟩ | ⟨f, e⟩
      · refine Or.inl ⟨k + 1, c', ⟨f1, f2, ?_⟩, ?_⟩
        · intro j e' hj hje
          cases j with
          | zero =>
            simp at hje
            subst hje
            exact he'
          | succ j => exact f3 j e' (by omega) hje
        · rw [e]
          simp [add_assoc]
      · refine Or.inr ⟨by simpa using ⟨he', f⟩, ?_⟩
        rw [e]
        simp [add_assoc]

theorem combo_append (l₁ l₂ : List (V3 K)) (lam : ℕ → K) :
    combo (l₁ ++ l₂) lam = combo l₁ lam + combo l₂ (fun k => lam (l₁.length + k)) := by
  induction l₁ generalizing lam with
  | nil => simp [combo_nil]
  | cons g t ih =>
    rw [List.cons_append, combo_cons, combo_cons, ih, add_assoc]
    simp only [List.length_cons]
    congr 3
    funext k
    congr 1
    omega

/-- The force of all the cones, written on the concatenated list of generators. -/
theorem combo_cones (cones : List (FrictionCone K)) (lam : ℕ → K) :
    combo (cones.flatMap FrictionCone.generators) lam
      = ∑ i ∈ range cones.length, combo (cones.getD i ⟨[]⟩).generators
          (fun k => lam ((∑ j ∈ range i, (cones.getD j ⟨[]⟩).generators.length) + k)) := by
  induction cones generalizing lam with
  | nil => simp [combo_nil]
  | cons c t ih =>
    rw [List.flatMap_cons, combo_append, ih, List.length_cons, Finset.sum_range_succ', add_comm]
    congr 1
    · refine Finset.sum_congr rfl fun i _ => ?_
      rw [List.getD_cons_succ]
      congr 1
      funext k
      rw [Finset.sum_range_succ']
      simp only [List.getD_cons_succ, List.getD_cons_zero]
      congr 1
      omega
    · simp

theorem flat_length (cones : List (FrictionCone K)) :
    (cones.flatMap FrictionCone.generators).length
      = ∑ i ∈ range cones.length, (cones.getD i ⟨[]⟩).generators.length := by
  induction cones with
  | nil => simp
  | cons c t ih =>
    rw [List.flatMap_cons, List.length_append, ih, List.length_cons, Finset.sum_range_succ',
      add_comm]
    simp

theorem colsLoop_ok (gens : List (V3 K)) (m : Mat K) (i : ℕ) (h3 : m.rows = 3)
    (h : i + gens.length ≤ m.cols) :
    forEach gens (fun g (s : Mat K × ℕ) => do
      let m ← s.1.setCol3 s.2 g
      pure (m, s.2 + 1)) (m, i)
      = .ok (⟨m.rows, m.cols, fun a c => if i ≤ c ∧ c < i + gens.length then
          (gens.getD (c - i) 0).toVec.get a else m.get a c⟩, i + gens.length) := by
  induction gens generalizing m i with
  | nil =>
    simp only [forEach, List.length_nil, Nat.add_zero]
    have hno : ∀ c, ¬ (i ≤ c ∧ c < i) := fun c => by omega
    simp only [hno, if_false]
  | cons g t ih =>
    simp only [List.length_cons] at h ⊢
    have e : m.setCol3 i g = .ok ⟨m.rows, m.cols, fun a c =>
        if c = i then g.toVec.get a else m.get a c⟩ := if_pos ⟨h3, by omega⟩
    simp only [forEach, e, Out.ok_bind]
    refine (ih ⟨m.rows, m.cols, fun a c => if c = i then g.toVec.get a else m.get a c⟩ (i + 1) h3
      (show i + 1 + t.length ≤ m.cols by omega)).trans ?_
    congr 2
    · congr
      funext a c
      dsimp only
      by_cases h1 : c = i
      · subst h1
        rw [if_neg (by omega), if_pos rfl, if_pos (by omega)]
        simp
      · by_cases h2 : i + 1 ≤ c ∧ c < i + 1 + t.length
        · rw [if_pos h2, if_pos (by omega)]
          have : c - i = (c - (i + 1)) + 1 := by omega
          rw [this, List.getD_cons_succ]
        · rw [if_neg h2, if_neg h1, if_neg (by omega)]
    · omega

theorem conesLoop_eq (cones : List (FrictionCone K)) (s : Mat K × ℕ) :
    conesLoop cones s = forEach (cones.flatMap FrictionCone.generators)
      (fun g (s : Mat K × ℕ) => do
        let m ← s.1.setCol3 s.2 g
        pure (m, s.2 + 1)) s := by
  induction cones generalizing s with
  | nil => rfl
  | cons c t ih =>
    rw [List.flatMap_cons, forEach_append]
    unfold conesLoop at ih ⊢
    simp only [forEach]
    congr 1
    funext s'
    exact ih s'

/-- The Jacobian of the cones, as filled. -/
theorem conesLoop_ok (cones : List (FrictionCone K)) (junk : ℕ → ℕ → K) :
    ∃ G, conesLoop cones (⟨3, (cones.flatMap FrictionCone.generators).length, junk⟩, 0)
      = .ok (G, (cones.flatMap FrictionCone.generators).length) ∧ G.rows = 3 ∧
      G.cols = (cones.flatMap FrictionCone.generators).length ∧
      ∀ (b : ℕ) (x : ℕ → K) (a : ℕ), rowAt G b x a
        = (combo (cones.flatMap FrictionCone.generators) (fun k => x (b + k))).toVec.get a := by
  refine ⟨_, (conesLoop_eq _ _).trans ((colsLoop_ok _ _ 0 rfl (by simp)).trans (by
    rw [Nat.zero_add])), rfl, rfl, fun b x a => ?_⟩
  unfold rowAt combo
  dsimp only
  have hsum : ∀ (n : ℕ) (f : ℕ → V3 K), (∑ k ∈ range n, f k).toVec.get a
      = ∑ k ∈ range n, (f k).toVec.get a := by
    intro n f
    induction n with
    | zero => simp [V3.toVec]
    | succ n ih =>
      rw [Finset.sum_range_succ, Finset.sum_range_succ, ← ih]
      simp only [V3.toVec, V3.add_x, V3.add_y, V3.add_z]
      split
      · rfl
      · split <;> rfl
  rw [hsum]
  refine Finset.sum_congr rfl fun j hj => ?_
  rw [mem_range] at hj
  rw [if_pos ⟨Nat.zero_le _, by omega⟩, Nat.sub_zero]
  simp only [V3.toVec, V3.smul_x, V3.smul_y, V3.smul_z]
  split
  · ring
  · split <;> ring

end

end Verif
