import Verif.Proofs.Rotation
import Mathlib.Analysis.Calculus.Deriv.MeanValue
import Mathlib.Analysis.SpecialFunctions.ExpDeriv
import Mathlib.Analysis.Convex.SpecificFunctions.Deriv

/-!
# Damped rotations

A rotation driven by its rotation vector and damped: the energy decreases, the angle stays below half a
turn and tends to zero exponentially.
-/

set_option autoImplicit false
set_option linter.unusedSectionVars false

namespace Verif

open Spec

/-- The sine above a chord. -/
theorem sin_chord {M θ : ℝ} (hM : 0 < M) (hMπ : M < Real.pi) (h0 : 0 ≤ θ) (h1 : θ ≤ M) :
    Real.sin M / M * θ ≤ Real.sin θ := by
  have h0' : (0 : ℝ) ∈ Set.Icc 0 Real.pi := ⟨le_rfl, Real.pi_pos.le⟩
  have hM' : M ∈ Set.Icc 0 Real.pi := ⟨hM.le, hMπ.le⟩
  have ha : 0 ≤ 1 - θ / M := by rw [sub_nonneg, div_le_one hM]; exact h1
  have hb : 0 ≤ θ / M := by positivity
  have h := strictConcaveOn_sin_Icc.concaveOn.2 h0' hM' ha hb (by ring)
  simp only [smul_eq_mul, mul_zero, zero_add, Real.sin_zero, div_mul_cancel₀ _ hM.ne'] at h
  calc _ = θ / M * Real.sin M := by ring
    _ ≤ _ := h

/-- Young's inequality. -/
theorem V3.young (a c : V3 ℝ) {l : ℝ} (hl : 0 < l) : a.dot c ≤ l * a.dot a + 1 / (4 * l) * c.dot c := by
  have h := V3.normSq_nonneg ((2 * l) • a - c)
  have e : ((2 * l) • a - c).dot ((2 * l) • a - c) = 4 * l * (l * a.dot a + 1 / (4 * l) * c.dot c - a.dot c) := by
    simp only [V3.dot, V3.sub_x, V3.sub_y, V3.sub_z, V3.smul_x, V3.smul_y, V3.smul_z]
    field_simp
    ring
  rw [e] at h
  have := nonneg_of_mul_nonneg_right h (by positivity : 0 < 4 * l)
  linarith

/-- The cross product is no longer than the product of the lengths. -/
theorem V3.cross_sq_le (a c : V3 ℝ) : (a.cross c).dot (a.cross c) ≤ a.dot a * c.dot c := by
  have : a.dot a * c.dot c - (a.cross c).dot (a.cross c) = a.dot c ^ 2 := by
    simp only [V3.dot, V3.cross]; ring
  nlinarith [sq_nonneg (a.dot c)]

section
variable {c : ℝ → ℝ} {s w u : ℝ → V3 ℝ} {k d : ℝ}

/-- Hypotheses on a damped rotation: `c` is the cosine of the angle, `s` the axis times its sine, `w`
the rotation vector and `u` the velocity; `s` turns at most at a bounded speed besides what `u` does. -/
structure RotDamped (c : ℝ → ℝ) (s w u : ℝ → V3 ℝ) (k d : ℝ) : Prop where
  k0 : 0 < k
  d0 : 0 < d
  le : ∀ t, c t ≤ 1
  ge : ∀ t, -1 ≤ c t
  cos : ∀ t, 0 ≤ t → HasDerivAt c ((s t).dot (u t)) t
  sin : ∃ b, 0 < b ∧ ∀ t, 0 ≤ t → ∃ D z : V3 ℝ, HasD3 s D t ∧ z.dot z ≤ b ∧
    -(2 * (u t).dot (u t)) + (z.cross (s t)).dot (u t) ≤ D.dot (u t)
  vel : ∀ t, 0 ≤ t → HasD3 u (k • w t - d • u t) t
  vec : ∀ t, 0 ≤ t → -1 < c t → s t = Real.sinc (Real.arccos (c t)) • w t ∧
    (w t).dot (w t) = Real.arccos (c t) ^ 2

namespace RotDamped

/-- The energy. -/
noncomputable def energy (c : ℝ → ℝ) (u : ℝ → V3 ℝ) (k : ℝ) (t : ℝ) : ℝ :=
  k * Real.arccos (c t) ^ 2 + (u t).dot (u t)

theorem energy_deriv (h : RotDamped c s w u k d) {t : ℝ} (h0 : 0 ≤ t) (ht : -1 < c t) :
    HasDerivAt (energy c u k) (-(2 * d * (u t).dot (u t))) t := by
  obtain ⟨v1, v2⟩ := h.vec t h0 ht
  have a := arccos_sq_deriv (h.cos t h0) h.le h.ge ht v1 v2
  have b := (h.vel t h0).dot (h.vel t h0)
  refine ((a.const_mul k).add b).congr_deriv ?_
  simp only [V3.dot, V3.sub_x, V3.sub_y, V3.sub_z, V3.smul_x, V3.smul_y, V3.smul_z]
  ring

theorem cos_cont (h : RotDamped c s w u k d) : ContinuousOn c (Set.Ici 0) := fun t ht =>
  (h.cos t ht).continuousAt.continuousWithinAt

theorem energy_cont (h : RotDamped c s w u k d) : ContinuousOn (energy c u k) (Set.Ici 0) := by
  have hu : ContinuousOn (fun t => (u t).dot (u t)) (Set.Ici 0) := fun t ht =>
    ((h.vel t ht).dot (h.vel t ht)).continuousAt.continuousWithinAt
  exact (((Real.continuous_arccos.comp_continuousOn h.cos_cont).pow 2).const_mul k).add hu

/-- The angle stays below half a turn. -/
theorem stays (h : RotDamped c s w u k d) (h0 : energy c u k 0 < k * Real.pi ^ 2) {t : ℝ}
    (ht : 0 ≤ t) : -1 < c t := by
  by_contra hn
  have hcl : IsCompact (Set.Icc 0 t ∩ {τ | c τ ≤ -1}) :=
    isCompact_Icc.of_isClosed_subset
      ((h.cos_cont.mono Set.Icc_subset_Ici_self).preimage_isClosed_of_isClosed isClosed_Icc isClosed_Iic)
      Set.inter_subset_left
  obtain ⟨T, ⟨⟨T0, -⟩, T2⟩, T3⟩ := hcl.exists_isLeast ⟨t, ⟨ht, le_rfl⟩, not_lt.1 hn⟩
  have hlt : ∀ τ, 0 ≤ τ → τ < T → -1 < c τ := fun τ h1 h2 => by
    by_contra h3
    have : T ≤ τ := T3 ⟨⟨h1, by
      by_contra h4
      have := T3 ⟨⟨ht, le_rfl⟩, not_lt.1 hn⟩
      linarith⟩, not_lt.1 h3⟩
    linarith
  have hanti : AntitoneOn (energy c u k) (Set.Icc 0 T) := by
    refine antitoneOn_of_deriv_nonpos (convex_Icc 0 T)
      (h.energy_cont.mono Set.Icc_subset_Ici_self)
      (fun τ hτ => ?_) (fun τ hτ => ?_)
    · rw [interior_Icc] at hτ
      exact (h.energy_deriv hτ.1.le (hlt τ hτ.1.le hτ.2)).differentiableAt.differentiableWithinAt
    · rw [interior_Icc] at hτ
      rw [(h.energy_deriv hτ.1.le (hlt τ hτ.1.le hτ.2)).deriv]
      have := mul_nonneg (mul_nonneg zero_le_two h.d0.le) (V3.normSq_nonneg (u τ))
      linarith
  have hT := hanti ⟨le_rfl, T0⟩ ⟨T0, le_rfl⟩ T0
  have : Real.arccos (c T) = Real.pi := Real.arccos_eq_pi.2 T2
  have h4 : energy c u k T = k * Real.pi ^ 2 + (u T).dot (u T) := by unfold energy; rw [this]
  have := V3.normSq_nonneg (u T)
  linarith

/-- The energy never grows. -/
theorem energy_le (h : RotDamped c s w u k d) (h0 : energy c u k 0 < k * Real.pi ^ 2) {t1 t2 : ℝ}
    (h1 : 0 ≤ t1) (h2 : t1 ≤ t2) : energy c u k t2 ≤ energy c u k t1 := by
  have hanti : AntitoneOn (energy c u k) (Set.Ici 0) := by
    refine antitoneOn_of_deriv_nonpos (convex_Ici 0) h.energy_cont
      (fun τ hτ => ?_) (fun τ hτ => ?_)
    · rw [interior_Ici] at hτ
      exact (h.energy_deriv (le_of_lt hτ) (h.stays h0 (le_of_lt hτ))).differentiableAt.differentiableWithinAt
    · rw [interior_Ici] at hτ
      rw [(h.energy_deriv (le_of_lt hτ) (h.stays h0 (le_of_lt hτ))).deriv]
      have := mul_nonneg (mul_nonneg zero_le_two h.d0.le) (V3.normSq_nonneg (u τ))
      linarith
  exact hanti h1 (h1.trans h2) h2

/-- Angle and velocity tend to zero exponentially. -/
theorem decay (h : RotDamped c s w u k d) (h0 : energy c u k 0 < k * Real.pi ^ 2) :
    ∃ C r : ℝ, 0 < r ∧ ∀ t, 0 ≤ t →
      Real.arccos (c t) ^ 2 + (u t).dot (u t) ≤ C * Real.exp (-(r * t)) := by
  have hk := h.k0
  have hd := h.d0
  obtain ⟨b, hb, hsin⟩ := h.sin
  -- a bound of the angle
  set M : ℝ := max (Real.sqrt (energy c u k 0 / k)) 1 with hM
  have hM1 : 1 ≤ M := le_max_right _ _
  have hM0 : 0 < M := by linarith
  have hMπ : M < Real.pi := by
    refine max_lt ?_ (by linarith [Real.two_le_pi])
    rw [Real.sqrt_lt' Real.pi_pos, div_lt_iff₀ hk]
    linarith
  have hθM : ∀ t, 0 ≤ t → Real.arccos (c t) ≤ M := fun t ht => by
    have a := h.energy_le h0 le_rfl ht
    have b := V3.normSq_nonneg (u t)
    refine le_trans (Real.le_sqrt_of_sq_le ?_) (le_max_left _ _)
    rw [le_div_iff₀ hk]
    unfold energy at a ⊢
    linarith
  set m : ℝ := Real.sin M / M with hm
  have hm0 : 0 < m := div_pos (Real.sin_pos_of_pos_of_lt_pi hM0 hMπ) hM0
  -- the weight of the cross term
  set ε : ℝ := min (d / (4 + 2 * (d ^ 2 / k) + 2 * (b / k))) (min (k / 2) (1 / 2)) with hε
  have hden : 0 < 4 + 2 * (d ^ 2 / k) + 2 * (b / k) := by positivity
  have hε0 : 0 < ε := lt_min (by positivity) (lt_min (by positivity) (by norm_num))
  have hε1 : ε * (4 + 2 * (d ^ 2 / k) + 2 * (b / k)) ≤ d := by
    have := mul_le_mul_of_nonneg_right (min_le_left (d / (4 + 2 * (d ^ 2 / k) + 2 * (b / k))) (min (k / 2) (1 / 2))) hden.le
    rwa [div_mul_cancel₀ _ hden.ne'] at this
  have hε2 : ε ≤ k / 2 := (min_le_right _ _).trans (min_le_left _ _)
  have hε3 : ε ≤ 1 / 2 := (min_le_right _ _).trans (min_le_right _ _)
  set r : ℝ := 2 / 3 * min d (ε * m) with hr
  have hr0 : 0 < r := by have := lt_min hd (mul_pos hε0 hm0); positivity
  have hr1 : 3 / 2 * r ≤ d := by have := min_le_left d (ε * m); rw [hr]; linarith
  have hr2 : 3 / 2 * r ≤ ε * m := by have := min_le_right d (ε * m); rw [hr]; linarith
  -- facts at one time
  have facts : ∀ t, 0 ≤ t → (s t).dot (s t) ≤ (s t).dot (w t) ∧
      m * Real.arccos (c t) ^ 2 ≤ (s t).dot (w t) ∧
      (s t).dot (s t) ≤ Real.arccos (c t) ^ 2 := fun t ht => by
    obtain ⟨v1, v2⟩ := h.vec t ht (h.stays h0 ht)
    set θ := Real.arccos (c t) with hθ
    have hθ0 : 0 ≤ θ := Real.arccos_nonneg _
    have hsθ : Real.sinc θ * θ = Real.sin θ := by
      rcases eq_or_ne θ 0 with e | e
      · rw [e]; simp
      · rw [Real.sinc_of_ne_zero e, div_mul_cancel₀ _ e]
    have e1 : (s t).dot (w t) = Real.sin θ * θ := by
      rw [v1, V3.smul_dot, v2, ← hsθ]; ring
    have e2 : (s t).dot (s t) = Real.sin θ ^ 2 := by
      rw [v1, V3.smul_dot, V3.dot_smul, v2, ← hsθ]; ring
    have q0 : 0 ≤ Real.sin θ := Real.sin_nonneg_of_nonneg_of_le_pi hθ0 (Real.arccos_le_pi _)
    have q1 : Real.sin θ ≤ θ := Real.sin_le hθ0
    have q2 := sin_chord hM0 hMπ hθ0 (hθM t ht)
    rw [e1, e2]
    refine ⟨by nlinarith, ?_, by nlinarith⟩
    have := mul_le_mul_of_nonneg_right q2 hθ0
    nlinarith
  set W : ℝ → ℝ := fun t => energy c u k t - 2 * ε * (s t).dot (u t) with hW
  have dW : ∀ t, 0 ≤ t → ∃ W', HasDerivAt W W' t ∧ W' ≤ -(r * W t) := fun t ht => by
    obtain ⟨D, z, D1, hz, D2⟩ := hsin t ht
    obtain ⟨f1, f2, f3⟩ := facts t ht
    have he := h.energy_deriv ht (h.stays h0 ht)
    have hx := (D1.dot (h.vel t ht)).const_mul (2 * ε)
    refine ⟨_, he.sub hx, ?_⟩
    have u0 := V3.normSq_nonneg (u t)
    have ex : (s t).dot (k • w t - d • u t) = k * (s t).dot (w t) - d * (s t).dot (u t) := by
      rw [V3.dot_sub, V3.dot_smul, V3.dot_smul]
    rw [ex]
    -- cross terms
    have cs1 : d * (s t).dot (u t) ≤ k / 4 * (s t).dot (s t) + d ^ 2 / k * (u t).dot (u t) := by
      have a := V3.young (s t) (d • u t) (l := k / 4) (by positivity)
      simp only [V3.dot_smul, V3.smul_dot] at a
      have e4 : 1 / (4 * (k / 4)) * (d * (d * (u t).dot (u t))) = d ^ 2 / k * (u t).dot (u t) := by field_simp
      linarith
    have cs3 : -((z.cross (s t)).dot (u t)) ≤ k / 4 * (s t).dot (s t) + b / k * (u t).dot (u t) := by
      have a := V3.young (-(z.cross (s t))) (u t) (l := k / (4 * b)) (by positivity)
      simp only [V3.neg_dot, V3.dot_neg, neg_neg] at a
      have e4 : 1 / (4 * (k / (4 * b))) = b / k := by field_simp
      have e5 := V3.cross_sq_le z (s t)
      have e6 := mul_le_mul_of_nonneg_right hz (V3.normSq_nonneg (s t))
      have e7 := mul_le_mul_of_nonneg_left (e5.trans e6) (show 0 ≤ k / (4 * b) by positivity)
      have e8 : k / (4 * b) * (b * (s t).dot (s t)) = k / 4 * (s t).dot (s t) := by field_simp
      rw [e4] at a
      linarith
    have cs2 : -(2 * (s t).dot (u t)) ≤ Real.arccos (c t) ^ 2 + (u t).dot (u t) := by
      have := V3.normSq_nonneg (s t + u t)
      have e3 : (s t + u t).dot (s t + u t)
          = (s t).dot (s t) + 2 * (s t).dot (u t) + (u t).dot (u t) := by
        simp only [V3.dot, V3.add_x, V3.add_y, V3.add_z]; ring
      linarith
    have hWu : W t ≤ 3 / 2 * (k * Real.arccos (c t) ^ 2 + (u t).dot (u t)) := by
      simp only [hW, energy]
      have a1 := mul_le_mul_of_nonneg_left cs2 hε0.le
      have a2 := mul_le_mul_of_nonneg_right hε2 (sq_nonneg (Real.arccos (c t)))
      have a3 := mul_le_mul_of_nonneg_right hε3 u0
      linarith
    have hrW : r * W t ≤ ε * m * k * Real.arccos (c t) ^ 2 + d * (u t).dot (u t) := by
      have a1 := mul_le_mul_of_nonneg_left hWu hr0.le
      have a2 := mul_le_mul_of_nonneg_right hr1 u0
      have a3 := mul_le_mul_of_nonneg_right hr2 (mul_nonneg hk.le (sq_nonneg (Real.arccos (c t))))
      linarith
    have b1 := mul_le_mul_of_nonneg_left cs1 hε0.le
    have b6 := mul_le_mul_of_nonneg_left cs3 hε0.le
    have b2 := mul_le_mul_of_nonneg_left D2 hε0.le
    have b3 := mul_le_mul_of_nonneg_right hε1 u0
    have b4 := mul_le_mul_of_nonneg_left f1 (mul_nonneg hε0.le hk.le)
    have b5 := mul_le_mul_of_nonneg_left f2 (mul_nonneg hε0.le hk.le)
    linarith
  have hE : ∀ t, HasDerivAt (fun τ => Real.exp (r * τ)) (Real.exp (r * t) * r) t := fun t => by
    simpa using ((hasDerivAt_id t).const_mul r).exp
  have hanti : AntitoneOn (fun τ => W τ * Real.exp (r * τ)) (Set.Ici 0) := by
    refine antitoneOn_of_deriv_nonpos (convex_Ici 0) (fun τ hτ => ?_) (fun τ hτ => ?_) (fun τ hτ => ?_)
    · obtain ⟨W', w1, -⟩ := dW τ hτ
      exact (w1.mul (hE τ)).continuousAt.continuousWithinAt
    · rw [interior_Ici] at hτ
      obtain ⟨W', w1, -⟩ := dW τ (le_of_lt hτ)
      exact (w1.mul (hE τ)).differentiableAt.differentiableWithinAt
    · rw [interior_Ici] at hτ
      obtain ⟨W', w1, w2⟩ := dW τ (le_of_lt hτ)
      have := (w1.mul (hE τ)).deriv
      rw [show (fun τ => W τ * Real.exp (r * τ)) = W * fun τ => Real.exp (r * τ) from rfl, this]
      have := mul_le_mul_of_nonneg_right w2 (Real.exp_pos (r * τ)).le
      linarith
  set l : ℝ := min (k / 2) (1 / 2) with hl
  have hl0 : 0 < l := lt_min (by positivity) (by norm_num)
  refine ⟨W 0 / l, r, hr0, fun t ht => ?_⟩
  have w := hanti (Set.mem_Ici.2 le_rfl) ht ht
  simp only [mul_zero, Real.exp_zero, mul_one] at w
  have w2 : W t ≤ W 0 * Real.exp (-(r * t)) := by
    have := mul_le_mul_of_nonneg_right w (Real.exp_pos (-(r * t))).le
    rwa [mul_assoc, ← Real.exp_add, add_neg_cancel, Real.exp_zero, mul_one] at this
  have w3 : l * (Real.arccos (c t) ^ 2 + (u t).dot (u t)) ≤ W t := by
    obtain ⟨f1, f2, f3⟩ := facts t ht
    have u0 := V3.normSq_nonneg (u t)
    have cs2 : 2 * (s t).dot (u t) ≤ Real.arccos (c t) ^ 2 + (u t).dot (u t) := by
      have := V3.normSq_nonneg (s t - u t)
      have e3 : (s t - u t).dot (s t - u t)
          = (s t).dot (s t) - 2 * (s t).dot (u t) + (u t).dot (u t) := by
        simp only [V3.dot, V3.sub_x, V3.sub_y, V3.sub_z]; ring
      linarith
    simp only [hW, energy]
    have a1 := mul_le_mul_of_nonneg_left cs2 hε0.le
    have a2 := mul_le_mul_of_nonneg_right hε2 (sq_nonneg (Real.arccos (c t)))
    have a3 := mul_le_mul_of_nonneg_right hε3 u0
    have a4 := mul_le_mul_of_nonneg_right (min_le_left (k / 2) (1 / 2 : ℝ)) (sq_nonneg (Real.arccos (c t)))
    have a5 := mul_le_mul_of_nonneg_right (min_le_right (k / 2) (1 / 2 : ℝ)) u0
    rw [← hl] at a4 a5
    linarith
  rw [div_mul_eq_mul_div, le_div_iff₀ hl0]
  linarith

end RotDamped
end
end Verif
