import Mathlib.Analysis.Calculus.Deriv.MeanValue
import Mathlib.Analysis.SpecialFunctions.ExpDeriv

/-!
# Differential inequalities for the damper constraints
-/

set_option autoImplicit false

namespace Verif

/-- A function with nonnegative derivative on `[a, b]` does not decrease from `a` to `b`. -/
theorem le_of_deriv_nonneg {f f' : ℝ → ℝ} {a b : ℝ} (hab : a ≤ b)
    (h : ∀ t, a ≤ t → t ≤ b → HasDerivAt f (f' t) t) (h0 : ∀ t, a < t → t < b → 0 ≤ f' t) : f a ≤ f b := by
  have hm : MonotoneOn f (Set.Icc a b) := by
    refine monotoneOn_of_deriv_nonneg (convex_Icc a b)
      (fun t ht => (h t ht.1 ht.2).continuousAt.continuousWithinAt) (fun t ht => ?_) fun t ht => ?_
    · rw [interior_Icc] at ht
      exact (h t ht.1.le ht.2.le).differentiableAt.differentiableWithinAt
    · rw [interior_Icc] at ht
      rw [(h t ht.1.le ht.2.le).deriv]
      exact h0 t ht.1 ht.2
  exact hm ⟨le_rfl, hab⟩ ⟨hab, le_rfl⟩ hab

/-- A function that starts nonnegative and does not decrease while it is negative stays nonnegative. -/
theorem nonneg_of_deriv {f f' : ℝ → ℝ} (h : ∀ t, 0 ≤ t → HasDerivAt f (f' t) t) (h0 : 0 ≤ f 0)
    (hn : ∀ t, 0 ≤ t → f t < 0 → 0 ≤ f' t) : ∀ t, 0 ≤ t → 0 ≤ f t := by
  intro t ht
  by_contra hlt
  push Not at hlt
  have hc : ContinuousOn f (Set.Icc 0 t) := fun τ hτ => (h τ hτ.1).continuousAt.continuousWithinAt
  have hcl : IsCompact (Set.Icc 0 t ∩ f ⁻¹' Set.Ici 0) :=
    isCompact_Icc.of_isClosed_subset (hc.preimage_isClosed_of_isClosed isClosed_Icc isClosed_Ici)
      Set.inter_subset_left
  obtain ⟨a, ⟨⟨ha0, hat⟩, hfa⟩, hmax⟩ := hcl.exists_isGreatest ⟨0, ⟨le_rfl, ht⟩, h0⟩
  simp only [Set.mem_preimage, Set.mem_Ici] at hfa
  have hle : f a ≤ f t := by
    refine le_of_deriv_nonneg hat (fun τ h1 _ => h τ (ha0.trans h1)) fun τ h1 h2 => hn τ (ha0.trans h1.le) ?_
    by_contra hτ
    push Not at hτ
    exact absurd (hmax ⟨⟨ha0.trans h1.le, h2.le⟩, hτ⟩) (not_le.mpr h1)
  linarith

/-- The same for a function whose rate is at least `-κ` times its value while it is negative. -/
theorem nonneg_of_rate {f f' : ℝ → ℝ} {κ : ℝ} (h : ∀ t, 0 ≤ t → HasDerivAt f (f' t) t) (h0 : 0 ≤ f 0)
    (hn : ∀ t, 0 ≤ t → f t < 0 → -(κ * f t) ≤ f' t) : ∀ t, 0 ≤ t → 0 ≤ f t := by
  have he : ∀ t, HasDerivAt (fun τ => Real.exp (κ * τ)) (κ * Real.exp (κ * t)) t := fun t => by
    have := ((hasDerivAt_id t).const_mul κ).exp
    exact this.congr_deriv (by simp; ring)
  have key := nonneg_of_deriv (f := fun τ => f τ * Real.exp (κ * τ))
    (f' := fun τ => (f' τ + κ * f τ) * Real.exp (κ * τ)) (fun t ht => ((h t ht).mul (he t)).congr_deriv (by ring))
    (by simpa using h0) (fun t ht hneg => by
      have hpos := Real.exp_pos (κ * t)
      have : f t < 0 := by
        by_contra hf
        push Not at hf
        exact absurd hneg (not_lt.mpr (mul_nonneg hf hpos.le))
      have := hn t ht this
      exact mul_nonneg (by linarith) hpos.le)
  intro t ht
  have := key t ht
  by_contra hlt
  push Not at hlt
  exact absurd this (not_le.mpr (mul_neg_of_neg_of_pos hlt (Real.exp_pos _)))

/-- A damper is a barrier.  `D` is the distance beyond the security distance, `R` the width of the zone, `c` the
damping: in the zone the rate one step `dt` ahead is at least `-c D / R`; `r` is one of the two rates with
`r (1 - r dt) = c / R`.  If the approach speed is at most `r D` at the start and, outside of the zone, at most
`r R`, then `D` stays nonnegative, and the approach speed at most `r D`. -/
theorem damper_barrier {D V A : ℝ → ℝ} {R c dt r : ℝ} (hdt : 0 < dt) (hr : 0 ≤ r) (hroot : r * (1 - r * dt) * R = c)
    (hR : 0 < R) (hD : ∀ t, 0 ≤ t → HasDerivAt D (V t) t) (hV : ∀ t, 0 ≤ t → HasDerivAt V (A t) t)
    (hrow : ∀ t, 0 ≤ t → D t ≤ R → -(c * (D t / R)) ≤ V t + dt * A t)
    (hout : ∀ t, 0 ≤ t → R < D t → -(r * R) ≤ V t) (h0 : 0 ≤ D 0) (hv0 : -(r * D 0) ≤ V 0) :
    ∀ t, 0 ≤ t → 0 ≤ D t ∧ -(r * D t) ≤ V t := by
  have hw := nonneg_of_rate (f := fun t => V t + r * D t) (f' := fun t => A t + r * V t) (κ := 1 / dt - r)
    (fun t ht => (hV t ht).add ((hD t ht).const_mul r)) (by linarith) (by
      intro t ht hneg
      have hin : D t ≤ R := by
        by_contra hgt
        push Not at hgt
        have h1 := hout t ht hgt
        have h2 : r * R ≤ r * D t := mul_le_mul_of_nonneg_left hgt.le hr
        linarith
      have h1 := hrow t ht hin
      have h2 : c * (D t / R) = r * (1 - r * dt) * D t := by
        rw [← hroot]; field_simp
      rw [h2] at h1
      have h3 : dt * -((1 / dt - r) * (V t + r * D t)) ≤ dt * (A t + r * V t) := by
        have : dt * -((1 / dt - r) * (V t + r * D t)) = -((1 - r * dt) * (V t + r * D t)) := by
          field_simp
        rw [this]
        nlinarith
      exact le_of_mul_le_mul_left h3 hdt)
  have hDn := nonneg_of_rate (f := D) (f' := V) (κ := r) hD h0 (fun t ht _ => by
    have := hw t ht
    linarith)
  exact fun t ht => ⟨hDn t ht, by have := hw t ht; linarith⟩

/-- A bound on a velocity one step ahead keeps the velocity within the bound. -/
theorem bound_barrier {V A : ℝ → ℝ} {l dt : ℝ} (hdt : 0 < dt) (hV : ∀ t, 0 ≤ t → HasDerivAt V (A t) t)
    (hrow : ∀ t, 0 ≤ t → l ≤ V t + dt * A t) (h0 : l ≤ V 0) : ∀ t, 0 ≤ t → l ≤ V t := by
  have := nonneg_of_rate (f := fun t => V t - l) (f' := A) (κ := 1 / dt)
    (fun t ht => (hV t ht).sub_const l) (by linarith) (by
      intro t ht _
      have h1 := hrow t ht
      have h3 : dt * -(1 / dt * (V t - l)) ≤ dt * A t := by
        have : dt * -(1 / dt * (V t - l)) = -(V t - l) := by field_simp
        rw [this]
        linarith
      exact le_of_mul_le_mul_left h3 hdt)
  intro t ht
  have := this t ht
  linarith

end Verif
