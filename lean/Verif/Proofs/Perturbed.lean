import Mathlib.Analysis.Calculus.Deriv.MeanValue
import Mathlib.Analysis.SpecialFunctions.ExpDeriv
import Mathlib.Analysis.SpecialFunctions.Exp

/-!
# A critically damped system pushed by a bounded disturbance
-/

set_option autoImplicit false

namespace Verif

/-- A function whose derivative is not positive does not grow. -/
theorem le_of_hasDerivAt_nonpos {f f' : ℝ → ℝ} (h : ∀ t, 0 ≤ t → HasDerivAt f (f' t) t)
    (hn : ∀ t, 0 ≤ t → f' t ≤ 0) {t : ℝ} (ht : 0 ≤ t) : f t ≤ f 0 := by
  have hA : AntitoneOn f (Set.Ici 0) := by
    refine antitoneOn_of_deriv_nonpos (convex_Ici 0)
      (fun s hs => (h s hs).continuousAt.continuousWithinAt)
      (fun s hs => (h s (interior_subset hs)).differentiableAt.differentiableWithinAt) fun s hs => ?_
    rw [(h s (interior_subset hs)).deriv]
    exact hn s (interior_subset hs)
  exact hA (Set.mem_Ici.2 le_rfl) ht ht

theorem hasDerivAt_exp_mul (ω t : ℝ) :
    HasDerivAt (fun τ : ℝ => Real.exp (ω * τ)) (ω * Real.exp (ω * t)) t := by
  have := ((hasDerivAt_id t).const_mul ω).exp
  simpa [mul_comm] using this

/-- One side of `critical_perturbed`, multiplied by `exp (ω t)`. -/
theorem perturbed_le {e v r : ℝ → ℝ} {ω ρ : ℝ} (hω : 0 < ω)
    (h1 : ∀ t, 0 ≤ t → HasDerivAt e (v t) t)
    (h2 : ∀ t, 0 ≤ t → HasDerivAt v (-(ω * ω * e t) - 2 * ω * v t + r t) t)
    (hr : ∀ t, 0 ≤ t → r t ≤ ρ) {t : ℝ} (ht : 0 ≤ t) :
    Real.exp (ω * t) * e t - (e 0 + (v 0 + ω * e 0) * t)
      ≤ ρ / ω * ((Real.exp (ω * t) - 1) / ω - t) := by
  have hg : ∀ t, 0 ≤ t → Real.exp (ω * t) * (v t + ω * e t) - (v 0 + ω * e 0)
      ≤ ρ / ω * (Real.exp (ω * t) - 1) := by
    intro t ht
    have hd : ∀ t, 0 ≤ t → HasDerivAt
        (fun τ => Real.exp (ω * τ) * (v τ + ω * e τ) - ρ / ω * Real.exp (ω * τ))
        (Real.exp (ω * t) * (r t - ρ)) t := by
      intro t ht
      have := ((hasDerivAt_exp_mul ω t).mul ((h2 t ht).add ((h1 t ht).const_mul ω))).sub
        ((hasDerivAt_exp_mul ω t).const_mul (ρ / ω))
      refine this.congr_deriv ?_
      simp only [Pi.add_apply]
      field_simp
      ring
    have := le_of_hasDerivAt_nonpos hd
      (fun t ht => mul_nonpos_of_nonneg_of_nonpos (Real.exp_pos _).le (by linarith [hr t ht])) ht
    simp only [mul_zero, Real.exp_zero, one_mul, mul_one] at this
    linarith
  have hd : ∀ t, 0 ≤ t → HasDerivAt
      (fun τ => Real.exp (ω * τ) * e τ - (v 0 + ω * e 0) * τ
        - ρ / ω * (Real.exp (ω * τ) / ω - τ))
      ((Real.exp (ω * t) * (v t + ω * e t) - (v 0 + ω * e 0)) - ρ / ω * (Real.exp (ω * t) - 1)) t := by
    intro t ht
    have := (((hasDerivAt_exp_mul ω t).mul (h1 t ht)).sub ((hasDerivAt_id t).const_mul (v 0 + ω * e 0))).sub
      ((((hasDerivAt_exp_mul ω t).div_const ω).sub (hasDerivAt_id t)).const_mul (ρ / ω))
    refine this.congr_deriv ?_
    field_simp
    ring
  have := le_of_hasDerivAt_nonpos hd (fun t ht => by linarith [hg t ht]) ht
  simp only [mul_zero, Real.exp_zero, one_mul, sub_zero] at this
  have e1 : ρ / ω * ((Real.exp (ω * t) - 1) / ω - t)
      = ρ / ω * (Real.exp (ω * t) / ω - t) - ρ / ω * (1 / ω) := by ring
  rw [e1]
  linarith

end Verif
