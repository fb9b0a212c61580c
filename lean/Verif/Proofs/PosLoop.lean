import Verif.Proofs.RotLoop

/-!
# Damped positions seen from a turning frame

A position error driven to zero through its second derivative, in coordinates that turn at a bounded speed and with a
disturbance that vanishes: error and velocity tend to zero exponentially.
-/

set_option autoImplicit false
set_option linter.unusedSectionVars false

namespace Verif

open Spec

/-- An exponential bound from a differential inequality. -/
theorem decay_of_rate {W : ℝ → ℝ} {r G ρ : ℝ} (hr : 0 < r) (hρ : 0 < ρ) (hG : 0 ≤ G) (hW0 : ∀ t, 0 ≤ t → 0 ≤ W t)
    (hW : ∀ t, 0 ≤ t → ∃ W', HasDerivAt W W' t ∧ W' ≤ -(r * W t) + G * Real.exp (-(ρ * t))) :
    ∃ C q : ℝ, 0 < q ∧ q ≤ ρ ∧ ∀ t, 0 ≤ t → W t ≤ C * Real.exp (-(q * t)) := by
  set q := min r ρ / 2 with hq
  have hm : 0 < min r ρ := lt_min hr hρ
  have q0 : 0 < q := by positivity
  have q1 : q ≤ r := by have := min_le_left r ρ; linarith
  have q2 : q < ρ := by have := min_le_right r ρ; linarith
  have hE : ∀ a t : ℝ, HasDerivAt (fun τ => Real.exp (a * τ)) (Real.exp (a * t) * a) t := fun a t => by
    simpa using ((hasDerivAt_id t).const_mul a).exp
  have key : ∀ t, 0 ≤ t → ∃ Y', HasDerivAt (fun τ => W τ * Real.exp (q * τ)
      + G / (ρ - q) * Real.exp ((q - ρ) * τ)) Y' t ∧ Y' ≤ 0 := fun t ht => by
    obtain ⟨W', w1, w2⟩ := hW t ht
    refine ⟨_, (w1.mul (hE q t)).add ((hE (q - ρ) t).const_mul (G / (ρ - q))), ?_⟩
    have e1 : G / (ρ - q) * (Real.exp ((q - ρ) * t) * (q - ρ)) = -(G * Real.exp ((q - ρ) * t)) := by
      have : ρ - q ≠ 0 := by linarith
      field_simp
      ring
    have e2 : Real.exp ((q - ρ) * t) = Real.exp (-(ρ * t)) * Real.exp (q * t) := by
      rw [← Real.exp_add]; congr 1; ring
    have p := Real.exp_pos (q * t)
    have a1 := mul_le_mul_of_nonneg_right w2 p.le
    have a2 := mul_le_mul_of_nonneg_right (mul_le_mul_of_nonneg_right q1 (hW0 t ht)) p.le
    rw [e1, e2]
    linarith
  have hanti : AntitoneOn (fun τ => W τ * Real.exp (q * τ) + G / (ρ - q) * Real.exp ((q - ρ) * τ)) (Set.Ici 0) := by
    refine antitoneOn_of_deriv_nonpos (convex_Ici 0) (fun τ hτ => ?_) (fun τ hτ => ?_) (fun τ hτ => ?_)
    · obtain ⟨W', w1, -⟩ := key τ hτ
      exact w1.continuousAt.continuousWithinAt
    · rw [interior_Ici] at hτ
      obtain ⟨W', w1, -⟩ := key τ (le_of_lt hτ)
      exact w1.differentiableAt.differentiableWithinAt
    · rw [interior_Ici] at hτ
      obtain ⟨W', w1, w2⟩ := key τ (le_of_lt hτ)
      rw [w1.deriv]
      exact w2
  refine ⟨W 0 + G / (ρ - q), q, q0, q2.le, fun t ht => ?_⟩
  have w := hanti (Set.mem_Ici.2 le_rfl) ht ht
  simp only [mul_zero, Real.exp_zero, mul_one] at w
  have hp : 0 ≤ G / (ρ - q) * Real.exp ((q - ρ) * t) :=
    mul_nonneg (div_nonneg hG (by linarith)) (Real.exp_pos _).le
  have := mul_le_mul_of_nonneg_right (show W t * Real.exp (q * t) ≤ W 0 + G / (ρ - q) by linarith)
    (Real.exp_pos (-(q * t))).le
  rwa [mul_assoc, ← Real.exp_add, add_neg_cancel, Real.exp_zero, mul_one] at this

section
variable {p u w g : ℝ → V3 ℝ} {k d B G ρ : ℝ}

/-- Hypotheses on a damped position: `p` is the error, `u` the velocity, `w` the speed at which the coordinates turn and
`g` the disturbance. -/
structure LinDamped (p u w g : ℝ → V3 ℝ) (k d B G ρ : ℝ) : Prop where
  k0 : 0 < k
  d0 : 0 < d
  B0 : 0 ≤ B
  G0 : 0 ≤ G
  ρ0 : 0 < ρ
  pos : ∀ t, 0 ≤ t → HasD3 p (g t - u t - (w t).cross (p t)) t
  vel : ∀ t, 0 ≤ t → HasD3 u (k • p t - d • u t) t
  turn : ∀ t, 0 ≤ t → (w t).dot (w t) ≤ B
  dist : ∀ t, 0 ≤ t → (g t).dot (g t) ≤ G * Real.exp (-(ρ * t))

namespace LinDamped

/-- The bound of the rate at one time. -/
theorem rate_aux {p u w g : V3 ℝ} {e : ℝ} (hk : 0 < k) (he : 0 < e) (hB : w.dot w ≤ B)
    (hB0 : 0 ≤ B) (he1 : e * (3 + 2 * (d ^ 2 / k) + 2 * ((B + 1) / k)) ≤ d) :
    k * (2 * p.dot (g - u - w.cross p)) + 2 * u.dot (k • p - d • u)
        - 2 * e * ((g - u - w.cross p).dot u + p.dot (k • p - d • u))
      ≤ -(e * k / 2 * p.dot p + d * u.dot u) + (2 * k / e + e) * g.dot g := by
  have y1 := V3.young p (d • u) (l := k / 4) (by positivity)
  have e1 : 1 / (4 * (k / 4)) * (d • u).dot (d • u) = d ^ 2 / k * u.dot u := by
    simp only [V3.dot_smul, V3.smul_dot]; field_simp
  have y2 := V3.young (w.cross p) u (l := k / (4 * (B + 1))) (by positivity)
  have e2 : 1 / (4 * (k / (4 * (B + 1)))) = (B + 1) / k := by field_simp
  have e3 := V3.cross_sq_le w p
  have e4 : w.dot w * p.dot p ≤ (B + 1) * p.dot p :=
    mul_le_mul_of_nonneg_right (by linarith) (V3.normSq_nonneg p)
  have e5 := mul_le_mul_of_nonneg_left (e3.trans e4) (show 0 ≤ k / (4 * (B + 1)) by positivity)
  have e6 : k / (4 * (B + 1)) * ((B + 1) * p.dot p) = k / 4 * p.dot p := by field_simp
  have y3 := V3.young p g (l := e / 4) (by positivity)
  have e7 : 1 / (4 * (e / 4)) * g.dot g = 1 / e * g.dot g := by field_simp
  have y4 := V3.young (-g) u (l := 1 / 2) (by norm_num)
  simp only [V3.neg_dot, V3.dot_neg, neg_neg] at y4
  have u0 := V3.normSq_nonneg u
  have x1 : p.dot (g - u - w.cross p) = p.dot g - p.dot u := by
    simp only [V3.dot, V3.cross, V3.sub_x, V3.sub_y, V3.sub_z]; ring
  have x2 : u.dot (k • p - d • u) = k * p.dot u - d * u.dot u := by
    simp only [V3.dot, V3.smul_x, V3.smul_y, V3.smul_z, V3.sub_x, V3.sub_y, V3.sub_z]; ring
  have x3 : (g - u - w.cross p).dot u = g.dot u - u.dot u - (w.cross p).dot u := by
    simp only [V3.dot, V3.sub_x, V3.sub_y, V3.sub_z]; ring
  have x4 : p.dot (k • p - d • u) = k * p.dot p - d * p.dot u := by
    simp only [V3.dot, V3.smul_x, V3.smul_y, V3.smul_z, V3.sub_x, V3.sub_y, V3.sub_z]; ring
  rw [x1, x2, x3, x4]
  rw [e1, V3.dot_smul] at y1
  rw [e2] at y2
  rw [e7] at y3
  have z1 := mul_le_mul_of_nonneg_left y1 he.le
  have z2 := mul_le_mul_of_nonneg_left (y2.trans (add_le_add_left (e6 ▸ e5) _)) he.le
  have z3 := mul_le_mul_of_nonneg_left y3 hk.le
  have z4 := mul_le_mul_of_nonneg_left y4 he.le
  have z5 := mul_le_mul_of_nonneg_right he1 u0
  have e8 : 2 * k / e * g.dot g = 2 * (k * (1 / e * g.dot g)) := by field_simp
  rw [add_mul, e8]
  linarith

/-- Error and velocity tend to zero exponentially. -/
theorem decay (h : LinDamped p u w g k d B G ρ) :
    ∃ C q : ℝ, 0 < q ∧ q ≤ ρ ∧ ∀ t, 0 ≤ t → (p t).dot (p t) + (u t).dot (u t) ≤ C * Real.exp (-(q * t)) := by
  have hk := h.k0
  have hd := h.d0
  have hB := h.B0
  set c : ℝ := 3 + 2 * (d ^ 2 / k) + 2 * ((B + 1) / k) with hc
  have hc0 : 0 < c := by positivity
  set e : ℝ := min (d / c) (min (k / 2) (1 / 2)) with he
  have he0 : 0 < e := lt_min (by positivity) (lt_min (by positivity) (by norm_num))
  have he1 : e * c ≤ d := by
    have := mul_le_mul_of_nonneg_right (min_le_left (d / c) (min (k / 2) (1 / 2))) hc0.le
    rwa [div_mul_cancel₀ _ hc0.ne'] at this
  have he2 : e ≤ k / 2 := (min_le_right _ _).trans (min_le_left _ _)
  have he3 : e ≤ 1 / 2 := (min_le_right _ _).trans (min_le_right _ _)
  set r : ℝ := 2 / 3 * min d (e / 2) with hr
  have hr0 : 0 < r := by have := lt_min hd (half_pos he0); positivity
  have hr1 : 3 / 2 * r ≤ d := by have := min_le_left d (e / 2); rw [hr]; linarith
  have hr2 : 3 / 2 * r ≤ e / 2 := by have := min_le_right d (e / 2); rw [hr]; linarith
  set W : ℝ → ℝ := fun t => k * (p t).dot (p t) + (u t).dot (u t) - 2 * e * (p t).dot (u t) with hW
  have cross : ∀ a b : V3 ℝ, 2 * a.dot b ≤ a.dot a + b.dot b ∧ -(2 * a.dot b) ≤ a.dot a + b.dot b := fun a b => by
    have h1 := V3.normSq_nonneg (a - b)
    have h2 := V3.normSq_nonneg (a + b)
    have e1 : (a - b).dot (a - b) = a.dot a - 2 * a.dot b + b.dot b := by
      simp only [V3.dot, V3.sub_x, V3.sub_y, V3.sub_z]; ring
    have e2 : (a + b).dot (a + b) = a.dot a + 2 * a.dot b + b.dot b := by
      simp only [V3.dot, V3.add_x, V3.add_y, V3.add_z]; ring
    constructor <;> linarith
  have low : ∀ t, k / 2 * (p t).dot (p t) + 1 / 2 * (u t).dot (u t) ≤ W t := fun t => by
    have a := mul_le_mul_of_nonneg_left (cross (p t) (u t)).1 he0.le
    have a2 := mul_le_mul_of_nonneg_right he2 (V3.normSq_nonneg (p t))
    have a3 := mul_le_mul_of_nonneg_right he3 (V3.normSq_nonneg (u t))
    simp only [hW]
    linarith
  have up : ∀ t, W t ≤ 3 / 2 * (k * (p t).dot (p t) + (u t).dot (u t)) := fun t => by
    have a := mul_le_mul_of_nonneg_left (cross (p t) (u t)).2 he0.le
    have a2 := mul_le_mul_of_nonneg_right he2 (V3.normSq_nonneg (p t))
    have a3 := mul_le_mul_of_nonneg_right he3 (V3.normSq_nonneg (u t))
    simp only [hW]
    linarith
  have hG' : 0 ≤ 2 * k / e + e := by positivity
  obtain ⟨C, q, q0, q1, q2⟩ := decay_of_rate (W := W) hr0 h.ρ0 (mul_nonneg hG' h.G0)
    (fun t _ => le_trans (add_nonneg (mul_nonneg (by positivity) (V3.normSq_nonneg _))
      (mul_nonneg (by norm_num) (V3.normSq_nonneg _))) (low t)) fun t ht => by
    have hp := h.pos t ht
    have hu := h.vel t ht
    refine ⟨_, (((hp.dot hp).const_mul k).add (hu.dot hu)).sub ((hp.dot hu).const_mul (2 * e)), ?_⟩
    have a := rate_aux (p := p t) (u := u t) (w := w t) (g := g t) hk he0 (h.turn t ht) hB he1
    have a1 := mul_le_mul_of_nonneg_left (up t) hr0.le
    have a2 := mul_le_mul_of_nonneg_right hr1 (V3.normSq_nonneg (u t))
    have a3 := mul_le_mul_of_nonneg_right hr2 (mul_nonneg hk.le (V3.normSq_nonneg (p t)))
    have a4 := mul_le_mul_of_nonneg_left (h.dist t ht) hG'
    rw [V3.dot_comm (g t - u t - (w t).cross (p t)) (p t), V3.dot_comm (k • p t - d • u t) (u t)]
    linarith
  set l : ℝ := min (k / 2) (1 / 2) with hl
  have hl0 : 0 < l := lt_min (by positivity) (by norm_num)
  refine ⟨C / l, q, q0, q1, fun t ht => ?_⟩
  have a1 := mul_le_mul_of_nonneg_right (min_le_left (k / 2) (1 / 2 : ℝ)) (V3.normSq_nonneg (p t))
  have a2 := mul_le_mul_of_nonneg_right (min_le_right (k / 2) (1 / 2 : ℝ)) (V3.normSq_nonneg (u t))
  rw [← hl] at a1 a2
  have a3 := low t
  have a4 := q2 t ht
  rw [div_mul_eq_mul_div, le_div_iff₀ hl0]
  linarith

end LinDamped
end
end Verif
