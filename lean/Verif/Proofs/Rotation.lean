import Verif.Model.Rotation
import Verif.Proofs.Deriv
import Mathlib.Analysis.SpecialFunctions.Trigonometric.Bounds
import Mathlib.Analysis.SpecialFunctions.Trigonometric.InverseDeriv
import Mathlib.Analysis.SpecialFunctions.Trigonometric.Sinc
import Mathlib.Analysis.Calculus.Deriv.Pow

/-!
# Rotations: angle, axis and their derivatives
-/

set_option autoImplicit false
set_option linter.unusedSectionVars false

namespace Verif

open Spec

theorem V3.normSq_nonneg (a : V3 ℝ) : 0 ≤ a.dot a := by
  simp only [V3.dot]
  nlinarith [mul_self_nonneg a.x, mul_self_nonneg a.y, mul_self_nonneg a.z]

theorem V3.eq_zero_of_dot_self {a : V3 ℝ} (h : a.dot a = 0) : a = 0 := by
  simp only [V3.dot] at h
  have hx := mul_self_nonneg a.x
  have hy := mul_self_nonneg a.y
  have hz := mul_self_nonneg a.z
  ext
  · exact mul_self_eq_zero.1 (by linarith)
  · exact mul_self_eq_zero.1 (by linarith)
  · exact mul_self_eq_zero.1 (by linarith)

theorem V3.dot_sq_le (a b : V3 ℝ) : a.dot b ^ 2 ≤ a.dot a * b.dot b := by
  simp only [V3.dot]
  nlinarith [sq_nonneg (a.x * b.y - a.y * b.x), sq_nonneg (a.x * b.z - a.z * b.x),
    sq_nonneg (a.y * b.z - a.z * b.y)]

namespace Spec

/-- `w` is the rotation vector of `R`, in the convention of SpaceVecAlg: `R` maps coordinates of a
frame to coordinates of the frame turned by the angle `|w|` around `w` (Rodrigues' formula), the angle
being less than half a turn. -/
def RotVec (R : M3 ℝ) (w : V3 ℝ) : Prop :=
  w.dot w < Real.pi ^ 2 ∧ ∀ v, R.mulVec v = Real.cos (Real.sqrt (w.dot w)) • v
    - Real.sinc (Real.sqrt (w.dot w)) • w.cross v
    + ((1 - Real.cos (Real.sqrt (w.dot w))) / w.dot w * w.dot v) • w

/-- What is asked of `sva::rotationVelocity`: the rotation vector of every rotation of less than half a
turn. -/
def RotVelOK (rotVel : M3 ℝ → V3 ℝ) : Prop :=
  ∀ R : M3 ℝ, R.IsRot → -1 < R.trace → RotVec R (rotVel R)

end Spec

namespace M3
variable {R : M3 ℝ}

/-- The nine cofactor identities and the norms of the columns. -/
theorem IsRot.ids (h : R.IsRot) :
    (R.r1.y * R.r2.z - R.r1.z * R.r2.y = R.r0.x ∧ R.r1.z * R.r2.x - R.r1.x * R.r2.z = R.r0.y ∧
      R.r1.x * R.r2.y - R.r1.y * R.r2.x = R.r0.z) ∧
    (R.r2.y * R.r0.z - R.r2.z * R.r0.y = R.r1.x ∧ R.r2.z * R.r0.x - R.r2.x * R.r0.z = R.r1.y ∧
      R.r2.x * R.r0.y - R.r2.y * R.r0.x = R.r1.z) ∧
    (R.r0.y * R.r1.z - R.r0.z * R.r1.y = R.r2.x ∧ R.r0.z * R.r1.x - R.r0.x * R.r1.z = R.r2.y ∧
      R.r0.x * R.r1.y - R.r0.y * R.r1.x = R.r2.z) := by
  have c := h.transpose.cross_mulVec
  obtain ⟨⟨a, b, d, e, f, g⟩, x⟩ := h
  have e0 : R.r1.cross R.r2 = R.r0 := by
    have := c ⟨0, 1, 0⟩ ⟨0, 0, 1⟩
    have i1 : R.transpose.mulVec ⟨0, 1, 0⟩ = R.r1 := by ext <;> simp [mulVec, M3.transpose, V3.dot]
    have i2 : R.transpose.mulVec ⟨0, 0, 1⟩ = R.r2 := by ext <;> simp [mulVec, M3.transpose, V3.dot]
    have i3 : R.transpose.mulVec ((⟨0, 1, 0⟩ : V3 ℝ).cross ⟨0, 0, 1⟩) = R.r0 := by
      ext <;> simp [mulVec, M3.transpose, V3.dot]
    rwa [i1, i2, i3] at this
  have e1 : R.r2.cross R.r0 = R.r1 := by
    have := c ⟨0, 0, 1⟩ ⟨1, 0, 0⟩
    have i1 : R.transpose.mulVec ⟨0, 0, 1⟩ = R.r2 := by ext <;> simp [mulVec, M3.transpose, V3.dot]
    have i2 : R.transpose.mulVec ⟨1, 0, 0⟩ = R.r0 := by ext <;> simp [mulVec, M3.transpose, V3.dot]
    have i3 : R.transpose.mulVec ((⟨0, 0, 1⟩ : V3 ℝ).cross ⟨1, 0, 0⟩) = R.r1 := by
      ext <;> simp [mulVec, M3.transpose, V3.dot]
    rwa [i1, i2, i3] at this
  rw [V3.ext_iff] at e0 e1 x
  exact ⟨e0, e1, x⟩

theorem IsRot.norms (h : R.IsRot) :
    (R.r0.x * R.r0.x + R.r0.y * R.r0.y + R.r0.z * R.r0.z = 1 ∧
      R.r1.x * R.r1.x + R.r1.y * R.r1.y + R.r1.z * R.r1.z = 1 ∧
      R.r2.x * R.r2.x + R.r2.y * R.r2.y + R.r2.z * R.r2.z = 1) ∧
    (R.r0.x * R.r0.x + R.r1.x * R.r1.x + R.r2.x * R.r2.x = 1 ∧
      R.r0.y * R.r0.y + R.r1.y * R.r1.y + R.r2.y * R.r2.y = 1 ∧
      R.r0.z * R.r0.z + R.r1.z * R.r1.z + R.r2.z * R.r2.z = 1) := by
  obtain ⟨⟨a, b, d, -⟩, -⟩ := h.transpose
  obtain ⟨⟨a', b', d', -⟩, -⟩ := h
  exact ⟨⟨a', b', d'⟩, a, b, d⟩

theorem IsRot.orth (h : R.IsRot) :
    (R.r0.x * R.r1.x + R.r0.y * R.r1.y + R.r0.z * R.r1.z = 0 ∧
      R.r0.x * R.r2.x + R.r0.y * R.r2.y + R.r0.z * R.r2.z = 0 ∧
      R.r1.x * R.r2.x + R.r1.y * R.r2.y + R.r1.z * R.r2.z = 0) ∧
    (R.r0.x * R.r0.y + R.r1.x * R.r1.y + R.r2.x * R.r2.y = 0 ∧
      R.r0.x * R.r0.z + R.r1.x * R.r1.z + R.r2.x * R.r2.z = 0 ∧
      R.r0.y * R.r0.z + R.r1.y * R.r1.z + R.r2.y * R.r2.z = 0) := by
  obtain ⟨⟨-, -, -, a, b, d⟩, -⟩ := h.transpose
  obtain ⟨⟨-, -, -, a', b', d'⟩, -⟩ := h
  exact ⟨⟨a', b', d'⟩, a, b, d⟩

/-- `sin² = 1 - cos²`. -/
theorem IsRot.vee_sq (h : R.IsRot) : R.vee.dot R.vee = 4 - (R.trace - 1) ^ 2 := by
  obtain ⟨⟨a0, a1, a2⟩, ⟨b0, b1, b2⟩, c0, c1, c2⟩ := h.ids
  obtain ⟨⟨n0, n1, n2⟩, m0, m1, m2⟩ := h.norms
  simp only [vee, V3.dot, trace]
  linear_combination n0 + n1 + n2 + 2 * a0 + 2 * b1 + 2 * c2

/-- The symmetric part of a rotation. -/
theorem IsRot.sym (h : R.IsRot) (v : V3 ℝ) :
    (1 + R.trace) • R.mulVec v = ((1 + R.trace) * ((R.trace - 1) / 2)) • v
      - ((1 + R.trace) / 2) • R.vee.cross v + (R.vee.dot v / 2) • R.vee := by
  obtain ⟨⟨a0, a1, a2⟩, ⟨b0, b1, b2⟩, c0, c1, c2⟩ := h.ids
  obtain ⟨⟨n0, n1, n2⟩, m0, m1, m2⟩ := h.norms
  obtain ⟨⟨o0, o1, o2⟩, p0, p1, p2⟩ := h.orth
  have xx : R.vee.x * R.vee.x = (1 + R.trace) * (1 + 2 * R.r0.x - R.trace) := by
    simp only [vee, trace]; linear_combination n1 + n2 - m0 + 2 * a0
  have yy : R.vee.y * R.vee.y = (1 + R.trace) * (1 + 2 * R.r1.y - R.trace) := by
    simp only [vee, trace]; linear_combination n0 + n2 - m1 + 2 * b1
  have zz : R.vee.z * R.vee.z = (1 + R.trace) * (1 + 2 * R.r2.z - R.trace) := by
    simp only [vee, trace]; linear_combination n0 + n1 - m2 + 2 * c2
  have xy : R.vee.x * R.vee.y = (1 + R.trace) * (R.r0.y + R.r1.x) := by
    simp only [vee, trace]; linear_combination a1 + b0 - o0 - p0
  have xz : R.vee.x * R.vee.z = (1 + R.trace) * (R.r0.z + R.r2.x) := by
    simp only [vee, trace]; linear_combination a2 + c0 - o1 - p1
  have yz : R.vee.y * R.vee.z = (1 + R.trace) * (R.r1.z + R.r2.y) := by
    simp only [vee, trace]; linear_combination b2 + c1 - o2 - p2
  have vx : R.vee.x = R.r1.z - R.r2.y := rfl
  have vy : R.vee.y = R.r2.x - R.r0.z := rfl
  have vz : R.vee.z = R.r0.y - R.r1.x := rfl
  ext
  · simp only [V3.dot, mulVec, V3.smul_x, V3.add_x, V3.sub_x, V3.cross_x]
    linear_combination -(v.x / 2) * xx - (v.y / 2) * xy - (v.z / 2) * xz
      + (1 + R.trace) / 2 * v.z * vy - (1 + R.trace) / 2 * v.y * vz
  · simp only [V3.dot, mulVec, V3.smul_y, V3.add_y, V3.sub_y, V3.cross_y]
    linear_combination -(v.x / 2) * xy - (v.y / 2) * yy - (v.z / 2) * yz
      + (1 + R.trace) / 2 * v.x * vz - (1 + R.trace) / 2 * v.z * vx
  · simp only [V3.dot, mulVec, V3.smul_z, V3.add_z, V3.sub_z, V3.cross_z]
    linear_combination -(v.x / 2) * xz - (v.y / 2) * yz - (v.z / 2) * zz
      + (1 + R.trace) / 2 * v.y * vx - (1 + R.trace) / 2 * v.x * vy

theorem IsRot.trace_le (h : R.IsRot) : R.trace ≤ 3 := by
  have := h.vee_sq
  have h0 := V3.normSq_nonneg R.vee
  nlinarith

theorem IsRot.le_trace (h : R.IsRot) : -1 ≤ R.trace := by
  have := h.vee_sq
  have h0 := V3.normSq_nonneg R.vee
  nlinarith

/-- The cosine of the angle of a rotation. -/
noncomputable def cosAngle (R : M3 ℝ) : ℝ := (R.trace - 1) / 2

/-- The axis of a rotation times the sine of its angle. -/
noncomputable def sinAxis (R : M3 ℝ) : V3 ℝ := (1 / 2 : ℝ) • R.vee

theorem IsRot.cos_le (h : R.IsRot) : R.cosAngle ≤ 1 := by
  have := h.trace_le; unfold cosAngle; linarith

theorem IsRot.le_cos (h : R.IsRot) : -1 ≤ R.cosAngle := by
  have := h.le_trace; unfold cosAngle; linarith

theorem IsRot.sin_sq (h : R.IsRot) : R.sinAxis.dot R.sinAxis = 1 - R.cosAngle ^ 2 := by
  have := h.vee_sq
  simp only [sinAxis, cosAngle, V3.dot, V3.smul_x, V3.smul_y, V3.smul_z] at this ⊢
  linarith

theorem IsRot.sin_arccos (h : R.IsRot) :
    Real.sin (Real.arccos R.cosAngle) ^ 2 = R.sinAxis.dot R.sinAxis := by
  rw [h.sin_sq, Real.sin_arccos, Real.sq_sqrt]
  nlinarith [h.cos_le, h.le_cos]

end M3

/-! ## The formula of SpaceVecAlg -/

theorem svaRotVel_ok : RotVelOK svaRotVel := by
  intro R hR ht
  have c1 := hR.cos_le
  have c0 : -1 < R.cosAngle := by unfold M3.cosAngle; linarith
  have ss := hR.sin_sq
  have sa := hR.sin_arccos
  have e : svaRotVel R = svaSincInv (Real.arccos R.cosAngle) • R.sinAxis := by
    unfold svaRotVel M3.sinAxis
    have : min (max ((R.trace - 1) / 2) (-1)) 1 = R.cosAngle := by
      rw [max_eq_left (show -1 ≤ (R.trace - 1) / 2 by linarith)]
      exact min_eq_left c1
    rw [this]
    ext <;> simp <;> ring
  have hs : ∀ v, R.mulVec v = R.cosAngle • v - R.sinAxis.cross v
      + (R.sinAxis.dot v / (1 + R.cosAngle)) • R.sinAxis := by
    intro v
    have h := hR.sym v
    have hp : (1 + R.trace) ≠ 0 := by linarith
    have hp' : 1 + R.cosAngle ≠ 0 := by linarith
    have hc : 1 + R.cosAngle = (1 + R.trace) / 2 := by unfold M3.cosAngle; ring
    rw [hc]
    rw [V3.ext_iff] at h
    obtain ⟨h1, h2, h3⟩ := h
    simp only [V3.smul_x, V3.smul_y, V3.smul_z, V3.add_x, V3.add_y, V3.add_z, V3.sub_x, V3.sub_y,
      V3.sub_z, V3.cross_x, V3.cross_y, V3.cross_z] at h1 h2 h3
    ext
    · simp only [M3.sinAxis, M3.cosAngle, V3.smul_x, V3.smul_y, V3.smul_z, V3.add_x, V3.sub_x,
        V3.cross_x, V3.dot] at h1 ⊢
      field_simp
      linear_combination 2 * h1
    · simp only [M3.sinAxis, M3.cosAngle, V3.smul_x, V3.smul_y, V3.smul_z, V3.add_y, V3.sub_y,
        V3.cross_y, V3.dot] at h2 ⊢
      field_simp
      linear_combination 2 * h2
    · simp only [M3.sinAxis, M3.cosAngle, V3.smul_x, V3.smul_y, V3.smul_z, V3.add_z, V3.sub_z,
        V3.cross_z, V3.dot] at h3 ⊢
      field_simp
      linear_combination 2 * h3
  rcases c1.lt_or_eq with hc | hc
  · -- the angle is between 0 and π
    set θ := Real.arccos R.cosAngle with hθ
    have hθ0 : 0 < θ := Real.arccos_pos.2 hc
    have hθπ : θ < Real.pi := by
      rcases (Real.arccos_le_pi R.cosAngle).lt_or_eq with h | h
      · exact h
      · exact absurd (Real.arccos_eq_pi.1 h) (by linarith)
    have hsin : 0 < Real.sin θ := Real.sin_pos_of_pos_of_lt_pi hθ0 hθπ
    have hcos : Real.cos θ = R.cosAngle := Real.cos_arccos c0.le hc.le
    have e2 : svaSincInv θ = θ / Real.sin θ := if_neg hθ0.ne'
    have ww : (svaRotVel R).dot (svaRotVel R) = θ ^ 2 := by
      rw [e, e2]
      have : ((θ / Real.sin θ) • R.sinAxis).dot ((θ / Real.sin θ) • R.sinAxis)
          = (θ / Real.sin θ) ^ 2 * R.sinAxis.dot R.sinAxis := by
        simp only [V3.dot, V3.smul_x, V3.smul_y, V3.smul_z]; ring
      rw [this, ← sa]
      field_simp
    refine ⟨by rw [ww]; nlinarith, fun v => ?_⟩
    rw [ww, Real.sqrt_sq hθ0.le, hcos, Real.sinc_of_ne_zero hθ0.ne', hs v, e, e2]
    have h1c : (1 + R.cosAngle) * (1 - R.cosAngle) = Real.sin θ ^ 2 := by rw [sa, ss]; ring
    have hp' : 1 + R.cosAngle ≠ 0 := by linarith
    have hq : 1 - R.cosAngle = Real.sin θ ^ 2 / (1 + R.cosAngle) := by
      field_simp; linarith
    rw [hq]
    ext
    · simp only [V3.smul_x, V3.smul_y, V3.smul_z, V3.add_x, V3.sub_x, V3.cross_x, V3.dot]
      field_simp
    · simp only [V3.smul_x, V3.smul_y, V3.smul_z, V3.add_y, V3.sub_y, V3.cross_y, V3.dot]
      field_simp
    · simp only [V3.smul_x, V3.smul_y, V3.smul_z, V3.add_z, V3.sub_z, V3.cross_z, V3.dot]
      field_simp
  · -- the identity
    have z : R.sinAxis = 0 := V3.eq_zero_of_dot_self (by rw [ss, hc]; ring)
    have w0 : svaRotVel R = 0 := by rw [e, z]; ext <;> simp
    rw [w0]
    have d0 : (0 : V3 ℝ).dot 0 = 0 := by simp [V3.dot]
    refine ⟨by rw [d0]; have := Real.pi_pos; positivity, fun v => ?_⟩
    rw [d0, Real.sqrt_zero, Real.cos_zero, hs v, hc, z]
    ext <;> simp

/-! ## Consequences of the specification -/

section
variable {R : M3 ℝ} {w : V3 ℝ}

theorem Spec.RotVec.parts (h : RotVec R w) :
    R.cosAngle = Real.cos (Real.sqrt (w.dot w)) ∧
      R.sinAxis = Real.sinc (Real.sqrt (w.dot w)) • w := by
  obtain ⟨hw, h⟩ := h
  have h0 := h ⟨1, 0, 0⟩
  have h1 := h ⟨0, 1, 0⟩
  have h2 := h ⟨0, 0, 1⟩
  rw [V3.ext_iff] at h0 h1 h2
  obtain ⟨a0, a1, a2⟩ := h0
  obtain ⟨b0, b1, b2⟩ := h1
  obtain ⟨c0, c1, c2⟩ := h2
  set C := Real.cos (Real.sqrt (w.dot w)) with hC
  set S := Real.sinc (Real.sqrt (w.dot w)) with hS
  set q := (1 - C) / w.dot w with hq
  have hqw : q * w.dot w = 1 - C := by
    rcases eq_or_ne (w.dot w) 0 with h' | h'
    · rw [h', mul_zero, hC, h', Real.sqrt_zero, Real.cos_zero, sub_self]
    · rw [hq]; field_simp
  have hd : w.dot w = w.x * w.x + w.y * w.y + w.z * w.z := rfl
  rw [hd] at hqw
  simp only [M3.mulVec, V3.dot, V3.smul_x, V3.smul_y, V3.smul_z, V3.add_x, V3.add_y, V3.add_z,
    V3.sub_x, V3.sub_y, V3.sub_z, V3.cross_x, V3.cross_y, V3.cross_z, mul_one, mul_zero, add_zero,
    zero_add, sub_zero, zero_sub] at a0 a1 a2 b0 b1 b2 c0 c1 c2
  constructor
  · unfold M3.cosAngle M3.trace
    linear_combination (a0 + b1 + c2) / 2 + hqw / 2
  · unfold M3.sinAxis M3.vee
    ext
    · simp only [V3.smul_x]; linear_combination (c1 - b2) / 2
    · simp only [V3.smul_y]; linear_combination (a2 - c0) / 2
    · simp only [V3.smul_z]; linear_combination (b0 - a1) / 2

theorem Spec.RotVec.sqrt_lt (h : RotVec R w) : Real.sqrt (w.dot w) < Real.pi := by
  rw [Real.sqrt_lt' Real.pi_pos]
  exact h.1

theorem Spec.RotVec.angle (h : RotVec R w) : Real.arccos R.cosAngle = Real.sqrt (w.dot w) := by
  rw [h.parts.1, Real.arccos_cos (Real.sqrt_nonneg _) h.sqrt_lt.le]

theorem Spec.RotVec.norm (h : RotVec R w) : w.dot w = Real.arccos R.cosAngle ^ 2 := by
  rw [h.angle, Real.sq_sqrt (V3.normSq_nonneg w)]

end

/-! ## Derivatives -/

/-- The square of the angle is differentiable below half a turn, also where the angle is zero. -/
theorem arccos_sq_deriv {f : ℝ → ℝ} {t : ℝ} {s w u : V3 ℝ} (hf : HasDerivAt f (s.dot u) t)
    (h1 : ∀ τ, f τ ≤ 1) (h0 : ∀ τ, -1 ≤ f τ) (ht : -1 < f t)
    (hs : s = Real.sinc (Real.arccos (f t)) • w) (hw : w.dot w = Real.arccos (f t) ^ 2) :
    HasDerivAt (fun τ => Real.arccos (f τ) ^ 2) (-2 * w.dot u) t := by
  rcases (h1 t).lt_or_eq with hc | hc
  · set θ := Real.arccos (f t) with hθ
    have hθ0 : 0 < θ := Real.arccos_pos.2 hc
    have hθπ : θ < Real.pi := by
      rcases (Real.arccos_le_pi (f t)).lt_or_eq with h | h
      · exact h
      · exact absurd (Real.arccos_eq_pi.1 h) (by linarith)
    have hsin : 0 < Real.sin θ := Real.sin_pos_of_pos_of_lt_pi hθ0 hθπ
    have hsq : Real.sqrt (1 - f t ^ 2) = Real.sin θ := by rw [hθ, Real.sin_arccos]
    have d := ((Real.hasDerivAt_arccos (by linarith) hc.ne).comp t hf).pow 2
    refine d.congr_deriv ?_
    rw [hs, Real.sinc_of_ne_zero hθ0.ne', hsq]
    simp only [Function.comp, ← hθ, V3.dot, V3.smul_x, V3.smul_y, V3.smul_z]
    field_simp
    norm_num
    ring
  · have e0 : Real.arccos (f t) = 0 := by rw [hc, Real.arccos_one]
    have w0 : w = 0 := V3.eq_zero_of_dot_self (by rw [hw, e0]; ring)
    have s0 : s.dot u = 0 := by rw [hs, w0]; simp [V3.dot]
    rw [s0] at hf
    have : -2 * w.dot u = 0 := by rw [w0]; simp [V3.dot]
    rw [this]
    have hb : ∀ τ, Real.arccos (f τ) ^ 2 ≤ Real.pi ^ 2 / 2 * (1 - f τ) := fun τ => by
      have hq := Real.cos_le_one_sub_mul_cos_sq (x := Real.arccos (f τ)) (by
        rw [abs_of_nonneg (Real.arccos_nonneg _)]; exact Real.arccos_le_pi _)
      rw [Real.cos_arccos (h0 τ) (h1 τ)] at hq
      have hpi := Real.pi_pos
      rw [div_mul_eq_mul_div, le_sub_iff_add_le, ← le_sub_iff_add_le', div_le_iff₀ (by positivity)] at hq
      linarith
    rw [hasDerivAt_iff_isLittleO] at hf ⊢
    have hO : (fun τ => Real.arccos (f τ) ^ 2 - Real.arccos (f t) ^ 2 - (τ - t) • (0 : ℝ))
        =O[nhds t] (fun τ => f τ - f t - (τ - t) • (0 : ℝ)) := by
      refine Asymptotics.IsBigO.of_bound (Real.pi ^ 2 / 2) (Filter.Eventually.of_forall fun τ => ?_)
      rw [e0, hc]
      simp only [smul_zero, sub_zero, Real.norm_eq_abs]
      rw [zero_pow two_ne_zero, sub_zero, abs_of_nonneg (sq_nonneg _), abs_sub_comm,
        abs_of_nonneg (by linarith [h1 τ])]
      exact hb τ
    exact hO.trans_isLittleO hf

section
variable {X T : ℝ → PT ℝ} {U V : MV ℝ} {t : ℝ}

/-- Rows of a moving orientation. -/
theorem Spec.FrameMoves.rows (h : FrameMoves X U t) :
    HasD3 (fun τ => (X τ).E.r0) (U.ang.z • (X t).E.r1 - U.ang.y • (X t).E.r2) t ∧
    HasD3 (fun τ => (X τ).E.r1) (U.ang.x • (X t).E.r2 - U.ang.z • (X t).E.r0) t ∧
    HasD3 (fun τ => (X τ).E.r2) (U.ang.y • (X t).E.r0 - U.ang.x • (X t).E.r1) t := by
  obtain ⟨a0, a1, a2⟩ := h.1 ⟨1, 0, 0⟩
  obtain ⟨b0, b1, b2⟩ := h.1 ⟨0, 1, 0⟩
  obtain ⟨c0, c1, c2⟩ := h.1 ⟨0, 0, 1⟩
  simp only [M3.mulVec, V3.dot, mul_one, mul_zero, add_zero, zero_add, V3.neg_x, V3.neg_y, V3.neg_z,
    V3.cross_x, V3.cross_y, V3.cross_z] at a0 a1 a2 b0 b1 b2 c0 c1 c2
  refine ⟨⟨a0.congr_deriv ?_, b0.congr_deriv ?_, c0.congr_deriv ?_⟩,
    ⟨a1.congr_deriv ?_, b1.congr_deriv ?_, c1.congr_deriv ?_⟩,
    ⟨a2.congr_deriv ?_, b2.congr_deriv ?_, c2.congr_deriv ?_⟩⟩ <;> simp

/-- The cosine of the angle between two moving frames. -/
theorem cosAngle_deriv (hT : FrameMoves T V t) (hX : FrameMoves X U t) :
    HasDerivAt (fun τ => ((T τ).E.mul (X τ).E.transpose).cosAngle)
      (((T t).E.mul (X t).E.transpose).sinAxis.dot (U.ang - V.ang)) t := by
  obtain ⟨x0, x1, x2⟩ := hX.rows
  obtain ⟨t0, t1, t2⟩ := hT.rows
  refine ((((t0.dot x0).add (t1.dot x1)).add (t2.dot x2)).sub_const 1 |>.div_const 2).congr_deriv ?_
  simp only [M3.sinAxis, M3.vee, M3.mul, M3.transpose, V3.dot, V3.smul_x, V3.smul_y, V3.smul_z,
    V3.sub_x, V3.sub_y, V3.sub_z]
  ring

/-- The axis times the sine, towards a fixed orientation. -/
theorem sinAxis_deriv (ori : M3 ℝ) (hX : FrameMoves X U t) (hr : (X t).Rigid) (ho : ori.IsRot) :
    ∃ D, HasD3 (fun τ => (ori.mul (X τ).E.transpose).sinAxis) D t ∧
      -(2 * U.ang.dot U.ang) ≤ D.dot U.ang := by
  obtain ⟨x0, x1, x2⟩ := hX.rows
  have c0 := HasD3.const ori.r0 t
  have c1 := HasD3.const ori.r1 t
  have c2 := HasD3.const ori.r2 t
  set R := ori.mul (X t).E.transpose with hRd
  have hR : R.IsRot := ho.mul hr.transpose
  refine ⟨⟨1 / 2 * (U.ang.y * R.r1.x - U.ang.x * R.r1.y - U.ang.x * R.r2.z + U.ang.z * R.r2.x),
    1 / 2 * (U.ang.z * R.r2.y - U.ang.y * R.r2.z - U.ang.y * R.r0.x + U.ang.x * R.r0.y),
    1 / 2 * (U.ang.x * R.r0.z - U.ang.z * R.r0.x - U.ang.z * R.r1.y + U.ang.y * R.r1.z)⟩,
    ⟨(((c1.dot x2).sub (c2.dot x1)).const_mul (1 / 2)).congr_deriv ?_,
     (((c2.dot x0).sub (c0.dot x2)).const_mul (1 / 2)).congr_deriv ?_,
     (((c0.dot x1).sub (c1.dot x0)).const_mul (1 / 2)).congr_deriv ?_⟩, ?_⟩
  · simp only [hRd, M3.mul, M3.transpose, V3.dot, V3.smul_x, V3.smul_y, V3.smul_z,
      V3.sub_x, V3.sub_y, V3.sub_z, V3.zero_x, V3.zero_y, V3.zero_z]
    ring
  · simp only [hRd, M3.mul, M3.transpose, V3.dot, V3.smul_x, V3.smul_y, V3.smul_z,
      V3.sub_x, V3.sub_y, V3.sub_z, V3.zero_x, V3.zero_y, V3.zero_z]
    ring
  · simp only [hRd, M3.mul, M3.transpose, V3.dot, V3.smul_x, V3.smul_y, V3.smul_z,
      V3.sub_x, V3.sub_y, V3.sub_z, V3.zero_x, V3.zero_y, V3.zero_z]
    ring
  · have ht := hR.trace_le
    have hc := V3.dot_sq_le U.ang (R.mulVec U.ang)
    have h0 := V3.normSq_nonneg U.ang
    rw [hR.1.dot_mulVec] at hc
    have hq : -(U.ang.dot U.ang) ≤ U.ang.dot (R.mulVec U.ang) := by
      nlinarith
    have hm := mul_le_mul_of_nonneg_right ht h0
    have e : V3.dot ⟨1 / 2 * (U.ang.y * R.r1.x - U.ang.x * R.r1.y - U.ang.x * R.r2.z + U.ang.z * R.r2.x),
        1 / 2 * (U.ang.z * R.r2.y - U.ang.y * R.r2.z - U.ang.y * R.r0.x + U.ang.x * R.r0.y),
        1 / 2 * (U.ang.x * R.r0.z - U.ang.z * R.r0.x - U.ang.z * R.r1.y + U.ang.y * R.r1.z)⟩ U.ang
        = -(1 / 2) * (R.trace * U.ang.dot U.ang - U.ang.dot (R.mulVec U.ang)) := by
      simp only [V3.dot, M3.mulVec, M3.trace]
      ring
    rw [e]
    linarith


/-- The axis times the sine, between two moving frames. -/
theorem sinAxis_deriv2 (hT : FrameMoves T V t) (hX : FrameMoves X U t) (hr : (X t).Rigid) (hr' : (T t).Rigid) :
    ∃ D, HasD3 (fun τ => ((T τ).E.mul (X τ).E.transpose).sinAxis) D t ∧
      -(2 * (U.ang - V.ang).dot (U.ang - V.ang))
        + ((-V.ang).cross ((T t).E.mul (X t).E.transpose).sinAxis).dot (U.ang - V.ang)
          ≤ D.dot (U.ang - V.ang) := by
  obtain ⟨x0, x1, x2⟩ := hX.rows
  obtain ⟨t0, t1, t2⟩ := hT.rows
  set R := (T t).E.mul (X t).E.transpose with hRd
  have hR : R.IsRot := M3.IsRot.mul hr' hr.transpose
  set u := U.ang - V.ang with hu
  have hux : u.x = U.ang.x - V.ang.x := by rw [hu]; simp
  have huy : u.y = U.ang.y - V.ang.y := by rw [hu]; simp
  have huz : u.z = U.ang.z - V.ang.z := by rw [hu]; simp
  refine ⟨⟨1 / 2 * (u.y * R.r1.x - u.x * R.r1.y - u.x * R.r2.z + u.z * R.r2.x),
    1 / 2 * (u.z * R.r2.y - u.y * R.r2.z - u.y * R.r0.x + u.x * R.r0.y),
    1 / 2 * (u.x * R.r0.z - u.z * R.r0.x - u.z * R.r1.y + u.y * R.r1.z)⟩ + (-V.ang).cross R.sinAxis,
    ⟨(((t1.dot x2).sub (t2.dot x1)).const_mul (1 / 2)).congr_deriv ?_,
     (((t2.dot x0).sub (t0.dot x2)).const_mul (1 / 2)).congr_deriv ?_,
     (((t0.dot x1).sub (t1.dot x0)).const_mul (1 / 2)).congr_deriv ?_⟩, ?_⟩
  · simp only [V3.add_x, V3.cross_x, hux, huy, huz, hRd, M3.sinAxis, M3.vee, M3.mul, M3.transpose, V3.dot, V3.smul_x,
      V3.smul_y, V3.smul_z, V3.sub_x, V3.sub_y, V3.sub_z, V3.neg_x, V3.neg_y, V3.neg_z]
    ring
  · simp only [V3.add_y, V3.cross_y, hux, huy, huz, hRd, M3.sinAxis, M3.vee, M3.mul, M3.transpose, V3.dot, V3.smul_x,
      V3.smul_y, V3.smul_z, V3.sub_x, V3.sub_y, V3.sub_z, V3.neg_x, V3.neg_y, V3.neg_z]
    ring
  · simp only [V3.add_z, V3.cross_z, hux, huy, huz, hRd, M3.sinAxis, M3.vee, M3.mul, M3.transpose, V3.dot, V3.smul_x,
      V3.smul_y, V3.smul_z, V3.sub_x, V3.sub_y, V3.sub_z, V3.neg_x, V3.neg_y, V3.neg_z]
    ring
  · have ht := hR.trace_le
    have hc := V3.dot_sq_le u (R.mulVec u)
    have h0 := V3.normSq_nonneg u
    rw [hR.1.dot_mulVec] at hc
    have hq : -(u.dot u) ≤ u.dot (R.mulVec u) := by nlinarith
    have hm := mul_le_mul_of_nonneg_right ht h0
    have e : V3.dot ⟨1 / 2 * (u.y * R.r1.x - u.x * R.r1.y - u.x * R.r2.z + u.z * R.r2.x),
        1 / 2 * (u.z * R.r2.y - u.y * R.r2.z - u.y * R.r0.x + u.x * R.r0.y),
        1 / 2 * (u.x * R.r0.z - u.z * R.r0.x - u.z * R.r1.y + u.y * R.r1.z)⟩ u
        = -(1 / 2) * (R.trace * u.dot u - u.dot (R.mulVec u)) := by
      simp only [V3.dot, M3.mulVec, M3.trace]
      ring
    rw [V3.add_dot, e]
    linarith

/-- The squared angle between two moving frames. -/
theorem rot_rate {rotVel : M3 ℝ → V3 ℝ} (hv : RotVelOK rotVel) (hT : FrameMoves T V t)
    (hX : FrameMoves X U t) (rT : ∀ τ, (T τ).Rigid) (rX : ∀ τ, (X τ).Rigid)
    (hh : -1 < ((T t).E.mul (X t).E.transpose).trace) :
    HasDerivAt (fun τ => (rotVel ((T τ).E.mul (X τ).E.transpose)).dot
        (rotVel ((T τ).E.mul (X τ).E.transpose)))
      (-2 * (rotVel ((T t).E.mul (X t).E.transpose)).dot (U.ang - V.ang)) t := by
  have hR : ∀ τ, ((T τ).E.mul (X τ).E.transpose).IsRot := fun τ => M3.IsRot.mul (rT τ) (M3.IsRot.transpose (rX τ))
  have hc := cosAngle_deriv hT hX
  have hct : -1 < ((T t).E.mul (X t).E.transpose).cosAngle := by unfold M3.cosAngle; linarith
  have hp := (hv _ (hR t) hh).parts
  have d := arccos_sq_deriv hc (fun τ => (hR τ).cos_le) (fun τ => (hR τ).le_cos) hct
    (by rw [hp.2, (hv _ (hR t) hh).angle]) (hv _ (hR t) hh).norm
  refine d.congr_of_eventuallyEq ?_
  filter_upwards [hc.continuousAt.eventually (lt_mem_nhds hct)] with τ hτ
  exact (hv _ (hR τ) (by unfold M3.cosAngle at hτ; linarith)).norm

end

section
variable {R : M3 ℝ} {w w' : V3 ℝ}

theorem sinc_pos {θ : ℝ} (h0 : 0 ≤ θ) (h1 : θ < Real.pi) : 0 < Real.sinc θ := by
  rcases h0.eq_or_lt with h | h
  · rw [← h, Real.sinc_zero]; exact one_pos
  · rw [Real.sinc_of_ne_zero h.ne']
    exact div_pos (Real.sin_pos_of_pos_of_lt_pi h h1) h

theorem Spec.RotVec.unique (h : RotVec R w) (h' : RotVec R w') : w = w' := by
  have e : Real.sqrt (w.dot w) = Real.sqrt (w'.dot w') := by rw [← h.angle, h'.angle]
  have p := h.parts.2.symm.trans h'.parts.2
  rw [← e] at p
  have := (sinc_pos (Real.sqrt_nonneg _) h.sqrt_lt).ne'
  rw [V3.ext_iff] at p
  obtain ⟨a, b, c⟩ := p
  ext
  · exact mul_left_cancel₀ this a
  · exact mul_left_cancel₀ this b
  · exact mul_left_cancel₀ this c

/-- The rotation vector is zero exactly for the identity. -/
theorem Spec.RotVec.zero_iff (h : RotVec R w) : w = 0 ↔ R = M3.one := by
  constructor
  · rintro rfl
    refine M3.ext_mulVec fun v => ?_
    rw [h.2 v, M3.one_mulVec]
    have d0 : (0 : V3 ℝ).dot 0 = 0 := by simp [V3.dot]
    rw [d0, Real.sqrt_zero, Real.cos_zero]
    ext <;> simp
  · rintro rfl
    refine V3.eq_zero_of_dot_self ?_
    rw [h.norm]
    have : (M3.one : M3 ℝ).cosAngle = 1 := by
      norm_num [M3.cosAngle, M3.trace, M3.one]
    rw [this, Real.arccos_one]
    ring

/-- The rotation vector is on the axis. -/
theorem Spec.RotVec.mulVec_self (h : RotVec R w) : R.mulVec w = w := by
  rw [h.2 w]
  have c : (1 - Real.cos (Real.sqrt (w.dot w))) / w.dot w * w.dot w
      = 1 - Real.cos (Real.sqrt (w.dot w)) := by
    rcases eq_or_ne (w.dot w) 0 with h' | h'
    · rw [h']; simp
    · rw [div_mul_cancel₀ _ h']
  rw [c]
  ext <;> simp <;> ring

end

/-- Equality of orientations. -/
theorem mul_transpose_eq_one {A B : M3 ℝ} (hB : B.IsRot) : A.mul B.transpose = M3.one ↔ B = A := by
  constructor
  · intro h
    have := congrArg (fun m => M3.mul m B) h
    simp only [M3.mul_assoc', hB.1.transpose_mul_self, M3.mul_one', M3.one_mul'] at this
    exact this.symm
  · rintro rfl
    exact hB.1.mul_transpose

end Verif
