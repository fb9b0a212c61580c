import Verif.Proofs.Barrier
import Verif.Proofs.Rotation

/-!
# How far two frames of nearly equal velocities move apart
-/

set_option autoImplicit false
set_option linter.unusedSectionVars false

namespace Verif

open Spec

/-- A function whose derivative is bounded by that of `B` moves no more than `B`. -/
theorem abs_sub_le_of_deriv {f f' B B' : ℝ → ℝ} {T : ℝ} (hT : 0 ≤ T)
    (h : ∀ t, 0 ≤ t → t ≤ T → HasDerivAt f (f' t) t) (hB : ∀ t, 0 ≤ t → t ≤ T → HasDerivAt B (B' t) t)
    (hle : ∀ t, 0 ≤ t → t ≤ T → |f' t| ≤ B' t) : |f T - f 0| ≤ B T - B 0 := by
  have h1 := le_of_deriv_nonneg hT (fun t a b => (hB t a b).sub (h t a b)) fun t a b => by
    have := (abs_le.1 (hle t a.le b.le)).2
    linarith
  have h2 := le_of_deriv_nonneg hT (fun t a b => (hB t a b).add (h t a b)) fun t a b => by
    have := (abs_le.1 (hle t a.le b.le)).1
    linarith
  simp only [Pi.add_apply, Pi.sub_apply] at h1 h2
  rw [abs_le]
  constructor <;> linarith

namespace V3

/-- Length. -/
noncomputable def len (a : V3 ℝ) : ℝ := Real.sqrt (a.dot a)

theorem len_nonneg (a : V3 ℝ) : 0 ≤ a.len := Real.sqrt_nonneg _

theorem dot_self_ge (a : V3 ℝ) : 0 ≤ a.dot a := by
  simp only [V3.dot]
  linarith [mul_self_nonneg a.x, mul_self_nonneg a.y, mul_self_nonneg a.z]

theorem len_mul_self (a : V3 ℝ) : a.len * a.len = a.dot a := Real.mul_self_sqrt a.dot_self_ge

theorem len_le {a : V3 ℝ} {e : ℝ} (he : 0 ≤ e) (h : a.dot a ≤ e ^ 2) : a.len ≤ e :=
  Real.sqrt_le_iff.2 ⟨he, h⟩

theorem abs_dot_le (a b : V3 ℝ) : |a.dot b| ≤ a.len * b.len := by
  unfold len
  rw [← Real.sqrt_mul a.dot_self_ge]
  exact Real.abs_le_sqrt (V3.dot_sq_le a b)

theorem len_cross_le (a b : V3 ℝ) : (a.cross b).len ≤ a.len * b.len := by
  unfold len
  rw [← Real.sqrt_mul a.dot_self_ge]
  refine Real.sqrt_le_sqrt ?_
  simp only [V3.dot, V3.cross]
  nlinarith [sq_nonneg (a.x * b.x + a.y * b.y + a.z * b.z)]

/-- A vector is short if its products are small. -/
theorem len_le_of_dot {a : V3 ℝ} {e : ℝ} (he : 0 ≤ e) (h : ∀ v : V3 ℝ, |a.dot v| ≤ e * v.len) : a.len ≤ e := by
  have h1 := h a
  rw [abs_of_nonneg a.dot_self_ge, ← len_mul_self] at h1
  rcases eq_or_lt_of_le a.len_nonneg with h2 | h2
  · rw [← h2]; exact he
  · exact le_of_mul_le_mul_right h1 h2

end V3

theorem M3.IsRot.len {R : M3 ℝ} (h : R.IsRot) (v : V3 ℝ) : (R.mulVec v).len = v.len := by
  unfold V3.len
  rw [h.1.dot_mulVec]

section
variable {X1 X2 : ℝ → PT ℝ} {U1 U2 : ℝ → MV ℝ} {T η : ℝ}

/-- Orientations: the coordinates of a fixed vector in the two frames differ by at most `η t` times its length. -/
theorem turn_drift (h1 : ∀ t, 0 ≤ t → t ≤ T → FrameMoves X1 (U1 t) t) (h2 : ∀ t, 0 ≤ t → t ≤ T → FrameMoves X2 (U2 t) t)
    (r1 : ∀ t, 0 ≤ t → t ≤ T → (X1 t).Rigid) (r2 : ∀ t, 0 ≤ t → t ≤ T → (X2 t).Rigid) (h0 : (X1 0).E = (X2 0).E)
    (hη : 0 ≤ η) (hω : ∀ t, 0 ≤ t → t ≤ T → ((U1 t).ang - (U2 t).ang).len ≤ η) {t : ℝ} (ht : 0 ≤ t) (hT : t ≤ T)
    (w : V3 ℝ) : ((X1 t).E.mulVec w - (X2 t).E.mulVec w).len ≤ η * t * w.len := by
  have key : ∀ v : V3 ℝ, |((X1 t).E.mulVec w).dot ((X2 t).E.mulVec v) - w.dot v| ≤ η * t * w.len * v.len := by
    intro v
    have := abs_sub_le_of_deriv ht (f := fun τ => ((X1 τ).E.mulVec w).dot ((X2 τ).E.mulVec v))
      (B := fun τ => η * w.len * v.len * τ) (B' := fun _ => η * w.len * v.len)
      (fun τ a b => ((h1 τ a (b.trans hT)).1 w).dot ((h2 τ a (b.trans hT)).1 v))
      (fun τ _ _ => by simpa using (hasDerivAt_id τ).const_mul (η * w.len * v.len)) fun τ a b => by
        have e : (-((U1 τ).ang.cross ((X1 τ).E.mulVec w))).dot ((X2 τ).E.mulVec v)
            + ((X1 τ).E.mulVec w).dot (-((U2 τ).ang.cross ((X2 τ).E.mulVec v)))
            = -((((U1 τ).ang - (U2 τ).ang).cross ((X1 τ).E.mulVec w)).dot ((X2 τ).E.mulVec v)) := by
          simp [V3.dot]
          ring
        rw [e, abs_neg]
        refine (V3.abs_dot_le _ _).trans ?_
        rw [(r2 τ a (b.trans hT)).len]
        refine mul_le_mul_of_nonneg_right ((V3.len_cross_le _ _).trans ?_) v.len_nonneg
        rw [(r1 τ a (b.trans hT)).len]
        exact mul_le_mul_of_nonneg_right (hω τ a (b.trans hT)) w.len_nonneg
    rw [h0, (r2 0 le_rfl (ht.trans hT)).1.dot_mulVec] at this
    calc _ ≤ _ := this
      _ = _ := by ring
  refine V3.len_le_of_dot (by have := w.len_nonneg; positivity) fun v => ?_
  have hv := key ((X2 t).E.transpose.mulVec v)
  rw [(r2 t ht hT).1.mulVec_transpose, (M3.IsRot.transpose (r2 t ht hT)).len] at hv
  have e : ((X1 t).E.mulVec w - (X2 t).E.mulVec w).dot v
      = ((X1 t).E.mulVec w).dot v - w.dot ((X2 t).E.transpose.mulVec v) := by
    rw [M3.dot_mulVec, M3.transpose_transpose]
    simp [V3.dot]
    ring
  rw [e]
  exact hv

/-- Positions: with the velocity of the second frame bounded by `V`, at most `η t + V η t² / 2`. -/
theorem place_drift (h1 : ∀ t, 0 ≤ t → t ≤ T → FrameMoves X1 (U1 t) t) (h2 : ∀ t, 0 ≤ t → t ≤ T → FrameMoves X2 (U2 t) t)
    (r1 : ∀ t, 0 ≤ t → t ≤ T → (X1 t).Rigid) (r2 : ∀ t, 0 ≤ t → t ≤ T → (X2 t).Rigid) (h0 : X1 0 = X2 0)
    (hη : 0 ≤ η) (hω : ∀ t, 0 ≤ t → t ≤ T → ((U1 t).ang - (U2 t).ang).len ≤ η)
    (hv : ∀ t, 0 ≤ t → t ≤ T → ((U1 t).lin - (U2 t).lin).len ≤ η) {V : ℝ} (hV0 : 0 ≤ V)
    (hV : ∀ t, 0 ≤ t → t ≤ T → (U2 t).lin.len ≤ V) (hT : 0 ≤ T) :
    ((X1 T).r - (X2 T).r).len ≤ η * T + V * η * T ^ 2 / 2 := by
  refine V3.len_le_of_dot (by positivity) fun u => ?_
  have := abs_sub_le_of_deriv hT (f := fun τ => ((X1 τ).r - (X2 τ).r).dot u)
    (B := fun τ => (η * τ + V * η * τ ^ 2 / 2) * u.len) (B' := fun τ => (η + V * η * τ) * u.len)
    (fun τ a b => (((h1 τ a b).2).sub ((h2 τ a b).2)).dot (HasD3.const u τ))
    (fun τ _ _ => by
      refine ((((hasDerivAt_id τ).const_mul η).add (((hasDerivAt_pow 2 τ).const_mul (V * η)).div_const 2)).mul_const
        u.len).congr_deriv ?_
      push_cast
      ring) fun τ a b => by
      have e : ((X1 τ).E.transpose.mulVec (U1 τ).lin - (X2 τ).E.transpose.mulVec (U2 τ).lin).dot u
          + ((X1 τ).r - (X2 τ).r).dot 0
          = ((X1 τ).E.transpose.mulVec ((U1 τ).lin - (U2 τ).lin)).dot u
            + (U2 τ).lin.dot ((X1 τ).E.mulVec u - (X2 τ).E.mulVec u) := by
        simp [V3.dot, M3.mulVec, M3.transpose]
        ring
      rw [e]
      refine (abs_add_le _ _).trans ?_
      have g1 := V3.abs_dot_le ((X1 τ).E.transpose.mulVec ((U1 τ).lin - (U2 τ).lin)) u
      rw [(M3.IsRot.transpose (r1 τ a b)).len] at g1
      have g2 := V3.abs_dot_le (U2 τ).lin ((X1 τ).E.mulVec u - (X2 τ).E.mulVec u)
      have g3 := turn_drift h1 h2 r1 r2 (congrArg PT.E h0) hη hω a b u
      have g4 := mul_le_mul_of_nonneg_right (hv τ a b) u.len_nonneg
      have g5 := mul_le_mul (hV τ a b) g3 (V3.len_nonneg _) hV0
      calc _ ≤ η * u.len + V * (η * τ * u.len) := by linarith
        _ = _ := by ring
  rw [h0, show ((X2 0).r - (X2 0).r).dot u = 0 by simp [V3.dot]] at this
  simpa using this

end

end Verif
