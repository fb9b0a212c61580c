import Verif.Proofs.Balls
import Verif.Proofs.BoundedSpeed

/-!
# Dampers and bounds that hold up to an error, at all times
-/

set_option autoImplicit false
set_option linter.unusedSectionVars false

namespace Verif

open Finset Spec

/-- `damper_barrier` when the rows hold up to `ε`. -/
theorem damper_barrier_near {D V A : ℝ → ℝ} {R c dt r ε : ℝ} (hdt : 0 < dt) (hr : 0 ≤ r)
    (hroot : r * (1 - r * dt) * R = c) (hR : 0 < R) (hc : 0 < c) (hε : 0 ≤ ε)
    (hD : ∀ t, 0 ≤ t → HasDerivAt D (V t) t) (hV : ∀ t, 0 ≤ t → HasDerivAt V (A t) t)
    (hrow : ∀ t, 0 ≤ t → D t ≤ R → -(c * (D t / R)) - ε ≤ V t + dt * A t)
    (hout : ∀ t, 0 ≤ t → R < D t → -(r * R) ≤ V t) (h0 : 0 ≤ D 0) (hv0 : -(r * D 0) ≤ V 0) :
    ∀ t, 0 ≤ t → -(ε * R / c) ≤ D t ∧ -(r * (D t + ε * R / c)) ≤ V t := by
  have hτ0 : 0 ≤ ε * R / c := by positivity
  have key := damper_barrier (D := fun t => D t + ε * R / c) (V := V) (A := A) (R := R + ε * R / c)
    (c := r * (1 - r * dt) * (R + ε * R / c)) hdt hr rfl (by linarith)
    (fun t ht => (hD t ht).add_const _) hV
    (fun t ht hle => by
      have hle' : D t ≤ R := by linarith
      have h1 := hrow t ht hle'
      refine le_trans (le_of_eq ?_) h1
      have hcR : r * (1 - r * dt) = c / R := by rw [← hroot]; field_simp
      have hRn : R + ε * R / c ≠ 0 := by linarith
      rw [hcR]
      field_simp
      ring)
    (fun t ht hlt => by
      have h1 := hout t ht (by linarith)
      have := mul_nonneg hr hτ0
      nlinarith)
    (by linarith) (by
      have := mul_nonneg hr hτ0
      show -(r * (D 0 + ε * R / c)) ≤ V 0
      linarith)
  intro t ht
  obtain ⟨k1, k2⟩ := key t ht
  exact ⟨by linarith, k2⟩

/-- `speedRow_iff` when the row is off by `e`. -/
theorem speedRow_off {mb : MultiBody ℝ} {kin : String → V3 ℝ → BodyKin6 ℝ} {n a N : ℕ}
    {s : BoundedSpeed ℝ} (R : SpeedReady mb n a N s) (hdt : 0 < s.step) {c : SpeedData ℝ} {r i : ℕ}
    (h : SpeedRow mb kin a s c r i) (x : ℕ → ℝ) (e : ℝ) :
    ((s.lower.get i).LowerOK (lineVal n s.A i x + e) ↔
      (c.l.get r).LowerOK (∑ k ∈ range 6, c.dof.get r k * speedAfter mb kin s.step a x c k + s.step * e)) ∧
    ((s.upper.get i).UpperOK (lineVal n s.A i x + e) ↔
      (c.u.get r).UpperOK (∑ k ∈ range 6, c.dof.get r k * speedAfter mb kin s.step a x c k + s.step * e)) := by
  obtain ⟨h1, h2, h3⟩ := h
  have hv : lineVal n s.A i x = ∑ k ∈ range 6, c.dof.get r k * ∑ q ∈ range mb.nrDof,
      onDofs mb c.path (fun p => (kin c.bodyName c.point).jac.get k p) q * x (a + q) := by
    unfold lineVal
    have : ∀ j ∈ range n, s.A.get i j * x j
        = if a ≤ j ∧ j < a + mb.nrDof then s.A.get i j * x j else 0 := by
      intro j _
      split
      · rfl
      · rw [R.zero i j (by assumption), zero_mul]
    rw [sum_congr rfl this, sum_shift_ite n a mb.nrDof R.fit (fun j => s.A.get i j * x j)]
    rw [sum_congr rfl (fun q hq => by rw [h1 q (mem_range.mp hq), sum_mul])]
    rw [sum_comm]
    refine sum_congr rfl fun k _ => ?_
    rw [mul_sum]
    exact sum_congr rfl fun q _ => by ring
  have hkey : s.step * (lineVal n s.A i x - ∑ k ∈ range 6, c.dof.get r k *
      (-(kin c.bodyName c.point).nacc k - (kin c.bodyName c.point).vel k / s.step))
      = ∑ k ∈ range 6, c.dof.get r k * speedAfter mb kin s.step a x c k := by
    rw [hv, ← sum_sub_distrib, mul_sum]
    refine sum_congr rfl fun k _ => ?_
    unfold speedAfter
    have := R.step
    field_simp
    ring
  rw [h2, h3, Ext.lowerOK_addFin, Ext.upperOK_addFin, Ext.lowerOK_divBy_pos hdt,
    Ext.upperOK_divBy_pos hdt, add_sub_right_comm, mul_add, hkey]
  exact ⟨Iff.rfl, Iff.rfl⟩

end Verif
