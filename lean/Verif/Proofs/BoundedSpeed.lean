import Verif.Model.BoundedSpeed
import Verif.Proofs.Jacobian
import Verif.Proofs.Collision
import Verif.Proofs.MotionRun

/-! # Helper lemmas for the bounded speed constraint -/

set_option autoImplicit false
set_option linter.unusedSectionVars false

namespace Verif

open Finset Spec

section
variable {K : Type} [Field K] [LinearOrder K] [IsStrictOrderedRing K]

/-- Rows of a list of entries. -/
def rowSum (l : List (SpeedData K)) : ℕ := (l.map fun c => c.dof.rows).sum

@[simp] theorem rowSum_append (l l' : List (SpeedData K)) : rowSum (l ++ l') = rowSum l + rowSum l' := by
  simp [rowSum]

@[simp] theorem rowSum_cons (c : SpeedData K) (l : List (SpeedData K)) :
    rowSum (c :: l) = c.dof.rows + rowSum l := by simp [rowSum]

@[simp] theorem rowSum_nil : rowSum ([] : List (SpeedData K)) = 0 := rfl

namespace Spec

/-- An entry and the kinematics RBDyn gives for it have the documented sizes. -/
structure SpeedShaped (mb : MultiBody K) (c : SpeedData K) : Prop where
  path : ∀ i ∈ c.path, i < mb.joints.length
  nodup : c.path.Nodup
  cols : c.dof.cols = 6
  l : c.l.size = c.dof.rows
  u : c.u.size = c.dof.rows

def KinShaped (mb : MultiBody K) (kin : String → V3 K → BodyKin6 K) (c : SpeedData K) : Prop :=
  (kin c.bodyName c.point).jac.rows = 6 ∧ (kin c.bodyName c.point).jac.cols = pathDof mb c.path

end Spec

/-- The buffers are ready for the registered entries. -/
structure SpeedReady (mb : MultiBody K) (n a N : ℕ) (s : BoundedSpeed K) : Prop where
  begin : s.alphaDBegin = some a
  fit : a + mb.nrDof ≤ n
  rows : s.A.rows = N
  cols : s.A.cols = n
  lo : s.lower.size = N
  up : s.upper.size = N
  fjr : s.fullJac.rows = 6
  fjc : s.fullJac.cols = mb.nrDof
  step : s.step ≠ 0
  zero : ∀ i c, ¬ (a ≤ c ∧ c < a + mb.nrDof) → s.A.get i c = 0

/-- Line `i` holds row `r` of entry `c`. -/
def SpeedRow (mb : MultiBody K) (kin : String → V3 K → BodyKin6 K) (a : ℕ) (s : BoundedSpeed K)
    (c : SpeedData K) (r i : ℕ) : Prop :=
  (∀ q < mb.nrDof, s.A.get i (a + q) = ∑ k ∈ range 6, c.dof.get r k *
    onDofs mb c.path (fun p => (kin c.bodyName c.point).jac.get k p) q) ∧
  s.lower.get i = ((c.l.get r).divBy s.step).addFin
    (∑ k ∈ range 6, c.dof.get r k * (-(kin c.bodyName c.point).nacc k - (kin c.bodyName c.point).vel k / s.step)) ∧
  s.upper.get i = ((c.u.get r).divBy s.step).addFin
    (∑ k ∈ range 6, c.dof.get r k * (-(kin c.bodyName c.point).nacc k - (kin c.bodyName c.point).vel k / s.step))

theorem speedStep_ok {mb : MultiBody K} {kin : String → V3 K → BodyKin6 K} {c : SpeedData K}
    (hc : SpeedShaped mb c) (hk : KinShaped mb kin c) {n a N : ℕ} {s : BoundedSpeed K} {index : ℕ}
    (R : SpeedReady mb n a N s) (hN : index + c.dof.rows ≤ N) :
    ∃ s', speedStep mb kin c (s, index) = .ok (s', index + c.dof.rows) ∧ SpeedReady mb n a N s' ∧
      s'.step = s.step ∧ s'.cont = s.cont ∧ s'.robotIndex = s.robotIndex ∧ s'.nrVars = s.nrVars ∧
      (∀ r < c.dof.rows, SpeedRow mb kin a s' c r (index + r)) ∧
      ∀ i, ¬ (index ≤ i ∧ i < index + c.dof.rows) → (∀ q, s'.A.get i q = s.A.get i q) ∧
        s'.lower.get i = s.lower.get i ∧ s'.upper.get i = s.upper.get i := by
  obtain ⟨J, eJ, hJr, hJc, hJ⟩ := fullJacobian_ok mb c.path (kin c.bodyName c.point).jac s.fullJac
    hc.path hc.nodup (le_of_eq hk.2.symm) (by rw [hk.1, R.fjr]) (by rw [R.fjc])
  have eP : c.dof.mul J = .ok ⟨c.dof.rows, J.cols, fun i j =>
      ∑ k ∈ Finset.range c.dof.cols, c.dof.get i k * J.get k j⟩ :=
    if_pos (by rw [hc.cols, hJr, R.fjr])
  have eA := R.fit
  refine ⟨{ s with
      fullJac := J
      A := ⟨s.A.rows, s.A.cols, fun i j =>
        if (index ≤ i ∧ i < index + c.dof.rows) ∧ (a ≤ j ∧ j < a + J.cols) then
          ∑ k ∈ Finset.range c.dof.cols, c.dof.get (i - index) k * J.get k (j - a)
        else s.A.get i j⟩
      lower := ⟨s.lower.size, fun i => if index ≤ i ∧ i < index + c.dof.rows then
        ((c.l.get (i - index)).divBy s.step).addFin (∑ k ∈ range 6, c.dof.get (i - index) k *
          (-(kin c.bodyName c.point).nacc k - (kin c.bodyName c.point).vel k / s.step))
        else s.lower.get i⟩
      upper := ⟨s.upper.size, fun i => if index ≤ i ∧ i < index + c.dof.rows then
        ((c.u.get (i - index)).divBy s.step).addFin (∑ k ∈ range 6, c.dof.get (i - index) k *
          (-(kin c.bodyName c.point).nacc k - (kin c.bodyName c.point).vel k / s.step))
        else s.upper.get i⟩ }, ?_, ?_, rfl, rfl, rfl, rfl, ?_, ?_⟩
  · unfold speedStep
    dsimp only
    rw [eJ, Out.ok_bind, eP, Out.ok_bind, R.begin]
    dsimp only
    rw [Out.ok_bind, guardUB_ok (by rw [hJc, R.fjc]), Out.ok_bind]
    have e1 : s.A.setBlock index a ⟨c.dof.rows, J.cols, fun i j =>
        ∑ k ∈ Finset.range c.dof.cols, c.dof.get i k * J.get k j⟩ = .ok ⟨s.A.rows, s.A.cols, fun i j =>
        if (index ≤ i ∧ i < index + c.dof.rows) ∧ (a ≤ j ∧ j < a + J.cols) then
          ∑ k ∈ Finset.range c.dof.cols, c.dof.get (i - index) k * J.get k (j - a)
        else s.A.get i j⟩ := if_pos ⟨by rw [R.rows]; exact hN, by
          rw [R.cols]; dsimp only; rw [hJc, R.fjc]; exact R.fit⟩
    rw [e1, Out.ok_bind, guardUB_ok R.step, Out.ok_bind]
    unfold Mat.mulVec6
    rw [if_pos hc.cols, Out.ok_bind, guardUB_ok hc.l, Out.ok_bind, guardUB_ok hc.u, Out.ok_bind]
    unfold Vec.setSegment
    dsimp only
    rw [if_pos (by rw [R.lo]; exact hN), Out.ok_bind, if_pos (by rw [R.up]; exact hN), Out.ok_bind]
    rfl
  · refine ⟨R.begin, R.fit, R.rows, R.cols, R.lo, R.up, hJr.trans R.fjr, hJc.trans R.fjc, R.step, ?_⟩
    intro i j hj
    dsimp only
    rw [if_neg (by rw [hJc, R.fjc]; tauto)]
    exact R.zero i j hj
  · intro r hr
    refine ⟨fun q hq => ?_, ?_, ?_⟩
    · dsimp only
      rw [if_pos ⟨⟨by omega, by omega⟩, by omega, by rw [hJc, R.fjc]; omega⟩, hc.cols]
      refine sum_congr rfl fun k hk' => ?_
      rw [Nat.add_sub_cancel_left, Nat.add_sub_cancel_left, hJ k (by rw [hk.1]; exact mem_range.mp hk') q hq]
    · dsimp only
      rw [if_pos ⟨by omega, by omega⟩, Nat.add_sub_cancel_left]
    · dsimp only
      rw [if_pos ⟨by omega, by omega⟩, Nat.add_sub_cancel_left]
  · intro i hi
    refine ⟨fun q => ?_, ?_, ?_⟩
    · dsimp only; rw [if_neg (fun h => hi h.1)]
    · dsimp only; rw [if_neg hi]
    · dsimp only; rw [if_neg hi]

theorem speedLoop {mb : MultiBody K} {kin : String → V3 K → BodyKin6 K} (l : List (SpeedData K))
    (hc : ∀ c ∈ l, SpeedShaped mb c) (hk : ∀ c ∈ l, KinShaped mb kin c) {n a N : ℕ}
    (s : BoundedSpeed K) (index : ℕ) (R : SpeedReady mb n a N s) (hN : index + rowSum l ≤ N) :
    ∃ s', forEach l (speedStep mb kin) (s, index) = .ok (s', index + rowSum l) ∧ SpeedReady mb n a N s' ∧
      s'.step = s.step ∧ s'.cont = s.cont ∧ s'.robotIndex = s.robotIndex ∧ s'.nrVars = s.nrVars ∧
      (∀ l₁ c l₂, l = l₁ ++ c :: l₂ → ∀ r < c.dof.rows, SpeedRow mb kin a s' c r (index + rowSum l₁ + r)) ∧
      ∀ i, ¬ (index ≤ i ∧ i < index + rowSum l) → (∀ q, s'.A.get i q = s.A.get i q) ∧
        s'.lower.get i = s.lower.get i ∧ s'.upper.get i = s.upper.get i := by
  induction l generalizing s index with
  | nil =>
    refine ⟨s, rfl, R, rfl, rfl, rfl, rfl, ?_, fun i _ => ⟨fun _ => rfl, rfl, rfl⟩⟩
    intro l₁ c l₂ h
    simp at h
  | cons c t ih =>
    rw [rowSum_cons] at hN
    obtain ⟨s1, e1, R1, p1, p2, p3, p4, h1, h2⟩ := speedStep_ok (hc c (by simp)) (hk c (by simp)) R
      (index := index) (by omega)
    obtain ⟨s2, e2, R2, q1, q2, q3, q4, h3, h4⟩ := ih (fun c h => hc c (by simp [h]))
      (fun c h => hk c (by simp [h])) s1 (index + c.dof.rows) R1 (by omega)
    refine ⟨s2, ?_, R2, q1.trans p1, q2.trans p2, q3.trans p3, q4.trans p4, ?_, ?_⟩
    · simp only [forEach, e1, Out.ok_bind]
      rw [e2, rowSum_cons, Nat.add_assoc]
    · intro l₁ c' l₂ h r hr
      cases l₁ with
      | nil =>
        simp only [List.nil_append, List.cons.injEq] at h
        obtain ⟨rfl, rfl⟩ := h
        obtain ⟨k1, k2, k3⟩ := h4 (index + r) (by omega)
        obtain ⟨m1, m2, m3⟩ := h1 r hr
        rw [rowSum_nil, Nat.add_zero]
        refine ⟨fun q hq => (k1 _).trans (m1 q hq), ?_, ?_⟩
        · rw [k2, q1]; exact m2
        · rw [k3, q1]; exact m3
      | cons e l₁ =>
        simp only [List.cons_append, List.cons.injEq] at h
        obtain ⟨rfl, rfl⟩ := h
        rw [rowSum_cons, ← Nat.add_assoc]
        exact h3 l₁ c' l₂ rfl r hr
    · intro i hi
      rw [rowSum_cons] at hi
      obtain ⟨k1, k2, k3⟩ := h4 i (by omega)
      obtain ⟨m1, m2, m3⟩ := h2 i (by omega)
      exact ⟨fun q => (k1 q).trans (m1 q), k2.trans m2, k3.trans m3⟩

theorem speed_update {mbs : List (MultiBody K)} {mb : MultiBody K}
    {kin : String → V3 K → BodyKin6 K} {s : BoundedSpeed K} (hmb : mbs[s.robotIndex]? = some mb)
    (hc : ∀ c ∈ s.cont, SpeedShaped mb c) (hk : ∀ c ∈ s.cont, KinShaped mb kin c) {n a : ℕ}
    (R : SpeedReady mb n a (rowSum s.cont) s) :
    ∃ s', s.update mbs kin = .ok s' ∧ SpeedReady mb n a (rowSum s.cont) s' ∧
      s'.step = s.step ∧ s'.cont = s.cont ∧ s'.robotIndex = s.robotIndex ∧ s'.nrVars = s.nrVars ∧
      (∀ l₁ c l₂, s.cont = l₁ ++ c :: l₂ → ∀ r < c.dof.rows, SpeedRow mb kin a s' c r (rowSum l₁ + r)) := by
  obtain ⟨s', e, R', p1, p2, p3, p4, h, -⟩ := speedLoop s.cont hc hk s 0 R (by omega)
  refine ⟨s', ?_, R', p1, p2, p3, p4, fun l₁ c l₂ h' r hr => ?_⟩
  · unfold BoundedSpeed.update
    rw [vecAt_eq_ok.mpr hmb, Out.ok_bind, e, Out.ok_bind]
    rfl
  · have := h l₁ c l₂ h' r hr
    rwa [Nat.zero_add] at this

/-- Every line belongs to a row of an entry. -/
theorem rowSum_split (l : List (SpeedData K)) (i : ℕ) (hi : i < rowSum l) :
    ∃ l₁ c l₂ r, l = l₁ ++ c :: l₂ ∧ r < c.dof.rows ∧ i = rowSum l₁ + r := by
  induction l generalizing i with
  | nil => simp at hi
  | cons c t ih =>
    by_cases h : i < c.dof.rows
    · exact ⟨[], c, t, i, rfl, h, by simp⟩
    · rw [rowSum_cons] at hi
      obtain ⟨l₁, c', l₂, r, rfl, hr, he⟩ := ih (i - c.dof.rows) (by omega)
      exact ⟨c :: l₁, c', l₂, r, rfl, hr, by rw [rowSum_cons]; omega⟩

namespace Spec

/-- Component `k` of the velocity of the body point after one time step: `v + dt (J α̇ + Ψ)`; `a` is the
first acceleration variable of the robot. -/
def speedAfter (mb : MultiBody K) (kin : String → V3 K → BodyKin6 K) (dt : K) (a : ℕ) (x : ℕ → K)
    (c : SpeedData K) (k : ℕ) : K :=
  (kin c.bodyName c.point).vel k + dt * (∑ q ∈ range mb.nrDof,
    onDofs mb c.path (fun p => (kin c.bodyName c.point).jac.get k p) q * x (a + q)
      + (kin c.bodyName c.point).nacc k)

/-- The selected velocity components of one registered body are within its bounds. -/
def SpeedOK (mb : MultiBody K) (kin : String → V3 K → BodyKin6 K) (dt : K) (a : ℕ) (x : ℕ → K)
    (c : SpeedData K) : Prop :=
  ∀ r < c.dof.rows,
    (c.l.get r).LowerOK (∑ k ∈ range 6, c.dof.get r k * speedAfter mb kin dt a x c k) ∧
    (c.u.get r).UpperOK (∑ k ∈ range 6, c.dof.get r k * speedAfter mb kin dt a x c k)

end Spec

theorem speedRow_iff {mb : MultiBody K} {kin : String → V3 K → BodyKin6 K} {n a N : ℕ}
    {s : BoundedSpeed K} (R : SpeedReady mb n a N s) (hdt : 0 < s.step) {c : SpeedData K} {r i : ℕ}
    (h : SpeedRow mb kin a s c r i) (x : ℕ → K) :
    ((s.lower.get i).LowerOK (lineVal n s.A i x) ↔
      (c.l.get r).LowerOK (∑ k ∈ range 6, c.dof.get r k * speedAfter mb kin s.step a x c k)) ∧
    ((s.upper.get i).UpperOK (lineVal n s.A i x) ↔
      (c.u.get r).UpperOK (∑ k ∈ range 6, c.dof.get r k * speedAfter mb kin s.step a x c k)) := by
  obtain ⟨h1, h2, h3⟩ := h
  have hv : lineVal n s.A i x = ∑ k ∈ range 6, c.dof.get r k * ∑ q ∈ range mb.nrDof,
      onDofs mb c.path (fun p => (kin c.bodyName c.point).jac.get k p) q * x (a + q) := by
    unfold lineVal
    have : ∀ j ∈ range n, s.A.get i j * x j
        = if a ≤ j ∧ j < a + mb.nrDof then s.A.get i j * x j else 0 := by
      intro j _
      split
      · rfl
      · rw [R.zero i j (by assumption), zero_mul]
    rw [sum_congr rfl this, sum_shift_ite n a mb.nrDof R.fit (fun j => s.A.get i j * x j)]
    rw [sum_congr rfl (fun q hq => by rw [h1 q (mem_range.mp hq), sum_mul])]
    rw [sum_comm]
    refine sum_congr rfl fun k _ => ?_
    rw [mul_sum]
    exact sum_congr rfl fun q _ => by ring
  have hkey : s.step * (lineVal n s.A i x - ∑ k ∈ range 6, c.dof.get r k *
      (-(kin c.bodyName c.point).nacc k - (kin c.bodyName c.point).vel k / s.step))
      = ∑ k ∈ range 6, c.dof.get r k * speedAfter mb kin s.step a x c k := by
    rw [hv, ← sum_sub_distrib, mul_sum]
    refine sum_congr rfl fun k _ => ?_
    unfold speedAfter
    have := R.step
    field_simp
    ring
  rw [h2, h3, Ext.lowerOK_addFin, Ext.upperOK_addFin, Ext.lowerOK_divBy_pos hdt,
    Ext.upperOK_divBy_pos hdt, hkey]
  exact ⟨Iff.rfl, Iff.rfl⟩

end

end Verif
