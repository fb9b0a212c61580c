import Verif.Model.TrackErr
import Verif.Props.Rotation
import Verif.Props.WorldFrame

/-!
# C119: the error of the orientation tracking task

The task should turn its body so that the body axis points at the tracked point.  Its error has the size of the
turn that is left, and vanishes exactly when the axis points at the point, but it is the turn with the
orientation of the body applied to its axis: the right one only when the orientation leaves the axis of the turn
where it is.  With a body rolled half a turn the error turns the axis away from the point.
-/

set_option autoImplicit false
set_option linter.unusedSectionVars false

namespace Verif

open Finset Spec

namespace Spec

/-- Unit vectors. -/
def Unit3 (u : V3 ℝ) : Prop := u.dot u = 1

/-- `u` has the direction of `v`. -/
def Along (u v : V3 ℝ) : Prop := Unit3 u ∧ ∃ k : ℝ, 0 < k ∧ v = k • u

/-- Turning by the angle `|w|` around `w`, which is orthogonal to `u`, takes `u` to `d`; less than half a
turn. -/
def TurnVec (u d w : V3 ℝ) : Prop :=
  w.dot u = 0 ∧ w.dot w < Real.pi ^ 2 ∧
    d = Real.cos (Real.sqrt (w.dot w)) • u + Real.sinc (Real.sqrt (w.dot w)) • w.cross u

/-- The rate at which `u` comes closer to `d` (the rate of their scalar product) when it turns with the angular
velocity `w`. -/
def closing (u d w : V3 ℝ) : ℝ := d.dot (w.cross u)

end Spec

/-! ### The turn from one unit vector to another -/

theorem unit_cross_sq {u d : V3 ℝ} (hu : Unit3 u) (hd : Unit3 d) :
    (u.cross d).dot (u.cross d) = 1 - u.dot d ^ 2 := by
  unfold Unit3 V3.dot at *
  simp only [V3.dot, V3.cross_x, V3.cross_y, V3.cross_z]
  linear_combination (d.x * d.x + d.y * d.y + d.z * d.z) * hu + hd

theorem unit_dot_le {u d : V3 ℝ} (hu : Unit3 u) (hd : Unit3 d) : u.dot d ≤ 1 := by
  have h := V3.dot_sq_le u d
  unfold Unit3 at hu hd
  rw [hu, hd] at h
  nlinarith

theorem unit_eq {u d : V3 ℝ} (hu : Unit3 u) (hd : Unit3 d) (h : u.dot d = 1) : u = d := by
  have e : (u - d).dot (u - d) = 0 := by
    unfold Unit3 V3.dot at *
    simp only [V3.sub_x, V3.sub_y, V3.sub_z]
    linear_combination hu + hd - 2 * h
  have z := V3.eq_zero_of_dot_self e
  rw [V3.ext_iff] at z ⊢
  simp only [V3.sub_x, V3.sub_y, V3.sub_z] at z
  exact ⟨sub_eq_zero.1 z.1, sub_eq_zero.1 z.2.1, sub_eq_zero.1 z.2.2⟩

/-- The turn, computed. -/
noncomputable def turnOf (u d : V3 ℝ) : V3 ℝ := svaSincInv (Real.arccos (u.dot d)) • u.cross d

theorem sincInv_mul_sin (θ : ℝ) (h0 : 0 ≤ θ) (h1 : θ < Real.pi) : svaSincInv θ * Real.sin θ = θ := by
  unfold svaSincInv
  split
  · rename_i h; rw [h]; simp
  · rename_i h
    have := Real.sin_pos_of_pos_of_lt_pi (lt_of_le_of_ne h0 (Ne.symm h)) h1
    field_simp

theorem sinc_mul_sincInv (θ : ℝ) (h0 : 0 ≤ θ) (h1 : θ < Real.pi) : Real.sinc θ * svaSincInv θ = 1 := by
  unfold svaSincInv
  split
  · rename_i h; rw [h]; simp
  · rename_i h
    have := Real.sin_pos_of_pos_of_lt_pi (lt_of_le_of_ne h0 (Ne.symm h)) h1
    rw [Real.sinc_of_ne_zero h]
    field_simp

theorem arccos_lt_pi {c : ℝ} (h : -1 < c) : Real.arccos c < Real.pi := by
  rcases (Real.arccos_le_pi c).lt_or_eq with h' | h'
  · exact h'
  · exact absurd (Real.arccos_eq_pi.1 h') (by linarith)

section
variable {u d : V3 ℝ} (hu : Unit3 u) (hd : Unit3 d) (hc : -1 < u.dot d)
include hu hd hc

theorem turnOf_sq : (turnOf u d).dot (turnOf u d) = Real.arccos (u.dot d) ^ 2 := by
  have h1 := unit_cross_sq hu hd
  have hl := unit_dot_le hu hd
  have h2 : Real.sin (Real.arccos (u.dot d)) ^ 2 = 1 - u.dot d ^ 2 := by
    rw [Real.sin_sq, Real.cos_arccos hc.le hl]
  have h3 := sincInv_mul_sin _ (Real.arccos_nonneg (u.dot d)) (arccos_lt_pi hc)
  unfold turnOf
  rw [V3.smul_dot, V3.dot_smul, h1, ← h2]
  calc _ = (svaSincInv (Real.arccos (u.dot d)) * Real.sin (Real.arccos (u.dot d))) ^ 2 := by ring
    _ = _ := by rw [h3]

theorem turnOf_turns : TurnVec u d (turnOf u d) := by
  have hl := unit_dot_le hu hd
  have hs := turnOf_sq hu hd hc
  have h0 := Real.arccos_nonneg (u.dot d)
  have hp := arccos_lt_pi hc
  refine ⟨?_, ?_, ?_⟩
  · unfold turnOf
    rw [V3.smul_dot]
    simp only [V3.dot, V3.cross_x, V3.cross_y, V3.cross_z]
    ring
  · rw [hs]
    nlinarith [Real.pi_pos]
  · rw [hs, Real.sqrt_sq h0, Real.cos_arccos hc.le hl]
    have e := sinc_mul_sincInv _ h0 hp
    have e2 : Real.sinc (Real.arccos (u.dot d)) • (turnOf u d).cross u = (u.cross d).cross u := by
      unfold turnOf
      ext <;> simp only [V3.smul_x, V3.smul_y, V3.smul_z, V3.cross_x, V3.cross_y, V3.cross_z]
      · linear_combination ((u.z * d.x - u.x * d.z) * u.z - (u.x * d.y - u.y * d.x) * u.y) * e
      · linear_combination ((u.x * d.y - u.y * d.x) * u.x - (u.y * d.z - u.z * d.y) * u.z) * e
      · linear_combination ((u.y * d.z - u.z * d.y) * u.y - (u.z * d.x - u.x * d.z) * u.x) * e
    rw [e2]
    unfold Unit3 V3.dot at *
    ext <;> simp only [V3.dot, V3.add_x, V3.add_y, V3.add_z, V3.smul_x, V3.smul_y, V3.smul_z, V3.cross_x,
      V3.cross_y, V3.cross_z]
    · linear_combination -d.x * hu
    · linear_combination -d.y * hu
    · linear_combination -d.z * hu

/-- There is one turn only. -/
theorem turn_unique {w : V3 ℝ} (h : TurnVec u d w) : w = turnOf u d := by
  obtain ⟨h1, h2, h3⟩ := h
  set θ := Real.sqrt (w.dot w) with hθ
  have hn := V3.normSq_nonneg w
  have t0 : 0 ≤ θ := Real.sqrt_nonneg _
  have tp : θ < Real.pi := by
    have : θ ^ 2 < Real.pi ^ 2 := by rw [hθ, Real.sq_sqrt hn]; exact h2
    nlinarith [Real.pi_pos]
  have hdot : u.dot d = Real.cos θ := by
    rw [h3]
    unfold Unit3 V3.dot at *
    simp only [V3.add_x, V3.add_y, V3.add_z, V3.smul_x, V3.smul_y, V3.smul_z, V3.cross_x, V3.cross_y,
      V3.cross_z]
    linear_combination Real.cos θ * hu
  have hcross : u.cross d = Real.sinc θ • w := by
    rw [h3]
    unfold Unit3 V3.dot at *
    ext <;> simp only [V3.add_x, V3.add_y, V3.add_z, V3.smul_x, V3.smul_y, V3.smul_z, V3.cross_x, V3.cross_y,
      V3.cross_z]
    · linear_combination Real.sinc θ * w.x * hu - Real.sinc θ * u.x * h1
    · linear_combination Real.sinc θ * w.y * hu - Real.sinc θ * u.y * h1
    · linear_combination Real.sinc θ * w.z * hu - Real.sinc θ * u.z * h1
  have e := sinc_mul_sincInv θ t0 tp
  unfold turnOf
  rw [hdot, Real.arccos_cos t0 tp.le, hcross]
  ext <;> simp only [V3.smul_x, V3.smul_y, V3.smul_z]
  · linear_combination -w.x * e
  · linear_combination -w.y * e
  · linear_combination -w.z * e

/-- The right turn brings the axis closer. -/
theorem closing_pos (hne : u ≠ d) {w : V3 ℝ} (h : TurnVec u d w) : 0 < closing u d w := by
  rw [turn_unique hu hd hc h]
  have hl : u.dot d < 1 := lt_of_le_of_ne (unit_dot_le hu hd) fun e => hne (unit_eq hu hd e)
  have h0 : 0 < Real.arccos (u.dot d) := Real.arccos_pos.2 hl
  have hs := Real.sin_pos_of_pos_of_lt_pi h0 (arccos_lt_pi hc)
  have hi : 0 < svaSincInv (Real.arccos (u.dot d)) := by
    unfold svaSincInv
    rw [if_neg h0.ne']
    positivity
  have e : closing u d (turnOf u d) = svaSincInv (Real.arccos (u.dot d)) * (u.cross d).dot (u.cross d) := by
    unfold closing turnOf
    simp only [V3.dot, V3.smul_x, V3.smul_y, V3.smul_z, V3.cross_x, V3.cross_y, V3.cross_z]
    ring
  rw [e, unit_cross_sq hu hd]
  have : 0 < 1 - u.dot d ^ 2 := by nlinarith
  positivity

end

/-! ### The functions of Eigen -/

theorem normalized_along {u v : V3 ℝ} (h : Along u v) : v.normalized = u := by
  obtain ⟨hu, k, hk, rfl⟩ := h
  have e : (k • u).dot (k • u) = k ^ 2 := by
    rw [V3.smul_dot, V3.dot_smul, hu]; ring
  unfold V3.normalized
  rw [e, if_pos (by positivity), Real.sqrt_sq hk.le]
  ext <;> simp only [V3.smul_x, V3.smul_y, V3.smul_z] <;> field_simp

theorem normalized_unit {u : V3 ℝ} (hu : Unit3 u) : u.normalized = u :=
  normalized_along ⟨hu, 1, one_pos, by ext <;> simp⟩

theorem along_exists {v : V3 ℝ} (h : v ≠ 0) : ∃ u, Along u v := by
  have hp : 0 < v.dot v := lt_of_le_of_ne (V3.normSq_nonneg v) fun e => h (V3.eq_zero_of_dot_self e.symm)
  have hs := Real.sqrt_pos.2 hp
  refine ⟨(Real.sqrt (v.dot v))⁻¹ • v, ?_, Real.sqrt (v.dot v), hs, ?_⟩
  · unfold Unit3
    rw [V3.smul_dot, V3.dot_smul]
    have := Real.mul_self_sqrt hp.le
    field_simp
    linarith [Real.sq_sqrt hp.le]
  · ext <;> simp only [V3.smul_x, V3.smul_y, V3.smul_z] <;> field_simp

/-- The matrix of the inverse of the quaternion between two unit vectors: its trace and its antisymmetric
part. -/
theorem fromTwo_inverse {u d : V3 ℝ} (hu : Unit3 u) (hd : Unit3 d) {prec : ℝ} (hp : 0 < prec)
    (opp : V3 ℝ → V3 ℝ → Quat) (hc : -1 + prec ≤ u.dot d) :
    (Quat.fromTwo prec opp u d).inverse.matrix.trace = 1 + 2 * u.dot d ∧
    (Quat.fromTwo prec opp u d).inverse.matrix.vee = (2 : ℝ) • u.cross d := by
  have hdc : d.dot u = u.dot d := V3.dot_comm' d u
  have hcs := unit_cross_sq hu hd
  set c := u.dot d with hcd
  have h1 : 0 < 1 + c := by linarith
  have hs : 0 < Real.sqrt ((1 + c) * 2) := Real.sqrt_pos.2 (by linarith)
  have hss : Real.sqrt ((1 + c) * 2) ^ 2 = (1 + c) * 2 := Real.sq_sqrt (by linarith)
  set s := Real.sqrt ((1 + c) * 2) with hsd
  have hq : Quat.fromTwo prec opp u d = ⟨s * (1 / 2), (1 / s) • u.cross d⟩ := by
    unfold Quat.fromTwo
    rw [normalized_unit hu, normalized_unit hd]
    dsimp only
    rw [hdc, if_neg (by linarith)]
  have hv : ((1 / s) • u.cross d).dot ((1 / s) • u.cross d) = (1 - c) / 2 := by
    rw [V3.smul_dot, V3.dot_smul, hcs]
    field_simp
    rw [hss]
    ring
  have hn : s * (1 / 2) * (s * (1 / 2)) + ((1 / s) • u.cross d).dot ((1 / s) • u.cross d) = 1 := by
    rw [hv]
    linear_combination (1 / 4) * hss
  have hi : (Quat.fromTwo prec opp u d).inverse = ⟨s * (1 / 2), -((1 / s) • u.cross d)⟩ := by
    rw [hq]
    unfold Quat.inverse
    dsimp only
    rw [hn, if_pos one_pos]
    congr 1
    · ring
    · ext <;> simp
  rw [hi]
  refine ⟨?_, ?_⟩
  · unfold Quat.matrix M3.trace
    simp only [V3.dot] at hv
    simp only [V3.neg_x, V3.neg_y, V3.neg_z]
    linear_combination -4 * hv
  · have e : s * (1 / s) = 1 := by field_simp
    unfold Quat.matrix M3.vee
    ext <;> simp only [V3.neg_x, V3.neg_y, V3.neg_z, V3.smul_x, V3.smul_y, V3.smul_z]
    · linear_combination 2 * (u.cross d).x * e
    · linear_combination 2 * (u.cross d).y * e
    · linear_combination 2 * (u.cross d).z * e

/-! ### The error -/

section
variable {prec : ℝ} (hp : 0 < prec) {opp : V3 ℝ → V3 ℝ → Quat} {p a q : V3 ℝ} {X : PT ℝ} (hX : X.Rigid)
  {u d : V3 ℝ} (hu : Along u (X.E.transpose.mulVec a))
  (hd : Along d (q - (X.r + X.E.transpose.mulVec p))) (hc : -1 + prec ≤ u.dot d)
include hp hX hu hd hc

/-- The error is the turn, with the transposed orientation of the body applied to it. -/
theorem trackErr_eq : trackErr prec opp p a q X = X.E.transpose.mulVec (turnOf u d) := by
  have hr : ((PT.ofTrans p).mul X).r = X.r + X.E.transpose.mulVec p := rfl
  unfold trackErr
  rw [hr, normalized_along hu, normalized_along hd]
  obtain ⟨h1, h2⟩ := fromTwo_inverse hu.1 hd.1 hp opp hc
  have hl := unit_dot_le hu.1 hd.1
  unfold rotationErrorOf
  dsimp only
  rw [M3.mul_assoc', hX.1.mul_transpose, M3.mul_one']
  congr 1
  unfold svaRotVel turnOf
  have e : (1 + 2 * u.dot d - 1) / 2 = u.dot d := by ring
  rw [h1, h2, e, max_eq_left (by linarith), min_eq_left hl]
  ext <;> simp only [V3.smul_x, V3.smul_y, V3.smul_z] <;> ring

/-- What the error is: the turn that takes the axis to the direction of the point, turned by the
transposed orientation. -/
theorem C119_formula : ∃ w, TurnVec u d w ∧ trackErr prec opp p a q X = X.E.transpose.mulVec w :=
  ⟨turnOf u d, turnOf_turns hu.1 hd.1 (by linarith), trackErr_eq hp hX hu hd hc⟩

/-- Its size is the angle that is left. -/
theorem C119_size : (trackErr prec opp p a q X).dot (trackErr prec opp p a q X)
    = Real.arccos (u.dot d) ^ 2 := by
  rw [trackErr_eq hp hX hu hd hc, show (X.E.transpose.mulVec (turnOf u d)).dot (X.E.transpose.mulVec (turnOf u d))
    = (turnOf u d).dot (turnOf u d) from (turning_isRot hX).1.dot_mulVec _ _, turnOf_sq hu.1 hd.1 (by linarith)]

/-- It vanishes exactly when the axis points at the point. -/
theorem C119_zero : trackErr prec opp p a q X = 0 ↔ u = d := by
  have h := C119_size hp hX hu hd hc (opp := opp)
  constructor
  · intro e
    rw [e] at h
    have : Real.arccos (u.dot d) = 0 := by
      have h0 : (0 : V3 ℝ).dot 0 = 0 := by simp [V3.dot]
      rw [h0] at h
      exact pow_eq_zero_iff (two_ne_zero) |>.1 h.symm
    exact unit_eq hu.1 hd.1 (le_antisymm (unit_dot_le hu.1 hd.1) (Real.arccos_eq_zero.1 this))
  · intro e
    rw [← e, show u.dot u = 1 from hu.1, Real.arccos_one] at h
    exact V3.eq_zero_of_dot_self (by rw [h]; ring)

/-- It is the turn that is left when, and only when, the orientation of the body leaves the axis of the turn
where it is. -/
theorem C119_right_partial : TurnVec u d (trackErr prec opp p a q X) ↔
    X.E.transpose.mulVec (u.cross d) = u.cross d := by
  have hc' : -1 < u.dot d := by linarith
  have h0 := Real.arccos_nonneg (u.dot d)
  have e := sinc_mul_sincInv _ h0 (arccos_lt_pi hc')
  rw [trackErr_eq hp hX hu hd hc]
  constructor
  · intro h
    have h1 := turn_unique hu.1 hd.1 hc' h
    unfold turnOf at h1
    rw [M3.mulVec_smul] at h1
    rw [V3.ext_iff] at h1 ⊢
    simp only [V3.smul_x, V3.smul_y, V3.smul_z] at h1
    have hne : svaSincInv (Real.arccos (u.dot d)) ≠ 0 := right_ne_zero_of_mul (by rw [e]; exact one_ne_zero)
    exact ⟨mul_left_cancel₀ hne h1.1, mul_left_cancel₀ hne h1.2.1, mul_left_cancel₀ hne h1.2.2⟩
  · intro h
    have : X.E.transpose.mulVec (turnOf u d) = turnOf u d := by
      unfold turnOf
      rw [M3.mulVec_smul, h]
    rw [this]
    exact turnOf_turns hu.1 hd.1 hc'

end

/-- Otherwise, when the axis points away from the point up to the precision, it is computed in the same way from
the half turn that the decomposition into singular values gives. -/
theorem C119_opposite {prec : ℝ} {opp : V3 ℝ → V3 ℝ → Quat} {p a q : V3 ℝ} {X : PT ℝ} (hX : X.Rigid)
    {u d : V3 ℝ} (hu : Along u (X.E.transpose.mulVec a))
    (hd : Along d (q - (X.r + X.E.transpose.mulVec p))) (hc : u.dot d < -1 + prec) :
    trackErr prec opp p a q X = X.E.transpose.mulVec (svaRotVel (opp u d).inverse.matrix) := by
  have hr : ((PT.ofTrans p).mul X).r = X.r + X.E.transpose.mulVec p := rfl
  have hdc : d.dot u = u.dot d := V3.dot_comm d u
  unfold trackErr
  rw [hr, normalized_along hu, normalized_along hd]
  unfold rotationErrorOf Quat.fromTwo
  dsimp only
  rw [normalized_unit hu.1, normalized_unit hd.1, hdc, if_pos hc, M3.mul_assoc', hX.1.mul_transpose,
    M3.mul_one']

/-- The right turn brings the axis closer to the direction of the point. -/
theorem C119_closing {u d : V3 ℝ} (hu : Unit3 u) (hd : Unit3 d) (hc : -1 < u.dot d) (hne : u ≠ d) :
    ∃ w, TurnVec u d w ∧ (∀ w', TurnVec u d w' → w' = w) ∧ 0 < closing u d w :=
  ⟨turnOf u d, turnOf_turns hu hd hc, fun _ h => turn_unique hu hd hc h,
    closing_pos hu hd hc hne (turnOf_turns hu hd hc)⟩

/-- This is the error that the task reports, with the pose of its body. -/
theorem C119_reported {f : Fns ℝ} {prec : ℝ} {opp : V3 ℝ → V3 ℝ → Quat} (hf : f.trackErr = trackErr prec opp)
    {R : RobotDesc ℝ} {st : KState ℝ} {junk : ℕ → ℕ → ℕ → ℝ} {t : TrackQ ℝ} {r : HLTask ℝ}
    (h : (HLTask.tracking t).updateOn f R st junk = .ok r) :
    ∃ X, st.bodyPosW[t.t.bodyIndex]? = some X ∧
      r.hl.eval = ⟨3, (trackErr prec opp t.bodyPoint t.bodyAxis t.trackedPoint X).get⟩ := by
  simp only [HLTask.updateOn, TrackQ.update, Out.bind_eq_ok, Out.pure_eq, Out.ok.injEq] at h
  obtain ⟨u, ⟨⟨t', v, n, al⟩, h1, rfl⟩, rfl⟩ := h
  simp only [TrackT.qpUpdate, Out.bind_eq_ok] at h1
  obtain ⟨s', h2, av, -, h3⟩ := h1
  split at h3
  swap
  · exact absurd h3 (by simp)
  simp only [Out.pure_eq, Out.ok.injEq, Prod.mk.injEq] at h3
  obtain ⟨rfl, -⟩ := h3
  simp only [TrackT.update, Out.bind_eq_ok, Out.pure_eq, Out.ok.injEq] at h2
  obtain ⟨X, hX, _, -, _, -, _, -, _, -, rfl⟩ := h2
  rw [vecAt_eq_ok] at hX
  refine ⟨X, hX, ?_⟩
  rw [← hf]
  rfl

/-! ### Where the error is wrong -/

namespace TrackEx

def ex : V3 ℝ := ⟨1, 0, 0⟩
def ey : V3 ℝ := ⟨0, 1, 0⟩

/-- Rolled half a turn about `x`. -/
def rolled : PT ℝ := ⟨⟨⟨1, 0, 0⟩, ⟨0, -1, 0⟩, ⟨0, 0, -1⟩⟩, 0⟩

theorem rolled_rigid : rolled.Rigid := by
  simp [rolled, PT.Rigid, M3.IsRot, M3.RowsOrtho, V3.dot, V3.cross]

theorem turn_y : turnOf ex ey = ⟨0, 0, Real.pi / 2⟩ := by
  have e : ex.dot ey = 0 := by simp [ex, ey, V3.dot]
  unfold turnOf
  rw [e, Real.arccos_zero]
  unfold svaSincInv
  rw [if_neg (by have := Real.pi_pos; positivity), Real.sin_pi_div_two]
  ext <;> simp [ex, ey]

theorem turn_ny : turnOf ex (-ey) = ⟨0, 0, -(Real.pi / 2)⟩ := by
  have e : ex.dot (-ey) = 0 := by simp [ex, ey, V3.dot]
  unfold turnOf
  rw [e, Real.arccos_zero]
  unfold svaSincInv
  rw [if_neg (by have := Real.pi_pos; positivity), Real.sin_pi_div_two]
  ext <;> simp [ex, ey]

theorem unit_x : Unit3 ex := by simp [Unit3, ex, V3.dot]
theorem unit_y : Unit3 ey := by simp [Unit3, ey, V3.dot]
theorem unit_ny : Unit3 (-ey) := by simp [Unit3, ey, V3.dot]

theorem along_self {u v : V3 ℝ} (hu : Unit3 u) (h : v = u) : Along u v :=
  ⟨hu, 1, one_pos, by rw [h]; ext <;> simp⟩

/-- A body that has not turned, its axis along `x`, the point on `y`: the turn of 90 degrees about `z`. -/
theorem straight {prec : ℝ} (h0 : 0 < prec) (h1 : prec ≤ 1) (opp : V3 ℝ → V3 ℝ → Quat) :
    trackErr prec opp 0 ex ey PT.one = ⟨0, 0, Real.pi / 2⟩ := by
  have hr : (PT.one : PT ℝ).Rigid := by
    simp [PT.one, PT.Rigid, M3.IsRot, M3.RowsOrtho, V3.dot, V3.cross, M3.one]
  rw [trackErr_eq (u := ex) (d := ey) h0 hr
    (along_self unit_x (by ext <;> simp [PT.one, M3.one, M3.transpose, M3.mulVec, V3.dot, ex]))
    (along_self unit_y (by ext <;> simp [PT.one, M3.one, M3.transpose, M3.mulVec, V3.dot, ey]))
    (by simp [ex, ey, V3.dot, h1]), turn_y]
  ext <;> simp [PT.one, M3.one, M3.transpose, M3.mulVec, V3.dot]

example : TurnVec ex ey ⟨0, 0, Real.pi / 2⟩ := by
  rw [← turn_y]
  exact turnOf_turns unit_x unit_y (by simp [ex, ey, V3.dot])

/-- The same body rolled about its axis, with the point on `y` or opposite. -/
theorem roll_y {prec : ℝ} (h0 : 0 < prec) (h1 : prec ≤ 1) (opp : V3 ℝ → V3 ℝ → Quat) :
    trackErr prec opp 0 ex ey rolled = ⟨0, 0, -(Real.pi / 2)⟩ := by
  rw [trackErr_eq (u := ex) (d := ey) h0 rolled_rigid
    (along_self unit_x (by ext <;> simp [rolled, M3.transpose, M3.mulVec, V3.dot, ex]))
    (along_self unit_y (by ext <;> simp [rolled, M3.transpose, M3.mulVec, V3.dot, ey]))
    (by simp [ex, ey, V3.dot, h1]), turn_y]
  ext <;> simp [rolled, M3.transpose, M3.mulVec, V3.dot]

theorem roll_ny {prec : ℝ} (h0 : 0 < prec) (h1 : prec ≤ 1) (opp : V3 ℝ → V3 ℝ → Quat) :
    trackErr prec opp 0 ex (-ey) rolled = ⟨0, 0, Real.pi / 2⟩ := by
  rw [trackErr_eq (u := ex) (d := -ey) h0 rolled_rigid
    (along_self unit_x (by ext <;> simp [rolled, M3.transpose, M3.mulVec, V3.dot, ex]))
    (along_self unit_ny (by ext <;> simp [rolled, M3.transpose, M3.mulVec, V3.dot, ey]))
    (by simp [ex, ey, V3.dot, h1]), turn_ny]
  ext <;> simp [rolled, M3.transpose, M3.mulVec, V3.dot]

/-- The point behind the body: a half turn about `z`, as long as the precision is positive. -/
example {prec : ℝ} (h0 : 0 < prec) : trackErr prec (fun _ _ => ⟨0, ⟨0, 0, 1⟩⟩) 0 ex (-ex) PT.one
    = svaRotVel (Quat.matrix ⟨0, ⟨0, 0, -1⟩⟩) := by
  rw [C119_opposite (u := ex) (d := -ex) (X := PT.one) M3.isRot_one
    (along_self unit_x (by ext <;> simp [PT.one, M3.one, M3.transpose, M3.mulVec, V3.dot, ex]))
    (along_self (by simp [Unit3, ex, V3.dot])
      (by ext <;> simp [PT.one, M3.one, M3.transpose, M3.mulVec, V3.dot, ex]))
    (by simp [ex, V3.dot, h0])]
  have : Quat.inverse ⟨0, ⟨0, 0, 1⟩⟩ = ⟨0, ⟨0, 0, -1⟩⟩ := by
    simp [Quat.inverse, V3.dot]
    ext <;> simp
  rw [this]
  ext <;> simp [PT.one, M3.one, M3.transpose, M3.mulVec, V3.dot]

end TrackEx

open TrackEx in
/-- The error can turn the axis away from the point: a body rolled half a turn about its axis, the point 90
degrees away. -/
theorem C119_away_counterexample {prec : ℝ} (h0 : 0 < prec) (h1 : prec ≤ 1) (opp : V3 ℝ → V3 ℝ → Quat) :
    ∃ (p a q : V3 ℝ) (X : PT ℝ) (u d : V3 ℝ), X.Rigid ∧ Along u (X.E.transpose.mulVec a) ∧
      Along d (q - (X.r + X.E.transpose.mulVec p)) ∧ u.dot d = 0 ∧
      closing u d (trackErr prec opp p a q X) < 0 ∧
      ∀ w, TurnVec u d w → trackErr prec opp p a q X = -w := by
  refine ⟨0, ex, ey, rolled, ex, ey, rolled_rigid,
    along_self unit_x (by ext <;> simp [rolled, M3.transpose, M3.mulVec, V3.dot, ex]),
    along_self unit_y (by ext <;> simp [rolled, M3.transpose, M3.mulVec, V3.dot, ey]),
    by simp [ex, ey, V3.dot], ?_, fun w hw => ?_⟩
  · rw [roll_y h0 h1]
    simp only [closing, ex, ey, V3.dot, V3.cross_x, V3.cross_y, V3.cross_z]
    have := Real.pi_pos
    linarith
  · rw [roll_y h0 h1, turn_unique unit_x unit_y (by simp [ex, ey, V3.dot]) hw, turn_y]
    ext <;> simp

open TrackEx in
/-- The error depends on the choice of the world frame: the hypothesis of C118 on it fails. -/
theorem C119_frame_counterexample {prec : ℝ} (h0 : 0 < prec) (h1 : prec ≤ 1) (opp : V3 ℝ → V3 ℝ → Quat) :
    ∃ W : PT ℝ, W.Rigid ∧ ∀ f : Fns ℝ, f.trackErr = trackErr prec opp → ¬ TrackFree f W := by
  refine ⟨rolled, rolled_rigid, fun f hf h => ?_⟩
  have h2 := h 0 ex ey PT.one
  rw [hf, straight h0 h1] at h2
  have e1 : PT.point rolled ey = -ey := by
    ext <;> simp [PT.point, rolled, M3.transpose, M3.mulVec, V3.dot, ey]
  have e2 : PT.one.mul rolled = rolled := by
    unfold PT.mul PT.one rolled M3.one
    congr 1 <;> ext <;> simp [M3.mul, M3.transpose, M3.mulVec, V3.dot]
  rw [e1, e2, roll_ny h0 h1] at h2
  have h3 := congrArg V3.z h2
  simp [PT.turning, rolled, M3.transpose, M3.mulVec, V3.dot] at h3
  have := Real.pi_pos
  linarith

end Verif
