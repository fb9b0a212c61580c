import Verif.Props.SetPoint
import Verif.Props.Drift
import Verif.Props.CoM
import Verif.Props.RelDist
import Mathlib.Analysis.Calculus.MeanValue
import Mathlib.Analysis.Calculus.Deriv.MeanValue
import Mathlib.Analysis.SpecialFunctions.ExpDeriv
import Mathlib.Analysis.SpecialFunctions.Exp
import Mathlib.Analysis.SpecialFunctions.Pow.Asymptotics

/-!
# C62: closed loop

If at every instant `t ≥ 0` the accelerations of the robot are the ones that minimise the objective of a
set-point task whose target acceleration can be reached, the error of the task follows the
critically damped second order system of the given stiffness: it is
`(e0 + (e0' + ω e0) t) exp (-ω t)` with `ω = sqrt k`, it tends to zero when `k > 0`, and it neither
grows nor changes sign when the motion starts at rest.  With a trajectory task the error with
respect to a moving reference tends to zero for all positive gains.

The link between the values the task reports and the motion (`Spec.Follows`) is what C58, C59 and
C61 prove of the tasks; `C62_position` and `C62_com` put both together.
-/

set_option autoImplicit false
set_option linter.unusedSectionVars false

namespace Verif

open Finset Spec

namespace Spec

/-- Row `a` of the values a task reports follows a motion of acceleration `y` (the unknowns of the
quadratic program, those of the robot begin at `b`), towards a reference of speed `vr`. -/
structure FollowsRef (hl : ℝ → HL ℝ) (b a : ℕ) (y : ℝ → ℕ → ℝ) (vr : ℝ → ℝ) : Prop where
  err : ∀ t, 0 ≤ t → HasDerivAt (fun τ => (hl τ).eval.get a) (vr t - (hl t).speed.get a) t
  speed : ∀ t, 0 ≤ t → HasDerivAt (fun τ => (hl τ).speed.get a)
    (rowAt (hl t).jac b (y t) a + (hl t).normalAcc.get a) t

/-- The reference does not move. -/
def Follows (hl : ℝ → HL ℝ) (b a : ℕ) (y : ℝ → ℕ → ℝ) : Prop := FollowsRef hl b a y fun _ => 0

/-- `y` minimises the objective of the task. -/
def Minimises {K : Type} [Field K] [LinearOrder K] (t : TaskQC K) (y : ℕ → K) : Prop :=
  ∀ z, t.obj y ≤ t.obj z

/-- Some acceleration reaches the target of the task on all its rows. -/
def TargetReached {K : Type} [Field K] (hl : HL K) (b : ℕ) (target : ℕ → K) : Prop :=
  ∃ z, ∀ i < hl.jac.rows, rowAt hl.jac b z i + hl.normalAcc.get i = target i

/-- What is asked of the control loop around a `SetPointTask`: the task is created once and, at every
time `t ≥ 0`, any calls are made and it is updated with the values `hl t`; the last stiffness given is
`k`, the weights are positive, the unknowns of the robot begin at `b`; the target
`k * eval - 2 sqrt k * speed` can be reached, and the accelerations `y t` minimise the objective. -/
def SetPointLoop (dim : ℕ) (k : ℝ) (b : ℕ) (hl : ℝ → HL ℝ) (y : ℝ → ℕ → ℝ) : Prop :=
  ∃ (sqrt : ℝ → Out ℝ) (mbs : List (MultiBody ℝ)) (rI : ℕ) (w k0 : ℝ) (dw : Option (Vec ℝ))
    (junk : ℕ → ℕ → ℝ) (s0 : SetPoint ℝ) (s s' : ℝ → SetPoint ℝ) (ops : ℝ → List (SetPointOp ℝ)),
    SqrtOK sqrt ∧ 0 < w ∧ SetPoint.make sqrt mbs rI dim k0 dw w junk = .ok s0 ∧
    (∀ t, 0 ≤ t → forEach (ops t) (SetPoint.step sqrt) s0 = .ok (s t)) ∧
    (∀ t, 0 ≤ t → (s t).update (hl t) = .ok (s' t)) ∧
    (∀ t, 0 ≤ t → let v := (ops t).foldl (·.apply rI) (⟨⟨initW dim dw, 0⟩, k0⟩ : SetPointSet ℝ)
      v.k = k ∧ v.b = b ∧ ∀ i < (hl t).jac.rows, 0 < v.W.get i) ∧
    (∀ t, 0 ≤ t → TargetReached (hl t) b fun i =>
      k * (hl t).eval.get i - 2 * Real.sqrt k * (hl t).speed.get i) ∧
    ∀ t, 0 ≤ t → Minimises (s' t).c.task (y t)

/-- The critically damped response of pulsation `ω` from the value `e0` and the rate `d0`. -/
noncomputable def critical (ω e0 d0 t : ℝ) : ℝ := (e0 + (d0 + ω * e0) * t) * Real.exp (-(ω * t))

end Spec

/-! ## Second order linear systems -/

theorem const_of_hasDerivAt_zero {f : ℝ → ℝ} (h : ∀ t, 0 ≤ t → HasDerivAt f 0 t) {t : ℝ}
    (ht : 0 ≤ t) : f t = f 0 :=
  (constant_of_has_deriv_right_zero (b := t)
    (fun x hx => (h x hx.1).continuousAt.continuousWithinAt)
    (fun x hx => (h x hx.1).hasDerivWithinAt)) t ⟨ht, le_rfl⟩

theorem critical_solution {e v : ℝ → ℝ} {ω : ℝ} (h1 : ∀ t, 0 ≤ t → HasDerivAt e (v t) t)
    (h2 : ∀ t, 0 ≤ t → HasDerivAt v (-(ω * ω * e t) - 2 * ω * v t) t) {t : ℝ} (ht : 0 ≤ t) :
    e t = critical ω (e 0) (v 0) t := by
  have hE : ∀ t, HasDerivAt (fun τ => Real.exp (ω * τ)) (Real.exp (ω * t) * ω) t := fun t => by
    simpa using ((hasDerivAt_id t).const_mul ω).exp
  have hh : ∀ t, 0 ≤ t → (v t + ω * e t) * Real.exp (ω * t) = v 0 + ω * e 0 := fun t ht => by
    have := const_of_hasDerivAt_zero (f := fun τ => (v τ + ω * e τ) * Real.exp (ω * τ))
      (fun t ht => (((h2 t ht).add ((h1 t ht).const_mul ω)).mul (hE t)).congr_deriv (by
        simp only [Pi.add_apply]; ring)) ht
    simpa using this
  have hg := const_of_hasDerivAt_zero
    (f := fun τ => e τ * Real.exp (ω * τ) - (v 0 + ω * e 0) * τ)
    (fun t ht => (((h1 t ht).mul (hE t)).sub ((hasDerivAt_id t).const_mul _)).congr_deriv (by
      rw [← hh t ht]; ring)) ht
  simp only [mul_zero, Real.exp_zero, mul_one, sub_zero] at hg
  have h3 : e t * Real.exp (ω * t) = e 0 + (v 0 + ω * e 0) * t := by linarith
  unfold critical
  rw [← h3, mul_assoc, ← Real.exp_add, add_neg_cancel, Real.exp_zero, mul_one]

theorem critical_tendsto {ω : ℝ} (hω : 0 < ω) (e0 d0 : ℝ) :
    Filter.Tendsto (critical ω e0 d0) Filter.atTop (nhds 0) := by
  have h0 : Filter.Tendsto (fun t : ℝ => ω * t) Filter.atTop Filter.atTop :=
    Filter.tendsto_id.const_mul_atTop hω
  have h1 : Filter.Tendsto (fun t : ℝ => Real.exp (-(ω * t))) Filter.atTop (nhds 0) :=
    Real.tendsto_exp_neg_atTop_nhds_zero.comp h0
  have h2 : Filter.Tendsto (fun t : ℝ => (ω * t) ^ 1 * Real.exp (-(ω * t))) Filter.atTop (nhds 0) :=
    (Real.tendsto_pow_mul_exp_neg_atTop_nhds_zero 1).comp h0
  have h3 := (h1.const_mul e0).add (h2.const_mul ((d0 + ω * e0) / ω))
  simp only [mul_zero, add_zero] at h3
  refine h3.congr fun t => ?_
  unfold critical
  field_simp

/-- A Lyapunov function gives convergence of every damped second order system. -/
theorem damped_tendsto {e v : ℝ → ℝ} {k d : ℝ} (hk : 0 < k) (hd : 0 < d)
    (h1 : ∀ t, 0 ≤ t → HasDerivAt e (v t) t)
    (h2 : ∀ t, 0 ≤ t → HasDerivAt v (-(k * e t) - d * v t) t) :
    ∃ C c : ℝ, 0 < c ∧ ∀ t, 0 ≤ t → e t ^ 2 + v t ^ 2 ≤ C * Real.exp (-(c * t)) := by
  -- V = v² + k e² + ε e v
  set ε : ℝ := 2 * d * k / (2 * k + d ^ 2) with hε
  have hden : 0 < 2 * k + d ^ 2 := by positivity
  have hε0 : 0 < ε := by positivity
  have hεeq : ε * (2 * k + d ^ 2) = 2 * d * k := by rw [hε]; field_simp
  have hε2 : 2 * ε ^ 2 ≤ k := by
    have : 2 * (2 * d * k) ^ 2 ≤ k * (2 * k + d ^ 2) ^ 2 := by
      nlinarith [mul_nonneg hk.le (sq_nonneg (2 * k - d ^ 2))]
    rw [hε, div_pow, ← mul_div_assoc, div_le_iff₀ (by positivity)]
    exact this
  set V : ℝ → ℝ := fun t => v t ^ 2 + k * e t ^ 2 + ε * (e t * v t) with hV
  have dV : ∀ t, 0 ≤ t → HasDerivAt V (2 * v t * (-(k * e t) - d * v t) + k * (2 * e t * v t)
      + ε * (v t * v t + e t * (-(k * e t) - d * v t))) t := fun t ht => by
    refine ((((h2 t ht).pow 2).add (((h1 t ht).pow 2).const_mul k)).add
      (((h1 t ht).mul (h2 t ht)).const_mul ε)).congr_deriv ?_
    simp
  have hcross : ∀ t, |ε * (e t * v t)| ≤ k / 2 * e t ^ 2 + v t ^ 2 / 4 := fun t => by
    rw [abs_le]
    have a : 0 ≤ (k * e t + ε * v t) ^ 2 := sq_nonneg _
    have b : 0 ≤ (k * e t - ε * v t) ^ 2 := sq_nonneg _
    have c : 2 * ε ^ 2 * v t ^ 2 ≤ k * v t ^ 2 := mul_le_mul_of_nonneg_right hε2 (sq_nonneg _)
    constructor
    · refine le_of_mul_le_mul_left ?_ hk
      nlinarith
    · refine le_of_mul_le_mul_left ?_ hk
      nlinarith
  set c : ℝ := min (4 * d / 5) (ε / 3) with hc
  have hc0 : 0 < c := lt_min (by positivity) (by positivity)
  have hle : ∀ t, 2 * v t * (-(k * e t) - d * v t) + k * (2 * e t * v t)
      + ε * (v t * v t + e t * (-(k * e t) - d * v t)) ≤ -(c * V t) := fun t => by
    have q1 : -(ε * d * (e t * v t)) ≤ ε * k / 2 * e t ^ 2 + (d - ε) * v t ^ 2 := by
      have a : 0 ≤ ε * (k * e t + d * v t) ^ 2 := mul_nonneg hε0.le (sq_nonneg _)
      refine le_of_mul_le_mul_left ?_ (by positivity : 0 < 2 * k)
      have b : ε * d ^ 2 * v t ^ 2 = 2 * k * (d - ε) * v t ^ 2 := by
        have : ε * d ^ 2 = 2 * k * (d - ε) := by linarith
        rw [this]
      nlinarith
    have q2 : 2 * v t * (-(k * e t) - d * v t) + k * (2 * e t * v t)
        + ε * (v t * v t + e t * (-(k * e t) - d * v t))
        ≤ -(d * v t ^ 2) - ε * k / 2 * e t ^ 2 := by nlinarith
    have q3 : V t ≤ 5 / 4 * v t ^ 2 + 3 / 2 * k * e t ^ 2 := by
      have := (abs_le.1 (hcross t)).2
      simp only [hV]
      linarith
    have q4 : c * V t ≤ c * (5 / 4 * v t ^ 2 + 3 / 2 * k * e t ^ 2) :=
      mul_le_mul_of_nonneg_left q3 hc0.le
    have q5 : c * (5 / 4) * v t ^ 2 ≤ d * v t ^ 2 :=
      mul_le_mul_of_nonneg_right (by have := min_le_left (4 * d / 5) (ε / 3); linarith)
        (sq_nonneg _)
    have q6 : c * (3 / 2 * k) * e t ^ 2 ≤ ε * k / 2 * e t ^ 2 := by
      refine mul_le_mul_of_nonneg_right ?_ (sq_nonneg _)
      have := mul_le_mul_of_nonneg_right (min_le_right (4 * d / 5) (ε / 3)) hk.le
      rw [← hc] at this
      linarith
    linarith
  have hE : ∀ t, HasDerivAt (fun τ => Real.exp (c * τ)) (Real.exp (c * t) * c) t := fun t => by
    simpa using ((hasDerivAt_id t).const_mul c).exp
  have hW : AntitoneOn (fun τ => V τ * Real.exp (c * τ)) (Set.Ici 0) := by
    have dW : ∀ t, 0 ≤ t → HasDerivAt (fun τ => V τ * Real.exp (c * τ)) _ t := fun t ht =>
      (dV t ht).mul (hE t)
    refine antitoneOn_of_deriv_nonpos (convex_Ici 0)
      (fun t ht => (dW t ht).continuousAt.continuousWithinAt)
      (fun t ht => (dW t (interior_subset ht)).differentiableAt.differentiableWithinAt) fun t ht => ?_
    rw [(dW t (interior_subset ht)).deriv]
    have := mul_le_mul_of_nonneg_right (hle t) (Real.exp_pos (c * t)).le
    linarith
  refine ⟨V 0 / min (k / 2) (3 / 4), c, hc0, fun t ht => ?_⟩
  have hm : 0 < min (k / 2) (3 / 4 : ℝ) := lt_min (by positivity) (by norm_num)
  have w := hW (Set.mem_Ici.2 le_rfl) ht ht
  simp only [mul_zero, Real.exp_zero, mul_one] at w
  have w2 : V t ≤ V 0 * Real.exp (-(c * t)) := by
    have := mul_le_mul_of_nonneg_right w (Real.exp_pos (-(c * t))).le
    rwa [mul_assoc, ← Real.exp_add, add_neg_cancel, Real.exp_zero, mul_one] at this
  have w3 : min (k / 2) (3 / 4) * (e t ^ 2 + v t ^ 2) ≤ V t := by
    have a := mul_le_mul_of_nonneg_right (min_le_left (k / 2) (3 / 4 : ℝ)) (sq_nonneg (e t))
    have b := mul_le_mul_of_nonneg_right (min_le_right (k / 2) (3 / 4 : ℝ)) (sq_nonneg (v t))
    have := (abs_le.1 (hcross t)).1
    simp only [hV]
    linarith
  rw [div_mul_eq_mul_div, le_div_iff₀ hm]
  linarith

/-! ## C62 -/

section
variable {mbs : List (MultiBody ℝ)} {rI dim : ℕ} {w : ℝ} {dw : Option (Vec ℝ)} {junk : ℕ → ℕ → ℝ}
  {hl : ℝ → HL ℝ} {y : ℝ → ℕ → ℝ} {b a : ℕ}

/-- What the loop around a `SetPointTask` imposes on the accelerations. -/
theorem setpoint_key {k : ℝ} (L : SetPointLoop dim k b hl y) (ha : ∀ t, a < (hl t).jac.rows) :
    0 ≤ k ∧ ∀ t, 0 ≤ t → rowAt (hl t).jac b (y t) a + (hl t).normalAcc.get a
      = k * (hl t).eval.get a - 2 * Real.sqrt k * (hl t).speed.get a := by
  obtain ⟨sqrt, mbs, rI, w, k0, dw, junk, s0, s, s', ops, hs, hw, hm, hr, hu, hset, hreach, hopt⟩ := L
  have hk : ∀ t, 0 ≤ t → 0 ≤ k ∧ rowAt (hl t).jac b (y t) a + (hl t).normalAcc.get a
      = k * (hl t).eval.get a - 2 * Real.sqrt k * (hl t).speed.get a := fun t ht => by
    obtain ⟨⟨d, d0, d1, hl1⟩, -⟩ := C43_setpoint hs hm (hr t ht) (hu t ht)
    obtain ⟨v1, v2, v3⟩ := hset t ht
    rw [v1] at d1
    rw [v1, v2] at hl1
    have hk : 0 ≤ k := by nlinarith [mul_self_nonneg d]
    have hd : d = 2 * Real.sqrt k := by
      have : (2 * Real.sqrt k) * (2 * Real.sqrt k) = d * d := by
        rw [d1]; have := Real.mul_self_sqrt hk; linarith
      exact ((mul_self_inj (by positivity) d0).1 this).symm
    subst hd
    obtain ⟨z, hz⟩ := hreach t ht
    exact ⟨hk, C43_minimiser_unique hl1 hw v3 hz (hopt t ht z) a (ha t)⟩
  exact ⟨(hk 0 le_rfl).1, fun t ht => (hk t ht).2⟩

/-- `SetPointTask`: whatever the calls made before each update, the error is the critically damped
response. -/
theorem C62_setpoint {k : ℝ} (L : SetPointLoop dim k b hl y) (ha : ∀ t, a < (hl t).jac.rows)
    (hf : Follows hl b a y) {t : ℝ} (ht : 0 ≤ t) :
    (hl t).eval.get a
      = critical (Real.sqrt k) ((hl 0).eval.get a) (-(hl 0).speed.get a) t := by
  obtain ⟨hk, key⟩ := setpoint_key L ha
  have h1 : ∀ t, 0 ≤ t → HasDerivAt (fun τ => (hl τ).eval.get a) ((fun τ => -(hl τ).speed.get a) t) t :=
    fun t ht => (hf.err t ht).congr_deriv (by simp)
  have h2 : ∀ t, 0 ≤ t → HasDerivAt (fun τ => -(hl τ).speed.get a)
      (-(Real.sqrt k * Real.sqrt k * (hl t).eval.get a)
        - 2 * Real.sqrt k * (-(hl t).speed.get a)) t := fun t ht =>
    (hf.speed t ht).neg.congr_deriv (by rw [key t ht, Real.mul_self_sqrt hk]; ring)
  exact critical_solution h1 h2 ht

/-- The error tends to zero when the stiffness is positive. -/
theorem C62_converges {k : ℝ} (L : SetPointLoop dim k b hl y) (ha : ∀ t, a < (hl t).jac.rows)
    (hf : Follows hl b a y) (hk : 0 < k) :
    Filter.Tendsto (fun t => (hl t).eval.get a) Filter.atTop (nhds 0) := by
  refine (critical_tendsto (Real.sqrt_pos.2 hk) ((hl 0).eval.get a) (-(hl 0).speed.get a)).congr' ?_
  filter_upwards [Filter.eventually_ge_atTop 0] with t ht
  exact (C62_setpoint L ha hf ht).symm

/-- From rest, the error never grows and never changes sign: no overshoot. -/
theorem C62_no_overshoot {k : ℝ} (L : SetPointLoop dim k b hl y) (ha : ∀ t, a < (hl t).jac.rows)
    (hf : Follows hl b a y) (h0 : (hl 0).speed.get a = 0) {t : ℝ} (ht : 0 ≤ t) :
    |(hl t).eval.get a| ≤ |(hl 0).eval.get a| ∧ 0 ≤ (hl t).eval.get a * (hl 0).eval.get a := by
  rw [C62_setpoint L ha hf ht, h0]
  generalize (hl 0).eval.get a = e0
  set ω := Real.sqrt k
  have hω : 0 ≤ ω * t := mul_nonneg (Real.sqrt_nonneg k) ht
  have e1 : critical ω e0 (-0) t = e0 * ((1 + ω * t) * Real.exp (-(ω * t))) := by
    unfold critical; ring
  have p0 : 0 ≤ (1 + ω * t) * Real.exp (-(ω * t)) := by positivity
  have p1 : (1 + ω * t) * Real.exp (-(ω * t)) ≤ 1 := by
    have := mul_le_mul_of_nonneg_right (Real.add_one_le_exp (ω * t)) (Real.exp_pos (-(ω * t))).le
    rw [← Real.exp_add, add_neg_cancel, Real.exp_zero] at this
    linarith
  rw [e1]
  constructor
  · rw [abs_mul, abs_of_nonneg p0]
    exact mul_le_of_le_one_right (abs_nonneg _) p1
  · have := mul_nonneg (mul_self_nonneg e0) p0
    linarith

/-- `TrajectoryTask`: the gains of the row are `k` and `d`, the reference speed given before the
update at time `t` is `vr t` and the reference acceleration its derivative; then the error and its
rate tend to zero exponentially. -/
theorem C62_trajectory {gp0 gv0 k d : ℝ} (hk : 0 < k) (hd : 0 < d) {s0 : Trajectory ℝ}
    {s s' : ℝ → Trajectory ℝ} {ops : ℝ → List (TrajectoryOp ℝ)} {vr ar : ℝ → ℕ → ℝ} {kk dd : ℝ → ℕ → ℝ}
    (hm : Trajectory.make mbs rI dim gp0 gv0 dw w junk = .ok s0)
    (hr : ∀ t, 0 ≤ t → forEach (ops t) (Trajectory.step dim) s0 = .ok (s t))
    (hu : ∀ t, 0 ≤ t → (s t).update (hl t) = .ok (s' t))
    (hset : ∀ t, 0 ≤ t → let z : Vec ℝ := ⟨dim, fun _ => 0⟩
      let v := (ops t).foldl (·.apply rI)
        (⟨⟨initW dim dw, 0⟩, fun _ => gp0, fun _ => gv0, z, z⟩ : TrajectorySet ℝ)
      v.k = kk t ∧ v.d = dd t ∧ v.vel.get = vr t ∧ v.acc.get = ar t ∧ v.b = b ∧
        ∀ i < (hl t).jac.rows, 0 < v.W.get i)
    (hka : ∀ t, 0 ≤ t → kk t a = k) (hda : ∀ t, 0 ≤ t → dd t a = d)
    (hw : 0 < w)
    (hreach : ∀ t, 0 ≤ t → TargetReached (hl t) b fun i =>
      kk t i * (hl t).eval.get i + dd t i * (vr t i - (hl t).speed.get i) + ar t i)
    (hopt : ∀ t, 0 ≤ t → Minimises (s' t).c.task (y t))
    (ha : ∀ t, a < (hl t).jac.rows) (hf : FollowsRef hl b a y fun t => vr t a)
    (hvr : ∀ t, 0 ≤ t → HasDerivAt (fun τ => vr τ a) (ar t a) t) :
    ∃ C c : ℝ, 0 < c ∧ ∀ t, 0 ≤ t →
      (hl t).eval.get a ^ 2 + (vr t a - (hl t).speed.get a) ^ 2 ≤ C * Real.exp (-(c * t)) := by
  have key : ∀ t, 0 ≤ t → rowAt (hl t).jac b (y t) a + (hl t).normalAcc.get a
      = k * (hl t).eval.get a + d * (vr t a - (hl t).speed.get a) + ar t a := fun t ht => by
    obtain ⟨hl1, -⟩ := C43_trajectory hm (hr t ht) (hu t ht)
    obtain ⟨v1, v2, v3, v4, v5, v6⟩ := hset t ht
    rw [v1, v2, v3, v4, v5] at hl1
    obtain ⟨z, hz⟩ := hreach t ht
    have := C43_minimiser_unique hl1 hw v6 hz (hopt t ht z) a (ha t)
    rw [this, hka t ht, hda t ht]
  exact damped_tendsto hk hd (e := fun τ => (hl τ).eval.get a)
    (v := fun τ => vr τ a - (hl τ).speed.get a) hf.err
    (fun t ht => ((hvr t ht).sub (hf.speed t ht)).congr_deriv (by rw [key t ht]; ring))

end

/-! ## The tasks of the library -/

/-- What `SetPointTask` reads of a task with three rows. -/
def Out3.hl {K : Type} (o : Out3 K) : HL K :=
  ⟨o.jacMat, ⟨3, o.eval.get⟩, ⟨3, o.speed.get⟩, ⟨3, o.normalAcc.get⟩⟩

section
variable {mb : MultiBody ℝ} {st : ℝ → KState ℝ} {x y : ℝ → ℕ → ℝ} {b : ℕ} {k : ℝ}

theorem follows_of {o : ℝ → Out3 ℝ} (h1 : ∀ t, 0 ≤ t → SpeedDrift3 o (fun c => y t (b + c)) t)
    (h2 : ∀ t, 0 ≤ t → HasD3 (fun τ => (o τ).eval) (-(o t).speed) t) {a : ℕ} (ha : a < 3) :
    Follows (fun τ => (o τ).hl) b a y := by
  refine ⟨fun t ht => ((h2 t ht).get a).congr_deriv ?_, fun t ht => h1 t ht a ha⟩
  match a with
  | 0 => simp [V3.get, Out3.hl]
  | 1 => simp [V3.get, Out3.hl]
  | n + 2 => simp [V3.get, Out3.hl]

theorem converge3 {o : ℝ → Out3 ℝ} (L : SetPointLoop 3 k b (fun t => (o t).hl) y)
    (hrows : ∀ t, (o t).jacMat.rows = 3)
    (h1 : ∀ t, 0 ≤ t → SpeedDrift3 o (fun c => y t (b + c)) t)
    (h2 : ∀ t, 0 ≤ t → HasD3 (fun τ => (o τ).eval) (-(o t).speed) t) {a : ℕ} (ha : a < 3) :
    (∀ t, 0 ≤ t → (o t).eval.get a = critical (Real.sqrt k) ((o 0).eval.get a) (-(o 0).speed.get a) t) ∧
      (0 < k → Filter.Tendsto (fun t => (o t).eval.get a) Filter.atTop (nhds 0)) := by
  have hr : ∀ t, a < (o t).hl.jac.rows := fun t => by simp [Out3.hl, hrows t, ha]
  exact ⟨fun t ht => C62_setpoint L hr (follows_of h1 h2 ha) ht,
    C62_converges L hr (follows_of h1 h2 ha)⟩

/-- A `SetPointTask` over a `PositionTask`: the controlled point goes to the target. -/
theorem C62_position (s : PositionT ℝ) (hp : s.point = s.jac.point)
    (h : ∀ t, 0 ≤ t → Evolves mb st s.jac.path x (fun c => y t (b + c)) t)
    (hb : s.jac.path.getLast? = some s.bodyIndex)
    (hr : s.out.jacMat.rows = 3) (hc : s.out.jacMat.cols = mb.nrDof) {s' : ℝ → PositionT ℝ}
    (hu : ∀ t, s.update mb (st t) = .ok (s' t))
    (L : SetPointLoop 3 k b (fun t => (s' t).out.hl) y) {a : ℕ} (ha : a < 3) :
    (∀ t, 0 ≤ t → (s' t).out.eval.get a
        = critical (Real.sqrt k) ((s' 0).out.eval.get a) (-(s' 0).out.speed.get a) t) ∧
      (0 < k → Filter.Tendsto (fun t => (s' t).out.eval.get a) Filter.atTop (nhds 0)) := by
  refine converge3 L (o := fun t => (s' t).out) (fun t => ?_) (fun t ht => ?_) (fun t ht => ?_) ha
  · obtain ⟨q, h1, h2⟩ := C51_position s ((h 0 le_rfl).moves t) hb hr hc
    rw [Out.ok.inj ((hu t).symm.trans h1)]
    exact h2.1
  · obtain ⟨q, h1, h2⟩ := C58_position s (h t ht) hb hr hc
    have e : q = s' := funext fun τ => Out.ok.inj ((h1 τ).symm.trans (hu τ))
    exact e ▸ h2
  · obtain ⟨q, h1, h2⟩ := C59_position s hp (h t ht) hb hr hc
    have e : q = s' := funext fun τ => Out.ok.inj ((h1 τ).symm.trans (hu τ))
    exact e ▸ h2

/-- A `SetPointTask` over a `CoMTask` with the default weights: the centre of mass goes to the
target. -/
theorem C62_com {wt : List ℝ} {bs : List (BodyM ℝ)} {com : V3 ℝ} {s : CoMT ℝ}
    (R : CoMRun wt bs com s) (h : ∀ t, 0 ≤ t → BodiesEvolve bs mb st x (fun c => y t (b + c)) t)
    (hm : MassOK bs) (hM : massSum bs ≠ 0) (hw : ∀ i < bs.length, wt.getD i 0 = 1)
    {s' : ℝ → CoMT ℝ} (hu : ∀ t, s.update bs mb (st t) = .ok (s' t))
    (L : SetPointLoop 3 k b (fun t => (s' t).out.hl) y) {a : ℕ} (ha : a < 3) :
    (∀ t, 0 ≤ t → (s' t).out.eval.get a
        = critical (Real.sqrt k) ((s' 0).out.eval.get a) (-(s' 0).out.speed.get a) t) ∧
      (0 < k → Filter.Tendsto (fun t => (com - (s' t).actual).get a) Filter.atTop (nhds 0)) := by
  have A := converge3 L (o := fun t => (s' t).out) (fun t => ?_) (fun t ht => ?_) (fun t ht => ?_) ha
  · refine ⟨A.1, fun hk => (A.2 hk).congr fun t => ?_⟩
    obtain ⟨M, m1, -⟩ := com_exact R ((h 0 le_rfl).moves t) hm hM
    rw [Out.ok.inj ((hu t).symm.trans m1)]
  · obtain ⟨M, m1, m2, -⟩ := com_exact R ((h 0 le_rfl).moves t) hm hM
    rw [Out.ok.inj ((hu t).symm.trans m1)]
    exact m2
  · obtain ⟨q, h1, h2⟩ := C61_drift R (h t ht) hm hM
    have e : q = s' := funext fun τ => Out.ok.inj ((h1 τ).symm.trans (hu τ))
    exact e ▸ h2
  · obtain ⟨q, h1, h2⟩ := C61_error_rate R (h t ht) hm hM hw
    have e : q = s' := funext fun τ => Out.ok.inj ((h1 τ).symm.trans (hu τ))
    exact e ▸ h2

end

namespace ConvEx

/-- A slider along `x` whose position is `-(1 + τ) exp (-τ)`: from rest at `-1` to `0`. -/
def mb : MultiBody ℝ := { joints := [⟨"a", 1, none⟩], nrBodies := 1, pred := [-1], succ := [0] }
noncomputable def q (τ : ℝ) : ℝ := -((1 + τ) * Real.exp (-τ))
noncomputable def v (τ : ℝ) : ℝ := τ * Real.exp (-τ)
noncomputable def acc (τ : ℝ) : ℝ := (1 - τ) * Real.exp (-τ)
noncomputable def st (τ : ℝ) : KState ℝ :=
  ⟨[PT.ofTrans ⟨q τ, 0, 0⟩], [⟨0, ⟨v τ, 0, 0⟩⟩], [[⟨0, ⟨1, 0, 0⟩⟩]], [[v τ]], [0]⟩

theorem exp_deriv (t : ℝ) : HasDerivAt (fun τ : ℝ => Real.exp (-τ)) (-Real.exp (-t)) t := by
  simpa using (hasDerivAt_id t).neg.exp

theorem q_deriv (t : ℝ) : HasDerivAt q (v t) t :=
  ((((hasDerivAt_id t).const_add 1).mul (exp_deriv t)).neg).congr_deriv (by simp [v]; ring)

theorem v_deriv (t : ℝ) : HasDerivAt v (acc t) t :=
  ((hasDerivAt_id t).mul (exp_deriv t)).congr_deriv (by simp [acc]; ring)

theorem evolves (t : ℝ) : Evolves mb st [0] (fun τ _ => v τ) (fun _ => acc t) t := by
  refine ⟨fun τ => ⟨⟨by simp, by simp, by simp [mb], by simp [st], by simp [st], by simp [st], ?_⟩,
    ?_, ?_⟩, fun τ i _ d => rfl, fun c => v_deriv t, ?_, ?_⟩
  · simp [st, mb, jdof]
  · intro i hi
    simp at hi
    subst hi
    exact PT.rigid_ofTrans _
  · refine ⟨?_, trivial⟩
    ext <;> simp [kVel, kSub, st, mb, jdof, jpos]
  · intro i hi
    simp at hi
    subst hi
    refine ⟨fun v => ((HasD3.const v t).congr_fun fun τ => M3.one_mulVec v).congr_deriv ?_,
      ⟨?_, ?_, ?_⟩⟩
    · ext <;> simp [kVel, st]
    · refine (q_deriv t).congr_deriv ?_
      simp [kVel, kPose, st, PT.ofTrans, M3.transpose, M3.one, M3.mulVec, V3.dot]
    · refine (hasDerivAt_const t (0 : ℝ)).congr_deriv ?_
      simp [kVel, kPose, st, PT.ofTrans, M3.transpose, M3.one, M3.mulVec, V3.dot]
    · refine (hasDerivAt_const t (0 : ℝ)).congr_deriv ?_
      simp [kVel, kPose, st, PT.ofTrans, M3.transpose, M3.one, M3.mulVec, V3.dot]
  · refine ⟨?_, trivial⟩
    ext <;> simp [kVel, kSub, kAcc, st, mb, jdof, jpos, MV.cross]

/-- The point of the slider is sent to the origin. -/
def task : PositionT ℝ := PositionT.make 0 [0] 0 0 ⟨0, 0, 0, ⟨3, 1, fun _ _ => 7⟩⟩

theorem task_update (τ : ℝ) : ∃ R : Mat ℝ, task.update mb (st τ) = .ok { task with
      out := ⟨⟨-q τ, 0, 0⟩, ⟨v τ, 0, 0⟩, 0, R⟩ } ∧ R.rows = 3 ∧
    ∀ z, R.rowMul 0 z = z 0 ∧ R.rowMul 1 z = 0 ∧ R.rowMul 2 z = 0 := by
  obtain ⟨R, h1, h2⟩ := pos_exact task ((evolves 0).moves τ) rfl rfl rfl
  obtain ⟨o, h3, h4, -⟩ := C51_position task ((evolves 0).moves τ) rfl rfl rfl
  have e := Out.ok.inj (h3.symm.trans h1)
  refine ⟨R, h1.trans ?_, by rw [e] at h4; exact h4, fun z => ⟨?_, ?_, ?_⟩⟩
  · congr 3
    · ext <;> simp [task, PositionT.make, kPose, st, PT.mul, PT.ofTrans, M3.transpose, M3.one, M3.mulVec,
        V3.dot]
    · ext <;> simp [task, PositionT.make, kPose, kVel, st, PT.mul, PT.mulM, PT.ofTrans, PT.ofRot,
        M3.transpose, M3.one, M3.mul, M3.mulVec, V3.dot]
    · ext <;> simp [task, PositionT.make, kPose, kVel, kAcc, st, PT.mul, PT.mulM, PT.ofTrans, PT.ofRot,
        M3.transpose, M3.one, M3.mul, M3.mulVec, V3.dot, MV.cross]
  all_goals
    rw [h2 z _ (by norm_num)]
    simp [task, PositionT.make, wSum, pathSum, kPose, kSub, st, mb, jdof, jpos, PT.mul, PT.mulM, PT.ofTrans, PT.inv,
      M3.transpose, M3.one, M3.mul, M3.mulVec, V3.dot, V3.get]

/-- The loop with stiffness 1 and weight 10 produces this motion; the theorem gives its error, which
tends to zero. -/
example : ∃ s' : ℝ → PositionT ℝ, (∀ τ, task.update mb (st τ) = .ok (s' τ)) ∧
    SetPointLoop 3 1 0 (fun t => (s' t).out.hl) (fun t _ => acc t) ∧
    (∀ t, 0 ≤ t → (s' t).out.eval.get 0 = critical (Real.sqrt 1) 1 (-0) t) ∧
    Filter.Tendsto (fun t => (s' t).out.eval.get 0) Filter.atTop (nhds 0) := by
  choose R h1 hR h2 using task_update
  set s' : ℝ → PositionT ℝ := fun τ => { task with out := ⟨⟨-q τ, 0, 0⟩, ⟨v τ, 0, 0⟩, 0, R τ⟩ } with hs'
  have L : SetPointLoop 3 1 0 (fun t => (s' t).out.hl) (fun t _ => acc t) := by
    have hm : SetPoint.make RelEx.sqrtR [mb] 0 3 1 none 10 (fun _ _ => 7)
        = .ok ⟨⟨10, Vec.const 3 1, 0, 0, ⟨1, 1, fun _ _ => 7⟩, ⟨1, fun _ => 7⟩, ⟨3, fun _ => 7⟩⟩, 1,
          2 * Real.sqrt 1⟩ := by
      simp [SetPoint.make, SPCommon.make, RelEx.sqrtR, vecAt, mb, MultiBody.nrDof]
    have hd : ∀ t, ∃ s1, SetPoint.update (s' t).out.hl
        ⟨⟨10, Vec.const 3 1, 0, 0, ⟨1, 1, fun _ _ => 7⟩, ⟨1, fun _ => 7⟩, ⟨3, fun _ => 7⟩⟩, 1,
          2 * Real.sqrt 1⟩ = .ok s1 := fun t => by
      rw [C43_setpoint_defined]
      simp [hs', Out3.hl, hR, Vec.const]
    choose s1 hs1 using hd
    have reach : ∀ t, ∀ i < (s' t).out.hl.jac.rows,
        rowAt (s' t).out.hl.jac 0 (fun _ => acc t) i + (s' t).out.hl.normalAcc.get i
          = 1 * (s' t).out.hl.eval.get i - 2 * Real.sqrt 1 * (s' t).out.hl.speed.get i := by
      intro t i hi
      have hi' : i < 3 := by simpa [hs', Out3.hl, hR] using hi
      have e : rowAt (R t) 0 (fun _ => acc t) i = (R t).rowMul i fun _ => acc t := by
        simp [rowAt, Mat.rowMul]
      obtain ⟨a0, a1, a2⟩ := h2 t fun _ => acc t
      show rowAt (R t) 0 (fun _ => acc t) i + V3.get 0 i = _
      rw [e]
      match i, hi' with
      | 0, _ => rw [a0]; simp [hs', Out3.hl, V3.get, q, v, acc]; ring
      | 1, _ => rw [a1]; simp [hs', Out3.hl, V3.get]
      | 2, _ => rw [a2]; simp [hs', Out3.hl, V3.get]
    refine ⟨RelEx.sqrtR, [mb], 0, 10, 1, none, fun _ _ => 7, _, fun _ => _, s1, fun _ => [],
      RelEx.sqrtR_ok, by norm_num, hm, fun t _ => rfl, fun t _ => hs1 t, fun t _ => ⟨rfl, rfl, fun i _ => ?_⟩,
      fun t _ => ⟨fun _ => acc t, reach t⟩, fun t _ z => ?_⟩
    · simp [initW]
    · obtain ⟨⟨d, d0, d1, hl⟩, -⟩ := C43_setpoint RelEx.sqrtR_ok (ops := []) hm rfl (hs1 t)
      have hd : d = 2 * Real.sqrt 1 := by
        simp at d1 ⊢
        nlinarith
      subst hd
      exact C43_minimiser hl (by norm_num) (fun i _ => by simp [initW]) (reach t) z
  refine ⟨s', h1, L, ?_⟩
  obtain ⟨A, B⟩ := C62_position task rfl (y := fun t _ => acc t) (x := fun τ _ => v τ) (b := 0) (fun t _ => evolves t) rfl rfl rfl h1 L
    (a := 0) (by norm_num)
  refine ⟨fun t ht => ?_, B one_pos⟩
  rw [A t ht]
  simp [hs', V3.get, q, v]

/-- A task of one row tracking a reference of speed 1 with gains 1 and 2. -/
noncomputable def hlT (t : ℝ) : HL ℝ :=
  ⟨⟨1, 1, fun _ _ => 1⟩, ⟨1, fun _ => -q t⟩, ⟨1, fun _ => 1 + v t⟩, ⟨1, fun _ => 0⟩⟩

example : ∃ C c : ℝ, 0 < c ∧ ∀ t, 0 ≤ t →
    (hlT t).eval.get 0 ^ 2 + (1 - (hlT t).speed.get 0) ^ 2 ≤ C * Real.exp (-(c * t)) := by
  obtain ⟨s0, hm⟩ : ∃ s0, Trajectory.make [mb] 0 1 1 2 none 10 (fun _ _ => 7) = .ok s0 := ⟨_, rfl⟩
  have hops : ∃ s, forEach [TrajectoryOp.refVel (Vec.const 1 1)] (Trajectory.step 1) s0 = .ok s ∧
      ∀ t, ∃ s', s.update (hlT t) = .ok s' := by
    simp only [Trajectory.make, SPCommon.make, vecAt, Out.pure_eq, List.getElem?_cons_zero, Out.ok_bind,
      Out.ok.injEq] at hm
    subst hm
    exact ⟨_, rfl, fun t => ⟨_, rfl⟩⟩
  obtain ⟨s, hs, hu⟩ := hops
  choose s' hs' using hu
  have reach : ∀ t, ∀ i < (hlT t).jac.rows,
      rowAt (hlT t).jac 0 (fun _ => acc t) i + (hlT t).normalAcc.get i
        = 1 * (hlT t).eval.get i + 2 * (1 - (hlT t).speed.get i) + 0 := by
    intro t i _
    simp [hlT, rowAt, acc, q, v]
    ring
  refine C62_trajectory (k := 1) (d := 2) (b := 0) (a := 0) (vr := fun _ _ => 1) (ar := fun _ _ => 0)
    (kk := fun _ _ => 1) (dd := fun _ _ => 2) (y := fun t _ => acc t) (s := fun _ => s)
    (ops := fun _ => [.refVel (Vec.const 1 1)])
    one_pos two_pos hm (fun _ _ => hs) (fun t _ => hs' t) (fun t _ => ⟨rfl, rfl, rfl, rfl, rfl, fun i _ => by
      simp [TrajectorySet.apply, initW]⟩) (fun _ _ => rfl) (fun _ _ => rfl) (by norm_num)
    (fun t _ => ⟨_, reach t⟩) (fun t _ z => ?_) (fun t => by simp [hlT]) ⟨fun t _ => ?_, fun t _ => ?_⟩
    (fun t _ => hasDerivAt_const _ _)
  · exact C43_minimiser (C43_trajectory hm hs (hs' t)).1 (by norm_num)
      (fun i _ => by simp [TrajectorySet.apply, initW]) (reach t) z
  · refine (q_deriv t).neg.congr_deriv ?_
    simp [hlT]
  · refine ((v_deriv t).const_add 1).congr_deriv ?_
    simp [hlT, rowAt]

end ConvEx

end Verif
