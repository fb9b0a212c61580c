import Verif.Props.Safety

/-!
# C82: damped joint limits and the integration of the accelerations

C75 integrates the position with the new velocity.  Here the position advances with any mean
`(1 - θ) v + θ v'` of the old and the new velocity: `θ = 1` is the scheme of C75, `θ = 1/2` the exact motion under an
acceleration held during the step, `θ = 0` the explicit Euler scheme.
-/

set_option autoImplicit false
set_option linter.unusedSectionVars false

namespace Verif

open Finset Spec

namespace Spec
variable {K : Type} [Field K] [LinearOrder K] [IsStrictOrderedRing K]

/-- The one-dof joints of robot `mb` integrate the accelerations `x` over one step `dt`; the position advances with
the mean `(1 - θ) v + θ v'` of the old and the new velocity. -/
def IntegratesMean (θ : K) (mb : MultiBody K) (b : ℕ) (dt : K) (x : ℕ → K) (Q A Q' A' : List (List K)) : Prop :=
  ∀ i < mb.joints.length, jdof mb i = 1 → ∀ q a, nested Q i 0 = .ok q → nested A i 0 = .ok a →
    nested A' i 0 = .ok (a + x (b + jpos mb i) * dt) ∧
    nested Q' i 0 = .ok (q + ((1 - θ) * a + θ * (a + x (b + jpos mb i) * dt)) * dt)

/-- The loop of C75 with this integration, from the positions `Q0` and the velocities `A0`. -/
inductive MeanLoop (θ : K) (mbs : List (MultiBody K)) (mb : MultiBody K) (r : ℕ) (p : LimitParams K)
    (Q0 A0 : List (List K)) : Option (SolverData K) → DamperLimits K → List (List K) → List (List K) → Prop
  | start {od : Option (SolverData K)} {s : DamperLimits K} :
      DampRun mb r p od s → MeanLoop θ mbs mb r p Q0 A0 od s Q0 A0
  | nrVars {od : Option (SolverData K)} {s : DamperLimits K} {Q A : List (List K)} (d : SolverData K)
      (s' : DamperLimits K) : MeanLoop θ mbs mb r p Q0 A0 od s Q A → s.updateNrVars d = .ok s' →
      MeanLoop θ mbs mb r p Q0 A0 (some d) s' Q A
  | step {d : SolverData K} {s : DamperLimits K} {Q A : List (List K)} (AD : List (List K))
      (s' : DamperLimits K) (backend : String) (n : ℕ) (inp : QPInput K) (x : Vec K) (Q' A' : List (List K)) :
      MeanLoop θ mbs mb r p Q0 A0 (some d) s Q A → vecAt d.alphaDBegin r = .ok (aBegin mbs r) →
      AD.flatten.length = mb.nrDof → s.update Q A AD = .ok s' → Solved backend mbs n inp x →
      s'.bound ∈ inp.bound → IntegratesMean θ mb (aBegin mbs r) p.dt x.get Q A Q' A' →
      MeanLoop θ mbs mb r p Q0 A0 (some d) s' Q' A'

end Spec

section C82
variable {K : Type} [Field K] [LinearOrder K] [IsStrictOrderedRing K]

theorem meanLoop_run {θ : K} {mbs : List (MultiBody K)} {mb : MultiBody K} {r : ℕ} {p : LimitParams K}
    {Q0 A0 Q A : List (List K)} {od : Option (SolverData K)} {s : DamperLimits K}
    (C : MeanLoop θ mbs mb r p Q0 A0 od s Q A) : DampRun mb r p od s := by
  induction C with
  | start R => exact R
  | nrVars d s' _ h ih => exact .nrVars d s' ih h
  | step AD s' b n inp x Q' A' _ _ _ h _ _ _ ih => exact .update _ _ AD s' ih h

/-- The scheme of C75 is the one with `θ = 1`. -/
theorem C82_semi_implicit (mb : MultiBody K) (b : ℕ) (dt : K) (x : ℕ → K) (Q A Q' A' : List (List K)) :
    IntegratesMean 1 mb b dt x Q A Q' A' ↔ Integrates mb b dt x Q A Q' A' := by
  unfold IntegratesMean Integrates
  simp only [sub_self, zero_mul, zero_add, one_mul]

/-- One step inside the zone of a limit: `R` its width, `D` the distance beyond the security distance, `c` the
damping, `a` and `v` the displacements with the old and the new velocity. -/
theorem mean_step {R D c v a dt θ κ ρ : K} (hR : 0 < R) (hD : 0 ≤ D) (hdt : 0 < dt) (hκ : 0 ≤ κ)
    (hθ0 : 0 ≤ θ) (hθ1 : θ ≤ 1) (hρ : 0 < ρ) (hθ : κ * (θ * ρ + (1 - θ)) ≤ ρ * (1 - ρ)) (hc : dt * c ≤ κ * R)
    (hv : -(c * (D / R)) ≤ v) (ha : -(κ * D) ≤ ρ * (a * dt)) :
    0 ≤ D + ((1 - θ) * a + θ * v) * dt ∧ -(κ * (D + ((1 - θ) * a + θ * v) * dt)) ≤ ρ * (v * dt) := by
  have hv' : -(κ * D) ≤ v * dt := by
    have h1 : -(c * (D / R)) * dt ≤ v * dt := mul_le_mul_of_nonneg_right hv hdt.le
    have h2 : dt * c * (D / R) ≤ κ * R * (D / R) := mul_le_mul_of_nonneg_right hc (div_nonneg hD hR.le)
    have h3 : κ * R * (D / R) = κ * D := by field_simp
    nlinarith
  have key : ρ * (ρ * D) ≤ ρ * (D + ((1 - θ) * a + θ * v) * dt) := by
    have h1 := mul_le_mul_of_nonneg_left ha (sub_nonneg.2 hθ1)
    have h2 := mul_le_mul_of_nonneg_left hv' (mul_nonneg hθ0 hρ.le)
    have h3 := mul_le_mul_of_nonneg_right hθ hD
    linarith
  have hle := le_of_mul_le_mul_left key hρ
  refine ⟨le_trans (mul_nonneg hρ.le hD) hle, ?_⟩
  have h1 := mul_le_mul_of_nonneg_left hle hκ
  have h2 := mul_le_mul_of_nonneg_left hv' hρ.le
  linarith

/-- One step outside the zone. -/
theorem far_step {R D v a m dt θ κ ρ off : K} (hR : 0 < R) (hD : R ≤ D) (hdt : 0 < dt) (hκ : 0 ≤ κ)
    (hθ0 : 0 ≤ θ) (hθ1 : θ ≤ 1) (hρ1 : ρ ≤ 1) (hρ : 0 < ρ) (hmR : m < R) (hoff : 0 ≤ off)
    (hm : R * m + off * dt * (R - m) ≤ κ * R * (R - m))
    (hv : -m ≤ v * dt) (ha : -m ≤ a * dt) :
    R - m ≤ D + ((1 - θ) * a + θ * v) * dt ∧ -(κ * (D + ((1 - θ) * a + θ * v) * dt)) ≤ ρ * (v * dt) := by
  have h1 := mul_le_mul_of_nonneg_left ha (sub_nonneg.2 hθ1)
  have h2 := mul_le_mul_of_nonneg_left hv hθ0
  have hle : R - m ≤ D + ((1 - θ) * a + θ * v) * dt := by linarith
  refine ⟨hle, ?_⟩
  have h3 := mul_le_mul_of_nonneg_left hle hκ
  have h4 : 0 ≤ off * dt * (R - m) := by
    have : 0 ≤ R - m := by linarith
    positivity
  have h5 : m ≤ κ * (R - m) := by
    have : R * m ≤ R * (κ * (R - m)) := by linarith
    exact le_of_mul_le_mul_left this hR
  have h6 := mul_le_mul_of_nonneg_left hv hρ.le
  have h7 : ρ * m ≤ κ * (R - m) := by
    have h0 : 0 ≤ κ * (R - m) := mul_nonneg hκ (by linarith)
    rcases le_or_gt 0 m with hm0 | hm0
    · have := mul_le_mul_of_nonneg_right hρ1 hm0
      linarith
    · have := mul_pos_of_neg_of_neg hm0 (neg_lt_zero.2 hρ)
      linarith
  linarith

/-- The damping chosen on entering a zone is compatible with the step. -/
theorem mean_entry {R D m off a dt κ : K} (hdt : 0 < dt) (hmR : m < R) (hD : R - m ≤ D)
    (hm : R * m + off * dt * (R - m) ≤ κ * R * (R - m)) (ha : |a| * dt ≤ m) :
    dt * (|R / D * a| + off) ≤ κ * R := by
  have hm0 : 0 ≤ m := le_trans (by positivity) ha
  have hR : 0 < R := by linarith
  have hRm : 0 < R - m := by linarith
  have hD0 : 0 < D := by linarith
  rw [abs_mul, abs_of_pos (div_pos hR hD0)]
  have e : dt * (R / D * |a| + off) = (R * (|a| * dt) + off * dt * D) / D := by
    field_simp
  rw [e, div_le_iff₀ hD0]
  have h1 : R * (|a| * dt) ≤ R * m := mul_le_mul_of_nonneg_left ha hR.le
  have h2 : R * m ≤ (κ * R - off * dt) * (R - m) := by linarith
  have h3 : 0 ≤ κ * R - off * dt := by
    by_contra hlt
    push Not at hlt
    have := mul_neg_of_neg_of_pos hlt hRm
    have : 0 ≤ R * m := by positivity
    linarith
  have h4 := mul_le_mul_of_nonneg_left hD h3
  linarith

/-- After a step inside the zone the bound asks for a change of velocity of at most `κ m / dt`. -/
theorem mean_next {R D c v a m dt θ κ : K} (hR : 0 < R) (hdt : 0 < dt) (hκ : 0 ≤ κ) (hθ0 : 0 ≤ θ) (hθ1 : θ ≤ 1)
    (hm0 : 0 ≤ m) (hc0 : 0 ≤ c) (hc : dt * c ≤ κ * R) (hv : -(c * (D / R)) ≤ v) (ha : -m ≤ a * dt)
    (hv' : -m ≤ v * dt) :
    -(c * ((D + ((1 - θ) * a + θ * v) * dt) / R)) * dt ≤ v * dt + κ * m := by
  have h1 := mul_le_mul_of_nonneg_left ha (sub_nonneg.2 hθ1)
  have h2 := mul_le_mul_of_nonneg_left hv' hθ0
  have h3 : -m ≤ ((1 - θ) * a + θ * v) * dt := by linarith
  have h4 : dt * c / R ≤ κ := by rw [div_le_iff₀ hR]; exact hc
  have h5 : 0 ≤ dt * c / R := by positivity
  have h6 : -(c * ((D + ((1 - θ) * a + θ * v) * dt) / R)) * dt
      = -(c * (D / R)) * dt + dt * c / R * -(((1 - θ) * a + θ * v) * dt) := by field_simp; ring
  have h7 := mul_le_mul_of_nonneg_right hv hdt.le
  rw [h6]
  rcases le_or_gt 0 (-(((1 - θ) * a + θ * v) * dt)) with h8 | h8
  · have h9 := mul_le_mul h4 (show -(((1 - θ) * a + θ * v) * dt) ≤ m by linarith) h8 hκ
    linarith
  · have h9 := mul_nonpos_of_nonneg_of_nonpos h5 h8.le
    have := mul_nonneg hκ hm0
    linarith

theorem zoneOf_low {l u inter q : K} (h : zoneOf l u inter q = .low) : q - l < (u - l) * inter := by
  unfold zoneOf at h
  by_contra hc
  rw [if_neg hc] at h
  split at h <;> cases h

theorem zoneOf_upp {l u inter q : K} (h : zoneOf l u inter q = .upp) :
    ¬ q - l < (u - l) * inter ∧ u - q < (u - l) * inter := by
  unfold zoneOf at h
  split at h
  · cases h
  · rename_i h1
    split at h
    · rename_i h2
      exact ⟨h1, h2⟩
    · cases h

theorem zoneOf_ne_low {l u inter q : K} (h : zoneOf l u inter q ≠ .low) : (u - l) * inter ≤ q - l := by
  by_contra hc
  exact h (by unfold zoneOf; rw [if_pos (not_le.1 hc)])

theorem zoneOf_ne_upp {l u inter q : K} (hz : 2 * ((u - l) * inter) ≤ u - l) (h : zoneOf l u inter q ≠ .upp) :
    (u - l) * inter ≤ u - q := by
  by_cases c1 : q - l < (u - l) * inter
  · linarith
  · by_contra hc
    exact h (by unfold zoneOf; rw [if_neg c1, if_pos (not_le.1 hc)])

set_option maxHeartbeats 400000 in
/-- What holds after any number of steps: the distances beyond the security distance are not negative, the velocity is
small compared with them, and what the constraint remembers is compatible with the step and asks for a change of
velocity of at most `κ m / dt`. -/
theorem mean_inv {θ κ ρ : K} (hθ0 : 0 ≤ θ) (hθ1 : θ ≤ 1) (hρ : 0 < ρ) (hρ1 : ρ ≤ 1) (hκ : 0 ≤ κ)
    (hθ : κ * (θ * ρ + (1 - θ)) ≤ ρ * (1 - ρ))
    {mbs : List (MultiBody K)} {mb : MultiBody K} {r : ℕ} {p : LimitParams K}
    (hdt : 0 < p.dt) (hoff : 0 ≤ p.off) {i : ℕ} (hi : i < mb.joints.length) (h1 : jdof mb i = 1) {l u : K}
    {vl vu : Ext K} (hl : nested p.lQ i 0 = .ok (.fin l)) (hu : nested p.uQ i 0 = .ok (.fin u))
    (hvl : nested p.lA i 0 = .ok vl) (hvu : nested p.uA i 0 = .ok vu)
    (hlu : l ≤ u) (hsi : (u - l) * p.sec < (u - l) * p.inter) (hz : p.inter ≤ 1 / 2) {m R : K}
    (hRd : R = (u - l) * p.inter - (u - l) * p.sec)
    (hm : R * m + p.off * p.dt * (R - m) ≤ κ * R * (R - m)) (hmR : m < R)
    (hslowL : ∀ v, vl.LowerOK v → -m ≤ v * p.dt) (hslowU : ∀ v, vu.UpperOK v → v * p.dt ≤ m)
    {Q0 A0 : List (List K)} {q0 a0 : K} (hq0 : nested Q0 i 0 = .ok q0) (ha0 : nested A0 i 0 = .ok a0)
    (h0l : (u - l) * p.inter ≤ q0 - l) (h0u : (u - l) * p.inter ≤ u - q0) (h0v : |a0| * p.dt ≤ m)
    {od : Option (SolverData K)} {s : DamperLimits K} {Q A : List (List K)}
    (C : MeanLoop θ mbs mb r p Q0 A0 od s Q A) :
    ∃ q a, nested Q i 0 = .ok q ∧ nested A i 0 = .ok a ∧ |a| * p.dt ≤ m ∧
      (0 ≤ q - l - (u - l) * p.sec ∧ 0 ≤ u - q - (u - l) * p.sec) ∧
      (-(κ * (q - l - (u - l) * p.sec)) ≤ ρ * (a * p.dt) ∧ -(κ * (u - q - (u - l) * p.sec)) ≤ ρ * (-a * p.dt)) ∧
      (vl.LowerOK a0 ∧ vu.UpperOK a0 → vl.LowerOK a ∧ vu.UpperOK a) ∧
      (((u - l) * p.inter ≤ q - l ∧ (u - l) * p.inter ≤ u - q) ∨
        ∃ d, entryOf s i = some d ∧ (d.state ≠ .free → 0 ≤ d.damping ∧ p.dt * d.damping ≤ κ * R) ∧
          (d.state ≠ .low → (u - l) * p.inter - m ≤ q - l) ∧
          (d.state ≠ .upp → (u - l) * p.inter - m ≤ u - q) ∧
          (d.state = .low → -(d.damping * ((q - l - (u - l) * p.sec) / R)) * p.dt ≤ a * p.dt + κ * m) ∧
          (d.state = .upp → -(d.damping * ((u - q - (u - l) * p.sec) / R)) * p.dt ≤ -a * p.dt + κ * m)) := by
  have hsum : 2 * ((u - l) * p.inter) ≤ u - l := by
    have : (u - l) * p.inter ≤ (u - l) * (1 / 2) := mul_le_mul_of_nonneg_left hz (by linarith)
    linarith
  have hR : 0 < R := by linarith
  have hm0 : 0 ≤ m := le_trans (by positivity) h0v
  have abs_dt : ∀ v : K, |v| * p.dt ≤ m → -m ≤ v * p.dt ∧ v * p.dt ≤ m := by
    intro v hv
    have e := abs_le.1 (show |v * p.dt| ≤ m by rw [abs_mul, abs_of_pos hdt]; exact hv)
    exact e
  -- a displacement of at most `m` is slow compared with the width of the zone
  have slow : ∀ D w : K, R ≤ D → -m ≤ w → -(κ * D) ≤ ρ * w := by
    intro D w hD hw
    have := (far_step (v := w) (a := 0) (dt := 1) (θ := 0) (off := 0) hR hD one_pos hκ le_rfl zero_le_one hρ1 hρ
      hmR le_rfl (by
        have h4 : 0 ≤ p.off * p.dt * (R - m) := by
          have : 0 ≤ R - m := by linarith
          positivity
        linarith) (by linarith) (by
          have : 0 ≤ m := le_trans (by positivity) h0v
          linarith)).2
    simpa using this
  induction C with
  | start _ =>
    obtain ⟨b1, b2⟩ := abs_dt _ h0v
    exact ⟨q0, a0, hq0, ha0, h0v, ⟨by linarith, by linarith⟩, ⟨slow _ _ (by linarith) b1,
      slow _ _ (by linarith) (by linarith)⟩, id, .inl ⟨h0l, h0u⟩⟩
  | nrVars d s' _ h ih =>
    obtain ⟨q, a, e, e', h1, h2, h3, hp, h4⟩ := ih
    refine ⟨q, a, e, e', h1, h2, h3, hp, h4.imp_right ?_⟩
    rintro ⟨d, k2, k3⟩
    exact ⟨d, (entryOf_nrVars h i).trans k2, k3⟩
  | @step d s Q A AD s' b n inp x Q' A' C hb hD h hs hmem hint ih =>
    obtain ⟨q, a, hq, ha, hva, ⟨i1, i2⟩, ⟨j1, j2⟩, -, hst⟩ := ih
    have Rn := meanLoop_run C
    obtain ⟨-, -, -, -, qi', ai, aD, d', b1, b2, b3, b4, b5, b6, b7, b8, -⟩ := C30_row hdt Rn hD h hi h1
    rw [hq] at b5; cases b5
    rw [ha] at b6; cases b6
    obtain ⟨⟨⟨-, hbnd⟩, -⟩, -, -⟩ := solved_optimal hs
    have hsat := hbnd _ hmem
    have hrow := ((C30_bounds hdt Rn hb hD h x.get).1 hsat).1 i hi h1 _ _ _ _ _ _ _ _ hl hu hvl hvu hq ha b7 b8
    obtain ⟨e1, e2⟩ := hint i hi h1 _ _ hq ha
    obtain ⟨⟨w1, w2, w3, w4⟩, -⟩ := hrow
    have s1 := hslowL _ w1
    have s2 := hslowU _ w2
    obtain ⟨qi', ai', d0, d1, k1, k2, k3, k4, k5, k6⟩ := C32_update hdt Rn h hi h1 hl hu
    rw [hq] at k1; cases k1
    rw [ha] at k2; cases k2
    rw [b8] at k4; cases k4
    obtain ⟨va1, va2⟩ := abs_dt _ hva
    -- the damping in use
    have hdamp : d'.state ≠ .free → 0 ≤ d'.damping ∧ p.dt * d'.damping ≤ κ * R := by
      intro hf
      rw [k6]
      rcases hst with ⟨o1, o2⟩ | ⟨d1, a2, a4, a5, a6, -⟩
      · exact absurd (k5.trans (by unfold zoneOf; rw [if_neg (not_lt.2 o1), if_neg (not_lt.2 o2)])) hf
      · rw [k3] at a2; cases a2
        by_cases hsame : d'.state = d0.state
        · rw [if_pos (.inr hsame)]
          exact a4 (hsame ▸ hf)
        · rw [if_neg (by tauto), ← hRd]
          refine ⟨by positivity, mean_entry hdt hmR ?_ hm hva⟩
          cases hzz : d'.state with
          | low => have := a5 (fun hh => hsame (hzz.trans hh.symm)); simp only [zoneDist]; linarith
          | upp => have := a6 (fun hh => hsame (hzz.trans hh.symm)); simp only [zoneDist]; linarith
          | free => exact absurd hzz hf
    have hv : |a + x.get (aBegin mbs r + jpos mb i) * p.dt| * p.dt ≤ m := by
      rcases abs_cases (a + x.get (aBegin mbs r + jpos mb i) * p.dt) with ⟨e, -⟩ | ⟨e, -⟩ <;> rw [e] <;> linarith
    generalize a + x.get (aBegin mbs r + jpos mb i) * p.dt = v at *
    have na : -m ≤ -a * p.dt := by rw [neg_mul]; exact neg_le_neg va2
    have ns : -m ≤ -v * p.dt := by rw [neg_mul]; exact neg_le_neg s2
    -- far from a limit
    have farL : (u - l) * p.inter ≤ q - l → R - m ≤ q - l - (u - l) * p.sec + ((1 - θ) * a + θ * v) * p.dt ∧
        -(κ * (q - l - (u - l) * p.sec + ((1 - θ) * a + θ * v) * p.dt)) ≤ ρ * (v * p.dt) := fun hfar =>
      far_step hR (by linarith) hdt hκ hθ0 hθ1 hρ1 hρ hmR hoff hm s1 va1
    have farU : (u - l) * p.inter ≤ u - q → R - m ≤ u - q - (u - l) * p.sec + ((1 - θ) * -a + θ * -v) * p.dt ∧
        -(κ * (u - q - (u - l) * p.sec + ((1 - θ) * -a + θ * -v) * p.dt)) ≤ ρ * (-v * p.dt) := fun hfar =>
      far_step hR (by linarith) hdt hκ hθ0 hθ1 hρ1 hρ hmR hoff hm ns na
    have eL : q + ((1 - θ) * a + θ * v) * p.dt - l - (u - l) * p.sec
        = q - l - (u - l) * p.sec + ((1 - θ) * a + θ * v) * p.dt := by ring
    have eU : u - (q + ((1 - θ) * a + θ * v) * p.dt) - (u - l) * p.sec
        = u - q - (u - l) * p.sec + ((1 - θ) * -a + θ * -v) * p.dt := by ring
    have hL : 0 ≤ q - l - (u - l) * p.sec + ((1 - θ) * a + θ * v) * p.dt ∧
        -(κ * (q - l - (u - l) * p.sec + ((1 - θ) * a + θ * v) * p.dt)) ≤ ρ * (v * p.dt) := by
      by_cases c1 : q - l < (u - l) * p.inter
      · have hlow : d'.state = .low := by rw [k5]; unfold zoneOf; rw [if_pos c1]
        refine mean_step hR i1 hdt hκ hθ0 hθ1 hρ hθ (hdamp (by rw [hlow]; simp)).2 ?_ j1
        rw [hRd]
        exact w3 c1
      · obtain ⟨f1, f2⟩ := farL (not_lt.1 c1)
        exact ⟨by linarith, f2⟩
    have hU : 0 ≤ u - q - (u - l) * p.sec + ((1 - θ) * -a + θ * -v) * p.dt ∧
        -(κ * (u - q - (u - l) * p.sec + ((1 - θ) * -a + θ * -v) * p.dt)) ≤ ρ * (-v * p.dt) := by
      by_cases c2 : u - q < (u - l) * p.inter
      · have c1 : ¬ q - l < (u - l) * p.inter := by intro hh; linarith
        have hupp : d'.state = .upp := by rw [k5]; unfold zoneOf; rw [if_neg c1, if_pos c2]
        refine mean_step hR i2 hdt hκ hθ0 hθ1 hρ hθ (hdamp (by rw [hupp]; simp)).2 ?_ j2
        rw [hRd]
        exact neg_le_neg (w4 c1 c2)
      · obtain ⟨f1, f2⟩ := farU (not_lt.1 c2)
        exact ⟨by linarith, f2⟩
    refine ⟨_, _, e2, e1, hv, ⟨by rw [eL]; exact hL.1, by rw [eU]; exact hU.1⟩,
      ⟨by rw [eL]; exact hL.2, by rw [eU]; exact hU.2⟩, fun _ => ⟨w1, w2⟩, .inr ⟨d', b8, hdamp, ?_, ?_, ?_, ?_⟩⟩
    · intro hne
      have := (farL (zoneOf_ne_low (k5 ▸ hne))).1
      linarith
    · intro hne
      have := (farU (zoneOf_ne_upp hsum (k5 ▸ hne))).1
      linarith
    · intro hst'
      obtain ⟨f1, f2⟩ := hdamp (by rw [hst']; simp)
      rw [eL]
      exact mean_next hR hdt hκ hθ0 hθ1 hm0 f1 f2 (hRd ▸ w3 (zoneOf_low (k5 ▸ hst'))) va1 s1
    · intro hst'
      obtain ⟨f1, f2⟩ := hdamp (by rw [hst']; simp)
      obtain ⟨c1, c2⟩ := zoneOf_upp (k5 ▸ hst')
      rw [eU]
      exact mean_next hR hdt hκ hθ0 hθ1 hm0 f1 f2 (hRd ▸ neg_le_neg (w4 c1 c2)) na ns

/-- **C82**.  Closed loop with the solver, position advanced with the mean `(1 - θ) v + θ v'`.  A one-dof joint with
finite limits starts outside the interaction zones within its velocity limits, which allow at most a displacement `m`
in one step.  `R` is the width between the security and the interaction distances.  If
`R m + off dt (R - m) ≤ κ R (R - m)` with `κ (θ ρ + (1 - θ)) ≤ ρ (1 - ρ)` for some `ρ` between 0 and 1, and the zones
do not overlap, the joint stays at least the security distance away from both limits, whatever the tasks, the other
constraints, the robots, the backends and the numerical solvers. -/
theorem C82_limits_hold {θ κ ρ : K} (hθ0 : 0 ≤ θ) (hθ1 : θ ≤ 1) (hρ : 0 < ρ) (hρ1 : ρ ≤ 1) (hκ : 0 ≤ κ)
    (hθ : κ * (θ * ρ + (1 - θ)) ≤ ρ * (1 - ρ))
    {mbs : List (MultiBody K)} {mb : MultiBody K} {r : ℕ} {p : LimitParams K}
    (hdt : 0 < p.dt) (hoff : 0 ≤ p.off) {i : ℕ} (hi : i < mb.joints.length) (h1 : jdof mb i = 1) {l u : K}
    {vl vu : Ext K} (hl : nested p.lQ i 0 = .ok (.fin l)) (hu : nested p.uQ i 0 = .ok (.fin u))
    (hvl : nested p.lA i 0 = .ok vl) (hvu : nested p.uA i 0 = .ok vu)
    (hlu : l ≤ u) (hsi : (u - l) * p.sec < (u - l) * p.inter) (hz : p.inter ≤ 1 / 2) {m R : K}
    (hRd : R = (u - l) * p.inter - (u - l) * p.sec)
    (hm : R * m + p.off * p.dt * (R - m) ≤ κ * R * (R - m)) (hmR : m < R)
    (hslowL : ∀ v, vl.LowerOK v → -m ≤ v * p.dt) (hslowU : ∀ v, vu.UpperOK v → v * p.dt ≤ m)
    {Q0 A0 : List (List K)} {q0 a0 : K} (hq0 : nested Q0 i 0 = .ok q0) (ha0 : nested A0 i 0 = .ok a0)
    (h0l : (u - l) * p.inter ≤ q0 - l) (h0u : (u - l) * p.inter ≤ u - q0) (h0v : |a0| * p.dt ≤ m)
    {od : Option (SolverData K)} {s : DamperLimits K} {Q A : List (List K)}
    (C : MeanLoop θ mbs mb r p Q0 A0 od s Q A) :
    ∃ q, nested Q i 0 = .ok q ∧ (u - l) * p.sec ≤ q - l ∧ (u - l) * p.sec ≤ u - q := by
  obtain ⟨q, a, e, -, -, ⟨h2, h3⟩, -⟩ := mean_inv hθ0 hθ1 hρ hρ1 hκ hθ hdt hoff hi h1 hl hu hvl hvu hlu hsi hz hRd hm hmR
    hslowL hslowU hq0 ha0 h0l h0u h0v C
  exact ⟨q, e, by linarith, by linarith⟩

/-- **C82**, the two usual schemes without offset.  With the explicit Euler scheme (`θ = 0`) one fifth of the width of
the zone per step is safe, with the exact motion under constant acceleration (`θ = 1/2`) twelve forty-sevenths: a
little more than one quarter. -/
theorem C82_schemes {θ : K} {mbs : List (MultiBody K)} {mb : MultiBody K} {r : ℕ} {p : LimitParams K}
    (hdt : 0 < p.dt) (hoff : p.off = 0) {i : ℕ} (hi : i < mb.joints.length) (h1 : jdof mb i = 1) {l u : K}
    {vl vu : Ext K} (hl : nested p.lQ i 0 = .ok (.fin l)) (hu : nested p.uQ i 0 = .ok (.fin u))
    (hvl : nested p.lA i 0 = .ok vl) (hvu : nested p.uA i 0 = .ok vu)
    (hlu : l ≤ u) (hsi : (u - l) * p.sec < (u - l) * p.inter) (hz : p.inter ≤ 1 / 2) {m : K}
    (hm : (θ = 0 ∧ 5 * m ≤ (u - l) * p.inter - (u - l) * p.sec) ∨
      (θ = 1 / 2 ∧ 47 * m ≤ 12 * ((u - l) * p.inter - (u - l) * p.sec)))
    (hslowL : ∀ v, vl.LowerOK v → -m ≤ v * p.dt) (hslowU : ∀ v, vu.UpperOK v → v * p.dt ≤ m)
    {Q0 A0 : List (List K)} {q0 a0 : K} (hq0 : nested Q0 i 0 = .ok q0) (ha0 : nested A0 i 0 = .ok a0)
    (h0l : (u - l) * p.inter ≤ q0 - l) (h0u : (u - l) * p.inter ≤ u - q0) (h0v : |a0| * p.dt ≤ m)
    {od : Option (SolverData K)} {s : DamperLimits K} {Q A : List (List K)}
    (C : MeanLoop θ mbs mb r p Q0 A0 od s Q A) :
    ∃ q, nested Q i 0 = .ok q ∧ (u - l) * p.sec ≤ q - l ∧ (u - l) * p.sec ≤ u - q := by
  generalize hR : (u - l) * p.inter - (u - l) * p.sec = R at hm
  have hR0 : 0 < R := by rw [← hR]; linarith
  have hm0 : 0 ≤ m := le_trans (by positivity) h0v
  rcases hm with ⟨rfl, hm⟩ | ⟨rfl, hm⟩
  · exact C82_limits_hold (κ := 1 / 4) (ρ := 1 / 2) le_rfl zero_le_one (by norm_num) (by norm_num) (by norm_num)
      (by norm_num) hdt hoff.ge hi h1 hl hu hvl hvu hlu hsi hz hR.symm (by rw [hoff]; nlinarith) (by linarith) hslowL
      hslowU hq0 ha0 h0l h0u h0v C
  · exact C82_limits_hold (κ := 12 / 35) (ρ := 2 / 5) (by norm_num) (by norm_num) (by norm_num) (by norm_num)
      (by norm_num) (by norm_num) hdt hoff.ge hi h1 hl hu hvl hvu hlu hsi hz hR.symm (by rw [hoff]; nlinarith)
      (by linarith) hslowL hslowU hq0 ha0 h0l h0u h0v C

end C82

namespace SafetyEx
open WeightEx

theorem meanMoves (θ : ℚ) {x : ℕ → ℚ} {V q0 q1 a0 a1 : ℚ} :
    IntegratesMean θ robot (aBegin [robot] 0) (prm V).dt x [[q0], [q1]] [[a0], [a1]]
      [[q0 + ((1 - θ) * a0 + θ * (a0 + x 0 * 1)) * 1], [q1 + ((1 - θ) * a1 + θ * (a1 + x 1 * 1)) * 1]]
      [[a0 + x 0 * 1], [a1 + x 1 * 1]] := by
  intro i hi _ q a hq ha
  have : i = 0 ∨ i = 1 := by simp [robot] at hi; omega
  rcases this with rfl | rfl <;> cases hq <;> cases ha <;> exact ⟨rfl, rfl⟩

/-- **C82** applies: a task pulls joint 0 from the middle towards its upper limit; the velocity limit `3/50` is one
fifth of the width of the zone.  The hypotheses of `C82_schemes` are met for both schemes. -/
example (θ : ℚ) : ∃ s, MeanLoop θ [robot] robot 0 (prm (3/50)) [[1/2], [1/2]] [[0], [0]] (some dat) s
    [[1/2 + θ * (3/50)], [1/2]] [[3/50], [0]] := by
  obtain ⟨s, R⟩ := setup (3/50)
  obtain ⟨s', d0, d1, h, -, -, hs, hb⟩ := bounds R (q0 := 1/2) (q1 := 1/2) (a0 := 0) (a1 := 0) (by norm_num)
    (by norm_num)
  obtain ⟨x, hx, ex⟩ := solveStep 1 hs (y := fun i => if i = 0 then 3/50 else 0)
    ((hb _).2 (by constructor <;> norm_num [DampedOK, Ext.LowerOK, Ext.UpperOK])) (by norm_num) (by
      intro z hz
      have := ((hb z).1 hz).1.2.1
      simp only [Ext.UpperOK] at this
      norm_num
      nlinarith [sq_nonneg (z 0 - 3/50)])
  have L := MeanLoop.step (Q' := _) (A' := _) [[0], [0]] s' "QLD" 2 _ x
    (MeanLoop.start (θ := θ) (mbs := [robot]) (Q0 := [[1/2], [1/2]]) (A0 := [[0], [0]]) R) rfl rfl h hx (by simp)
    (meanMoves θ)
  rw [ex, ex] at L
  norm_num at L
  exact ⟨s', by norm_num; exact L⟩

example : 5 * (3/50 : ℚ) ≤ (1 - 0) * (prm (3/50)).inter - (1 - 0) * (prm (3/50)).sec ∧
    47 * (3/50 : ℚ) ≤ 12 * ((1 - 0) * (prm (3/50)).inter - (1 - 0) * (prm (3/50)).sec) := by
  norm_num [prm]

/-- **C82** (half of the zone per step is not enough).  Same limits, velocity limit `14/100`: less than half of the
width `3/10` of the zone, as C75 asks.  With every scheme from the explicit one to `θ = 9/10` a task that pulls
joint 0 down from `2/5`, outside of the zones and within the velocity limits, brings it below the security distance
`1/10` in three steps, with the explicit scheme beyond its limit 0. -/
theorem C82_half_zone_counterexample (θ : ℚ) (h1 : θ ≤ 9/10) :
    ∃ s a, MeanLoop θ [robot] robot 0 (prm (14/100)) [[2/5], [1/2]] [[-(14/100)], [0]] (some dat) s
      [[-(1/50) + 49/400 * θ], [1/2]] a ∧ -(1/50) + 49/400 * θ < 1/10 := by
  obtain ⟨s, R⟩ := setup (14/100)
  have hdt : 0 < (prm (14/100)).dt := by norm_num [prm]
  obtain ⟨s1, d0, d1, h, -, -, hs, hb⟩ := bounds R (q0 := 2/5) (q1 := 1/2) (a0 := -(14/100)) (a1 := 0) (by norm_num)
    (by norm_num)
  obtain ⟨x, hx, ex⟩ := solveStep (-1) hs (y := fun i => 0)
    ((hb _).2 (by constructor <;> norm_num [DampedOK, Ext.LowerOK, Ext.UpperOK])) (by norm_num) (by
      intro z hz
      have := ((hb z).1 hz).1.1
      simp only [Ext.LowerOK] at this
      norm_num
      nlinarith [sq_nonneg (z 0)])
  have L : MeanLoop θ [robot] robot 0 (prm (14/100)) [[2/5], [1/2]] [[-(14/100)], [0]] (some dat) s1
      [[13/50], [1/2]] [[-(14/100)], [0]] := by
    have L := MeanLoop.step (Q' := _) (A' := _) [[0], [0]] s1 "QLD" 2 _ x
      (MeanLoop.start (θ := θ) (mbs := [robot]) (Q0 := [[2/5], [1/2]]) (A0 := [[-(14/100)], [0]]) R) rfl rfl h hx
      (by simp) (meanMoves θ)
    rw [ex, ex] at L
    convert L using 3 <;> ring_nf
  have R1 := meanLoop_run L
  obtain ⟨s2, d0', d1', h', e0, e1, hs', hb'⟩ := bounds R1 (q0 := 13/50) (q1 := 1/2) (a0 := -(14/100)) (a1 := 0)
    (by norm_num) (by norm_num)
  have hz1 : ∃ d, entryOf s1 0 = some d ∧ d.state = .free := by
    obtain ⟨qi, ai, d, d', k1, k2, k3, k4, k5, k6⟩ := C32_update hdt R h (i := 0) (by simp [robot]) rfl
      (l := 0) (u := 1) rfl rfl
    cases k1
    exact ⟨d', k4, by rw [k5]; norm_num [zoneOf, prm]⟩
  have hdamp : d0'.damping = 21/80 ∧ d0'.state = .low := by
    obtain ⟨qi, ai, d, d', k1, k2, k3, k4, k5, k6⟩ := C32_update hdt R1 h' (i := 0) (by simp [robot]) rfl
      (l := 0) (u := 1) rfl rfl
    cases k1
    cases k2
    rw [e0] at k4; cases k4
    obtain ⟨d'', f1, f2⟩ := hz1
    rw [k3] at f1; cases f1
    have hz : d0'.state = .low := by rw [k5]; norm_num [zoneOf, prm]
    refine ⟨?_, hz⟩
    rw [hz, f2, if_neg (by simp)] at k6
    rw [k6]
    norm_num [prm, zoneDist, abs_div, abs_mul]
  rw [hdamp.1] at hb'
  obtain ⟨x', hx', ex'⟩ := solveStep (-1) hs' (y := fun i => 0)
    ((hb' _).2 (by constructor <;> norm_num [DampedOK, Ext.LowerOK, Ext.UpperOK])) (by norm_num) (by
      intro z hz
      have := ((hb' z).1 hz).1.1
      simp only [Ext.LowerOK] at this
      norm_num
      nlinarith [sq_nonneg (z 0)])
  have L' : MeanLoop θ [robot] robot 0 (prm (14/100)) [[2/5], [1/2]] [[-(14/100)], [0]] (some dat) s2
      [[3/25], [1/2]] [[-(14/100)], [0]] := by
    have L' := MeanLoop.step (Q' := _) (A' := _) [[0], [0]] s2 "QLD" 2 _ x' L rfl rfl h' hx' (by simp) (meanMoves θ)
    rw [ex', ex'] at L'
    convert L' using 3 <;> ring_nf
  have R2 := meanLoop_run L'
  obtain ⟨s3, d0'', d1'', h'', e0', e1', hs'', hb''⟩ := bounds R2 (q0 := 3/25) (q1 := 1/2) (a0 := -(14/100)) (a1 := 0)
    (by norm_num) (by norm_num)
  have hdamp' : d0''.damping = 21/80 := by
    obtain ⟨qi, ai, d, d', k1, k2, k3, k4, k5, k6⟩ := C32_update hdt R2 h'' (i := 0) (by simp [robot]) rfl
      (l := 0) (u := 1) rfl rfl
    cases k1
    cases k2
    rw [e0'] at k4; cases k4
    rw [e0] at k3; cases k3
    have hz : d0''.state = .low := by rw [k5]; norm_num [zoneOf, prm]
    rw [k6, if_pos (.inr (hz.trans hdamp.2.symm)), hdamp.1]
  rw [hdamp'] at hb''
  obtain ⟨x'', hx'', ex''⟩ := solveStep (-1) hs'' (y := fun i => if i = 0 then 49/400 else 0)
    ((hb'' _).2 (by constructor <;> norm_num [DampedOK, Ext.LowerOK, Ext.UpperOK])) (by norm_num) (by
      intro z hz
      have := ((hb'' z).1 hz).1.2.2.1 (by norm_num)
      norm_num at this ⊢
      nlinarith [sq_nonneg (z 0 - 49/400)])
  have L'' : MeanLoop θ [robot] robot 0 (prm (14/100)) [[2/5], [1/2]] [[-(14/100)], [0]] (some dat) s3
      [[-(1/50) + 49/400 * θ], [1/2]] [[-(7/400)], [0]] := by
    have L'' := MeanLoop.step (Q' := _) (A' := _) [[0], [0]] s3 "QLD" 2 _ x'' L' rfl rfl h'' hx'' (by simp)
      (meanMoves θ)
    rw [ex'', ex''] at L''
    simp only [if_pos, one_ne_zero, if_false] at L''
    convert L'' using 3 <;> ring_nf
  exact ⟨s3, _, L'', by linarith⟩

end SafetyEx

end Verif
