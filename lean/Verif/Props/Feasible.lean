import Verif.Proofs.Tolerance
import Verif.Props.Integrators

/-!
# C83: limits that stay feasible, limits that do not

C75 and C82 say what happens while calls of `solve` succeed.  Here: do the bounds that a joint limit constraint gives
to a joint stay satisfiable from one step to the next?  Those of `DamperJointLimitsConstr` do when the acceleration
limits allow a moderate braking; those of `JointLimitsConstr` do not.
-/

set_option autoImplicit false
set_option linter.unusedSectionVars false

namespace Verif

open Finset Spec

section C83
variable {K : Type} [Field K] [LinearOrder K] [IsStrictOrderedRing K]

/-- The velocity to choose when a damper asks for at least `L`. -/
theorem pick_above {vl vu : Ext K} {a L dt b : K} (hdt : 0 < dt) (hb : 0 ≤ b) (hL : L ≤ 0) (h : L * dt ≤ a * dt + b)
    (hl : vl.LowerOK a) (hu : vu.UpperOK a) (hu0 : vu.UpperOK 0) :
    ∃ v, |v - a| * dt ≤ b ∧ vl.LowerOK v ∧ vu.UpperOK v ∧ L ≤ v := by
  refine ⟨max a L, ?_, Ext.lowerOK_mono hl (le_max_left _ _), ?_, le_max_right _ _⟩
  · rw [abs_of_nonneg (sub_nonneg.2 (le_max_left _ _))]
    rcases max_cases a L with ⟨e, -⟩ | ⟨e, -⟩ <;> rw [e]
    · simpa using hb
    · linarith
  · rcases max_cases a L with ⟨e, -⟩ | ⟨e, -⟩ <;> rw [e]
    · exact hu
    · exact Ext.upperOK_mono hu0 hL

/-- The velocity to choose when a damper asks for at most `-L`. -/
theorem pick_below {vl vu : Ext K} {a L dt b : K} (hdt : 0 < dt) (hb : 0 ≤ b) (hL : L ≤ 0) (h : L * dt ≤ -a * dt + b)
    (hl : vl.LowerOK a) (hu : vu.UpperOK a) (hl0 : vl.LowerOK 0) :
    ∃ v, |v - a| * dt ≤ b ∧ vl.LowerOK v ∧ vu.UpperOK v ∧ v ≤ -L := by
  refine ⟨min a (-L), ?_, ?_, Ext.upperOK_mono hu (min_le_left _ _), min_le_right _ _⟩
  · rw [abs_of_nonpos (sub_nonpos.2 (min_le_left _ _))]
    rcases min_cases a (-L) with ⟨e, -⟩ | ⟨e, -⟩ <;> rw [e]
    · simpa using hb
    · linarith
  · rcases min_cases a (-L) with ⟨e, -⟩ | ⟨e, -⟩ <;> rw [e]
    · exact hl
    · exact Ext.lowerOK_mono hl0 (by linarith)

/-- The damper chosen on entering a zone allows the current velocity. -/
theorem entry_allows {R D a off : K} (hR : 0 < R) (hD : 0 < D) (hoff : 0 ≤ off) :
    -((|R / D * a| + off) * (D / R)) ≤ a ∧ a ≤ (|R / D * a| + off) * (D / R) := by
  rw [abs_mul, abs_of_pos (div_pos hR hD)]
  have e : (R / D * |a| + off) * (D / R) = |a| + off * (D / R) := by field_simp
  have : 0 ≤ off * (D / R) := by positivity
  rw [e]
  constructor
  · have := neg_abs_le a
    linarith
  · have := le_abs_self a
    linarith

/-- **C83**.  Same loop as C82: a one-dof joint with finite limits starts outside the interaction zones, within velocity
limits that allow at most a displacement `m` per step.  If moreover every acceleration `x` with `|x| dt² ≤ κ m` is
within the acceleration and jerk limits, then after any number of steps the bounds of the joint can be satisfied, by
such an acceleration, whatever the tasks, the other constraints, the robots, the backends and the numerical solvers. -/
theorem C83_stays_feasible {θ κ ρ : K} (hθ0 : 0 ≤ θ) (hθ1 : θ ≤ 1) (hρ : 0 < ρ) (hρ1 : ρ ≤ 1) (hκ : 0 ≤ κ)
    (hθ : κ * (θ * ρ + (1 - θ)) ≤ ρ * (1 - ρ))
    {mbs : List (MultiBody K)} {mb : MultiBody K} {r : ℕ} {p : LimitParams K}
    (hdt : 0 < p.dt) (hoff : 0 ≤ p.off) {i : ℕ} (hi : i < mb.joints.length) (h1 : jdof mb i = 1) {l u : K}
    {vl vu : Ext K} (hl : nested p.lQ i 0 = .ok (.fin l)) (hu : nested p.uQ i 0 = .ok (.fin u))
    (hvl : nested p.lA i 0 = .ok vl) (hvu : nested p.uA i 0 = .ok vu)
    (hlu : l ≤ u) (hsi : (u - l) * p.sec < (u - l) * p.inter) (hz : p.inter ≤ 1 / 2) {m R : K}
    (hRd : R = (u - l) * p.inter - (u - l) * p.sec)
    (hm : R * m + p.off * p.dt * (R - m) ≤ κ * R * (R - m)) (hmR : m < R)
    (hslowL : ∀ v, vl.LowerOK v → -m ≤ v * p.dt) (hslowU : ∀ v, vu.UpperOK v → v * p.dt ≤ m)
    (hvl0 : vl.LowerOK 0) (hvu0 : vu.UpperOK 0)
    {Q0 A0 : List (List K)} {q0 a0 : K} (hq0 : nested Q0 i 0 = .ok q0) (ha0 : nested A0 i 0 = .ok a0)
    (h0l : (u - l) * p.inter ≤ q0 - l) (h0u : (u - l) * p.inter ≤ u - q0) (hal : vl.LowerOK a0) (hau : vu.UpperOK a0)
    {od : Option (SolverData K)} {s : DamperLimits K} {Q A : List (List K)}
    (C : MeanLoop θ mbs mb r p Q0 A0 od s Q A) {AD : List (List K)} (hAD : AD.flatten.length = mb.nrDof)
    (hacc : ∀ x old, |x| * p.dt ^ 2 ≤ κ * m → AD.flatten[jpos mb i]? = some old → p.AccOK (jpos mb i) old x)
    {s' : DamperLimits K} (h : s.update Q A AD = .ok s') :
    ∃ x, |x| * p.dt ^ 2 ≤ κ * m ∧ (s'.lower.get (jpos mb i)).LowerOK x ∧ (s'.upper.get (jpos mb i)).UpperOK x := by
  have hsum : 2 * ((u - l) * p.inter) ≤ u - l := by
    have : (u - l) * p.inter ≤ (u - l) * (1 / 2) := mul_le_mul_of_nonneg_left hz (by linarith)
    linarith
  have hR : 0 < R := by linarith
  have h0v : |a0| * p.dt ≤ m := by
    have e : |a0| * p.dt = |a0 * p.dt| := by rw [abs_mul, abs_of_pos hdt]
    rw [e]
    exact abs_le.2 ⟨hslowL _ hal, hslowU _ hau⟩
  have hm0 : 0 ≤ m := le_trans (by positivity) h0v
  have hκm : 0 ≤ κ * m := mul_nonneg hκ hm0
  obtain ⟨q, a, hq, ha, hva, ⟨i1, i2⟩, -, hvel, hst⟩ := mean_inv hθ0 hθ1 hρ hρ1 hκ hθ hdt hoff hi h1 hl hu hvl hvu hlu hsi
    hz hRd hm hmR hslowL hslowU hq0 ha0 h0l h0u h0v C
  obtain ⟨va1, va2⟩ := hvel ⟨hal, hau⟩
  have Rn := meanLoop_run C
  obtain ⟨l', u', vl', vu', qi, ai, aD, d', b1, b2, b3, b4, b5, b6, b7, b8, hrow⟩ := C30_row hdt Rn hAD h hi h1
  rw [hl] at b1; cases b1
  rw [hu] at b2; cases b2
  rw [hvl] at b3; cases b3
  rw [hvu] at b4; cases b4
  rw [hq] at b5; cases b5
  rw [ha] at b6; cases b6
  obtain ⟨qi, ai, d0, d1, k1, k2, k3, k4, k5, k6⟩ := C32_update hdt Rn h hi h1 hl hu
  rw [hq] at k1; cases k1
  rw [ha] at k2; cases k2
  rw [b8] at k4; cases k4
  -- a velocity is enough
  suffices H : ∃ v, |v - a| * p.dt ≤ κ * m ∧ DampedOK (.fin l) (.fin u) vl vu p.inter p.sec d'.damping q v by
    obtain ⟨v, hv, hok⟩ := H
    have e : |(v - a) / p.dt| * p.dt ^ 2 = |v - a| * p.dt := by
      rw [abs_div, abs_of_pos hdt]
      field_simp
    refine ⟨(v - a) / p.dt, e.le.trans hv, (hrow _).2 ⟨?_, hacc _ _ (e.le.trans hv) b7⟩⟩
    have e2 : a + (v - a) / p.dt * p.dt = v := by field_simp; ring
    rw [e2]
    exact hok
  unfold DampedOK
  dsimp only
  rw [← hRd]
  cases hzz : d'.state with
  | free =>
    have f1 := zoneOf_ne_low (l := l) (u := u) (inter := p.inter) (q := q) (by rw [← k5, hzz]; simp)
    have f2 := zoneOf_ne_upp (q := q) hsum (by rw [← k5, hzz]; simp)
    exact ⟨a, by simpa using hκm, va1, va2, fun hh => absurd hh (not_lt.2 f1), fun _ hh => absurd hh (not_lt.2 f2)⟩
  | low =>
    have c1 := zoneOf_low (k5 ▸ hzz)
    rcases hst with ⟨o1, o2⟩ | ⟨d1, a2, a4, a5, a6, a7, a8⟩
    · exact absurd c1 (not_lt.2 o1)
    rw [k3] at a2; cases a2
    by_cases hsame : d0.state = .low
    · rw [if_pos (.inr (hzz.trans hsame.symm))] at k6
      rw [k6]
      obtain ⟨g1, g2⟩ := a4 (by rw [hsame]; simp)
      have hL : -(d0.damping * ((q - l - (u - l) * p.sec) / R)) ≤ 0 :=
        neg_nonpos.2 (mul_nonneg g1 (div_nonneg i1 hR.le))
      obtain ⟨v, v1, v2, v3, v4⟩ := pick_above hdt hκm hL (a7 hsame) va1 va2 hvu0
      exact ⟨v, v1, v2, v3, fun _ => v4, fun hh => absurd c1 hh⟩
    · rw [if_neg (by rw [hzz]; rintro (hh | hh); exacts [absurd hh (by simp), hsame hh.symm]), ← hRd, hzz] at k6
      rw [k6]
      have hD : 0 < q - l - (u - l) * p.sec := by have := a5 hsame; linarith
      exact ⟨a, by simpa using hκm, va1, va2, fun _ => (entry_allows hR hD hoff).1, fun hh => absurd c1 hh⟩
  | upp =>
    obtain ⟨c1, c2⟩ := zoneOf_upp (k5 ▸ hzz)
    rcases hst with ⟨o1, o2⟩ | ⟨d1, a2, a4, a5, a6, a7, a8⟩
    · exact absurd c2 (not_lt.2 o2)
    rw [k3] at a2; cases a2
    by_cases hsame : d0.state = .upp
    · rw [if_pos (.inr (hzz.trans hsame.symm))] at k6
      rw [k6]
      obtain ⟨g1, g2⟩ := a4 (by rw [hsame]; simp)
      have hL : -(d0.damping * ((u - q - (u - l) * p.sec) / R)) ≤ 0 :=
        neg_nonpos.2 (mul_nonneg g1 (div_nonneg i2 hR.le))
      obtain ⟨v, v1, v2, v3, v4⟩ := pick_below hdt hκm hL (a8 hsame) va1 va2 hvl0
      exact ⟨v, v1, v2, v3, fun hh => absurd hh c1, fun _ _ => by rwa [neg_neg] at v4⟩
    · rw [if_neg (by rw [hzz]; rintro (hh | hh); exacts [absurd hh (by simp), hsame hh.symm]), ← hRd, hzz] at k6
      rw [k6]
      have hD : 0 < u - q - (u - l) * p.sec := by have := a6 hsame; linarith
      exact ⟨a, by simpa using hκm, va1, va2, fun hh => absurd hh c1, fun _ _ => (entry_allows hR hD hoff).2⟩

end C83

namespace FeasEx
open WeightEx
open SafetyEx (dat solveStep robot_noMimic)

/-- The limits of `SafetyEx.prm` with accelerations at most `B`. -/
def prmA (V B : ℚ) : LimitParams ℚ :=
  ⟨[[.fin 0], [.fin 0]], [[.fin 1], [.fin 1]], [[.fin (-V)], [.fin (-V)]], [[.fin V], [.fin V]],
    [[.fin (-B)], [.fin (-B)]], [[.fin B], [.fin B]], [], [], 2/5, 1/10, 0, 1⟩

theorem setup (V B : ℚ) : ∃ s, DampRun robot 0 (prmA V B) (some dat) s := by
  have hm : ∃ s, DamperLimits.make robot 0 (fun _ => .negInf) (prmA V B).lQ (prmA V B).uQ (prmA V B).lA (prmA V B).uA
      (prmA V B).lAD (prmA V B).uAD (prmA V B).lADD (prmA V B).uADD (prmA V B).inter (prmA V B).sec (prmA V B).off
      (prmA V B).dt = .ok s := ⟨_, rfl⟩
  obtain ⟨s, hs⟩ := hm
  exact ⟨_, .nrVars dat _ (.make (fun _ => .negInf) s hs) (by
    unfold DamperLimits.updateNrVars
    have : s.robotIndex = 0 := by cases hs; rfl
    rw [this]
    rfl)⟩

/-- What the bounds mean for the accelerations of the two joints. -/
theorem bounds {V B : ℚ} {s : DamperLimits ℚ} (R : DampRun robot 0 (prmA V B) (some dat) s) {q0 q1 a0 a1 : ℚ}
    (h0 : q0 ≠ 1/10 ∧ q0 ≠ 9/10) (h1 : q1 ≠ 1/10 ∧ q1 ≠ 9/10) :
    ∃ s' d0 d1, s.update [[q0], [q1]] [[a0], [a1]] [[0], [0]] = .ok s' ∧ entryOf s' 0 = some d0 ∧
      entryOf s' 1 = some d1 ∧ s'.bound.Sized 2 ∧ ∀ x, SatBound s'.bound x ↔
        (DampedOK (.fin 0) (.fin 1) (.fin (-V)) (.fin V) (2/5) (1/10) d0.damping q0 (a0 + x 0 * 1) ∧
          (-B ≤ x 0 ∧ x 0 ≤ B)) ∧
        (DampedOK (.fin 0) (.fin 1) (.fin (-V)) (.fin V) (2/5) (1/10) d1.damping q1 (a1 + x 1 * 1) ∧
          (-B ≤ x 1 ∧ x 1 ≤ B)) := by
  have hdt : 0 < (prmA V B).dt := by norm_num [prmA]
  obtain ⟨s', h⟩ := C30_update_ok (q := [[q0], [q1]]) (alpha := [[a0], [a1]]) (alphaD := [[0], [0]]) hdt R rfl (by
    intro i hi _
    have : i = 0 ∨ i = 1 := by simp [robot] at hi; omega
    rcases this with rfl | rfl
    · refine ⟨q0, a0, _, _, rfl, rfl, rfl, rfl, .inr ⟨0, 1, rfl, rfl, by norm_num [prmA], ?_, ?_⟩⟩
      · norm_num [prmA]; intro h; exact h0.1 h
      · norm_num [prmA]; intro h; exact h0.2 (by linarith)
    · refine ⟨q1, a1, _, _, rfl, rfl, rfl, rfl, .inr ⟨0, 1, rfl, rfl, by norm_num [prmA], ?_, ?_⟩⟩
      · norm_num [prmA]; intro h; exact h1.1 h
      · norm_num [prmA]; intro h; exact h1.2 (by linarith))
  obtain ⟨-, -, -, -, -, -, -, d0, -, -, -, -, -, -, -, e0, -⟩ :=
    C30_row hdt R (q := [[q0], [q1]]) (alpha := [[a0], [a1]]) (alphaD := [[0], [0]]) rfl h (i := 0)
      (by simp [robot]) rfl
  obtain ⟨-, -, -, -, -, -, -, d1, -, -, -, -, -, -, -, e1, -⟩ :=
    C30_row hdt R (q := [[q0], [q1]]) (alpha := [[a0], [a1]]) (alphaD := [[0], [0]]) rfl h (i := 1)
      (by simp [robot]) rfl
  have hb := C30_bounds hdt R (b := 0) rfl (q := [[q0], [q1]]) (alpha := [[a0], [a1]]) (alphaD := [[0], [0]]) rfl h
  have acc : ∀ a < 2, ∀ x, (prmA V B).AccOK a 0 x ↔ -B ≤ x ∧ x ≤ B := by
    intro a ha x
    have : a = 0 ∨ a = 1 := by omega
    rcases this with rfl | rfl <;> simp [LimitParams.AccOK, prmA, Ext.LowerOK, Ext.UpperOK]
  refine ⟨s', d0, d1, h, e0, e1, ?_, fun x => ?_⟩
  · obtain ⟨I', hbeg, -⟩ := damp_update (dampInv R) h
    have := I'.begin' dat rfl
    have hz : s'.alphaDBegin = 0 := (Out.ok.inj this).symm
    have sL := I'.sL
    have sU := I'.sU
    have hn : robot.nrDof = 2 := rfl
    simp only [BoundC.Sized, DamperLimits.bound, sL, sU, hn, hz]
    exact ⟨le_rfl, le_rfl⟩
  · rw [hb x]
    constructor
    · rintro ⟨k, -⟩
      have k0 := k 0 (by simp [robot]) rfl _ _ _ _ _ _ _ _ rfl rfl rfl rfl rfl rfl rfl e0
      have k1 := k 1 (by simp [robot]) rfl _ _ _ _ _ _ _ _ rfl rfl rfl rfl rfl rfl rfl e1
      exact ⟨⟨k0.1, (acc 0 (by norm_num) _).1 k0.2⟩, k1.1, (acc 1 (by norm_num) _).1 k1.2⟩
    · rintro ⟨k0, k1⟩
      constructor
      · intro i hi _ l u vl vu qi ai aD d' b1 b2 b3 b4 b5 b6 b7 b8
        have : i = 0 ∨ i = 1 := by simp [robot] at hi; omega
        rcases this with rfl | rfl
        · cases b1; cases b2; cases b3; cases b4; cases b5; cases b6; cases b7
          rw [e0] at b8; cases b8
          exact ⟨k0.1, (acc 0 (by norm_num) _).2 k0.2⟩
        · cases b1; cases b2; cases b3; cases b4; cases b5; cases b6; cases b7
          rw [e1] at b8; cases b8
          exact ⟨k1.1, (acc 1 (by norm_num) _).2 k1.2⟩
      · intro a ha hne
        exfalso
        have : a = 0 ∨ a = 1 := by have hn : robot.nrDof = 2 := rfl; omega
        rcases this with rfl | rfl
        · exact hne 0 (by simp [robot]) rfl rfl
        · exact hne 1 (by simp [robot]) rfl rfl

theorem moves (θ : ℚ) {x : ℕ → ℚ} {V B q0 q1 a0 a1 : ℚ} :
    IntegratesMean θ robot (aBegin [robot] 0) (prmA V B).dt x [[q0], [q1]] [[a0], [a1]]
      [[q0 + ((1 - θ) * a0 + θ * (a0 + x 0 * 1)) * 1], [q1 + ((1 - θ) * a1 + θ * (a1 + x 1 * 1)) * 1]]
      [[a0 + x 0 * 1], [a1 + x 1 * 1]] := by
  intro i hi _ q a hq ha
  have : i = 0 ∨ i = 1 := by simp [robot] at hi; omega
  rcases this with rfl | rfl <;> cases hq <;> cases ha <;> exact ⟨rfl, rfl⟩

/-- Two steps towards the lower limit, at the velocity limit `3/50`: any integration, any acceleration limit. -/
theorem approach (θ : ℚ) {B : ℚ} (hB : 0 ≤ B) : ∃ s d, MeanLoop θ [robot] robot 0 (prmA (3/50) B) [[2/5], [1/2]]
    [[-(3/50)], [0]] (some dat) s [[7/25], [1/2]] [[-(3/50)], [0]] ∧ entryOf s 0 = some d ∧ d.state = .low ∧
      d.damping = 3/40 := by
  obtain ⟨s, R⟩ := setup (3/50) B
  have hdt : 0 < (prmA (3/50) B).dt := by norm_num [prmA]
  obtain ⟨s1, d0, d1, h, -, -, hs, hb⟩ := bounds R (q0 := 2/5) (q1 := 1/2) (a0 := -(3/50)) (a1 := 0) (by norm_num)
    (by norm_num)
  obtain ⟨x, hx, ex⟩ := solveStep (-1) hs (y := fun i => 0)
    ((hb _).2 (by
      refine ⟨⟨?_, by linarith, by linarith⟩, ?_, by linarith, by linarith⟩ <;>
        norm_num [DampedOK, Ext.LowerOK, Ext.UpperOK])) (by norm_num) (by
      intro z hz
      have := ((hb z).1 hz).1.1.1
      simp only [Ext.LowerOK] at this
      norm_num
      nlinarith [sq_nonneg (z 0)])
  have L : MeanLoop θ [robot] robot 0 (prmA (3/50) B) [[2/5], [1/2]] [[-(3/50)], [0]] (some dat) s1
      [[17/50], [1/2]] [[-(3/50)], [0]] := by
    have L := MeanLoop.step (Q' := _) (A' := _) [[0], [0]] s1 "QLD" 2 _ x
      (MeanLoop.start (θ := θ) (mbs := [robot]) (Q0 := [[2/5], [1/2]]) (A0 := [[-(3/50)], [0]]) R) rfl rfl h hx
      (by simp) (moves θ)
    rw [ex, ex] at L
    convert L using 3 <;> ring_nf
  have R1 := meanLoop_run L
  obtain ⟨s2, d0', d1', h', e0, e1, hs', hb'⟩ := bounds R1 (q0 := 17/50) (q1 := 1/2) (a0 := -(3/50)) (a1 := 0)
    (by norm_num) (by norm_num)
  have hz1 : ∃ d, entryOf s1 0 = some d ∧ d.state = .free := by
    obtain ⟨qi, ai, d, d', k1, k2, k3, k4, k5, k6⟩ := C32_update hdt R h (i := 0) (by simp [robot]) rfl
      (l := 0) (u := 1) rfl rfl
    cases k1
    exact ⟨d', k4, by rw [k5]; norm_num [zoneOf, prmA]⟩
  have hdamp : d0'.damping = 3/40 ∧ d0'.state = .low := by
    obtain ⟨qi, ai, d, d', k1, k2, k3, k4, k5, k6⟩ := C32_update hdt R1 h' (i := 0) (by simp [robot]) rfl
      (l := 0) (u := 1) rfl rfl
    cases k1
    cases k2
    rw [e0] at k4; cases k4
    obtain ⟨d'', f1, f2⟩ := hz1
    rw [k3] at f1; cases f1
    have hz : d0'.state = .low := by rw [k5]; norm_num [zoneOf, prmA]
    refine ⟨?_, hz⟩
    rw [hz, f2, if_neg (by simp)] at k6
    rw [k6]
    norm_num [prmA, zoneDist, abs_div, abs_mul]
  rw [hdamp.1] at hb'
  obtain ⟨x', hx', ex'⟩ := solveStep (-1) hs' (y := fun i => 0)
    ((hb' _).2 (by
      refine ⟨⟨?_, by linarith, by linarith⟩, ?_, by linarith, by linarith⟩ <;>
        norm_num [DampedOK, Ext.LowerOK, Ext.UpperOK])) (by norm_num) (by
      intro z hz
      have := ((hb' z).1 hz).1.1.1
      simp only [Ext.LowerOK] at this
      norm_num
      nlinarith [sq_nonneg (z 0)])
  have L' : MeanLoop θ [robot] robot 0 (prmA (3/50) B) [[2/5], [1/2]] [[-(3/50)], [0]] (some dat) s2
      [[7/25], [1/2]] [[-(3/50)], [0]] := by
    have L' := MeanLoop.step (Q' := _) (A' := _) [[0], [0]] s2 "QLD" 2 _ x' L rfl rfl h' hx' (by simp) (moves θ)
    rw [ex', ex'] at L'
    convert L' using 3 <;> ring_nf
  exact ⟨s2, d0', L', e0, hdamp.2, hdamp.1⟩

/-- The damping stays while the joint is in the zone. -/
theorem damping_kept {θ B : ℚ} {s s' : DamperLimits ℚ} {d d' : DampData ℚ}
    (L : MeanLoop θ [robot] robot 0 (prmA (3/50) B) [[2/5], [1/2]] [[-(3/50)], [0]] (some dat) s
      [[7/25], [1/2]] [[-(3/50)], [0]]) (e : entryOf s 0 = some d) (hs : d.state = .low) (hd : d.damping = 3/40)
    (h : s.update [[7/25], [1/2]] [[-(3/50)], [0]] [[0], [0]] = .ok s') (e' : entryOf s' 0 = some d') :
    d'.damping = 3/40 := by
  have hdt : 0 < (prmA (3/50) B).dt := by norm_num [prmA]
  obtain ⟨qi, ai, d0, d1, k1, k2, k3, k4, k5, k6⟩ := C32_update hdt (meanLoop_run L) h (i := 0) (by simp [robot]) rfl
    (l := 0) (u := 1) rfl rfl
  cases k1
  cases k2
  rw [e'] at k4; cases k4
  rw [e] at k3; cases k3
  have hz : d'.state = .low := by rw [k5]; norm_num [zoneOf, prmA]
  rw [k6, if_pos (.inr (hz.trans hs.symm)), hd]

/-- **C83** applies: after two steps at the velocity limit towards the lower limit, accelerations limited to the
`κ m / dt² = 3/200` that the theorem asks for, the bounds ask to brake and can be satisfied. -/
example (θ : ℚ) (h0 : 0 ≤ θ) (h1 : θ ≤ 1) : ∃ s s' x, MeanLoop θ [robot] robot 0 (prmA (3/50) (3/200)) [[2/5], [1/2]]
    [[-(3/50)], [0]] (some dat) s [[7/25], [1/2]] [[-(3/50)], [0]] ∧
    s.update [[7/25], [1/2]] [[-(3/50)], [0]] [[0], [0]] = .ok s' ∧
    (s'.lower.get 0).LowerOK x ∧ (s'.upper.get 0).UpperOK x := by
  obtain ⟨s, d, L, -⟩ := approach θ (B := 3/200) (by norm_num)
  obtain ⟨s', d0, d1, h, -⟩ := bounds (meanLoop_run L) (q0 := 7/25) (q1 := 1/2) (a0 := -(3/50)) (a1 := 0) (by norm_num)
    (by norm_num)
  obtain ⟨x, -, hx⟩ := C83_stays_feasible (κ := 1/4) (ρ := 1/2) (R := 3/10) (m := 3/50) h0 h1 (by norm_num)
    (by norm_num) (by norm_num) (by linarith) (i := 0) (l := 0) (u := 1) (by norm_num [prmA]) (by norm_num [prmA])
    (by simp [robot]) rfl rfl rfl rfl rfl (by norm_num) (by norm_num [prmA]) (by norm_num [prmA])
    (by norm_num [prmA]) (by norm_num [prmA]) (by norm_num) (fun v hv => by simpa [prmA] using hv)
    (fun v hv => by simpa [prmA] using hv) (by norm_num [Ext.LowerOK]) (by norm_num [Ext.UpperOK]) (q0 := 2/5)
    (a0 := -(3/50)) rfl rfl (by norm_num [prmA]) (by norm_num [prmA]) (by norm_num [Ext.LowerOK])
    (by norm_num [Ext.UpperOK]) L (AD := [[0], [0]]) rfl (by
      intro x old hx hold
      have hx' : |x| ≤ 3/200 := by
        have : |x| * 1 ^ 2 ≤ 1/4 * (3/50) := hx
        linarith
      have := abs_le.1 hx'
      cases hold
      simp [LimitParams.AccOK, prmA, jpos, Ext.LowerOK, Ext.UpperOK]
      constructor <;> linarith) h
  exact ⟨s, s', x, L, h, hx⟩

/-- **C83** (the braking is needed).  The same motion with acceleration limits below `3/200`: the bounds of the joint
are empty, no solver can succeed, although the joint has respected every bound so far. -/
theorem C83_weak_brakes_counterexample (θ : ℚ) {B : ℚ} (h0 : 0 ≤ B) (hB : B < 3/200) :
    ∃ s s', MeanLoop θ [robot] robot 0 (prmA (3/50) B) [[2/5], [1/2]] [[-(3/50)], [0]] (some dat) s
      [[7/25], [1/2]] [[-(3/50)], [0]] ∧ s.update [[7/25], [1/2]] [[-(3/50)], [0]] [[0], [0]] = .ok s' ∧
      ∀ x, ¬ SatBound s'.bound x := by
  obtain ⟨s, d, L, e, hs, hd⟩ := approach θ h0
  obtain ⟨s', d0, d1, h, e0, -, -, hb⟩ := bounds (meanLoop_run L) (q0 := 7/25) (q1 := 1/2) (a0 := -(3/50)) (a1 := 0)
    (by norm_num) (by norm_num)
  refine ⟨s, s', L, h, fun x hx => ?_⟩
  have hk := damping_kept L e hs hd h e0
  obtain ⟨⟨⟨-, -, k, -⟩, -, k2⟩, -⟩ := (hb x).1 hx
  rw [hk] at k
  have := k (by norm_num)
  norm_num at this
  linarith

end FeasEx

/-! ## JointLimitsConstr -/

section
variable {K : Type} [Field K] [LinearOrder K] [IsStrictOrderedRing K]

/-- **C82** (JointLimitsConstr).  Robot as in C29.  After any calls, an update of the constraint and a successful
`solve` with the constraint registered, the exact motion under the constant acceleration of the result
(`θ = 1/2`) ends within the position limits, whatever the state at the start of the step. -/
theorem C82_position_limits {mbs : List (MultiBody K)} {mb : MultiBody K} {r : ℕ} {p : LimitParams K} (hdt : 0 < p.dt)
    {j0 : Joint K} (hj0 : mb.joints[0]? = some j0) (hdof : j0.dof ≤ 1)
    (hlQ : p.lQ.flatten.length = mb.nrDof) (huQ : p.uQ.flatten.length = mb.nrDof)
    {d : SolverData K} {s s' : JointLimits K} (R : LimitRun mb mb.nrDof r p (some d) s)
    (hb : vecAt d.alphaDBegin r = .ok (aBegin mbs r)) {Q A AD : List (List K)}
    (hq : Q.flatten.length = mb.nrDof) (ha : A.flatten.length = mb.nrDof) (haD : AD.flatten.length = mb.nrDof)
    (h : s.update Q A AD = .ok s') {backend : String} {n : ℕ} {inp : QPInput K} {x : Vec K}
    (hs : Solved backend mbs n inp x) (hmem : s'.bound ∈ inp.bound) {a : ℕ} {l u : Ext K} {q v : K}
    (hl : p.lQ.flatten[a]? = some l) (hu : p.uQ.flatten[a]? = some u) (hqa : Q.flatten[a]? = some q)
    (hva : A.flatten[a]? = some v) :
    let v' := v + x.get (aBegin mbs r + a) * p.dt
    let q' := q + ((1 - 1 / 2) * v + 1 / 2 * v') * p.dt
    l.LowerOK q' ∧ u.UpperOK q' := by
  obtain ⟨s'', h', hx⟩ := C29_limits hdt hj0 hdof hlQ huQ R hb hq ha haD
  rw [h] at h'
  cases h'
  obtain ⟨⟨⟨-, hbnd⟩, -⟩, -, -⟩ := solved_optimal hs
  have hlt : a < AD.flatten.length := by
    rw [haD, ← ha]
    by_contra hc
    rw [List.getElem?_eq_none (by omega)] at hva
    cases hva
  obtain ⟨k1, k2, -⟩ := (hx x.get).1 (hbnd _ hmem) a l u q v _ hl hu hqa hva (List.getElem?_eq_getElem hlt)
  have e : q + ((1 - 1 / 2) * v + 1 / 2 * (v + x.get (aBegin mbs r + a) * p.dt)) * p.dt
      = q + v * p.dt + x.get (aBegin mbs r + a) * p.dt ^ 2 / 2 := by ring
  dsimp only
  rw [e]
  exact ⟨k1, k2⟩

end

namespace FeasEx
open WeightEx
open SafetyEx (dat solveStep)

theorem posSetup (B : ℚ) : ∃ s, LimitRun robot robot.nrDof 0 (prmA 0 B) (some dat) s :=
  ⟨_, .nrVars _ _ (.make (fun _ => .negInf) _ rfl) rfl⟩

theorem update_sizes {s s' : JointLimits ℚ} {q alpha alphaD : List (List ℚ)} (h : s.update q alpha alphaD = .ok s') :
    s'.lower.size = s.qMin.size ∧ s'.upper.size = s.qMax.size ∧ s'.alphaDBegin = s.alphaDBegin := by
  unfold JointLimits.update at h
  simp only [Out.bind_eq_ok, Out.pure_eq, Out.ok.injEq] at h
  obtain ⟨qV, hq, aV, ha, pV, hp, qt, -, at', -, l0, h0, u0, h0', l1, h1, ddL, -, l2, h2, u1, h3, ddU, -, u2, h4, rfl⟩ := h
  unfold limitVec at h0 h0'
  unfold cwiseMax at h1 h2
  unfold cwiseMin at h3 h4
  split at h0
  · cases h0
  cases h0
  split at h0'
  · cases h0'
  cases h0'
  split at h1
  swap
  · cases h1
  cases h1
  split at h2
  swap
  · cases h2
  cases h2
  split at h3
  swap
  · cases h3
  cases h3
  split at h4
  swap
  · cases h4
  cases h4
  exact ⟨rfl, rfl, rfl⟩

/-- What the bounds of the position limits mean for the accelerations of the two joints. -/
theorem posBounds {B : ℚ} {s : JointLimits ℚ} (R : LimitRun robot robot.nrDof 0 (prmA 0 B) (some dat) s)
    (q0 q1 a0 a1 : ℚ) :
    ∃ s', s.update [[q0], [q1]] [[a0], [a1]] [[0], [0]] = .ok s' ∧ s'.bound.Sized 2 ∧ ∀ x, SatBound s'.bound x ↔
      ((0 ≤ q0 + a0 + x 0 / 2 ∧ q0 + a0 + x 0 / 2 ≤ 1) ∧ (-B ≤ x 0 ∧ x 0 ≤ B)) ∧
      ((0 ≤ q1 + a1 + x 1 / 2 ∧ q1 + a1 + x 1 / 2 ≤ 1) ∧ (-B ≤ x 1 ∧ x 1 ≤ B)) := by
  obtain ⟨s', h, hx⟩ := C29_limits (by norm_num [prmA]) (hj0 := rfl) le_rfl rfl rfl R
    (b := 0) rfl (q := [[q0], [q1]]) (alpha := [[a0], [a1]]) (alphaD := [[0], [0]]) rfl rfl rfl
  refine ⟨s', h, ?_, fun x => ?_⟩
  · have I := limitInv R
    obtain ⟨z1, z2, z3⟩ := update_sizes h
    obtain ⟨j, hj, ho⟩ := I.off
    cases hj
    obtain ⟨b, hb, hbeg⟩ := I.begin' dat rfl
    cases hb
    have z4 := I.sMin
    have z5 := I.sMax
    rw [ho] at z4 z5 hbeg
    have hn : robot.nrDof = 2 := rfl
    rw [hn] at z4 z5
    unfold BoundC.Sized JointLimits.bound
    simp only [z1, z2, z3, z4, z5, hbeg]
    simp
  · rw [hx x]
    constructor
    · intro k
      have k0 := k 0 (.fin 0) (.fin 1) q0 a0 0 rfl rfl rfl rfl rfl
      have k1 := k 1 (.fin 0) (.fin 1) q1 a1 0 rfl rfl rfl rfl rfl
      simpa [LimitParams.AccOK, prmA, Ext.LowerOK, Ext.UpperOK, and_assoc] using And.intro k0 k1
    · rintro ⟨⟨⟨p1, p2⟩, p3, p4⟩, ⟨p5, p6⟩, p7, p8⟩ a l u qa va ac e1 e2 e3 e4 e5
      have hlt : a < 2 := by
        by_contra hc
        rw [List.getElem?_eq_none (by simp [prmA]; omega)] at e1
        cases e1
      have : a = 0 ∨ a = 1 := by omega
      rcases this with rfl | rfl <;> cases e1 <;> cases e2 <;> cases e3 <;> cases e4 <;> cases e5 <;>
        simp [LimitParams.AccOK, prmA, Ext.LowerOK, Ext.UpperOK] <;> refine ⟨?_, ?_, ?_, ?_⟩ <;> assumption

/-- **C82** (JointLimitsConstr) applies: a joint that rushes towards its lower limit 0 at speed 1 from `1/2`; the step
respects the limits, whatever the task, here one that asks for the acceleration 1. -/
example : ∃ s s' inp x, LimitRun robot robot.nrDof 0 (prmA 0 1) (some dat) s ∧
    s.update [[1/2], [1/2]] [[-1], [0]] [[0], [0]] = .ok s' ∧ Solved "QLD" [robot] 2 inp x ∧ s'.bound ∈ inp.bound ∧
    0 ≤ 1/2 + ((1 - 1/2) * (-1) + 1/2 * (-1 + x.get 0 * 1)) * (1 : ℚ) := by
  obtain ⟨s, R⟩ := posSetup 1
  obtain ⟨s', e, hs, hb⟩ := posBounds R (1/2) (1/2) (-1) 0
  obtain ⟨x, hx, ex⟩ := solveStep 1 hs (y := fun i => if i = 0 then 1 else 0) ((hb _).2 (by norm_num)) (by norm_num)
    (by intro z hz; norm_num; nlinarith [sq_nonneg (z 0 - 1)])
  have k := C82_position_limits (mbs := [robot]) (p := prmA 0 1) (a := 0) (l := .fin 0) (u := .fin 1) (q := 1/2)
    (v := -1) (by norm_num [prmA]) rfl (by decide) rfl rfl R rfl rfl rfl rfl e hx (by simp) rfl rfl rfl rfl
  exact ⟨s, s', _, x, R, e, hx, by simp, k.1⟩

/-- **C82** (any other integration crosses the limit).  Limits `[0, 1]`, accelerations at most 1, step 1.  For every
`θ ≠ 1/2` there is a state within the limits and a solver step after which the joint is beyond its lower limit. -/
theorem C82_position_limits_counterexample {θ : ℚ} (hθ : θ ≠ 1 / 2) :
    ∃ s s' v inp x, LimitRun robot robot.nrDof 0 (prmA 0 1) (some dat) s ∧
      s.update [[1/2], [1/2]] [[v], [0]] [[0], [0]] = .ok s' ∧ Solved "QLD" [robot] 2 inp x ∧ s'.bound ∈ inp.bound ∧
      1/2 + ((1 - θ) * v + θ * (v + x.get 0 * 1)) * 1 < 0 := by
  obtain ⟨s, R⟩ := posSetup 1
  rcases lt_or_gt_of_ne hθ with h | h
  · obtain ⟨s', e, hs, hb⟩ := posBounds R (1/2) (1/2) (-1) 0
    obtain ⟨x, hx, ex⟩ := solveStep 1 hs (y := fun i => if i = 0 then 1 else 0) ((hb _).2 (by norm_num)) (by norm_num)
      (by intro z hz; norm_num; nlinarith [sq_nonneg (z 0 - 1)])
    exact ⟨s, s', -1, _, x, R, e, hx, by simp, by rw [ex]; norm_num; linarith⟩
  · obtain ⟨s', e, hs, hb⟩ := posBounds R (1/2) (1/2) 0 0
    obtain ⟨x, hx, ex⟩ := solveStep (-1) hs (y := fun i => if i = 0 then -1 else 0) ((hb _).2 (by norm_num))
      (by norm_num) (by intro z hz; norm_num; nlinarith [sq_nonneg (z 0 + 1)])
    exact ⟨s, s', 0, _, x, R, e, hx, by simp, by rw [ex]; norm_num; linarith⟩

/-- **C83** (JointLimitsConstr does not brake in time).  Limits `[0, 1]`, accelerations at most `B < 1`, step 1.  The
joint moves towards its lower limit at `1/2`; a solver step that respects every bound keeps this velocity and ends on
the limit; the next bounds are empty: no solver can succeed. -/
theorem C83_position_limits_counterexample {B : ℚ} (h0 : 0 ≤ B) (hB : B < 1) :
    ∃ s s1 s2 inp x, LimitRun robot robot.nrDof 0 (prmA 0 B) (some dat) s ∧
      s.update [[1/2], [1/2]] [[-(1/2)], [0]] [[0], [0]] = .ok s1 ∧ Solved "QLD" [robot] 2 inp x ∧
      s1.bound ∈ inp.bound ∧ x.get 0 = 0 ∧ x.get 1 = 0 ∧
      s1.update [[0], [1/2]] [[-(1/2)], [0]] [[0], [0]] = .ok s2 ∧ ∀ z, ¬ SatBound s2.bound z := by
  obtain ⟨s, R⟩ := posSetup B
  obtain ⟨s1, e, hs, hb⟩ := posBounds R (1/2) (1/2) (-(1/2)) 0
  obtain ⟨x, hx, ex⟩ := solveStep (-1) hs (y := fun i => 0) ((hb _).2 (by
      refine ⟨⟨⟨?_, ?_⟩, ?_, ?_⟩, ⟨?_, ?_⟩, ?_, ?_⟩ <;> first | norm_num; done | linarith)) (by norm_num)
    (by
      intro z hz
      have := ((hb z).1 hz).1.1.1
      norm_num
      nlinarith [sq_nonneg (z 0)])
  obtain ⟨s2, e2, -, hb2⟩ := posBounds (.update _ _ _ _ R e) 0 (1/2) (-(1/2)) 0
  refine ⟨s, s1, s2, _, x, R, e, hx, by simp, ex 0, ex 1, e2, fun z hz => ?_⟩
  obtain ⟨⟨⟨k1, -⟩, -, k2⟩, -⟩ := (hb2 z).1 hz
  linarith

end FeasEx

end Verif
