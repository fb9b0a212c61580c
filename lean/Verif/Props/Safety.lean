import Verif.Props.Weights
import Verif.Props.Converge
import Verif.Props.Limits
import Verif.Props.Motion

/-!
# C75: joint limits in the control loop closed through the solver

The earlier properties speak of one task or one constraint, or of one call of `solve`.  Here the loop is
closed: at every control step the objects are updated, `solve` succeeds and its result is applied.
-/

set_option autoImplicit false
set_option linter.unusedSectionVars false

namespace Verif

open Finset Spec

/-! ## C75: joint limits -/

namespace Spec
variable {K : Type} [Field K] [LinearOrder K] [IsStrictOrderedRing K]

/-- The one-dof joints of robot `mb` integrate the accelerations `x` (those of the robot begin at `b`) over one
step `dt`: the velocity first, then the position with the new velocity.  Nothing is said of the other joints. -/
def Integrates (mb : MultiBody K) (b : ℕ) (dt : K) (x : ℕ → K) (Q A Q' A' : List (List K)) : Prop :=
  ∀ i < mb.joints.length, jdof mb i = 1 → ∀ q a, nested Q i 0 = .ok q → nested A i 0 = .ok a →
    nested A' i 0 = .ok (a + x (b + jpos mb i) * dt) ∧
    nested Q' i 0 = .ok (q + (a + x (b + jpos mb i) * dt) * dt)

/-- Closed loop with a `DamperJointLimitsConstr` of robot `r`, from the positions `Q0`.  At each step the
constraint is updated with the current state, some call of `solve` succeeds with the constraint among those
registered, and the accelerations it returns are integrated. -/
inductive LimitLoop (mbs : List (MultiBody K)) (mb : MultiBody K) (r : ℕ) (p : LimitParams K)
    (Q0 : List (List K)) : Option (SolverData K) → DamperLimits K → List (List K) → List (List K) → Prop
  | start {od : Option (SolverData K)} {s : DamperLimits K} (A0 : List (List K)) :
      DampRun mb r p od s → LimitLoop mbs mb r p Q0 od s Q0 A0
  | nrVars {od : Option (SolverData K)} {s : DamperLimits K} {Q A : List (List K)} (d : SolverData K)
      (s' : DamperLimits K) : LimitLoop mbs mb r p Q0 od s Q A → s.updateNrVars d = .ok s' →
      LimitLoop mbs mb r p Q0 (some d) s' Q A
  | step {d : SolverData K} {s : DamperLimits K} {Q A : List (List K)} (AD : List (List K))
      (s' : DamperLimits K) (backend : String) (n : ℕ) (inp : QPInput K) (x : Vec K) (Q' A' : List (List K)) :
      LimitLoop mbs mb r p Q0 (some d) s Q A → vecAt d.alphaDBegin r = .ok (aBegin mbs r) →
      AD.flatten.length = mb.nrDof → s.update Q A AD = .ok s' → Solved backend mbs n inp x →
      s'.bound ∈ inp.bound → Integrates mb (aBegin mbs r) p.dt x.get Q A Q' A' →
      LimitLoop mbs mb r p Q0 (some d) s' Q' A'

end Spec

section C75
variable {K : Type} [Field K] [LinearOrder K] [IsStrictOrderedRing K]

theorem limitLoop_run {mbs : List (MultiBody K)} {mb : MultiBody K} {r : ℕ} {p : LimitParams K}
    {Q0 Q A : List (List K)} {od : Option (SolverData K)} {s : DamperLimits K}
    (C : LimitLoop mbs mb r p Q0 od s Q A) : DampRun mb r p od s := by
  induction C with
  | start a R => exact R
  | nrVars d s' _ h ih => exact .nrVars d s' ih h
  | step AD s' b n inp x Q' A' _ _ _ h _ _ _ ih => exact .update _ _ AD s' ih h

/-- Arithmetic of one damper: `R` width of the zone, `D` distance beyond the security distance, `c` damping. -/
theorem limit_step {R D c v dt : K} (hR : 0 < R) (hD : 0 ≤ D) (hdt : 0 ≤ dt) (hc : dt * c ≤ R)
    (hv : -(c * (D / R)) ≤ v) : 0 ≤ D + v * dt := by
  have h1 : -(c * (D / R)) * dt ≤ v * dt := mul_le_mul_of_nonneg_right hv hdt
  have h2 : dt * c * D / R ≤ D := by
    rw [div_le_iff₀ hR]
    have := mul_le_mul_of_nonneg_right hc hD
    linarith
  have h3 : -(c * (D / R)) * dt = -(dt * c * D / R) := by ring
  linarith

/-- The damping chosen on entering a zone is compatible with the step. -/
theorem entry_damping {R D m off a dt : K} (hdt : 0 < dt) (hoff : 0 ≤ off)
    (hm : m * (2 * R - off * dt) ≤ R * (R - off * dt)) (hmR : m < R) (hD : R - m ≤ D) (ha : |a| * dt ≤ m) :
    dt * (|R / D * a| + off) ≤ R := by
  have hm0 : 0 ≤ m := le_trans (by positivity) ha
  have hR : 0 < R := by linarith
  have hD0 : 0 < D := by linarith
  rw [abs_mul, abs_of_pos (div_pos hR hD0)]
  have e : dt * (R / D * |a| + off) = (R * (|a| * dt) + off * dt * D) / D := by
    field_simp
  rw [e, div_le_iff₀ hD0]
  have hod : 0 ≤ off * dt := by positivity
  have hRo : off * dt ≤ R := by
    by_contra hlt
    push Not at hlt
    nlinarith
  have h1 : R * (|a| * dt) ≤ R * m := mul_le_mul_of_nonneg_left ha hR.le
  nlinarith [mul_le_mul_of_nonneg_right hD (sub_nonneg.2 hRo)]

/-- **C75**.  Closed loop with the solver.  A one-dof joint with finite limits starts outside the interaction
zones.  If the velocity limits allow at most a displacement `m` in one step, with
`m (2 R - off dt) ≤ R (R - off dt)` where `R` is the width between the security and the interaction distances
(for a zero offset: at most half of `R` per step), and the zones do not overlap, then after any number of steps
the joint is at least the security distance away from both limits, whatever the tasks, the other constraints,
the robots, the backends and the numerical solvers.  Nothing is assumed of the damping in use. -/
theorem C75_limits_hold {mbs : List (MultiBody K)} {mb : MultiBody K} {r : ℕ} {p : LimitParams K}
    (hdt : 0 < p.dt) (hoff : 0 ≤ p.off) {i : ℕ} (hi : i < mb.joints.length) (h1 : jdof mb i = 1) {l u : K}
    {vl vu : Ext K} (hl : nested p.lQ i 0 = .ok (.fin l)) (hu : nested p.uQ i 0 = .ok (.fin u))
    (hvl : nested p.lA i 0 = .ok vl) (hvu : nested p.uA i 0 = .ok vu)
    (hlu : l ≤ u) (hsi : (u - l) * p.sec < (u - l) * p.inter) (hz : p.inter ≤ 1 / 2) {m : K}
    (hm : m * (2 * ((u - l) * p.inter - (u - l) * p.sec) - p.off * p.dt)
      ≤ ((u - l) * p.inter - (u - l) * p.sec) * ((u - l) * p.inter - (u - l) * p.sec - p.off * p.dt))
    (hmR : m < (u - l) * p.inter - (u - l) * p.sec)
    (hslowL : ∀ v, vl.LowerOK v → -m ≤ v * p.dt) (hslowU : ∀ v, vu.UpperOK v → v * p.dt ≤ m)
    {Q0 : List (List K)} {q0 : K} (hq0 : nested Q0 i 0 = .ok q0)
    (h0l : (u - l) * p.inter ≤ q0 - l) (h0u : (u - l) * p.inter ≤ u - q0)
    {od : Option (SolverData K)} {s : DamperLimits K} {Q A : List (List K)}
    (C : LimitLoop mbs mb r p Q0 od s Q A) :
    ∃ q, nested Q i 0 = .ok q ∧ (u - l) * p.sec ≤ q - l ∧ (u - l) * p.sec ≤ u - q := by
  have hsum : 2 * ((u - l) * p.inter) ≤ u - l := by
    have : (u - l) * p.inter ≤ (u - l) * (1 / 2) := mul_le_mul_of_nonneg_left hz (by linarith)
    linarith
  -- invariant
  suffices H : ∃ q, nested Q i 0 = .ok q ∧ ((u - l) * p.sec ≤ q - l ∧ (u - l) * p.sec ≤ u - q) ∧
      (((u - l) * p.inter ≤ q - l ∧ (u - l) * p.inter ≤ u - q) ∨
        ∃ a d, nested A i 0 = .ok a ∧ entryOf s i = some d ∧ |a| * p.dt ≤ m ∧
          (d.state ≠ .free → p.dt * d.damping ≤ (u - l) * p.inter - (u - l) * p.sec) ∧
          (d.state ≠ .low → (u - l) * p.inter - m ≤ q - l) ∧
          (d.state ≠ .upp → (u - l) * p.inter - m ≤ u - q)) by
    obtain ⟨q, e, h, -⟩ := H
    exact ⟨q, e, h⟩
  induction C with
  | start a R => exact ⟨q0, hq0, ⟨by linarith, by linarith⟩, .inl ⟨h0l, h0u⟩⟩
  | nrVars d s' _ h ih =>
    obtain ⟨q, e, h1, h2⟩ := ih
    refine ⟨q, e, h1, h2.imp_right ?_⟩
    rintro ⟨a, d, k1, k2, k3⟩
    exact ⟨a, d, k1, (entryOf_nrVars h i).trans k2, k3⟩
  | @step d s Q A AD s' b n inp x Q' A' C hb hD h hs hmem hint ih =>
    obtain ⟨q, hq, ⟨i1, i2⟩, hst⟩ := ih
    have R := limitLoop_run C
    obtain ⟨-, -, -, -, qi', ai, aD, d', b1, b2, b3, b4, b5, b6, b7, b8, -⟩ := C30_row hdt R hD h hi h1
    rw [hq] at b5; cases b5
    obtain ⟨⟨⟨-, hbnd⟩, -⟩, -, -⟩ := solved_optimal hs
    have hsat := hbnd _ hmem
    have hrow := ((C30_bounds hdt R hb hD h x.get).1 hsat).1 i hi h1 _ _ _ _ _ _ _ _ hl hu hvl hvu hq b6 b7 b8
    obtain ⟨e1, e2⟩ := hint i hi h1 _ _ hq b6
    obtain ⟨⟨w1, w2, w3, w4⟩, -⟩ := hrow
    have s1 := hslowL _ w1
    have s2 := hslowU _ w2
    obtain ⟨qi', ai', d0, d1, k1, k2, k3, k4, k5, k6⟩ := C32_update hdt R h hi h1 hl hu
    rw [hq] at k1; cases k1
    rw [b6] at k2; cases k2
    rw [b8] at k4; cases k4
    -- the damping in use
    have hdamp : d'.state ≠ .free → p.dt * d'.damping ≤ (u - l) * p.inter - (u - l) * p.sec := by
      intro hf
      rw [k6]
      rcases hst with ⟨o1, o2⟩ | ⟨a, d1, a1, a2, a3, a4, a5, a6⟩
      · exact absurd (k5.trans (by unfold zoneOf; rw [if_neg (not_lt.2 o1), if_neg (not_lt.2 o2)])) hf
      · rw [b6] at a1; cases a1
        rw [k3] at a2; cases a2
        by_cases hsame : d'.state = d0.state
        · rw [if_pos (.inr hsame)]
          exact a4 (hsame ▸ hf)
        · rw [if_neg (by tauto)]
          refine entry_damping hdt hoff hm hmR ?_ a3
          cases hzz : d'.state with
          | low => have := a5 (fun hh => hsame (hzz.trans hh.symm)); simp only [zoneDist]; linarith
          | upp => have := a6 (fun hh => hsame (hzz.trans hh.symm)); simp only [zoneDist]; linarith
          | free => exact absurd hzz hf
    have hv : |ai + x.get (aBegin mbs r + jpos mb i) * p.dt| * p.dt ≤ m := by
      rcases abs_cases (ai + x.get (aBegin mbs r + jpos mb i) * p.dt) with ⟨e, -⟩ | ⟨e, -⟩ <;> rw [e] <;> linarith
    refine ⟨_, e2, ?_, .inr ⟨_, d', e1, b8, hv, hdamp, ?_, ?_⟩⟩
    · generalize ai + x.get (aBegin mbs r + jpos mb i) * p.dt = v at *
      by_cases c1 : q - l < (u - l) * p.inter
      · have hlow : d'.state = .low := by rw [k5]; unfold zoneOf; rw [if_pos c1]
        have := limit_step (by linarith) (sub_nonneg.2 i1) hdt.le (hdamp (by rw [hlow]; simp)) (w3 c1)
        constructor <;> linarith
      · by_cases c2 : u - q < (u - l) * p.inter
        · have hupp : d'.state = .upp := by rw [k5]; unfold zoneOf; rw [if_neg c1, if_pos c2]
          have := limit_step (v := -v) (by linarith) (sub_nonneg.2 i2) hdt.le (hdamp (by rw [hupp]; simp))
            (neg_le_neg (w4 c1 c2))
          constructor <;> linarith
        · constructor <;> linarith
    · intro hne
      have : (u - l) * p.inter ≤ q - l := by
        by_contra hc
        exact hne (k5.trans (by unfold zoneOf; rw [if_pos (not_le.1 hc)]))
      linarith
    · intro hne
      by_cases c1 : q - l < (u - l) * p.inter
      · linarith
      · have : (u - l) * p.inter ≤ u - q := by
          by_contra hc
          exact hne (k5.trans (by unfold zoneOf; rw [if_neg c1, if_pos (not_le.1 hc)]))
        linarith

end C75

namespace SafetyEx
open WeightEx

/-- Limits `[0, 1]` on both joints, velocities at most `V`, interaction distance `2/5`, security distance `1/10`,
no offset, time step 1. -/
def prm (V : ℚ) : LimitParams ℚ :=
  ⟨[[.fin 0], [.fin 0]], [[.fin 1], [.fin 1]], [[.fin (-V)], [.fin (-V)]], [[.fin V], [.fin V]], [], [], [], [],
    2/5, 1/10, 0, 1⟩

def dat : SolverData ℚ := { (SolverData.init : SolverData ℚ) with alphaDBegin := [0] }

theorem setup (V : ℚ) : ∃ s, DampRun robot 0 (prm V) (some dat) s := by
  have hm : ∃ s, DamperLimits.make robot 0 (fun _ => .negInf) (prm V).lQ (prm V).uQ (prm V).lA (prm V).uA (prm V).lAD
      (prm V).uAD (prm V).lADD (prm V).uADD (prm V).inter (prm V).sec (prm V).off (prm V).dt = .ok s := ⟨_, rfl⟩
  obtain ⟨s, hs⟩ := hm
  exact ⟨_, .nrVars dat _ (.make (fun _ => .negInf) s hs) (by
    unfold DamperLimits.updateNrVars
    have : s.robotIndex = 0 := by cases hs; rfl
    rw [this]
    rfl)⟩

/-- What the bounds mean for the accelerations of the two joints. -/
theorem bounds {V : ℚ} {s : DamperLimits ℚ} (R : DampRun robot 0 (prm V) (some dat) s) {q0 q1 a0 a1 : ℚ}
    (h0 : q0 ≠ 1/10 ∧ q0 ≠ 9/10) (h1 : q1 ≠ 1/10 ∧ q1 ≠ 9/10) :
    ∃ s' d0 d1, s.update [[q0], [q1]] [[a0], [a1]] [[0], [0]] = .ok s' ∧ entryOf s' 0 = some d0 ∧
      entryOf s' 1 = some d1 ∧ s'.bound.Sized 2 ∧ ∀ x, SatBound s'.bound x ↔
        DampedOK (.fin 0) (.fin 1) (.fin (-V)) (.fin V) (2/5) (1/10) d0.damping q0 (a0 + x 0 * 1) ∧
        DampedOK (.fin 0) (.fin 1) (.fin (-V)) (.fin V) (2/5) (1/10) d1.damping q1 (a1 + x 1 * 1) := by
  have hdt : 0 < (prm V).dt := by norm_num [prm]
  obtain ⟨s', h⟩ := C30_update_ok (q := [[q0], [q1]]) (alpha := [[a0], [a1]]) (alphaD := [[0], [0]]) hdt R rfl (by
    intro i hi _
    have : i = 0 ∨ i = 1 := by simp [robot] at hi; omega
    rcases this with rfl | rfl
    · refine ⟨q0, a0, _, _, rfl, rfl, rfl, rfl, .inr ⟨0, 1, rfl, rfl, by norm_num [prm], ?_, ?_⟩⟩
      · norm_num [prm]; intro h; exact h0.1 h
      · norm_num [prm]; intro h; exact h0.2 (by linarith)
    · refine ⟨q1, a1, _, _, rfl, rfl, rfl, rfl, .inr ⟨0, 1, rfl, rfl, by norm_num [prm], ?_, ?_⟩⟩
      · norm_num [prm]; intro h; exact h1.1 h
      · norm_num [prm]; intro h; exact h1.2 (by linarith))
  obtain ⟨-, -, -, -, -, -, -, d0, -, -, -, -, -, -, -, e0, -⟩ :=
    C30_row hdt R (q := [[q0], [q1]]) (alpha := [[a0], [a1]]) (alphaD := [[0], [0]]) rfl h (i := 0)
      (by simp [robot]) rfl
  obtain ⟨-, -, -, -, -, -, -, d1, -, -, -, -, -, -, -, e1, -⟩ :=
    C30_row hdt R (q := [[q0], [q1]]) (alpha := [[a0], [a1]]) (alphaD := [[0], [0]]) rfl h (i := 1)
      (by simp [robot]) rfl
  have hb := C30_bounds hdt R (b := 0) rfl (q := [[q0], [q1]]) (alpha := [[a0], [a1]]) (alphaD := [[0], [0]]) rfl h
  have acc : ∀ a x, (prm V).AccOK a 0 x := fun a x => by
    simp [LimitParams.AccOK, prm, Ext.LowerOK, Ext.UpperOK]
  refine ⟨s', d0, d1, h, e0, e1, ?_, fun x => ?_⟩
  · obtain ⟨I', hbeg, -⟩ := damp_update (dampInv R) h
    have := I'.begin' dat rfl
    have hz : s'.alphaDBegin = 0 := (Out.ok.inj this).symm
    have sL := I'.sL
    have sU := I'.sU
    have hn : robot.nrDof = 2 := rfl
    simp only [BoundC.Sized, DamperLimits.bound, sL, sU, hn, hz]
    exact ⟨le_rfl, le_rfl⟩
  · rw [hb x]
    constructor
    · rintro ⟨k, -⟩
      exact ⟨(k 0 (by simp [robot]) rfl _ _ _ _ _ _ _ _ rfl rfl rfl rfl rfl rfl rfl e0).1,
        (k 1 (by simp [robot]) rfl _ _ _ _ _ _ _ _ rfl rfl rfl rfl rfl rfl rfl e1).1⟩
    · rintro ⟨k0, k1⟩
      constructor
      · intro i hi _ l u vl vu qi ai aD d' b1 b2 b3 b4 b5 b6 b7 b8
        have : i = 0 ∨ i = 1 := by simp [robot] at hi; omega
        rcases this with rfl | rfl
        · cases b1; cases b2; cases b3; cases b4; cases b5; cases b6; cases b7
          rw [e0] at b8; cases b8
          exact ⟨k0, acc _ _⟩
        · cases b1; cases b2; cases b3; cases b4; cases b5; cases b6; cases b7
          rw [e1] at b8; cases b8
          exact ⟨k1, acc _ _⟩
      · intro a ha hne
        exfalso
        have : a = 0 ∨ a = 1 := by have hn : robot.nrDof = 2 := rfl; omega
        rcases this with rfl | rfl
        · exact hne 0 (by simp [robot]) rfl rfl
        · exact hne 1 (by simp [robot]) rfl rfl

theorem robot_noMimic : ∀ mb ∈ [robot], NoMimic mb := by
  intro mb hmb j hj
  simp only [List.mem_singleton] at hmb
  subst hmb
  simp only [robot, List.mem_cons, List.not_mem_nil, or_false] at hj
  rcases hj with rfl | rfl <;> rfl

/-- A step of the solver on the robot with one pull task and one bound constraint. -/
theorem solveStep (c : ℚ) {b : BoundC ℚ} (hb : b.Sized 2) {y : ℕ → ℚ} (hy : SatBound b y) (hy1 : y 1 = 0)
    (hopt : ∀ z, SatBound b z → (y 0) ^ 2 / 2 - c * y 0 ≤ z 0 ^ 2 / 2 - c * z 0) :
    ∃ x, Solved "QLD" [robot] 2 ⟨[pull c 1], [], [], [], [b]⟩ x ∧ ∀ v, x.get v = y v := by
  have hobj : ∀ z, objective 2 ⟨[pull c 1], [], [], [], [b]⟩ z = z 0 ^ 2 / 2 - c * z 0 + z 1 ^ 2 / 20000 := by
    intro z
    have := objective_pulls [pull c 1] 1 (by simp [accDiag, pull_q]) (by simp [accDiag, pull_q]) z
    rw [if_neg (by norm_num [abs_lt])] at this
    simp only [List.map_cons, List.map_nil, List.sum_cons, List.sum_nil, pull_obj] at this
    have e : objective 2 ⟨[pull c 1], [], [], [], [b]⟩ z = objective 2 (inpOf [pull c 1]) z := rfl
    rw [e, this]
    ring
  refine realise (mbs := [robot]) (uni := []) (bi := []) (mbcs := [mbc]) (inp := ⟨[pull c 1], [], [], [], [b]⟩)
    robot_ok robot_noMimic ?_ (by intro c hc; simp at hc) rfl ?_
    ⟨by simp [pull_sized, nrVariables, robot, MultiBody.nrDof], by simp, by simp, by simp, ?_⟩
    Nat.two_pos (by simp) ⟨⟨by simp, by simp, by simp⟩, by simpa using hy⟩ ?_
  · intro mb hmb _
    simp only [List.mem_singleton] at hmb
    subst hmb
    exact robot_tree
  · intro r mb m hr hmm
    cases r with
    | zero => simp at hr hmm; subst hr; subst hmm; exact ⟨rfl, fun _ => ⟨rfl, rfl, rfl⟩⟩
    | succ r => simp at hr
  · intro c hc
    simp only [List.mem_singleton] at hc
    subst hc
    exact hb
  · intro z hz
    have e : nrVariables [robot] ([] : List (UniContact ℚ)) [] = 2 := rfl
    rw [e, hobj, hobj, hy1]
    have := hopt z (hz.2 b (by simp))
    nlinarith [sq_nonneg (z 1)]

theorem moves {x : ℕ → ℚ} {V q0 q1 a0 a1 : ℚ} :
    Integrates robot (aBegin [robot] 0) (prm V).dt x [[q0], [q1]] [[a0], [a1]]
      [[q0 + (a0 + x 0 * 1) * 1], [q1 + (a1 + x 1 * 1) * 1]] [[a0 + x 0 * 1], [a1 + x 1 * 1]] := by
  intro i hi _ q a hq ha
  have : i = 0 ∨ i = 1 := by simp [robot] at hi; omega
  rcases this with rfl | rfl <;> cases hq <;> cases ha <;> exact ⟨rfl, rfl⟩

/-- **C75** applies: a task pulls joint 0 from the middle towards its upper limit; the velocity limit `1/10` is a
third of the width of the zone.  All hypotheses of `C75_limits_hold` are met, and the joint moves. -/
example : (∃ s, LimitLoop [robot] robot 0 (prm (1/10)) [[1/2], [1/2]] (some dat) s [[3/5], [1/2]] [[1/10], [0]]) ∧
    (1/10 : ℚ) * (2 * ((1 - 0) * (2/5) - (1 - 0) * (1/10)) - 0 * 1)
      ≤ ((1 - 0) * (2/5) - (1 - 0) * (1/10)) * ((1 - 0) * (2/5) - (1 - 0) * (1/10) - 0 * 1) := by
  refine ⟨?_, by norm_num⟩
  obtain ⟨s, R⟩ := setup (1/10)
  obtain ⟨s', d0, d1, h, -, -, hs, hb⟩ := bounds R (q0 := 1/2) (q1 := 1/2) (a0 := 0) (a1 := 0) (by norm_num)
    (by norm_num)
  obtain ⟨x, hx, ex⟩ := solveStep 1 hs (y := fun i => if i = 0 then 1/10 else 0)
    ((hb _).2 (by constructor <;> norm_num [DampedOK, Ext.LowerOK, Ext.UpperOK])) (by norm_num) (by
      intro z hz
      have := ((hb z).1 hz).1.2.1
      simp only [Ext.UpperOK] at this
      norm_num
      nlinarith [sq_nonneg (z 0 - 1/10)])
  have L := LimitLoop.step (Q' := _) (A' := _) [[0], [0]] s' "QLD" 2 _ x
    (LimitLoop.start (mbs := [robot]) (Q0 := [[1/2], [1/2]]) [[0], [0]] R) rfl rfl h hx (by simp) moves
  rw [ex, ex] at L
  norm_num at L
  exact ⟨s', L⟩

/-- **C75** (the bound on the speed is needed).  Same limits, velocity limit `27/100`: less than the width of the
zone.  A task pulls joint 0 down from `2/5`, outside of the zones; after two steps it is at `-7/50`, beyond its
limit 0.  The damping chosen at the entry of the zone is too large for the time step. -/
theorem C75_fast_counterexample :
    ∃ s a, LimitLoop [robot] robot 0 (prm (27/100)) [[2/5], [1/2]] (some dat) s [[-(7/50)], [1/2]] a := by
  obtain ⟨s, R⟩ := setup (27/100)
  have hdt : 0 < (prm (27/100)).dt := by norm_num [prm]
  obtain ⟨s1, d0, d1, h, -, -, hs, hb⟩ := bounds R (q0 := 2/5) (q1 := 1/2) (a0 := 0) (a1 := 0) (by norm_num)
    (by norm_num)
  obtain ⟨x, hx, ex⟩ := solveStep (-1) hs (y := fun i => if i = 0 then -27/100 else 0)
    ((hb _).2 (by constructor <;> norm_num [DampedOK, Ext.LowerOK, Ext.UpperOK])) (by norm_num) (by
      intro z hz
      have := ((hb z).1 hz).1.1
      simp only [Ext.LowerOK] at this
      norm_num
      nlinarith [sq_nonneg (z 0 + 27/100)])
  have L := LimitLoop.step (Q' := _) (A' := _) [[0], [0]] s1 "QLD" 2 _ x
    (LimitLoop.start (mbs := [robot]) (Q0 := [[2/5], [1/2]]) [[0], [0]] R) rfl rfl h hx (by simp) moves
  rw [ex, ex] at L
  norm_num at L
  have R1 := limitLoop_run L
  obtain ⟨s2, d0', d1', h', e0, e1, hs', hb'⟩ := bounds R1 (q0 := 13/100) (q1 := 1/2) (a0 := -(27/100)) (a1 := 0)
    (by norm_num) (by norm_num)
  have hz1 : ∃ d, entryOf s1 0 = some d ∧ d.state = .free := by
    obtain ⟨qi, ai, d, d', k1, k2, k3, k4, k5, k6⟩ := C32_update hdt R h (i := 0) (by simp [robot]) rfl
      (l := 0) (u := 1) rfl rfl
    cases k1
    exact ⟨d', k4, by rw [k5]; norm_num [zoneOf, prm]⟩
  have hdamp : d0'.damping = 27/10 := by
    obtain ⟨qi, ai, d, d', k1, k2, k3, k4, k5, k6⟩ := C32_update hdt R1 h' (i := 0) (by simp [robot]) rfl
      (l := 0) (u := 1) rfl rfl
    cases k1
    cases k2
    rw [e0] at k4; cases k4
    obtain ⟨d'', f1, f2⟩ := hz1
    rw [k3] at f1; cases f1
    have hz : d0'.state = .low := by rw [k5]; norm_num [zoneOf, prm]
    rw [hz, f2, if_neg (by simp)] at k6
    rw [k6]
    norm_num [prm, zoneDist, abs_div, abs_mul]
  rw [hdamp] at hb'
  obtain ⟨x', hx', ex'⟩ := solveStep (-1) hs' (y := fun i => 0)
    ((hb' _).2 (by constructor <;> norm_num [DampedOK, Ext.LowerOK, Ext.UpperOK])) (by norm_num) (by
      intro z hz
      have := ((hb' z).1 hz).1.1
      simp only [Ext.LowerOK] at this
      norm_num
      nlinarith [sq_nonneg (z 0)])
  have L' := LimitLoop.step (Q' := _) (A' := _) [[0], [0]] s2 "QLD" 2 _ x' L rfl rfl h' hx' (by simp) moves
  rw [ex', ex'] at L'
  norm_num at L'
  exact ⟨s2, _, L'⟩

end SafetyEx

end Verif
