import Verif.Props.Feasible
import Verif.Props.Motion
import Verif.Props.Agree

/-!
# C127: do wider limits ever make the tasks worse?
-/

set_option autoImplicit false
set_option linter.unusedSectionVars false

namespace Verif

open Finset Spec

namespace Spec
variable {K : Type} [Field K] [LinearOrder K] [IsStrictOrderedRing K]

/-- The interval from `l'` to `u'` contains that from `l` to `u`. -/
def Contains (l u l' u' : Ext K) : Prop := ∀ y, (l.LowerOK y → l'.LowerOK y) ∧ (u.UpperOK y → u'.UpperOK y)

/-- Position, acceleration and jerk limits of every dof are as wide or wider, for the same time step. -/
structure WiderLimits (p p' : LimitParams K) : Prop where
  dt : p'.dt = p.dt
  pos : ∀ (a : ℕ) (l u l' u' : Ext K), p.lQ.flatten[a]? = some l → p.uQ.flatten[a]? = some u →
    p'.lQ.flatten[a]? = some l' → p'.uQ.flatten[a]? = some u' → Contains l u l' u'
  acc : ∀ a : ℕ, Contains ((p.lAD.flatten[a]?).getD .negInf) ((p.uAD.flatten[a]?).getD .posInf)
    ((p'.lAD.flatten[a]?).getD .negInf) ((p'.uAD.flatten[a]?).getD .posInf)
  jerk : ∀ a : ℕ, Contains ((p.lADD.flatten[a]?).getD .negInf) ((p.uADD.flatten[a]?).getD .posInf)
    ((p'.lADD.flatten[a]?).getD .negInf) ((p'.uADD.flatten[a]?).getD .posInf)

/-- Torque limits of every dof are as wide or wider. -/
def WiderTorques (p p' : TorqueParams K) : Prop :=
  ∀ a, Contains (p.lower a) (p.upper a) (p'.lower a) (p'.upper a)

/-- The same tasks, and `inp'` accepts whatever `inp` accepts. -/
def Looser (mbs : List (MultiBody K)) (n : ℕ) (inp inp' : QPInput K) : Prop :=
  inp'.tasks = inp.tasks ∧ ∀ x, Admissible mbs n inp x → Admissible mbs n inp' x

end Spec

variable {K : Type} [Field K] [LinearOrder K] [IsStrictOrderedRing K]

/-- **C127** (partial): with looser constraints the tasks together are served at least as well.  Partial:
wider limits are looser constraints for `C127_positions` and `C127_torques`, but not for damped joint limits,
see `WiderEx.C127_damper_counterexample`. -/
theorem C127_wider_partial {b b' : String} {mbs : List (MultiBody K)} {n : ℕ} {inp inp' : QPInput K}
    {x x' : Vec K} (hl : Looser mbs n inp inp') (h : Solved b mbs n inp x) (h' : Solved b' mbs n inp' x') :
    objective n inp' x'.get ≤ objective n inp x.get := by
  obtain ⟨a1, -, -⟩ := solved_optimal h
  obtain ⟨-, -, b2⟩ := solved_optimal h'
  have k := b2 _ (hl.2 _ a1)
  have e : objective n inp' x.get = objective n inp x.get := by
    unfold objective
    rw [hl.1]
  rwa [e] at k

/-- **C127** (how far the result moves): measured by the Hessian, at most twice what is gained. -/
theorem C127_moves {b b' : String} {mbs : List (MultiBody K)} {n : ℕ} {inp inp' : QPInput K} {x x' : Vec K}
    (hl : Looser mbs n inp inp') (h : Solved b mbs n inp x) (h' : Solved b' mbs n inp' x') :
    curvature n inp' (fun v => x.get v - x'.get v) ≤ 2 * (objective n inp x.get - objective n inp' x'.get) := by
  have k := solved_strong h' (hl.2 _ (solved_optimal h).1)
  have e : objective n inp' x.get = objective n inp x.get := by
    unfold objective
    rw [hl.1]
  rw [e] at k
  linarith

/-- **C127** (numerical solvers with tolerances): up to the tolerance of the second solver and the cost of
correcting the first result. -/
theorem C127_inexact {ε ε' δ δ' κ : K} {b b' : String} {mbs : List (MultiBody K)} {n : ℕ} {inp inp' : QPInput K}
    {x x' : Vec K} (hl : Looser mbs n inp inp') (_h : SolvedNear ε δ b mbs n inp x)
    (h' : SolvedNear ε' δ' b' mbs n inp' x') {y : ℕ → K} (hy : Corrects mbs n inp κ x.get y) :
    objective n inp' x'.get ≤ objective n inp x.get + δ' + κ := by
  obtain ⟨-, -, -, -, a'⟩ := solvedNear_spec h'
  have k := a' _ (hl.2 _ hy.1)
  have e : objective n inp' y = objective n inp y := by
    unfold objective
    rw [hl.1]
  have := hy.2
  rw [e] at k
  linarith

/-- **C127** (one constraint): exchanging a bound for a looser one, or the rows of a two-sided constraint for
looser ones, makes the problem looser. -/
theorem C127_exchange (mbs : List (MultiBody K)) (n : ℕ) (inp : QPInput K) :
    (∀ (pre post : List (BoundC K)) (c c' : BoundC K), inp.bound = pre ++ c :: post →
      (∀ x, SatBound c x → SatBound c' x) → Looser mbs n inp { inp with bound := pre ++ c' :: post }) ∧
    ∀ (pre post : List (GenC K)) (c c' : GenC K), inp.gen = pre ++ c :: post →
      (∀ x, SatGen n c x → SatGen n c' x) → Looser mbs n inp { inp with gen := pre ++ c' :: post } := by
  constructor
  · rintro pre post c c' e hc
    refine ⟨rfl, fun x ⟨⟨hl, hb⟩, hm⟩ => ⟨⟨hl, fun z hz => ?_⟩, hm⟩⟩
    simp only [List.mem_append, List.mem_cons] at hz
    rw [e] at hb
    rcases hz with hz | rfl | hz
    · exact hb z (by simp [hz])
    · exact hc x (hb c (by simp))
    · exact hb z (by simp [hz])
  · rintro pre post c c' e hc
    refine ⟨rfl, fun x ⟨⟨⟨h1, h2, h3⟩, hb⟩, hm⟩ => ⟨⟨⟨h1, h2, fun z hz => ?_⟩, hb⟩, hm⟩⟩
    simp only [List.mem_append, List.mem_cons] at hz
    rw [e] at h3
    rcases hz with hz | rfl | hz
    · exact h3 z (by simp [hz])
    · exact hc x (h3 c (by simp))
    · exact h3 z (by simp [hz])

/-- **C127** (`JointLimitsConstr`): of two constraints on the same robot, each with any history, the one with the
wider position, acceleration and jerk limits accepts every acceleration that the other accepts in the same state. -/
theorem C127_positions {mb : MultiBody K} {r : ℕ} {p p' : LimitParams K} (hdt : 0 < p.dt) (hw : WiderLimits p p')
    {j0 : Joint K} (hj0 : mb.joints[0]? = some j0) (hdof : j0.dof ≤ 1)
    (hlQ : p.lQ.flatten.length = mb.nrDof) (huQ : p.uQ.flatten.length = mb.nrDof)
    (hlQ' : p'.lQ.flatten.length = mb.nrDof) (huQ' : p'.uQ.flatten.length = mb.nrDof)
    {d : SolverData K} {s s' : JointLimits K} (R : LimitRun mb mb.nrDof r p (some d) s)
    (R' : LimitRun mb mb.nrDof r p' (some d) s') {b : ℕ} (hb : vecAt d.alphaDBegin r = .ok b)
    {q alpha alphaD : List (List K)} (hq : q.flatten.length = mb.nrDof) (ha : alpha.flatten.length = mb.nrDof)
    (haD : alphaD.flatten.length = mb.nrDof) :
    ∃ s1 s1', s.update q alpha alphaD = .ok s1 ∧ s'.update q alpha alphaD = .ok s1' ∧
      ∀ x, SatBound s1.bound x → SatBound s1'.bound x := by
  obtain ⟨s1, e1, h1⟩ := C29_limits hdt hj0 hdof hlQ huQ R hb hq ha haD
  obtain ⟨s1', e1', h1'⟩ := C29_limits (by rw [hw.dt]; exact hdt) hj0 hdof hlQ' huQ' R' hb hq ha haD
  refine ⟨s1, s1', e1, e1', fun x hx => (h1' x).2 ?_⟩
  intro a l' u' qa va ac hl' hu' hqa hva hac
  have hlt : a < mb.nrDof := by
    rw [← hlQ']
    by_contra hc
    rw [List.getElem?_eq_none (by omega)] at hl'
    cases hl'
  have hl := List.getElem?_eq_getElem (l := p.lQ.flatten) (i := a) (by omega)
  have hu := List.getElem?_eq_getElem (l := p.uQ.flatten) (i := a) (by omega)
  obtain ⟨k1, k2, k3, k4, k5, k6⟩ := (h1 x).1 hx a _ _ qa va ac hl hu hqa hva hac
  have w := hw.pos a _ _ l' u' hl hu hl' hu'
  rw [hw.dt]
  refine ⟨(w _).1 k1, (w _).2 k2, (hw.acc a _).1 k3, (hw.acc a _).2 k4, ?_, ?_⟩
  · rw [hw.dt]; exact (hw.jerk a _).1 k5
  · rw [hw.dt]; exact (hw.jerk a _).2 k6

/-- **C127** (`MotionConstr`): of two constraints on the same robot, each with any history and without limits on
the torque rate, the one with the wider torque limits accepts whatever the other accepts in the same state. -/
theorem C127_torques {rk : RobotKin K} {r : ℕ} {p p' : TorqueParams K} (hw : WiderTorques p p')
    (hp : p.Full rk.mb.nrDof) (hp' : p'.Full rk.mb.nrDof) (hdt : 0 < p.dt) (hdt' : 0 < p'.dt)
    (hL : p.lTD.flatten = []) (hU : p.uTD.flatten = []) (hL' : p'.lTD.flatten = []) (hU' : p'.uTD.flatten = [])
    (hj : rk.mb.joints ≠ []) {d : SolverData K} {k k' : ℕ} {last last' : ℕ → K} {s s' : MotionConstr K}
    (R : MotionRun rk r p [] (some d) k last s) (R' : MotionRun rk r p' [] (some d) k' last' s')
    {mbs : List (MultiBody K)} (S : Setting rk r mbs d) (N : NoSelf r d) (env : MotionEnv K) (E : EnvOK rk env) :
    ∃ s1 s1', s.update rk.mb env = .ok s1 ∧ s'.update rk.mb env = .ok s1' ∧
      ∀ x, SatGen d.nrVars s1.common.gen x → SatGen d.nrVars s1'.common.gen x := by
  obtain ⟨s1, e1, -, -, h1⟩ := C25_torque_limits hp hdt hL hU hj R S N env E
  obtain ⟨s1', e1', -, -, h1'⟩ := C25_torque_limits hp' hdt' hL' hU' hj R' S N env E
  refine ⟨s1, s1', e1, e1', fun x hx => ?_⟩
  obtain ⟨_, _, c, -, -, -, t, l, -⟩ := h1 ⟨d.nrVars, x⟩ rfl
  obtain ⟨_, _, c', -, -, -, t', l', -⟩ := h1' ⟨d.nrVars, x⟩ rfl
  refine l'.2 fun a ha => ?_
  have k := l.1 hx a ha
  rw [t' a ha, ← t a ha]
  exact ⟨(hw a _).1 k.1, (hw a _).2 k.2⟩

/-! ## Damped joint limits -/

namespace WiderEx

open WeightEx
open SafetyEx (dat solveStep)

/-- Limits of two joints: the first may go from 0 to `U`, the second from 0 to 1. -/
def prmU (U : ℚ) : LimitParams ℚ :=
  ⟨[[.fin 0], [.fin 0]], [[.fin U], [.fin 1]], [[.fin (-1)], [.fin (-1)]], [[.fin 1], [.fin 1]],
    [], [], [], [], 2/5, 1/10, 0, 1⟩

/-- Only the upper limit of the first joint is raised. -/
example : WiderLimits (prmU 1) (prmU 2) := by
  refine ⟨rfl, ?_, fun a y => ⟨id, id⟩, fun a y => ⟨id, id⟩⟩
  intro a l u l' u' hl hu hl' hu' y
  match a with
  | 0 => cases hl; cases hu; cases hl'; cases hu'; exact ⟨id, fun h => le_trans h (by norm_num)⟩
  | 1 => cases hl; cases hu; cases hl'; cases hu'; exact ⟨id, id⟩
  | (a + 2) => simp [prmU] at hl

theorem setup (U : ℚ) : ∃ s d, DampRun robot 0 (prmU U) (some dat) s ∧ entryOf s 0 = some d ∧ d.damping = 0 := by
  have hm : ∃ s, DamperLimits.make robot 0 (fun _ => .negInf) (prmU U).lQ (prmU U).uQ (prmU U).lA (prmU U).uA
      (prmU U).lAD (prmU U).uAD (prmU U).lADD (prmU U).uADD (prmU U).inter (prmU U).sec (prmU U).off
      (prmU U).dt = .ok s ∧ s.robotIndex = 0 ∧ ∃ d, entryOf s 0 = some d ∧ d.damping = 0 :=
    ⟨_, rfl, rfl, _, rfl, rfl⟩
  obtain ⟨s, hs, hr, d, hd, h0⟩ := hm
  refine ⟨{ s with alphaDBegin := 0 }, d, .nrVars dat _ (.make (fun _ => .negInf) s hs) ?_, hd, h0⟩
  unfold DamperLimits.updateNrVars
  rw [hr]
  rfl

/-- What the bounds mean at rest, with the first joint at 9/20 and the second in the middle. -/
theorem bounds {U : ℚ} (hU : 1 ≤ U) (hU2 : U ≤ 2) : ∃ s s', DampRun robot 0 (prmU U) (some dat) s ∧
    s.update [[9/20], [1/2]] [[0], [0]] [[0], [0]] = .ok s' ∧ s'.bound.Sized 2 ∧
      ∀ x, SatBound s'.bound x ↔ (-1 ≤ x 0 ∧ x 0 ≤ 1 ∧ (9/20 < U * (2/5) → 0 ≤ x 0)) ∧ -1 ≤ x 1 ∧ x 1 ≤ 1 := by
  obtain ⟨s, d, R, hd, hd0⟩ := setup U
  have hdt : 0 < (prmU U).dt := by norm_num [prmU]
  obtain ⟨s', h⟩ := C30_update_ok (q := [[9/20], [1/2]]) (alpha := [[0], [0]]) (alphaD := [[0], [0]]) hdt R rfl (by
    intro i hi _
    have : i = 0 ∨ i = 1 := by simp [robot] at hi; omega
    rcases this with rfl | rfl
    · refine ⟨9/20, 0, _, _, rfl, rfl, rfl, rfl, .inr ⟨0, U, rfl, rfl, ?_, ?_, ?_⟩⟩
      · simp only [prmU]; intro h; linarith
      · simp only [prmU]; intro h; linarith
      · simp only [prmU]; intro h; linarith
    · refine ⟨1/2, 0, _, _, rfl, rfl, rfl, rfl, .inr ⟨0, 1, rfl, rfl, by norm_num [prmU], ?_, ?_⟩⟩ <;>
        norm_num [prmU])
  obtain ⟨_, _, d', d0, k1, k2, k3, e0, k5, k6⟩ := C32_update hdt R h (i := 0) (by simp [robot]) rfl
    (l := 0) (u := U) rfl rfl
  cases k1
  cases k2
  rw [hd] at k3
  cases k3
  have hz : d0.damping = 0 := by
    rw [k6]
    split_ifs
    · exact hd0
    · simp [prmU]
  obtain ⟨-, -, -, -, -, -, -, d1, -, -, -, -, -, -, -, e1, -⟩ :=
    C30_row hdt R (q := [[9/20], [1/2]]) (alpha := [[0], [0]]) (alphaD := [[0], [0]]) rfl h (i := 1)
      (by simp [robot]) rfl
  have hb := C30_bounds hdt R (b := 0) rfl (q := [[9/20], [1/2]]) (alpha := [[0], [0]]) (alphaD := [[0], [0]]) rfl h
  have acc : ∀ a x, (prmU U).AccOK a 0 x := fun a x => by
    simp [LimitParams.AccOK, prmU, Ext.LowerOK, Ext.UpperOK]
  have c0 : ∀ v : ℚ, DampedOK (.fin 0) (.fin U) (.fin (-1)) (.fin 1) (2/5) (1/10) d0.damping (9/20) v ↔
      -1 ≤ v ∧ v ≤ 1 ∧ (9/20 < U * (2/5) → 0 ≤ v) := by
    intro v
    simp only [DampedOK, Ext.LowerOK, Ext.UpperOK, hz, zero_mul, neg_zero, sub_zero]
    refine and_congr_right fun _ => and_congr_right fun _ => ⟨fun k => k.1, fun k => ⟨k, fun k1 k2 => ?_⟩⟩
    exact absurd k2 (by linarith)
  have c1 : ∀ v : ℚ, DampedOK (.fin 0) (.fin 1) (.fin (-1)) (.fin 1) (2/5) (1/10) d1.damping (1/2) v ↔
      -1 ≤ v ∧ v ≤ 1 := by
    intro v
    simp only [DampedOK, Ext.LowerOK, Ext.UpperOK]
    norm_num
  refine ⟨s, s', R, h, ?_, fun x => ?_⟩
  · obtain ⟨I', hbeg, -⟩ := damp_update (dampInv R) h
    have := I'.begin' dat rfl
    have hz : s'.alphaDBegin = 0 := (Out.ok.inj this).symm
    have sL := I'.sL
    have sU := I'.sU
    have hn : robot.nrDof = 2 := rfl
    simp only [BoundC.Sized, DamperLimits.bound, sL, sU, hn, hz]
    exact ⟨le_rfl, le_rfl⟩
  · rw [hb x]
    have v0 : ∀ y : ℚ, 0 + y * 1 = y := fun y => by ring
    constructor
    · rintro ⟨k, -⟩
      have k0 := (k 0 (by simp [robot]) rfl _ _ _ _ _ _ _ _ rfl rfl rfl rfl rfl rfl rfl e0).1
      have k1 := (k 1 (by simp [robot]) rfl _ _ _ _ _ _ _ _ rfl rfl rfl rfl rfl rfl rfl e1).1
      have k0 := (c0 _).1 k0
      have k1 := (c1 _).1 k1
      have f0 : (0 : ℚ) + x (0 + jpos robot 0) * (prmU U).dt = x 0 := v0 (x 0)
      have f1 : (0 : ℚ) + x (0 + jpos robot 1) * (prmU U).dt = x 1 := v0 (x 1)
      rw [f0] at k0
      rw [f1] at k1
      exact ⟨k0, k1⟩
    · rintro ⟨k0, k1⟩
      constructor
      · intro i hi _ l u vl vu qi ai aD d' b1 b2 b3 b4 b5 b6 b7 b8
        have : i = 0 ∨ i = 1 := by simp [robot] at hi; omega
        rcases this with rfl | rfl
        · cases b1; cases b2; cases b3; cases b4; cases b5; cases b6; cases b7
          rw [e0] at b8; cases b8
          have f0 : (0 : ℚ) + x (0 + jpos robot 0) * (prmU U).dt = x 0 := v0 (x 0)
          exact ⟨(c0 _).2 (by rw [f0]; exact k0), acc _ _⟩
        · cases b1; cases b2; cases b3; cases b4; cases b5; cases b6; cases b7
          rw [e1] at b8; cases b8
          have f1 : (0 : ℚ) + x (0 + jpos robot 1) * (prmU U).dt = x 1 := v0 (x 1)
          exact ⟨(c1 _).2 (by rw [f1]; exact k1), acc _ _⟩
      · intro a ha hne
        exfalso
        have : a = 0 ∨ a = 1 := by have hn : robot.nrDof = 2 := rfl; omega
        rcases this with rfl | rfl
        · exact hne 0 (by simp [robot]) rfl rfl
        · exact hne 1 (by simp [robot]) rfl rfl

/-- **C127 is false of the code** for damped joint limits.  A joint at rest at 9/20 may go from 0 to 1 and is asked
to accelerate downwards by 1, which it does.  Raising its upper limit to 2 stops it: the zone in which the lower
limit is damped grows with the range, and now contains the joint. -/
theorem C127_damper_counterexample : ∃ s t s' t' x x',
    DampRun robot 0 (prmU 1) (some dat) s ∧ DampRun robot 0 (prmU 2) (some dat) s' ∧
    s.update [[9/20], [1/2]] [[0], [0]] [[0], [0]] = .ok t ∧ s'.update [[9/20], [1/2]] [[0], [0]] [[0], [0]] = .ok t' ∧
    Solved "QLD" [robot] 2 ⟨[pull (-1) 1], [], [], [], [t.bound]⟩ x ∧
    Solved "QLD" [robot] 2 ⟨[pull (-1) 1], [], [], [], [t'.bound]⟩ x' ∧
    x.get 0 = -1 ∧ x'.get 0 = 0 ∧ ∀ z, Solved "QLD" [robot] 2 ⟨[pull (-1) 1], [], [], [], [t'.bound]⟩ z → 0 ≤ z.get 0 := by
  obtain ⟨s, t, R, e, hs, hb⟩ := bounds (U := 1) le_rfl (by norm_num)
  obtain ⟨s', t', R', e', hs', hb'⟩ := bounds (U := 2) (by norm_num) le_rfl
  obtain ⟨x, hx, ex⟩ := solveStep (-1) hs (y := fun i => if i = 0 then -1 else 0)
    ((hb _).2 (by norm_num)) (by norm_num) (by
      intro z _
      norm_num
      nlinarith [sq_nonneg (z 0 + 1)])
  obtain ⟨x', hx', ex'⟩ := solveStep (-1) hs' (y := fun _ => 0) ((hb' _).2 (by norm_num)) rfl (by
      intro z hz
      have := ((hb' z).1 hz).1.2.2 (by norm_num)
      nlinarith [sq_nonneg (z 0)])
  refine ⟨s, t, s', t', x, x', R, R', e, e', hx, hx', by rw [ex]; rfl, ex' 0, fun z hz => ?_⟩
  obtain ⟨⟨⟨-, hbnd⟩, -⟩, -, -⟩ := solved_optimal hz
  exact ((hb' _).1 (hbnd _ (List.mem_singleton.2 rfl))).1.2.2 (by norm_num)

end WiderEx

end Verif
