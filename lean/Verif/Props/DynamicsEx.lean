import Verif.Props.Dynamics
import Verif.Props.Realise

/-!
# A case of C97, C98 and C99

A puck with a floating base that slides on two frictionless contact points.
-/

set_option autoImplicit false
set_option linter.unusedSectionVars false

namespace Verif

open Finset Spec

namespace DynEx

def mb : MultiBody ℝ := ⟨[⟨"base", 6, none⟩], 1, [-1], [0]⟩
def rk : RobotKin ℝ := ⟨mb, fun _ => .ok [0]⟩
def mbc : Mbc ℝ Unit := ⟨[[0, 0, 0, 0, 0, 0]], [PT.one], [0], [0], ()⟩

/-- A motion of the puck without rotation: position, velocity, acceleration. -/
structure Path where
  p : ℝ → V3 ℝ
  u : ℝ → V3 ℝ
  w : ℝ → V3 ℝ
  vel : ∀ t, HasD3 p (u t) t
  acc : ∀ t, HasD3 u (w t) t

/-- It slides along `x` with velocity 1. -/
noncomputable def slide : Path where
  p τ := ⟨τ, 0, 0⟩
  u _ := ⟨1, 0, 0⟩
  w _ := 0
  vel t := ⟨hasDerivAt_id t, hasDerivAt_const t _, hasDerivAt_const t _⟩
  acc t := ⟨hasDerivAt_const t _, hasDerivAt_const t _, hasDerivAt_const t _⟩

/-- It falls. -/
noncomputable def fall : Path where
  p τ := ⟨τ, 0, -5 * τ ^ 2⟩
  u τ := ⟨1, 0, -10 * τ⟩
  w _ := ⟨0, 0, -10⟩
  vel t := ⟨hasDerivAt_id t, hasDerivAt_const t _, by
    have := ((hasDerivAt_id t).pow 2).const_mul (-5)
    refine this.congr_deriv ?_
    simp; ring⟩
  acc t := ⟨hasDerivAt_const t _, hasDerivAt_const t _, by
    have := (hasDerivAt_id t).const_mul (-10)
    exact this.congr_deriv (by simp)⟩

/-- The robot along such a motion. -/
noncomputable def st (m : Path) (τ : ℝ) : KState ℝ :=
  ⟨[PT.ofTrans (m.p τ)], [⟨0, m.u τ⟩], [[unit6 0, unit6 1, unit6 2, unit6 3, unit6 4, unit6 5]],
    [[0, 0, 0, (m.u τ).x, (m.u τ).y, (m.u τ).z]], [0]⟩
noncomputable def al (m : Path) (τ : ℝ) (c : ℕ) : ℝ :=
  if c = 3 then (m.u τ).x else if c = 4 then (m.u τ).y else if c = 5 then (m.u τ).z else 0
noncomputable def ad (m : Path) (τ : ℝ) (c : ℕ) : ℝ :=
  if c = 3 then (m.w τ).x else if c = 4 then (m.w τ).y else if c = 5 then (m.w τ).z else 0

/-- Six particles of mass 1 at distance 1 of the origin of the body, on its axes. -/
def bs : List (BodyI ℝ) := [⟨⟨6, 0, [0]⟩, ⟨⟨4, 0, 0⟩, ⟨0, 4, 0⟩, ⟨0, 0, 4⟩⟩⟩]
def pts (_ k : ℕ) : V3 ℝ :=
  [⟨1, 0, 0⟩, ⟨-1, 0, 0⟩, ⟨0, 1, 0⟩, ⟨0, -1, 0⟩, ⟨0, 0, 1⟩, ⟨0, 0, -1⟩].getD k 0

/-- Gravity 10. -/
def grav : V3 ℝ := ⟨0, 0, 10⟩

/-- What RBDyn computes. -/
noncomputable def env (m : Path) (t : ℝ) : MotionEnv ℝ where
  H := ⟨6, 6, fun a c => ∑ i ∈ range bs.length,
    pair (bodyCol bs mb (st m t) i a) ((inertiaAt bs i).mul (bodyCol bs mb (st m t) i c))⟩
  C := ⟨6, fun a => ∑ i ∈ range bs.length, pair (bodyCol bs mb (st m t) i a)
      ((inertiaAt bs i).mul (kAcc (st m t) i + (kPose (st m t) i).mulM ⟨0, grav⟩)
        + (kVel (st m t) i).crossDual ((inertiaAt bs i).mul (kVel (st m t) i)))⟩
  jac := fun _ q => ((Jac.bodyJacobian mb (st m t) ⟨[0], q⟩).val?).getD (Mat.zero 0 0)
  q := [[1, 0, 0, 0, 0, 0, 0]]
  alpha := (st m t).alpha

/-- Two points below the puck, without friction. -/
noncomputable def foot : UniContact ℝ :=
  UniContact.make ⟨0, 1, "foot", "ground", -1⟩ [⟨1, 0, -1⟩, ⟨-1, 0, -1⟩] M3.one PT.one 1 0 PT.one

/-- No torque. -/
noncomputable def prm : TorqueParams ℝ := ⟨[[.fin 0, .fin 0, .fin 0, .fin 0, .fin 0, .fin 0]],
  [[.fin 0, .fin 0, .fin 0, .fin 0, .fin 0, .fin 0]], [], [], 1/200⟩

/-- No acceleration; each point carries half of the weight 60. -/
def y : ℕ → ℝ := fun i => if i = 6 ∨ i = 7 then 30 else 0

theorem particles : MadeOf bs (fun _ => 6) (fun _ _ => 1) pts := by
  intro i hi
  have : i = 0 := by simpa [bs] using hi
  subst this
  refine ⟨?_, ?_, fun w => ?_⟩
  · norm_num [inertiaAt, bs]
  · ext <;> simp [inertiaAt, bs, pts, Finset.sum_range_succ]
  · ext <;> simp [inertiaAt, bs, pts, Finset.sum_range_succ, M3.mulVec, V3.dot] <;> ring

theorem evolves (m : Path) (t : ℝ) : BodiesEvolve (bs.map BodyI.b) mb (st m) (al m) (ad m t) t := by
  intro i hi
  have : i = 0 := by simpa [bs] using hi
  subst this
  refine ⟨rfl, fun τ => ⟨⟨by simp [bodyAt, bs], by simp [bodyAt, bs], ?_, by simp [bodyAt, bs, st], by simp [bodyAt, bs, st],
    by simp [bodyAt, bs, st], ?_⟩, ?_, ?_⟩, fun τ i _ d => rfl, ?_, ?_, ?_⟩
  · simp [bodyAt, bs, mb]
  · simp [bodyAt, bs, st, mb, jdof]
  · intro i hi
    simp [bodyAt, bs] at hi
    subst hi
    exact PT.rigid_ofTrans _
  · refine ⟨?_, trivial⟩
    ext <;> simp [kVel, kSub, st, mb, jdof, jpos, Finset.sum_range_succ, al, unit6, unit6.units]
  · intro c
    unfold al ad
    split
    · exact (m.acc t).1
    · split
      · exact (m.acc t).2.1
      · split
        · exact (m.acc t).2.2
        · exact hasDerivAt_const t _
  · intro i hi
    simp [bodyAt, bs] at hi
    subst hi
    refine ⟨fun v => ((HasD3.const v t).congr_fun fun τ => M3.one_mulVec v).congr_deriv ?_,
      (m.vel t).congr_deriv ?_⟩
    · ext <;> simp [kVel, st]
    · ext <;> simp [kVel, kPose, st, PT.ofTrans, M3.transpose, M3.one, M3.mulVec, V3.dot]
  · refine ⟨?_, trivial⟩
    ext <;> simp [kVel, kSub, kAcc, st, mb, jdof, jpos, MV.cross, Finset.sum_range_succ, al, unit6, unit6.units]

theorem floats (m : Path) (t : ℝ) : Floats bs mb (st m t) prm := by
  refine ⟨⟨rfl, fun d hd => ?_⟩, fun i hi => ?_, fun a ha => ?_⟩
  · interval_cases d <;> rfl
  · have : i = 0 := by simpa [bs] using hi
    subst this
    rfl
  · interval_cases a <;> exact ⟨rfl, rfl⟩

theorem dyn (m : Path) (t : ℝ) : Dynamics bs mb (st m t) grav (env m t) := ⟨fun a _ c _ => rfl, fun a _ => rfl⟩

theorem jac_ok (m : Path) (t : ℝ) (b : String) (q : V3 ℝ) : Jac.bodyJacobian rk.mb (st m t) ⟨[0], q⟩ = .ok ((env m t).jac b q) := by
  have hm := ((evolves m t).moves t 0 (by simp [bs])).2
  have := jac_bodyJac (J := ⟨[0], q⟩) hm.sized rfl
  have e : Jac.bodyJacobian mb (st m t) ⟨[0], q⟩ = _ := this
  simp only [env, rk, e]
  rfl

theorem on (m : Path) (t : ℝ) (l : List (Side ℝ)) : ContactsOn bs rk (st m t) (env m t) l :=
  fun s _ => ⟨0, by simp [bs], rfl, fun j _ => jac_ok m t _ _⟩


theorem noMimic : ∀ m ∈ [mb], NoMimic m := by
  intro m hmb j hj
  simp only [List.mem_singleton] at hmb
  subst hmb
  simp only [mb, List.mem_singleton] at hj
  subst hj
  rfl

theorem mimicOK : ∀ m ∈ [mb], MimicOK m := by
  intro m hmb
  refine ⟨?_, fun j hj l m' h => by rw [noMimic m hmb j hj] at h; cases h⟩
  simp only [List.mem_singleton] at hmb
  subst hmb
  simp [mb]

theorem tree : ∀ m ∈ [mb], 0 < m.nrDof → Tree m := by
  intro m hmb _
  simp only [List.mem_singleton] at hmb
  subst hmb
  refine ⟨rfl, rfl, rfl, ?_⟩
  intro i p h
  match i with
  | 0 => simp [mb] at h; exact Or.inl h.symm
  | k + 1 => simp [mb] at h

theorem shaped : ∀ (r : ℕ) (m : MultiBody ℝ) (c : Mbc ℝ Unit), [mb][r]? = some m → [mbc][r]? = some c →
    Shaped m c ∧ (0 < m.nrDof → MbcSized m c) := by
  intro r m c hr hmm
  cases r with
  | zero => simp at hr hmm; subst hr; subst hmm; exact ⟨rfl, fun _ => ⟨rfl, rfl, rfl⟩⟩
  | succ r => simp at hr

/-- The generators are vertical. -/
theorem cone : FrictionCone.make (M3.one : M3 ℝ) 1 0 1 = ⟨[⟨0, 0, 1⟩]⟩ := by
  obtain ⟨g1, g0, q1, -, -, -, -, q2, -, q3⟩ := (C19_generators M3.one PhysEx.ortho 1 0 1 (Or.inl rfl)).2 0 (by norm_num)
  have hl := (C19_generators (M3.one : M3 ℝ) PhysEx.ortho 1 0 1 (Or.inl rfl)).1
  have hg : (FrictionCone.make (M3.one : M3 ℝ) 1 0 1).generators = [g1] := by
    match hl' : (FrictionCone.make (M3.one : M3 ℝ) 1 0 1).generators with
    | [a] => rw [hl'] at q1; simp at q1; rw [q1]
    | [] => rw [hl'] at q1; simp at q1
    | a :: b :: t => rw [hl'] at hl; simp at hl
  have e : g1 = ⟨0, 0, 1⟩ := by
    have hz : g1.z = 1 := by simpa [M3.one, V3.dot] using q2
    simp only [abs_zero, zero_mul, len] at q3
    have := (Real.sqrt_eq_zero (by positivity)).1 q3
    simp [tangential, M3.one, V3.dot] at this
    have hx : g1.x = 0 := by nlinarith [sq_nonneg g1.x, sq_nonneg g1.y]
    have hy : g1.y = 0 := by nlinarith [sq_nonneg g1.x, sq_nonneg g1.y]
    exact V3.ext hx hy hz
  cases hc : FrictionCone.make (M3.one : M3 ℝ) 1 0 1
  rw [hc] at hg
  rw [← e]
  exact congrArg _ hg

/-- Its contact as the motion constraint sees it. -/
def side : Side ℝ := ⟨"foot", 6, [⟨1, 0, -1⟩, ⟨-1, 0, -1⟩], [⟨[⟨0, 0, 1⟩]⟩, ⟨[⟨0, 0, 1⟩]⟩]⟩

theorem bcol (m : Path) (t : ℝ) (a : ℕ) (ha : a < 6) : bodyCol bs mb (st m t) 0 a = unit6 a := by
  unfold bodyCol
  rw [show (inertiaAt bs 0).b.path = [0] from rfl,
    base_col (floats m t).base rfl (by simp) (by simp [mb]) ha]
  exact PT.mulM_inv _ (PT.rigid_ofTrans _) _

theorem acc_zero (m : Path) (t : ℝ) {z : ℕ → ℝ} (h : ∀ i < 3, z i = 0) :
    (kPose (st m t) 0).mulM (wSum mb (st m t) [0] (fun c => z (0 + c))) = ⟨0, ⟨z 3, z 4, z 5⟩⟩ := by
  have h0 := h 0 (by norm_num)
  have h1 := h 1 (by norm_num)
  have h2 := h 2 (by norm_num)
  ext <;> simp [wSum, pathSum, mb, jdof, jpos, Finset.sum_range_succ, h0, h1, h2, kPose, kSub, st, unit6, unit6.units, PT.mulM, PT.inv,
    PT.ofTrans, M3.one, M3.mulVec, M3.transpose, V3.dot]

theorem rows (m : Path) (t : ℝ) (z : ℕ → ℝ) (a : ℕ) (ha : a < 6) (h : ∀ i < 3, z i = 0) :
    ∑ c ∈ range mb.nrDof, (env m t).H.get a c * z (0 + c) + (env m t).C.get a
      = pair (unit6 a) (⟨0, ⟨6 * z 3, 6 * z 4, 6 * (z 5 + 10)⟩⟩) := by
  rw [dynRow_eq (dyn m t) (fun i hi => by
    have : i = 0 := by simpa [bs] using hi
    subst this
    simp [inertiaAt, bs, mb]) (fun c => z (0 + c)) (a := a) (by simpa [mb, MultiBody.nrDof] using ha)]
  rw [show bs.length = 1 from rfl, Finset.sum_range_one, bcol m t a ha]
  congr 1
  unfold bodyForce
  rw [show (inertiaAt bs 0).b.path = [0] from rfl, acc_zero m t h]
  ext <;> simp [kPose, kVel, kAcc, st, PT.mulM, PT.ofTrans, M3.one, M3.mulVec, V3.dot, inertiaAt, bs,
      BodyI.mul, MV.crossDual, grav] <;> ring

theorem row_side (a : ℕ) (ha : a < 6) :
    contactTorque rk (env slide 0) side y a = pair (unit6 a) ⟨0, ⟨0, 0, 60⟩⟩ := by
  rw [contactRow_eq (contactsOn_at ((evolves slide 0).moves 0) (on slide 0 [side])) (s := side) (by simp) y (a := a)
    (by simpa [rk, mb, MultiBody.nrDof] using ha), show pathOf rk side.body = [0] from rfl, show rk.mb = mb from rfl,
    base_col (floats slide 0).base rfl (by simp) (by simp [mb]) ha]
  interval_cases a <;>
    simp [pair, unit6, unit6.units, side, Side.at, pathOf, rk, Side.force, combo, before, Finset.sum_range_succ, y, kPose,
      st, slide, PT.mulM, PT.inv, PT.mul, PT.ofTrans, PT.transMul, M3.one, M3.mul, M3.transpose, M3.mulVec, V3.dot, Out.val?] <;> norm_num

/-- Without acceleration and with the weight on the two points, every row of the equation of motion holds. -/
theorem balanced (a : ℕ) (ha : a < 6) : invDyn rk (env slide 0) 0 [side] y a = 0 := by
  unfold invDyn
  rw [List.map_cons, List.map_nil, List.sum_cons, List.sum_nil, row_side a ha, show rk.mb = mb from rfl,
    rows slide 0 y a ha (fun i hi => by simp [y]; omega)]
  simp [y, pair] <;> ring

/-- In free fall too. -/
def yf : ℕ → ℝ := fun i => if i = 5 then -10 else 0

theorem balanced_fall (t : ℝ) (a : ℕ) (ha : a < 6) : invDyn rk (env fall t) 0 [] yf a = 0 := by
  unfold invDyn
  rw [List.map_nil, List.sum_nil, show rk.mb = mb from rfl, rows fall t yf a ha (fun i hi => by simp [yf]; omega)]
  simp [yf, pair, V3.dot]

/-- A task whose minimiser is a given point. -/
noncomputable def toward (n : ℕ) (y : ℕ → ℝ) : TaskQC ℝ :=
  ⟨⟨n, n, fun i j => if i = j then 1 else 0⟩, ⟨n, fun i => -y i⟩, (0, 0), 1⟩

/-- The problem: a task and the two constraints. -/
noncomputable def problem (t : TaskQC ℝ) (s' : MotionConstr ℝ) (s1 : PositiveLambda ℝ) : QPInput ℝ :=
  ⟨[t], [], [], [s'.common.gen], [s1.bound]⟩

theorem problem_best (n : ℕ) (y : ℕ → ℝ) (s' : MotionConstr ℝ) (s1 : PositiveLambda ℝ) (z : ℕ → ℝ) :
    objective n (problem (toward n y) s' s1) y ≤ objective n (problem (toward n y) s' s1) z := by
  have hreg : ∀ i, ¬ Regularised n (problem (toward n y) s' s1) i := by
    rintro i ⟨hi, h⟩
    simp [accDiag, problem, toward, TaskQC.q, hi] at h
    norm_num at h
  have hobj : ∀ z, objective n (problem (toward n y) s' s1) z = (toward n y).obj z := by
    intro z
    unfold objective
    rw [Finset.sum_eq_zero fun i hi => ?_]
    · simp [problem]
    · simp only [mem_filter, mem_range] at hi
      exact absurd hi (hreg i)
  have htask : ∀ z, (toward n y).obj z = ∑ i ∈ range n, (z i ^ 2 / 2 - y i * z i) := by
    intro z
    simp only [TaskQC.obj, toward, one_mul, zero_add]
    rw [Finset.sum_sub_distrib, ← Finset.sum_div, sub_eq_add_neg, ← Finset.sum_neg_distrib]
    congr 1
    · congr 1
      refine Finset.sum_congr rfl fun i hi => ?_
      rw [Finset.sum_eq_single i (fun b _ hb => by simp [Ne.symm hb]) (fun h => absurd hi h)]
      simp; ring
    · exact Finset.sum_congr rfl fun i _ => by ring
  rw [hobj, hobj, htask, htask]
  exact Finset.sum_le_sum fun i _ => by nlinarith [sq_nonneg (z i - y i)]

theorem problem_sized {n : ℕ} (y : ℕ → ℝ) {s' : MotionConstr ℝ} {s1 : PositiveLambda ℝ} (h : s'.common.gen.Sized n)
    (h' : s1.bound.Sized n) : InputSized n (problem (toward n y) s' s1) := by
  refine ⟨?_, by simp [problem], by simp [problem], ?_, ?_⟩
  · intro t ht
    simp only [problem, List.mem_singleton] at ht
    subst ht
    simp [TaskQC.Sized, toward]
  · intro c hc
    simp only [problem, List.mem_singleton] at hc
    rw [hc]
    exact h
  · intro c hc
    simp only [problem, List.mem_singleton] at hc
    rw [hc]
    exact h'

/-- The weights constraint, fresh. -/
def pl : PositiveLambda ℝ := ⟨0, Vec.const 0 (.fin 0), Vec.const 0 .posInf, []⟩

/-- A step of the solver with the robot along a motion, and the result `z`. -/
theorem make (m : Path) (t : ℝ) {uni : List (UniContact ℝ)} {z : ℕ → ℝ} {n : ℕ}
    (hn : nrVariables [mb] uni [] = n)
    (hS : ∀ d1 deps, layout SolverData.init [mb] uni [] = .ok (d1, deps) → Setting rk 0 [mb] d1 ∧ NoSelf 0 d1 ∧
      ∀ a < 6, invDyn rk (env m t) 0 (sides 0 d1) z a = 0)
    (hz : ∀ i, 6 ≤ i → 0 ≤ z i) :
    ∃ d d1 deps inp s' x q1, SolvedMotion "QLD" [mb] uni [] rk 0 prm (env m t) d d1 inp s' x ∧ (∀ v, x.get v = z v) ∧
      layout SolverData.init [mb] uni [] = .ok (d1, deps) ∧ pl.updateNrVars d1 = .ok q1 ∧ q1.bound ∈ inp.bound := by
  have g : GoodInput [mb] ([] : List (BiContact ℝ)) := ⟨fun m h => MimicOK.named (mimicOK m h), by simp⟩
  obtain ⟨d1, deps, e, L⟩ := layout_ok SolverData.init [mb] uni [] g.1 g.2
  obtain ⟨S, N, hI⟩ := hS d1 deps e
  have h4 : d1.nrVars = n := by
    rw [← hn, L.nrVars, L.totalAlphaD, L.totalLambda, L.nrUniLambda, L.nrBiLambda]; rfl
  have hnd : rk.mb.nrDof = 6 := rfl
  have hfull : prm.Full rk.mb.nrDof := ⟨rfl, rfl⟩
  have E : EnvOK rk (env m t) := ⟨rfl, rfl, rfl⟩
  obtain ⟨⟨s, _, R⟩, hrun⟩ := C25_setup (rk := rk) (r := 0) (p := prm) (by simp [prm, rk, mb, MultiBody.nrDof])
    (by simp [prm, rk, mb, MultiBody.nrDof]) (by simp [prm]) (by simp [prm]) (fun _ => .negInf) []
  obtain ⟨c, _, R'⟩ := hrun _ _ _ s R _ d1 S
  obtain ⟨s', u1, u2, u3, u4, -⟩ := motion_lines hfull (by norm_num [prm]) R' S (env m t) E
  obtain ⟨d4, deps4, s1, e4, e4', p1, -, -⟩ := C24_weights_nonneg SolverData.init [mb] uni [] g pl
  rw [e] at e4
  cases e4
  have hgen : SatGen n s'.common.gen z := by
    rw [← h4, u4 z]
    intro i hi
    have h0 : invDyn rk (env m t) (aBegin [mb] 0) (lastSides 0 d1) z i = 0 := by
      rw [lastSides_eq_sides N]; exact hI i (hnd ▸ hi)
    rw [h0]
    obtain ⟨f1, f2⟩ := (floats m t).free i (hnd ▸ hi)
    refine ⟨?_, fun h => absurd h (lt_irrefl _)⟩
    simp only [TorqueParams.InLimits, f1, f2]
    simp
  have hbound : SatBound s1.bound z := by
    rw [p1 z]
    intro i hi _
    exact hz i (by simpa [mb, MultiBody.nrDof] using hi)
  have hz1 : s'.common.gen.Sized n := by
    have hz := motion_sized u1
    have u2' : s'.common.A.rows = 6 := u2
    have u3' : s'.common.A.cols = d1.nrVars := u3
    exact ⟨le_rfl, le_rfl, by rw [← h4]; exact u3'.ge, (u2'.trans hz.1.symm).le, (u2'.trans hz.2.symm).le⟩
  have hz2 : s1.bound.Sized n := by
    have hlen : d1.lambdaBegin.length = d1.allCont.length := by rw [L.lambdaBegin, L.allCont]; simp
    have := positiveLambda_ok d1 pl hlen (by
      intro c hc
      rw [L.allCont] at hc
      simp only [List.append_nil, List.mem_map] at hc
      obtain ⟨u, -, rfl⟩ := hc
      simp [BiContact.ofUni])
    rw [e4'] at this
    cases this
    have := L.nrVars
    simp only [BoundC.Sized, PositiveLambda.bound, SolverData.lambdaBegin0, Vec.const]
    omega
  obtain ⟨d, x, hx, -, ex⟩ := realiseIn (mbs := [mb]) (uni := uni) (bi := []) (mbcs := [mbc])
    (inp := problem (toward n z) s' s1) (y := z) mimicOK noMimic tree (by intro c hc; simp at hc) rfl shaped
    (by rw [hn]; exact problem_sized z hz1 hz2) (by simp [nrVariables, mb, MultiBody.nrDof]) (by simp [problem]) (by
      rw [hn]
      refine ⟨⟨by simp [problem], by simp [problem], fun c hc => ?_⟩, fun c hc => ?_⟩
      · simp only [problem, List.mem_singleton] at hc
        rw [hc]
        exact hgen
      · simp only [problem, List.mem_singleton] at hc
        rw [hc]
        exact hbound) (by
      rw [hn]
      exact fun w _ => problem_best n z s' s1 w)
  exact ⟨d, d1, deps, _, s', x, s1, ⟨hx, ⟨_, _, e⟩, hfull, by norm_num [prm], ⟨_, _, _, R', u1⟩, S, N, E, by simp [problem]⟩,
    ex, e, e4', by simp [problem]⟩

/-- Sliding on the two points. -/
theorem sliding : ∃ d d1 inp s' x q1, SolvedMotion "QLD" [mb] [foot] [] rk 0 prm (env slide 0) d d1 inp s' x ∧
    (∀ v, x.get v = y v) ∧ sides 0 d1 = [side] ∧ pl.updateNrVars d1 = .ok q1 ∧ q1.bound ∈ inp.bound := by
  have hgen := C19_generators (M3.one : M3 ℝ) PhysEx.ortho 1 0 1 (Or.inl rfl)
  have hnl : foot.nL = 2 := by simp [UniContact.nL, foot, UniContact.make, hgen.1]
  have hside : ∀ d1 deps, layout SolverData.init [mb] [foot] [] = .ok (d1, deps) →
      d1.allCont = [BiContact.ofUni foot] ∧ sides 0 d1 = [side] := by
    intro d1 deps e
    have g : GoodInput [mb] ([] : List (BiContact ℝ)) := ⟨fun m h => MimicOK.named (mimicOK m h), by simp⟩
    obtain ⟨d1', deps', e', L⟩ := layout_ok SolverData.init [mb] [foot] [] g.1 g.2
    rw [e] at e'
    cases e'
    have h1 : d1.allCont = [BiContact.ofUni foot] := by rw [L.allCont]; rfl
    refine ⟨h1, ?_⟩
    have h3 : d1.lambdaBegin = [6] := by rw [L.lambdaBegin, L.totalAlphaD]; rfl
    unfold sides
    rw [h1, h3]
    simp only [sidesOf, BiContact.ofUni, foot, UniContact.make, cone]
    simp [side]
  obtain ⟨d, d1, deps, inp, s', x, q1, S, ex, e, p1, p2⟩ := make slide 0 (uni := [foot]) (z := y) (n := 8)
    (by
      have : uniWeights foot = 2 := hnl
      simp [nrVariables, mb, MultiBody.nrDof, this]) (fun d1 deps e => by
      obtain ⟨h1, h2⟩ := hside d1 deps e
      refine ⟨⟨rfl, ⟨_, _, _, _, ⟨fun m h => MimicOK.named (mimicOK m h), by simp⟩, e⟩, ?_, ?_⟩, ?_, ?_⟩
      · intro c hc
        rw [h1] at hc
        obtain rfl : c = _ := by simpa using hc
        have e2 := (C19_generators (((PT.ofRot M3.one).mul (PT.one : PT ℝ).inv).E.neg) (by
          refine ⟨?_, ?_, ?_, ?_, ?_, ?_⟩ <;>
            norm_num [PT.ofRot, PT.mul, PT.inv, PT.one, M3.one, V3.dot, M3.neg, M3.mul, M3.transpose]) 1 0 (-1)
          (Or.inr rfl)).1
        refine ⟨by simp [BiContact.ofUni, foot, UniContact.make], by simp [BiContact.ofUni, foot, UniContact.make], ?_⟩
        simp [BiContact.ofUni, foot, UniContact.make, before, Finset.sum_range_succ, hgen.1, e2]
      · intro sd _
        exact ⟨[0], rfl, by simp, by simp, by simp [rk, mb]⟩
      · intro c hc
        rw [h1] at hc
        obtain rfl : c = _ := by simpa using hc
        simp [BiContact.ofUni, foot, UniContact.make]
      · intro a ha
        rw [h2]
        exact balanced a ha) (fun i _ => by unfold y; split <;> norm_num)
  exact ⟨d, d1, inp, s', x, q1, S, ex, (hside d1 deps e).2, p1, p2⟩

/-- Falling. -/
theorem falling (t : ℝ) : ∃ d d1 inp s' x, SolvedMotion "QLD" [mb] [] [] rk 0 prm (env fall t) d d1 inp s' x ∧
    ∀ v, x.get v = yf v := by
  obtain ⟨d, d1, deps, inp, s', x, q1, S, ex, -⟩ := make fall t (uni := []) (z := yf) (n := 6)
    (by simp [nrVariables, mb, MultiBody.nrDof]) (fun d1 deps e => by
      have g : GoodInput [mb] ([] : List (BiContact ℝ)) := ⟨fun m h => MimicOK.named (mimicOK m h), by simp⟩
      obtain ⟨d1', deps', e', L⟩ := layout_ok SolverData.init [mb] [] [] g.1 g.2
      rw [e] at e'
      cases e'
      have h1 : d1.allCont = [] := by rw [L.allCont]; rfl
      have h2 : sides 0 d1 = [] := by unfold sides; rw [h1]; simp
      refine ⟨⟨rfl, ⟨_, _, _, _, g, e⟩, by simp [h1], ?_⟩, ?_, ?_⟩
      · intro sd _
        exact ⟨[0], rfl, by simp, by simp, by simp [rk, mb]⟩
      · intro c hc
        simp [h1] at hc
      · intro a ha
        rw [h2]
        exact balanced_fall t a ha) (fun i hi => by unfold yf; rw [if_neg (by omega)])
  exact ⟨d, d1, inp, s', x, S, ex⟩

theorem mass : overParticles bs (fun _ => 6) (fun _ _ => (1 : ℝ)) = 6 := by
  simp [overParticles, bs]

/-- Every particle has the velocity of the puck. -/
theorem velocities (m : Path) : Velocities bs (st m) (fun _ => 6) pts (fun t _ _ => m.u t) := by
  intro t i hi k _
  have : i = 0 := by simpa [bs] using hi
  subst this
  refine (((HasD3.const (pts 0 k) t).add (m.vel t)).congr_fun fun τ => ?_).congr_deriv ?_
  · ext <;> simp [particleAt, st, kPose, PT.ofTrans, M3.one, M3.transpose, M3.mulVec, V3.dot] <;> ring
  · simp

/-- Its centre of mass is the origin of the body. -/
theorem centre (m : Path) (τ : ℝ) : overParticles bs (fun _ => 6) (fun _ _ => (1 : ℝ)) • m.p τ
    = overParticles bs (fun _ => 6) fun i k => (1 : ℝ) • particleAt (st m τ) i (pts i k) := by
  rw [mass]
  ext <;> simp [overParticles, bs, Finset.sum_range_succ, particleAt, st, kPose, PT.ofTrans, M3.one, M3.transpose, M3.mulVec,
    V3.dot, pts] <;> ring

/-- Non-vacuity of C97: the ground carries the weight, the momentum does not change. -/
example : HasD3 (fun τ => overParticles bs (fun _ => 6) fun _ _ => (1 : ℝ) • slide.u τ) 0 0 := by
  obtain ⟨d, d1, inp, s', x, q1, S, ex, hs, p1, p2⟩ := sliding
  have := (C97_newton_euler S (floats slide 0) (dyn slide 0) (on slide 0 _) (evolves slide)
    (fun c hc => by
      have : c < 6 := hc
      rw [ex]
      simp [ad, slide, y, aBegin]
      omega) particles (by rw [mass]; norm_num) (velocities slide) (centre slide)).1
  refine this.congr_deriv ?_
  rw [mass, hs]
  have hx : x.get = y := funext ex
  rw [hx]
  ext <;> simp [contactPairs, side, grav, Side.forceW, Side.force, combo, before, y, Finset.sum_range_succ, st, kPose, PT.ofTrans,
    Side.at, pathOf, rk, Out.val?, List.range_succ, M3.one, M3.mulVec, M3.transpose, V3.dot, slide]
  norm_num

/-- Non-vacuity of C97, flight: the momentum falls. -/
example : (overParticles bs (fun _ => 6) fun _ _ => (1 : ℝ) • fall.u 2)
    = (overParticles bs (fun _ => 6) fun _ _ => (1 : ℝ) • fall.u 0) - (2 * overParticles bs (fun _ => 6) fun _ _ => (1 : ℝ)) • grav := by
  choose d d1 inp s' x S ex using falling
  exact (C97_flight (T := 2) (by norm_num) (fun t _ _ => S t) (fun t _ _ => floats fall t) (fun t _ _ => dyn fall t)
    (evolves fall) (fun t _ _ c hc => by
      have : c < 6 := hc
      rw [ex]
      interval_cases c <;> simp [ad, fall, yf, aBegin]) particles (by rw [mass]; norm_num) (velocities fall) (centre fall)).2

/-- Non-vacuity of C98: the contact points carry a force along the vertical axis; a zero moment point. -/
example : ∃ P' L', HasD3 (fun τ => overParticles bs (fun _ => 6) fun _ _ => (1 : ℝ) • slide.u τ) P' 0 ∧
    HasD3 (fun τ => overParticles bs (fun _ => 6) fun i k => (1 : ℝ) • (particleAt (st slide τ) i (pts i k) - slide.p τ).cross (slide.u τ))
      L' 0 ∧ InCone ⟨0, 0, 1⟩ 0 (P' + (6 : ℝ) • grav) ∧
    ∃ z : V3 ℝ, ∃ w : ℕ → ℝ, 0 ≤ w 0 ∧ 0 ≤ w 1 ∧ w 0 + w 1 = 1 ∧ z = w 0 • ⟨1, 0, -1⟩ + w 1 • ⟨-1, 0, -1⟩ ∧
      (⟨0, 0, 1⟩ : V3 ℝ).cross (L' + (slide.p 0 - z).cross (P' + (6 : ℝ) • grav)) = 0 := by
  obtain ⟨d, d1, inp, s', x, q1, S, ex, hs, p1, p2⟩ := sliding
  have ha : ∀ c < rk.mb.nrDof, ad slide 0 c = x.get (aBegin [mb] 0 + c) := fun c hc => by
    have : c < 6 := hc
    rw [ex]
    simp [ad, slide, y, aBegin]
    omega
  have hgen : ∀ s ∈ sides 0 d1, ∀ j < s.points.length, ∀ gen ∈ (s.cones.getD j ⟨[]⟩).generators,
      (kPose (st slide 0) (Side.at rk s)).E.transpose.mulVec gen = ⟨0, 0, 1⟩ := by
    intro s h j hj gen hg
    rw [hs] at h
    obtain rfl : s = side := by simpa using h
    have hj2 : j < 2 := hj
    have : gen = ⟨0, 0, 1⟩ := by
      interval_cases j <;> simpa [side] using hg
    rw [this]
    ext <;> simp [st, kPose, PT.ofTrans, M3.one, M3.transpose, M3.mulVec, V3.dot, Side.at, pathOf, rk, Out.val?]
  have hpt : ∀ j < 2, Side.pointW rk (st slide 0) side j = side.points.getD j 0 := by
    intro j hj
    interval_cases j <;> ext <;> simp [side, Side.pointW, PT.mul, st, kPose, PT.ofTrans, M3.one, M3.transpose, M3.mulVec, V3.dot, Side.at, pathOf, rk, Out.val?, slide]
  obtain ⟨P1, h1, hc⟩ := C98_friction S (floats slide 0) (dyn slide 0) (on slide 0 _) (evolves slide) ha particles
    (by rw [mass]; norm_num) (velocities slide) p1 p2 (e := ⟨0, 0, 1⟩) (by norm_num [V3.dot]) (le_refl 0)
    (fun s h j hj gen hg => by
      rw [hgen s h j hj gen hg]
      refine ⟨by norm_num [V3.dot], ?_⟩
      rw [zero_mul, len]
      norm_num [tangential, V3.dot])
  obtain ⟨P', L', q1, q2, q3⟩ := C98_zmp S (floats slide 0) (dyn slide 0) (on slide 0 _) (evolves slide) ha particles
    (by rw [mass]; norm_num) (velocities slide) (centre slide) p1 p2 (e := ⟨0, 0, 1⟩) (ht := -1)
    (fun s h j hj gen hg => by rw [hgen s h j hj gen hg]; norm_num [V3.dot])
    (fun s h j hj => by
      rw [hs] at h
      obtain rfl : s = side := by simpa using h
      have hj2 : j < 2 := hj
      rw [hpt j hj2]
      interval_cases j <;> simp [side, V3.dot])
  obtain rfl : P1 = P' := HasD3.unique h1 q1
  rw [mass] at hc q3
  have hP : P1 = 0 := HasD3.unique h1 (HasD3.const (overParticles bs (fun _ => 6) fun _ _ => (1 : ℝ) • (⟨1, 0, 0⟩ : V3 ℝ)) 0)
  obtain ⟨z, w, w1, w2, w3, w4⟩ := q3 (by rw [hP]; norm_num [grav, V3.dot])
  have hl : (contactPairs rk (st slide 0) x.get (sides 0 d1)).length = 2 := by rw [hs]; rfl
  refine ⟨P1, L', q1, q2, hc, z, w, w1 0 (by omega), w1 1 (by omega), ?_, ?_, w4⟩
  · rw [← w2, hl]; simp [Finset.sum_range_succ]
  · rw [w3, hl, hs, Finset.sum_range_succ, Finset.sum_range_one]
    congr 2
    · exact hpt 0 (by norm_num)
    · exact hpt 1 (by norm_num)

/-- Non-vacuity of C99: the energy does not change, the forces are orthogonal to the velocities. -/
example : HasDerivAt (fun τ => (overParticles bs (fun _ => 6) fun _ _ => (1 : ℝ) * ((slide.u τ).dot (slide.u τ) / 2))
    + overParticles bs (fun _ => 6) fun i k => (1 : ℝ) * grav.dot (particleAt (st slide τ) i (pts i k))) 0 0 := by
  obtain ⟨d, d1, inp, s', x, q1, S, ex, hs, p1, p2⟩ := sliding
  have ha : ∀ c < rk.mb.nrDof, ad slide 0 c = x.get (aBegin [mb] 0 + c) := fun c hc => by
    have : c < 6 := hc
    rw [ex]
    simp [ad, slide, y, aBegin]
    omega
  obtain ⟨k, last, s, R, hu⟩ := S.constr
  obtain ⟨old, deps, e⟩ := S.data
  obtain ⟨aD', lam', τ', k1, k2, k3, k4⟩ := C76_torques S.solved e S.full S.step R S.setting S.noSelf S.envOK hu S.mem
  obtain ⟨aD, lam, τq, m1, m2, m3, h, -⟩ := C99_energy S (dyn slide 0) (on slide 0 _) (evolves slide) ha particles (velocities slide)
  refine h.congr_deriv ?_
  rw [k1] at m1
  cases m1
  rw [k2] at m2
  cases m2
  rw [k3] at m3
  cases m3
  rw [Finset.sum_eq_zero, hs, zero_add]
  · have hx : x.get = y := funext ex
    rw [hx]
    simp [side, Side.velW, Side.forceW, Side.force, combo, before, y, Finset.sum_range_succ, st, kPose, kVel, PT.ofTrans,
      Side.at, pathOf, rk, Out.val?, M3.one, M3.mulVec, M3.transpose, V3.dot, slide]
  · intro a ha
    have ha6 : a < 6 := mem_range.1 ha
    have := (k4 a (mem_range.1 ha)).2.1
    obtain ⟨f1, f2⟩ := (floats slide 0).free a ha6
    simp only [TorqueParams.InLimits, f1, f2] at this
    have h0 : τ'.curTorque.get a = 0 := le_antisymm (by simpa using this.2) (by simpa using this.1)
    rw [h0, zero_mul]

/-- Non-vacuity of the conservation part: the same motion, every dof is unactuated. -/
example : HasDerivAt (fun τ => (overParticles bs (fun _ => 6) fun _ _ => (1 : ℝ) * ((slide.u τ).dot (slide.u τ) / 2))
    + overParticles bs (fun _ => 6) fun i k => (1 : ℝ) * grav.dot (particleAt (st slide τ) i (pts i k))) 0 0 := by
  obtain ⟨d, d1, inp, s', x, q1, S, ex, hs, p1, p2⟩ := sliding
  have ha : ∀ c < rk.mb.nrDof, ad slide 0 c = x.get (aBegin [mb] 0 + c) := fun c hc => by
    have : c < 6 := hc
    rw [ex]
    simp [ad, slide, y, aBegin]
    omega
  have hE := C99_energy S (dyn slide 0) (on slide 0 _) (evolves slide) ha particles (velocities slide)
  obtain ⟨-, -, -, -, -, -, -, hpt⟩ := hE
  refine C99_conserved S (dyn slide 0) (on slide 0 _) (evolves slide) ha particles (velocities slide)
    (fun a ha => .inr ((floats slide 0).free a ha)) fun sd hsd j hj w hw => ?_
  rw [HasD3.unique hw (hpt sd hsd j hj)]
  rw [hs] at hsd
  obtain rfl : sd = side := by simpa using hsd
  have hx : x.get = y := funext ex
  rw [hx]
  have hj2 : j < 2 := hj
  interval_cases j <;>
    simp [side, Side.velW, Side.forceW, Side.force, combo, before, y, Finset.sum_range_succ, st, kPose, kVel, PT.ofTrans,
      Side.at, pathOf, rk, Out.val?, M3.one, M3.mulVec, M3.transpose, V3.dot, slide]

end DynEx

end Verif
