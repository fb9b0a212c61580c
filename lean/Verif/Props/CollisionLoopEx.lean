import Verif.Props.CollisionLoop
import Verif.Props.Rotation

/-! # C91: a ball on a slider, spinning in front of a fixed ball -/

set_option autoImplicit false
set_option linter.unusedSectionVars false

namespace Verif
namespace CollLoopEx

open Finset Spec
open RotEx (rotZ rotZ_rot)

/-- A slider along `x` carrying a joint about `z`. -/
def arm : MultiBody ℝ := { joints := [⟨"slide", 1, none⟩, ⟨"spin", 1, none⟩], nrBodies := 2, pred := [-1, 0], succ := [0, 1] }

/-- A robot without degree of freedom. -/
def ground : MultiBody ℝ := { joints := [⟨"root", 0, none⟩], nrBodies := 1, pred := [-1], succ := [0] }

def rbs : List (RobotBodies ℝ) := [⟨⟨arm, fun _ => .ok [0, 1]⟩, fun _ => .ok 1⟩, ⟨⟨ground, fun _ => .ok [0]⟩, fun _ => .ok 0⟩]

/-- Velocity of the ball in its own axes. -/
noncomputable def ballVel (ω : ℝ) (v : ℝ → ℝ) (τ : ℝ) : MV ℝ :=
  ⟨⟨0, 0, ω⟩, (rotZ (ω * τ)).mulVec ⟨v τ, 0, 0⟩⟩

/-- Robot 0 has the slider at `q` with velocity `v` and the ball spinning at `ω`; robot 1 does not move. -/
noncomputable def st (ω : ℝ) (q v : ℝ → ℝ) : ℕ → ℝ → KState ℝ := fun r τ =>
  if r = 0 then
    ⟨[PT.ofTrans ⟨q τ, 0, 0⟩, ⟨rotZ (ω * τ), ⟨q τ, 0, 0⟩⟩], [⟨0, ⟨v τ, 0, 0⟩⟩, ballVel ω v τ],
      [[⟨0, ⟨1, 0, 0⟩⟩], [⟨⟨0, 0, 1⟩, 0⟩]], [[v τ], [ω]], [0, (ballVel ω v τ).cross (ω • ⟨⟨0, 0, 1⟩, 0⟩)]⟩
  else ⟨[PT.one], [0], [[]], [[]], [0]⟩

theorem evolves {ω : ℝ} {q v acc : ℝ → ℝ} {t : ℝ} (hq : HasDerivAt q (v t) t) (hv : HasDerivAt v (acc t) t)
    {xd : ℕ → ℝ} (hx : ∀ c, xd c = if c = 0 then acc t else 0) :
    Evolves arm (st ω q v 0) [0, 1] (fun τ c => if c = 0 then v τ else ω) xd t := by
  have hang : HasDerivAt (fun τ => ω * τ) ω t := by simpa using (hasDerivAt_id t).const_mul ω
  have hc := (Real.hasDerivAt_cos (ω * t)).comp t hang
  have hs := (Real.hasDerivAt_sin (ω * t)).comp t hang
  have hrel : ∀ τ, ∃ P : PT ℝ, P.Rigid ∧ kPose (st ω q v 0 τ) 1 = P.mul (kPose (st ω q v 0 τ) 0) ∧
      P.mulM (kVel (st ω q v 0 τ) 0) = ⟨0, (rotZ (ω * τ)).mulVec ⟨v τ, 0, 0⟩⟩ := by
    intro τ
    refine ⟨⟨rotZ (ω * τ), 0⟩, rotZ_rot _, ?_, ?_⟩
    · ext <;> simp [kPose, st, PT.mul, PT.ofTrans, M3.mul, M3.one, M3.transpose, M3.mulVec, V3.dot]
    · ext <;> simp [kVel, st, PT.mulM, M3.mulVec, V3.dot]
  refine ⟨fun τ => ⟨⟨by simp, by simp, by simp [arm], by simp [st], by simp [st], by simp [st], ?_⟩,
    ?_, ?_⟩, fun τ i _ d => rfl, fun c => ?_, ?_, ?_⟩
  · simp [st, arm, jdof]
  · intro i hi
    simp at hi
    rcases hi with rfl | rfl
    · exact PT.rigid_ofTrans _
    · exact rotZ_rot _
  · refine ⟨?_, ?_, trivial⟩
    · ext <;> simp [kVel, kSub, st, arm, jdof, jpos]
    · obtain ⟨P, h1, h2, h3⟩ := hrel τ
      refine ⟨P, h1, h2, ?_⟩
      rw [h3]
      ext <;> simp [kVel, kSub, st, arm, jdof, jpos, ballVel]
  · rw [hx]
    by_cases h : c = 0
    · simpa [h] using hv
    · simpa [h] using hasDerivAt_const t ω
  · intro i hi
    simp at hi
    rcases hi with rfl | rfl
    · refine ⟨fun v => ((HasD3.const v t).congr_fun fun τ => M3.one_mulVec v).congr_deriv ?_,
        ⟨?_, ?_, ?_⟩⟩
      · ext <;> simp [kVel, st]
      · refine hq.congr_deriv ?_
        simp [kVel, kPose, st, PT.ofTrans, M3.transpose, M3.one, M3.mulVec, V3.dot]
      · refine (hasDerivAt_const t (0 : ℝ)).congr_deriv ?_
        simp [kVel, kPose, st, PT.ofTrans, M3.transpose, M3.one, M3.mulVec, V3.dot]
      · refine (hasDerivAt_const t (0 : ℝ)).congr_deriv ?_
        simp [kVel, kPose, st, PT.ofTrans, M3.transpose, M3.one, M3.mulVec, V3.dot]
    · have e : (rotZ (ω * t)).transpose.mulVec ((rotZ (ω * t)).mulVec ⟨v t, 0, 0⟩) = ⟨v t, 0, 0⟩ :=
        (rotZ_rot _).1.transpose_mulVec _
      refine ⟨fun u => ⟨?_, ?_, ?_⟩, ⟨?_, ?_, ?_⟩⟩
      · refine (((hc.mul_const u.x).add (hs.mul_const u.y)).congr_deriv ?_).congr_of_eventuallyEq ?_
        · simp [kVel, kPose, st, ballVel, rotZ, M3.mulVec, V3.dot]; ring
        · exact Filter.Eventually.of_forall fun τ => by simp [kPose, st, rotZ, M3.mulVec, V3.dot]
      · refine ((((hs.neg).mul_const u.x).add (hc.mul_const u.y)).congr_deriv ?_).congr_of_eventuallyEq ?_
        · simp [kVel, kPose, st, ballVel, rotZ, M3.mulVec, V3.dot]; ring
        · exact Filter.Eventually.of_forall fun τ => by simp [kPose, st, rotZ, M3.mulVec, V3.dot]
      · refine ((hasDerivAt_const t u.z).congr_deriv ?_).congr_of_eventuallyEq ?_
        · simp [kVel, kPose, st, ballVel, rotZ, M3.mulVec, V3.dot]
        · exact Filter.Eventually.of_forall fun τ => by simp [kPose, st, rotZ, M3.mulVec, V3.dot]
      · refine hq.congr_deriv ?_
        exact (congrArg V3.x e).symm
      · refine (hasDerivAt_const t (0 : ℝ)).congr_deriv ?_
        exact (congrArg V3.y e).symm
      · refine (hasDerivAt_const t (0 : ℝ)).congr_deriv ?_
        exact (congrArg V3.z e).symm
  · refine ⟨?_, ?_, trivial⟩
    · ext <;> simp [kVel, kSub, kAcc, st, arm, jdof, jpos, MV.cross]
    · obtain ⟨P, h1, h2, h3⟩ := hrel t
      refine ⟨P, h1, h2, ?_⟩
      ext <;> simp [kVel, kSub, kAcc, st, arm, jdof, jpos, MV.cross, PT.mulM, M3.mulVec, V3.dot]

/-! ## The constraint -/

noncomputable def getOk {α : Type} (d : α) : Out α → α
  | .ok a => a
  | _ => d

/-- What RBDyn computes for a robot. -/
noncomputable def kinOf (rb : RobotBodies ℝ) (st : KState ℝ) : PointKin ℝ :=
  ⟨st.bodyPosW,
   fun n p => getOk ⟨0, 0, fun _ _ => 0⟩ (rb.kin.path n >>= fun l => Jac.jacobian rb.kin.mb st ⟨l, p⟩),
   fun n p => (getOk 0 (rb.kin.path n >>= fun l => Jac.velocity st ⟨l, p⟩)).lin,
   fun n p => (getOk 0 (rb.kin.path n >>= fun l => Jac.normalAcc st ⟨l, p⟩)).lin⟩

/-- sch-core's answer for balls of radius 1. -/
noncomputable def closestBalls (P Q : SchPose ℝ) : ℝ × V3 ℝ × V3 ℝ :=
  let L := Real.sqrt ((P.t - Q.t).dot (P.t - Q.t))
  let n := (1 / L) • (P.t - Q.t)
  (if 0 ≤ L - 1 - 1 then (L - 1 - 1) * (L - 1 - 1) else -((L - 1 - 1) * (L - 1 - 1)),
    P.t - (1 : ℝ) • n, Q.t + (1 : ℝ) • n)

noncomputable def env (ω : ℝ) (q v : ℝ → ℝ) (t : ℝ) : CollEnv ℝ :=
  ⟨[kinOf ⟨⟨arm, fun _ => .ok [0, 1]⟩, fun _ => .ok 1⟩ (st ω q v 0 t),
    kinOf ⟨⟨ground, fun _ => .ok [0]⟩, fun _ => .ok 0⟩ (st ω q v 1 t)], fun _ P _ Q => closestBalls P Q, Real.sqrt, 1⟩

theorem balls (ω : ℝ) (q v : ℝ → ℝ) (t : ℝ) : Balls (env ω q v t) 1 2 1 1 := by
  refine ⟨fun _ => rfl, fun P Q L n hL hn e => ?_⟩
  have h : Real.sqrt ((P.t - Q.t).dot (P.t - Q.t)) = L := by
    rw [e, V3.smul_dot, V3.dot_smul, hn, mul_one, Real.sqrt_mul_self hL.le]
  have h2 : (1 / L) • (P.t - Q.t) = n := by
    rw [e, V3.smul_smul', one_div_mul_cancel hL.ne', V3.one_smul']
  show closestBalls P Q = _
  unfold closestBalls
  simp only [h, h2]

theorem robots_ok : RobotsOK rbs := by
  intro rb hrb name p hp
  simp only [rbs, List.mem_cons, List.not_mem_nil, or_false] at hrb
  rcases hrb with rfl | rfl
  · cases hp
    simp [arm]
  · cases hp
    simp [ground]

def data : SolverData ℝ := { (SolverData.init : SolverData ℝ) with
  alphaD := [2, 0], alphaDBegin := [0, 2], totalAlphaD := 2, nrVars := 2 }

theorem data_ok : Spec.DataOK rbs data := by
  refine ⟨le_rfl, ?_⟩
  intro i rb h
  match i, h with
  | 0, h => cases h; exact ⟨0, rfl, le_rfl⟩
  | 1, h => cases h; exact ⟨2, rfl, le_rfl⟩

theorem env_ok (ω : ℝ) (q v : ℝ → ℝ) (t : ℝ) : CollEnvOK rbs (env ω q v t) := by
  refine ⟨one_ne_zero, ?_⟩
  intro i rb h
  match i, h with
  | 0, h =>
    cases h
    exact ⟨_, rfl, fun _ _ e => by cases e; simp [kinOf, st], fun _ _ _ e => by cases e; exact ⟨rfl, rfl⟩⟩
  | 1, h =>
    cases h
    exact ⟨_, rfl, fun _ _ e => by cases e; simp [kinOf, st], fun _ _ _ e => by cases e; exact ⟨rfl, rfl⟩⟩

theorem kin_ok (ω : ℝ) (q v : ℝ → ℝ) (t : ℝ) (i : ℕ) (rb : RobotBodies ℝ) (r : PointKin ℝ) (h : rbs[i]? = some rb)
    (hr : (env ω q v t).robots[i]? = some r) : PointKinOf rb (st ω q v i t) r := by
  match i, h, hr with
  | 0, h, hr =>
    cases h
    cases hr
    refine ⟨rfl, fun name path hp p => ?_⟩
    cases hp
    exact ⟨_, _, rfl, rfl, rfl, rfl, rfl⟩
  | 1, h, hr =>
    cases h
    cases hr
    refine ⟨rfl, fun name path hp p => ?_⟩
    cases hp
    exact ⟨_, _, rfl, rfl, rfl, rfl, rfl⟩

/-- Interaction distance 2, security distance 1, damping 1/2. -/
noncomputable def args : CollArgs ℝ :=
  ⟨7, 0, "ball", 1, PT.one, 1, "obstacle", 2, PT.one, 2, 1, 1 / 2, 0, ⟨0, fun _ => 0⟩, ⟨0, fun _ => 0⟩⟩

def b1 : BodyColl ℝ := ⟨1, [0, 1], 0, PT.one, 0, 1, "ball", ⟨0, fun _ => 0⟩⟩

theorem entry : PairEntry rbs 1 b1 := by
  refine ⟨rfl, rfl, _, rfl, fun i _ => ?_⟩
  simp [selected, b1]

noncomputable def pair : CollData ℝ :=
  ⟨1, 2, 2 * 2, 0, 0, 0, 2, 1, 1 / 2, [b1], if (0 : ℝ) < 1 / 2 then .hard else .free, 0, 7⟩

theorem reach : ∃ s, CollReach rbs (1 / 2 : ℝ) s ∧ s.data = [pair] ∧
    s.A.rows = 1 ∧ s.totalAlphaD = some 2 ∧ s.nrVars = some 2 :=
  ⟨_, .updateNrVars _ _ data (.add _ _ args 0 (.make (fun _ _ => 0) _ rfl)
    (by norm_num [args]) rfl) data_ok rfl, rfl, rfl, rfl, rfl⟩

/-- The pair up to what an update changes; `n₀` is the stored normal. -/
structure IsPair (n₀ : V3 ℝ) (d : CollData ℝ) : Prop where
  hull1 : d.hull1 = 1
  hull2 : d.hull2 = 2
  di : d.di = 2
  ds : d.ds = 1
  damping : d.damping = 1 / 2
  dtype : d.dtype = .hard
  normal : d.normal = n₀
  bodies : d.bodies.map unpointed = [unpointed b1]

/-- A state of the constraint between two updates. -/
structure IsState (n₀ : V3 ℝ) (s : Coll ℝ) : Prop where
  reach : CollReach rbs (1 / 2 : ℝ) s
  rows : s.A.rows = 1
  tot : s.totalAlphaD = some 2
  vars : s.nrVars = some 2
  pair : ∃ d, s.data = [d] ∧ IsPair n₀ d

theorem start : ∃ s, IsState 0 s := by
  obtain ⟨s, h1, h2, h3, h4, h5⟩ := reach
  exact ⟨s, h1, h3, h4, h5, pair, h2, rfl, rfl, rfl, rfl, rfl, if_pos (by norm_num), rfl, rfl⟩

theorem unpointed_withPoint (e : CollEnv ℝ) (p : V3 ℝ) (b : BodyColl ℝ) : unpointed (withPoint e p b) = unpointed b := by
  unfold withPoint
  split
  · split <;> rfl
  · rfl

noncomputable def poses0 : ℕ → SchPose ℝ := fun _ => ⟨M3.one, 0⟩

theorem vel_eq (ω : ℝ) (q v : ℝ → ℝ) (τ : ℝ) :
    entryVel (st ω q v) b1 τ - (Other.fixed 0).vel (st ω q v) τ = ⟨v τ, 0, 0⟩ := by
  have e : (rotZ (ω * τ)).transpose.mulVec ((rotZ (ω * τ)).mulVec ⟨v τ, 0, 0⟩) = ⟨v τ, 0, 0⟩ :=
    (rotZ_rot _).1.transpose_mulVec _
  have e2 : entryVel (st ω q v) b1 τ = (rotZ (ω * τ)).transpose.mulVec ((rotZ (ω * τ)).mulVec ⟨v τ, 0, 0⟩) := by
    ext <;> simp [entryVel, ptVel, b1, kPose, kVel, st, ballVel, PT.one, PT.mul, PT.ofTrans, PT.ofRot, PT.mulM,
      M3.mul, M3.one, M3.transpose, M3.mulVec, V3.dot]
  rw [e2, e]
  ext <;> simp [Other.vel]

theorem ang_eq (ω : ℝ) (q v : ℝ → ℝ) (τ : ℝ) : entryAng (st ω q v) b1 τ = ⟨0, 0, ω⟩ := by
  ext <;> simp [entryAng, angVel, b1, kPose, kVel, st, ballVel, rotZ, M3.transpose, M3.mulVec, V3.dot]

theorem other_ang (ω : ℝ) (q v : ℝ → ℝ) (τ : ℝ) : (Other.fixed 0).ang (st ω q v) τ = 0 := rfl

theorem pos_eq (ω : ℝ) (q v : ℝ → ℝ) (τ : ℝ) :
    entryPos (st ω q v) b1 τ - (Other.fixed 0).pos (st ω q v) τ = q τ • (⟨1, 0, 0⟩ : V3 ℝ) := by
  ext <;> simp [entryPos, ptPos, Other.pos, b1, kPose, st, PT.one, PT.mul, PT.ofTrans, M3.transpose, M3.mulVec, V3.dot]

/-- One update. -/
theorem step {ω : ℝ} {q v acc : ℝ → ℝ} {t : ℝ} (hq : HasDerivAt q (v t) t) (hv : HasDerivAt v (acc t) t)
    (hpos : 2 < q t) {n₀ : V3 ℝ} {s : Coll ℝ} (S : IsState n₀ s) :
    ∃ s' poses', CollAt rbs (1 / 2) (st ω q v) 1 2 1 1 2 1 (1 / 2) b1 (.fixed 0) n₀ 0 data s s' (env ω q v t) poses0
      poses' t ∧ IsState ⟨1, 0, 0⟩ s' ∧ s.A.cols = 2 ∧ s'.inEq.Sized 2 ∧
      ∀ y : ℕ → ℝ, (∀ i, y i = if i = 0 then acc t else 0) → n₀ = ⟨1, 0, 0⟩ →
        -(1 / 2 * (q t - 3)) ≤ v t + 1 / 2 * (acc t + ω ^ 2) → SatInEq 2 s'.inEq y := by
  obtain ⟨d₀, hdata, P⟩ := S.pair
  have h0 : s.data[0]? = some d₀ := by rw [hdata]; rfl
  have hlen : s.data.length ≤ s.A.rows := by rw [hdata, S.rows]; rfl
  have W := collWF robots_ok (by norm_num) S.reach
  obtain ⟨⟨s', poses'⟩, e, I⟩ := coll_update (W.ready (by norm_num) robots_ok data_ok (env_ok ω q v t) S.tot hlen) poses0
  obtain ⟨s'', poses'', e2, hn, hx⟩ := C33_update robots_ok (by norm_num) S.reach data_ok (env_ok ω q v t) S.tot hlen poses0
  rw [e] at e2
  cases e2
  have hcols : s.A.cols = 2 := by
    rcases W.alloc with ⟨k, -⟩ | ⟨tot, n, k1, k2, -, k4, -⟩
    · rw [S.tot] at k; cases k
    · rw [S.vars] at k2; cases k2; exact k4
  have hfix : (posesAt (env ω q v t) s.data poses0 1 2).t = 0 := by
    obtain ⟨b', e1, e2⟩ := List.map_eq_singleton_iff.mp P.bodies
    rw [posesAt_succ _ _ _ 0 d₀ h0, e1, unpointed_eq e2]
    rfl
  have hA : CollAt rbs (1 / 2) (st ω q v) 1 2 1 1 2 1 (1 / 2) b1 (.fixed 0) n₀ 0 data s s' (env ω q v t) poses0 poses' t :=
    ⟨⟨S.reach, env_ok ω q v t, S.tot, S.vars, hlen⟩,
      ⟨d₀, h0, P.hull1, P.hull2, P.di, P.ds, P.damping, P.dtype, P.normal, P.bodies⟩,
      ⟨balls ω q v t, fun Q hQ => by cases hQ; exact hfix⟩, kin_ok ω q v t, e⟩
  have hev : ∀ y : ℕ → ℝ, (∀ i, y i = if i = 0 then acc t else 0) → ∀ b ∈ b1 :: (Other.fixed 0).bodies, ∀ rb a,
      rbs[b.rIndex]? = some rb → data.alphaDBegin[b.rIndex]? = some a →
      Evolves rb.kin.mb (st ω q v b.rIndex) b.path (fun τ c => if c = 0 then v τ else ω) (fun i => y (a + i)) t := by
    intro y hy b hb rb a hrb ha
    obtain rfl : b = b1 := by simpa [Other.bodies] using hb
    cases hrb
    cases ha
    exact evolves hq hv (xd := fun i => y (0 + i)) fun c => by rw [zero_add]; exact hy c
  have hC := pos_eq ω q v t
  have hnn : (⟨1, 0, 0⟩ : V3 ℝ).dot ⟨1, 0, 0⟩ = 1 := by simp [V3.dot]
  have key : ∀ y : ℕ → ℝ, (∀ i, y i = if i = 0 then acc t else 0) → _ := fun y hy =>
    ball_pair (by norm_num) (by decide) entry (fun b hb => by cases hb) robots_ok data_ok hA
      (x := fun _ τ c => if c = 0 then v τ else ω) (hev y hy)
  have key2 := fun y hy => (key y hy).2.choose_spec.2 (q t) ⟨1, 0, 0⟩ (by linarith) hnn hC (by linarith)
  obtain ⟨d, hd, gd, gdi, gds, gc, gh, gn, -⟩ := key2 (fun i => if i = 0 then acc t else 0) fun _ => rfl
  have hs' : s'.data = [d] := by
    have hl := I.len
    rw [hdata] at hl
    obtain ⟨e', he'⟩ := List.length_eq_one_iff.mp hl
    rw [he'] at hd
    simp at hd
    rw [he', hd]
  have hbodies : d.bodies.map unpointed = [unpointed b1] := by
    obtain ⟨d', hd', G, -⟩ := C33_geometry robots_ok (by norm_num) S.reach data_ok (env_ok ω q v t) S.tot hlen e h0
    rw [hd] at hd'
    cases hd'
    obtain ⟨b', e1, e2⟩ := List.map_eq_singleton_iff.mp P.bodies
    rw [G.bodies, e1]
    simp only [withPoints, List.map_nil, List.map_cons]
    rw [unpointed_withPoint, e2]
  have hkeys : d.hull1 = 1 ∧ d.hull2 = 2 := by
    obtain ⟨d', hd', G, -⟩ := C33_geometry robots_ok (by norm_num) S.reach data_ok (env_ok ω q v t) S.tot hlen e h0
    rw [hd] at hd'
    cases hd'
    exact ⟨G.hull1.trans P.hull1, G.hull2.trans P.hull2⟩
  have hS' : IsState ⟨1, 0, 0⟩ s' :=
    ⟨.update _ _ _ _ _ _ S.reach data_ok (env_ok ω q v t) S.tot hlen e, I.Arows.trans S.rows, I.htot,
      I.nrVars.trans S.vars, d, hs', hkeys.1, hkeys.2, gdi, gds, gc, gh, gn, hbodies⟩
  refine ⟨s', poses', hA, hS', hcols, ?_, ?_⟩
  · have hc := C34_counts e
    refine ⟨hc.2.1, ?_, ?_, ?_⟩
    · show _ ≤ s'.A.rows
      rw [I.Arows]
      exact hc.2.2
    · show 2 ≤ s'.A.cols
      rw [I.Acols, hcols]
    · show _ ≤ s'.b.size
      rw [I.bsize, W.bsize]
      exact hc.2.2
  · intro y hy hn₀ hrow
    rw [← hcols, hx]
    intro j e₀ d' h1 h2 hact
    rw [hdata] at h1
    rw [hs'] at h2
    match j, h1, h2 with
    | 0, h1, h2 =>
      cases h1
      cases h2
      obtain ⟨k1, a, k2, k3⟩ := key y hy
      obtain ⟨d', hd', -, -, -, -, -, -, hrate⟩ := k3 (q t) ⟨1, 0, 0⟩ (by linarith) hnn hC (by linarith)
      rw [hd] at hd'
      cases hd'
      have ha : a.x = acc t := by
        have hvx : HasDerivAt (fun τ => v τ) a.x t := by
          refine k2.1.congr_of_eventuallyEq (Filter.Eventually.of_forall fun τ => ?_)
          show v τ = (entryVel (st ω q v) b1 τ - (Other.fixed 0).vel (st ω q v) τ).x
          rw [vel_eq]
        exact hvx.unique hv
      unfold DamperOK
      rw [P.normal, hrate, gd, gdi, gds, gc, hn₀, vel_eq, ang_eq, other_ang]
      simp [V3.dot, V3.cross, ha]
      nlinarith
    | j + 1, h1, h2 => simp at h2

/-- The task wants the acceleration `a` of the slider and no change of the spin. -/
def want (a : ℝ) : TaskQC ℝ := ⟨Mat.ofRows 2 [[1, 0], [0, 1]], Vec.ofList [-a, 0], (0, 0), 1⟩

/-- A successful step with that task, when the constraints allow it. -/
theorem solve {a : ℝ} {ie : List (InEqC ℝ)} (h1 : ∀ c ∈ ie, c.Sized 2)
    (hy : ∀ c ∈ ie, SatInEq 2 c fun i => if i = 0 then a else 0) :
    ∃ x, Solved "QLD" (bodiesOf rbs) 2 ⟨[want a], [], ie, [], []⟩ x ∧ ∀ i, x.get i = if i = 0 then a else 0 := by
  have hno : ∀ m ∈ bodiesOf rbs, NoMimic m := by
    intro m hm j hj
    simp only [bodiesOf, rbs, List.map_cons, List.map_nil, List.mem_cons, List.not_mem_nil, or_false] at hm
    rcases hm with rfl | rfl <;> simp only [arm, ground, List.mem_cons, List.not_mem_nil, or_false] at hj
    · rcases hj with rfl | rfl <;> rfl
    · subst hj; rfl
  have hok : ∀ m ∈ bodiesOf rbs, MimicOK m := by
    intro m hm
    refine ⟨?_, fun j hj l q h => by rw [hno m hm j hj] at h; cases h⟩
    simp only [bodiesOf, rbs, List.map_cons, List.map_nil, List.mem_cons, List.not_mem_nil, or_false] at hm
    rcases hm with rfl | rfl <;> simp [arm, ground]
  have hobj : ∀ z : ℕ → ℝ, objective 2 ⟨[want a], [], ie, [], []⟩ z = ((z 0 - a) ^ 2 - a ^ 2) / 2 + z 1 ^ 2 / 2 := by
    intro z
    unfold objective
    rw [Finset.sum_eq_zero fun i hi => ?_]
    · simp only [TaskQC.obj, want, Mat.ofRows, Vec.ofList, List.map_cons, List.map_nil, List.sum_cons, List.sum_nil,
        List.length_cons, List.length_nil, Finset.sum_range_succ, Finset.sum_range_zero, List.getD_cons_zero,
        List.getD_cons_succ]
      simp
      ring
    · simp only [mem_filter, mem_range] at hi
      have h0 : i = 0 ∨ i = 1 := by omega
      have := hi.2
      rcases h0 with rfl | rfl <;> simp [accDiag, TaskQC.q, want, Mat.ofRows] at this <;> norm_num at this
  refine realise (mbs := bodiesOf rbs) (uni := []) (bi := [])
    (mbcs := [⟨[[0], [0]], [PT.one, PT.one], [0, 0], [0, 0], ()⟩, ⟨[[]], [PT.one], [0], [0], ()⟩])
    (inp := ⟨[want a], [], ie, [], []⟩) hok hno ?_
    (by intro c hc; simp at hc) rfl ?_ ⟨?_, by simp, h1, by simp, by simp⟩ Nat.two_pos (by simp)
    (by refine ⟨⟨?_, ?_, ?_⟩, ?_⟩ <;> first | exact hy | (intro c hc; simp at hc)) (fun z hz => ?_)
  · intro m hm hpos
    simp only [bodiesOf, rbs, List.map_cons, List.map_nil, List.mem_cons, List.not_mem_nil, or_false] at hm
    rcases hm with rfl | rfl
    · refine ⟨rfl, rfl, rfl, ?_⟩
      intro i p h
      match i with
      | 0 => simp [arm] at h; exact Or.inl h.symm
      | 1 => simp [arm] at h; exact Or.inr ⟨0, by decide, h.symm⟩
      | k + 2 => simp [arm] at h
    · simp [ground, MultiBody.nrDof] at hpos
  · intro r m mc hr hmm
    match r, hr, hmm with
    | 0, hr, hmm => cases hr; cases hmm; exact ⟨rfl, fun _ => ⟨rfl, rfl, rfl⟩⟩
    | 1, hr, hmm => cases hr; cases hmm; exact ⟨rfl, fun _ => ⟨rfl, rfl, rfl⟩⟩
  · intro t ht
    simp only [List.mem_singleton] at ht
    subst ht
    show TaskQC.Sized 2 _
    simp [TaskQC.Sized, want, Mat.ofRows, Vec.ofList]
  · have e : nrVariables (bodiesOf rbs) ([] : List (UniContact ℝ)) [] = 2 := rfl
    rw [e, hobj, hobj]
    simp only [if_true, if_neg (one_ne_zero (α := ℕ))]
    nlinarith [sq_nonneg (z 0 - a), sq_nonneg (z 1)]

/-- Every motion the row allows is a closed loop, with an exact numerical solver. -/
theorem loop {ω : ℝ} {q v acc : ℝ → ℝ} (hq : ∀ t, 0 ≤ t → HasDerivAt q (v t) t)
    (hv : ∀ t, 0 ≤ t → HasDerivAt v (acc t) t) (hpos : ∀ t, 0 ≤ t → 2 < q t)
    (hrow : ∀ t, 0 ≤ t → -(1 / 2 * (q t - 3)) ≤ v t + 1 / 2 * (acc t + ω ^ 2)) :
    CollLoop rbs (1 / 2) 0 0 (st ω q v) 1 2 1 1 2 1 (1 / 2) b1 (.fixed 0) fun _ => ⟨1, 0, 0⟩ := by
  have main : ∀ t, ∃ s s' poses' inp y, 0 ≤ t →
      CollAt rbs (1 / 2) (st ω q v) 1 2 1 1 2 1 (1 / 2) b1 (.fixed 0) ⟨1, 0, 0⟩ 0 data s s' (env ω q v t) poses0
      poses' t ∧ SolvedNear (0 : ℝ) 0 "QLD" (bodiesOf rbs) 2 inp y ∧ s'.inEq ∈ inp.inEq ∧
      ∀ i, y.get i = if i = 0 then acc t else 0 := by
    intro t
    obtain ⟨s₀, S₀⟩ := start
    by_cases ht : 0 ≤ t
    · obtain ⟨s, -, -, S, -⟩ := step (ω := ω) (hq t ht) (hv t ht) (hpos t ht) S₀
      obtain ⟨s', poses', hA, -, -, hz, hsat⟩ := step (ω := ω) (hq t ht) (hv t ht) (hpos t ht) S
      obtain ⟨y, hy, hget⟩ := solve (a := acc t) (ie := [s'.inEq])
        (fun c hc => by rw [List.mem_singleton.mp hc]; exact hz)
        (fun c hc => by rw [List.mem_singleton.mp hc]; exact hsat _ (fun _ => rfl) rfl (hrow t ht))
      exact ⟨s, s', poses', _, y, fun _ => ⟨hA, hy.near le_rfl le_rfl, by simp, hget⟩⟩
    · exact ⟨s₀, s₀, poses0, ⟨[], [], [], [], []⟩, ⟨0, fun _ => 0⟩, fun h => absurd h ht⟩
  choose s s' poses' inp y h using main
  refine ⟨0, data, "QLD", s, s', env ω q v, fun _ => poses0, poses', inp, y, fun _ τ c => if c = 0 then v τ else ω,
    robots_ok, data_ok, fun t ht => ?_⟩
  obtain ⟨k1, k2, k3, k4⟩ := h t ht
  refine ⟨k1, k2, k3, ?_⟩
  intro b hb rb a hrb ha
  obtain rfl : b = b1 := by simpa [Other.bodies] using hb
  cases hrb
  cases ha
  exact evolves (hq t ht) (hv t ht) fun c => by rw [zero_add]; exact k4 c

/-- **C91 (counterexample).**  The numerical solver is exact, the balls have radius 1, the security distance is 1, the
interaction distance 2, and the damping is such that a rate of 1 is allowed.  The ball spins about its centre at one
radian per second; the line of the centres does not turn.  The distance starts at `4/3`, approaching at `1/3`, which is
what the damper allows, and it goes below any positive value. -/
theorem C91_spin_counterexample : ∃ (q v : ℝ → ℝ) (D : ℝ → ℝ),
    CollLoop rbs (1 / 2) 0 0 (st 1 q v) 1 2 1 1 2 1 (1 / 2) b1 (.fixed 0) (fun _ => ⟨1, 0, 0⟩) ∧
    (∀ t, 0 ≤ D t + 1 + 1 ∧ (D t + 1 + 1) * (D t + 1 + 1) = (entryPos (st 1 q v) b1 t - (Other.fixed 0).pos (st 1 q v) t).dot
      (entryPos (st 1 q v) b1 t - (Other.fixed 0).pos (st 1 q v) t)) ∧
    (∀ t, HasDerivAt D (v t) t) ∧ (1 / 2 : ℝ) = 1 * (1 - 1 * (1 / 2)) * (2 - 1) ∧
    1 < D 0 ∧ -(1 * (D 0 - 1)) ≤ v 0 ∧ (∀ t, 0 ≤ t → D t < 2) ∧ ∀ η > 0, ∃ t, 0 ≤ t ∧ D t < η := by
  have hD : ∀ (k : ℝ) t, HasDerivAt (fun τ => k * Real.exp (-(τ / 4))) (k * (Real.exp (-(t / 4)) * -(1 / 4))) t :=
    fun k t => (((hasDerivAt_id t).div_const 4).neg.exp).const_mul k
  have hq : ∀ t, HasDerivAt (fun τ => 2 + 4 / 3 * Real.exp (-(τ / 4))) (-(1 / 3) * Real.exp (-(t / 4))) t := fun t =>
    ((hD (4 / 3) t).const_add 2).congr_deriv (by ring)
  have hv : ∀ t, HasDerivAt (fun τ => -(1 / 3) * Real.exp (-(τ / 4))) (1 / 12 * Real.exp (-(t / 4))) t := fun t =>
    (hD (-(1 / 3)) t).congr_deriv (by ring)
  have he : ∀ t : ℝ, 0 ≤ t → Real.exp (-(t / 4)) ≤ 1 := fun t ht => Real.exp_le_one_iff.mpr (by linarith)
  refine ⟨fun τ => 2 + 4 / 3 * Real.exp (-(τ / 4)), fun τ => -(1 / 3) * Real.exp (-(τ / 4)),
    fun τ => 4 / 3 * Real.exp (-(τ / 4)),
    loop (acc := fun τ => 1 / 12 * Real.exp (-(τ / 4))) (fun t _ => hq t) (fun t _ => hv t)
      (fun t _ => by have := Real.exp_pos (-(t / 4)); linarith)
      (fun t ht => by have := Real.exp_pos (-(t / 4)); linarith), fun t => ?_,
    fun t => (hD (4 / 3) t).congr_deriv (by ring), by norm_num, by simp; norm_num, by simp; norm_num,
    fun t ht => by have := he t ht; dsimp only; linarith, fun η hη => ?_⟩
  · have := Real.exp_pos (-(t / 4))
    refine ⟨by dsimp only; linarith, ?_⟩
    rw [pos_eq]
    simp [V3.dot]
    ring
  · refine ⟨4 * (2 / η), by positivity, ?_⟩
    have h1 : 2 / η < Real.exp (2 / η) := lt_of_lt_of_le (lt_add_one _) (Real.add_one_le_exp _)
    have h2 : 0 < Real.exp (2 / η) := Real.exp_pos _
    show 4 / 3 * Real.exp (-(4 * (2 / η) / 4)) < η
    rw [mul_div_cancel_left₀ _ (by norm_num : (4 : ℝ) ≠ 0), Real.exp_neg]
    rw [div_lt_iff₀ hη] at h1
    rw [← div_eq_mul_inv, div_lt_iff₀ h2]
    linarith

/-- The hypotheses of C91 are met: without spin and at the same damping, the distance stays above the security
distance; `D = 1 + exp (-t) / 2`.  With the spin `1/2` the guaranteed distance is `3/4`. -/
example : ∃ (q v : ℝ → ℝ) (D : ℝ → ℝ), ∀ ω, 0 ≤ ω → ω ≤ 1 / 2 →
    CollLoop rbs (1 / 2) 0 0 (st ω q v) 1 2 1 1 2 1 (1 / 2) b1 (.fixed 0) (fun _ => ⟨1, 0, 0⟩) ∧
    ∀ t, 0 ≤ t → 1 - ω ^ 2 ≤ D t := by
  have hD : ∀ (k : ℝ) t, HasDerivAt (fun τ => k * Real.exp (-τ)) (k * (Real.exp (-t) * -1)) t :=
    fun k t => ((hasDerivAt_id t).neg.exp).const_mul k
  have hq : ∀ t, HasDerivAt (fun τ => 3 + 1 / 2 * Real.exp (-τ)) (-(1 / 2) * Real.exp (-t)) t := fun t =>
    ((hD (1 / 2) t).const_add 3).congr_deriv (by ring)
  have hv : ∀ t, HasDerivAt (fun τ => -(1 / 2) * Real.exp (-τ)) (1 / 2 * Real.exp (-t)) t := fun t =>
    (hD (-(1 / 2)) t).congr_deriv (by ring)
  refine ⟨fun τ => 3 + 1 / 2 * Real.exp (-τ), fun τ => -(1 / 2) * Real.exp (-τ), fun τ => 1 + 1 / 2 * Real.exp (-τ),
    fun ω h0 h1 => ?_⟩
  have hL := loop (ω := ω) (acc := fun τ => 1 / 2 * Real.exp (-τ)) (fun t _ => hq t) (fun t _ => hv t)
      (fun t _ => by have := Real.exp_pos (-t); linarith)
      (fun t ht => by have := Real.exp_pos (-t); have := sq_nonneg ω; linarith)
  refine ⟨hL, fun t ht => ?_⟩
  have hω : ω ^ 2 < 1 := by nlinarith
  have hp : ∀ t : ℝ, (1 : ℝ) + 1 / 2 * Real.exp (-t) + 1 + 1 = 3 + 1 / 2 * Real.exp (-t) := fun t => by ring
  have key := C91_distance_partial (by norm_num) (by decide) entry (fun b hb => by cases hb) hL zero_le_one zero_le_one
    (D := fun τ => 1 + 1 / 2 * Real.exp (-τ)) (rate := fun τ => -(1 / 2) * Real.exp (-τ)) (nrm := fun _ => ⟨1, 0, 0⟩)
    (nrm' := fun _ => 0) (r := 1) (μ := ω ^ 2) (fun t => ?_) (fun t _ _ => ((hD (1 / 2) t).const_add 1).congr_deriv (by ring))
    (fun t => ?_) (fun t _ _ => HasD3.const _ t) le_rfl (sq_nonneg ω) (by norm_num) (by norm_num) zero_le_one (by norm_num)
    (by linarith) (fun t _ _ _ => ?_) ?_ ?_ (fun t ht h => ?_) t ht
  · have := key.1
    dsimp only at this ⊢
    linarith
  · have := Real.exp_pos (-t)
    refine ⟨by linarith, ?_⟩
    rw [pos_eq]
    simp [V3.dot]
    ring
  · have := Real.exp_pos (-t)
    rw [pos_eq]
    rw [hp, V3.smul_smul', one_div_mul_cancel (by linarith), V3.one_smul']
  · rw [vel_eq, ang_eq, other_ang]
    unfold ballError
    simp [V3.dot, V3.cross]
    nlinarith
  · simp
  · simp
  · have : Real.exp (-t) ≤ 1 := Real.exp_le_one_iff.mpr (by linarith)
    linarith

end CollLoopEx
end Verif
