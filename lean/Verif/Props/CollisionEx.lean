import Verif.Props.Collision

/-!
# C33, C34, C35, C57: concrete cases and counterexamples (collisions)
-/

set_option autoImplicit false

namespace Verif
namespace CollEx

open Finset Spec

/-- A body on a slider along the x axis. -/
def slider : RobotBodies ℚ := ⟨⟨⟨[⟨"slide", 1, none⟩], 1, [-1], [0]⟩, fun _ => .ok [0]⟩, fun _ => .ok 0⟩

/-- A robot that cannot move. -/
def ground : RobotBodies ℚ := ⟨⟨⟨[⟨"root", 0, none⟩], 1, [-1], [0]⟩, fun _ => .ok [0]⟩, fun _ => .ok 0⟩

/-- Kinematics of the slider at position `p` with velocity `v`. -/
def sliderAt (p v : ℚ) : PointKin ℚ :=
  ⟨[⟨M3.one, ⟨p, 0, 0⟩⟩], fun _ _ => ⟨6, 1, fun i _ => if i = 3 then 1 else 0⟩,
   fun _ _ => ⟨v, 0, 0⟩, fun _ _ => 0⟩

/-- Kinematics of the immobile robot. -/
def groundAt : PointKin ℚ :=
  ⟨[⟨M3.one, 0⟩], fun _ _ => ⟨6, 0, fun _ _ => 0⟩, fun _ _ => 0, fun _ _ => 0⟩

open Classical in
/-- The square root of a rational square. -/
noncomputable def qsqrt (y : ℚ) : ℚ := if h : ∃ r, 0 ≤ r ∧ r * r = y then h.choose else 0

theorem qsqrt_sq (r : ℚ) (hr : 0 ≤ r) : qsqrt (r * r) = r := by
  have h : ∃ q, 0 ≤ q ∧ q * q = r * r := ⟨r, hr, rfl⟩
  unfold qsqrt
  rw [dif_pos h]
  exact (mul_self_inj h.choose_spec.1 hr).mp h.choose_spec.2

/-- Hulls reduced to points. -/
noncomputable def pointEnv (l : List (PointKin ℚ)) : CollEnv ℚ :=
  ⟨l, fun _ P _ Q => ((P.t - Q.t).sqNorm, P.t, Q.t), qsqrt, 1 / 1000⟩

/-- Interaction distance 2, security distance 1/2, damping 3/2. -/
def args (r1 r2 : ℕ) : CollArgs ℚ :=
  ⟨7, r1, "b", 1, ⟨M3.one, 0⟩, r2, "b", 2, ⟨M3.one, 0⟩, 2, 1 / 2, 3 / 2, 0, ⟨0, fun _ => 0⟩,
    ⟨0, fun _ => 0⟩⟩

/-- Two sliders. -/
def two : List (RobotBodies ℚ) := [slider, slider]

/-- The immobile robot, then the slider. -/
def fixedFirst : List (RobotBodies ℚ) := [ground, slider]

def data2 : SolverData ℚ := { (SolverData.init : SolverData ℚ) with
  alphaD := [1, 1], alphaDBegin := [0, 1], totalAlphaD := 2, nrVars := 2 }

def data1 : SolverData ℚ := { (SolverData.init : SolverData ℚ) with
  alphaD := [0, 1], alphaDBegin := [0, 0], totalAlphaD := 1, nrVars := 1 }

theorem robots_ok (l : List (RobotBodies ℚ)) (h : ∀ r ∈ l, r = slider ∨ r = ground) : RobotsOK l := by
  intro rb hrb name p hp
  rcases h rb hrb with rfl | rfl <;>
  · cases hp
    simp [slider, ground]

theorem two_ok : RobotsOK two := robots_ok _ (by simp [two])
theorem fixedFirst_ok : RobotsOK fixedFirst := robots_ok _ (by simp [fixedFirst])

theorem data2_ok : DataOK two data2 := by
  refine ⟨le_rfl, ?_⟩
  intro i rb h
  match i, h with
  | 0, h => cases h; exact ⟨0, rfl, by decide⟩
  | 1, h => cases h; exact ⟨1, rfl, by decide⟩

theorem data1_ok : DataOK fixedFirst data1 := by
  refine ⟨le_rfl, ?_⟩
  intro i rb h
  match i, h with
  | 0, h => cases h; exact ⟨0, rfl, by decide⟩
  | 1, h => cases h; exact ⟨0, rfl, by decide⟩

theorem env2_ok (p q u v : ℚ) : CollEnvOK two (pointEnv [sliderAt p u, sliderAt q v]) := by
  refine ⟨by norm_num [pointEnv], ?_⟩
  intro i rb h
  match i, h with
  | 0, h =>
    cases h
    exact ⟨_, rfl, fun _ _ e => by cases e; simp [sliderAt], fun _ _ _ e => by cases e; exact ⟨rfl, rfl⟩⟩
  | 1, h =>
    cases h
    exact ⟨_, rfl, fun _ _ e => by cases e; simp [sliderAt], fun _ _ _ e => by cases e; exact ⟨rfl, rfl⟩⟩

theorem env1_ok (q v : ℚ) : CollEnvOK fixedFirst (pointEnv [groundAt, sliderAt q v]) := by
  refine ⟨by norm_num [pointEnv], ?_⟩
  intro i rb h
  match i, h with
  | 0, h =>
    cases h
    exact ⟨_, rfl, fun _ _ e => by cases e; simp [groundAt], fun _ _ _ e => by cases e; exact ⟨rfl, rfl⟩⟩
  | 1, h =>
    cases h
    exact ⟨_, rfl, fun _ _ e => by cases e; simp [sliderAt], fun _ _ _ e => by cases e; exact ⟨rfl, rfl⟩⟩

/-- The stored body of robot `r` with hull `h` and controlled point `q`. -/
def body (r h : ℕ) (q : V3 ℚ) : BodyColl ℚ := ⟨h, [0], q, ⟨M3.one, 0⟩, r, 0, "b", ⟨0, fun _ => 0⟩⟩

/-- The stored pair, up to what an update changes. -/
structure IsPair (l : List (BodyColl ℚ)) (d : CollData ℚ) : Prop where
  hull1 : d.hull1 = 1
  hull2 : d.hull2 = 2
  di : d.di = 2
  ds : d.ds = 1 / 2
  damping : d.damping = 3 / 2
  dtype : d.dtype = .hard
  bodies : d.bodies = l

/-- The pair as it is added. -/
def pair (l : List (BodyColl ℚ)) : CollData ℚ :=
  ⟨1, 2, 2 * 2, 0, 0, 0, 2, 1 / 2, 3 / 2, l, if (0 : ℚ) < 3 / 2 then .hard else .free, 0, 7⟩

theorem pair_isPair (l : List (BodyColl ℚ)) : IsPair l (pair l) :=
  ⟨rfl, rfl, rfl, rfl, rfl, if_pos (by norm_num), rfl⟩

theorem reach2 : ∃ s, CollReach two (1 : ℚ) s ∧ s.data = [pair [body 0 1 0, body 1 2 0]] ∧
    s.A.rows = 1 ∧ s.A.cols = 2 ∧ s.totalAlphaD = some 2 :=
  ⟨_, .updateNrVars _ _ data2 (.add _ _ (args 0 1) 0 (.make (fun _ _ => 0) _ rfl)
    (by norm_num [args]) rfl) data2_ok rfl, rfl, rfl, rfl, rfl⟩

theorem reach1 : ∃ s, CollReach fixedFirst (1 : ℚ) s ∧ s.data = [pair [body 1 2 0]] ∧
    s.A.rows = 1 ∧ s.A.cols = 1 ∧ s.totalAlphaD = some 1 :=
  ⟨_, .updateNrVars _ _ data1 (.add _ _ (args 0 1) 0 (.make (fun _ _ => 0) _ rfl)
    (by norm_num [args]) rfl) data1_ok rfl, rfl, rfl, rfl, rfl⟩

/-- One update of the two sliders, at rest at `p` and at 0. -/
theorem step2 {s : Coll ℚ} (R : CollReach two (1 : ℚ) s) {d₀ : CollData ℚ} (hdata : s.data = [d₀])
    {q1 q2 : V3 ℚ} (P : IsPair [body 0 1 q1, body 1 2 q2] d₀) (hrows : s.A.rows = 1)
    (hcols : s.A.cols = 2) (htot : s.totalAlphaD = some 2) (p : ℚ) (hp : 0 < p) (hp2 : p < 2)
    (poses : ℕ → SchPose ℚ) :
    ∃ s' poses' d q1' q2',
      s.update (bodiesOf two) data2 (pointEnv [sliderAt p 0, sliderAt 0 0]) poses = .ok (s', poses') ∧
      CollReach two (1 : ℚ) s' ∧ s'.data = [d] ∧ IsPair [body 0 1 q1', body 1 2 q2'] d ∧
      s'.A.rows = 1 ∧ s'.A.cols = 2 ∧ s'.totalAlphaD = some 2 ∧ d.distance = p ∧
      s'.inEq.nrInEq = 1 ∧
      (∀ x, pairRate (bodiesOf two) data2 (pointEnv [sliderAt p 0, sliderAt 0 0]) 1 d₀.normal d x
        = x 0 - x 1) ∧
      ∀ x, SatInEq 2 s'.inEq x ↔ -(p - 1 / 2) ≤ x 0 - x 1 := by
  obtain ⟨s', poses', e, hn, hx⟩ := C33_update two_ok one_ne_zero R data2_ok
    (env2_ok p 0 0 0) htot (by rw [hdata, hrows]; rfl) poses
  have h0 : s.data[0]? = some d₀ := by rw [hdata]; rfl
  obtain ⟨d, hd, G, D⟩ := C33_geometry two_ok one_ne_zero R data2_ok (env2_ok p 0 0 0) htot
    (by rw [hdata, hrows]; rfl) e h0
  have g1 : d.hull1 = 1 := G.hull1.trans P.hull1
  have g2 : d.hull2 = 2 := G.hull2.trans P.hull2
  have hpos1 : posesAt (pointEnv [sliderAt p 0, sliderAt 0 0]) s.data poses 1 1
      = ⟨M3.one, ⟨p, 0, 0⟩⟩ := by
    rw [hdata]
    simp [posesAt, P.bodies, body, moved, hullPose, pointEnv, sliderAt, tosch, PT.mul, M3.mul, M3.one,
      M3.transpose, M3.mulVec, V3.dot]
    rfl
  have hpos2 : posesAt (pointEnv [sliderAt p 0, sliderAt 0 0]) s.data poses 1 2
      = ⟨M3.one, ⟨0, 0, 0⟩⟩ := by
    rw [hdata]
    simp [posesAt, P.bodies, body, moved, hullPose, pointEnv, sliderAt, tosch, PT.mul, M3.mul, M3.one,
      M3.transpose, M3.mulVec, V3.dot]
    rfl
  have hp1 : d.p1 = ⟨p, 0, 0⟩ := by
    rw [G.p1, g1, g2, hpos1, hpos2]; rfl
  have hp2' : d.p2 = ⟨0, 0, 0⟩ := by
    rw [G.p2, g1, g2, hpos1, hpos2]; rfl
  have hdist : d.distance = p := by
    rw [G.distance, ← signedRoot_eq, g1, g2, hpos1, hpos2]
    have : ((⟨p, 0, 0⟩ - ⟨0, 0, 0⟩ : V3 ℚ)).sqNorm = p * p := by simp [V3.sqNorm, V3.dot]
    simp only [signedRoot, pointEnv, this]
    rw [if_pos (mul_self_nonneg p), qsqrt_sq p hp.le]
  have hnorm : d.normal = ⟨1, 0, 0⟩ := by
    rw [G.normal, hdist, hp1, hp2', if_pos hp.ne']
    ext <;> simp [hp.ne']
  have hdi : d.di = 2 := G.di.trans P.di
  have hds : d.ds = 1 / 2 := G.ds.trans P.ds
  have hdam : d.dtype = .hard ∧ d.damping = 3 / 2 := by
    unfold DampingOf at D
    rw [if_pos (by rw [hdist, hdi]; exact hp2), if_neg (by rw [P.dtype]; decide)] at D
    exact ⟨D.1.trans P.dtype, D.2.trans P.damping⟩
  have hlen : s'.data = [d] := by
    have hk := (update_eq_ok e).1
    rw [hdata] at hk
    cases hs' : s'.data with
    | nil => rw [hs'] at hd; simp at hd
    | cons a t =>
      rw [hs'] at hd hk
      simp at hd hk
      rw [hd, hk.2]
  have hrate : ∀ x, pairRate (bodiesOf two) data2 (pointEnv [sliderAt p 0, sliderAt 0 0]) 1
      d₀.normal d x = x 0 - x 1 := by
    intro x
    rw [C33_two_bodies G P.bodies
      (mb1 := slider.kin.mb) (mb2 := slider.kin.mb) (r1 := sliderAt p 0) (r2 := sliderAt 0 0)
      (X1 := ⟨M3.one, ⟨p, 0, 0⟩⟩) (X2 := ⟨M3.one, ⟨0, 0, 0⟩⟩) (a1 := 0) (a2 := 1)
      rfl rfl rfl rfl rfl rfl rfl rfl, hnorm]
    simp [sliderAt, pointAcc, slider, body, onDofs, jpos, jdof, selected, V3.dot, MultiBody.nrDof]
  have W := collWF two_ok one_ne_zero R
  obtain ⟨st, e', I⟩ := coll_update (W.ready one_ne_zero two_ok data2_ok (env2_ok p 0 0 0) htot
    (by rw [hdata, hrows]; rfl)) poses
  rw [e] at e'
  cases e'
  refine ⟨s', poses', d, toBody ⟨M3.one, ⟨p, 0, 0⟩⟩ d.p1, toBody ⟨M3.one, ⟨0, 0, 0⟩⟩ d.p2, e,
    .update _ _ _ _ _ _ R data2_ok (env2_ok p 0 0 0) htot (by rw [hdata, hrows]; rfl) e, hlen,
    ⟨g1, g2, hdi, hds, hdam.2, hdam.1, ?_⟩, I.Arows.trans hrows, I.Acols.trans hcols, I.htot, hdist,
    ?_, hrate, ?_⟩
  · rw [G.bodies, P.bodies]
    rfl
  · rw [hn, hlen]
    simp [hdist, hdi, hp2]
  · intro x
    have hc : (3 / 2 : ℚ) * ((p - 1 / 2) / (2 - 1 / 2)) = p - 1 / 2 := by ring
    rw [← hcols, hx x]
    constructor
    · intro h
      have := h 0 _ d h0 hd (by rw [hdist, hdi]; exact hp2)
      unfold DamperOK at this
      rw [hrate, hdist, hdi, hds, hdam.2, hc] at this
      exact this
    · intro h j e₀ d' h1 h2 _
      rw [hlen] at h2
      cases j with
      | zero =>
        rw [h0] at h1
        simp at h1 h2
        subst h1 h2
        unfold DamperOK
        rw [hrate, hdist, hdi, hds, hdam.2, hc]
        exact h
      | succ j => simp at h2

/-- The hypotheses of `C33_update`, `C33_row`, `C33_geometry` and `C33_two_bodies` are met: sliders at 1
and 0, at rest; the row is `-1/2 ≤ x₀ - x₁`. -/
example : ∃ s s' poses', CollReach two (1 : ℚ) s ∧
    s.update (bodiesOf two) data2 (pointEnv [sliderAt 1 0, sliderAt 0 0]) (fun _ => ⟨M3.one, 0⟩)
      = .ok (s', poses') ∧ s'.inEq.nrInEq = 1 ∧
    ∀ x, SatInEq 2 s'.inEq x ↔ -(1 / 2) ≤ x 0 - x 1 := by
  obtain ⟨s, R, hdata, hrows, hcols, htot⟩ := reach2
  obtain ⟨s', poses', d, _, _, e, _, _, _, _, _, _, _, hn, _, hx⟩ := step2 R hdata (pair_isPair _)
    hrows hcols htot 1 (by norm_num) (by norm_num) (fun _ => ⟨M3.one, 0⟩)
  refine ⟨s, s', poses', R, e, hn, fun x => ?_⟩
  rw [hx x]
  norm_num

/-- The hypotheses of `C33_point` are met. -/
example : ((M3.one : M3 ℚ)).IsRot := by
  simp [M3.IsRot, M3.RowsOrtho, M3.one, V3.dot, V3.cross]

/-- The hypothesis of `C33_desc` is met by the two sliders. -/
example (p : ℚ) : HullsConsistent (pointEnv [sliderAt p 0, sliderAt 0 0])
    [pair [body 0 1 0, body 1 2 0]] := by
  constructor
  · intro d hd e he b hb c hc h
    simp at hd he
    subst hd he
    simp [pair] at hb hc
    rcases hb with rfl | rfl <;> rcases hc with rfl | rfl <;> first | rfl | simp [body] at h
  · intro d hd h hh e he hb
    simp at hd he
    subst hd he
    exact hb

/-- A sequence of states each obtained from the one before. -/
theorem exists_run {σ : Type} (P : ℕ → σ → Prop) (T : ℕ → σ → σ → Prop) (a : σ) (h0 : P 0 a)
    (h : ∀ k a, P k a → ∃ b, T k a b ∧ P (k + 1) b) :
    ∃ f : ℕ → σ, f 0 = a ∧ ∀ k, P k (f k) ∧ T k (f k) (f (k + 1)) := by
  classical
  choose g hg using h
  let F : (k : ℕ) → { b // P k b } := fun k =>
    Nat.rec ⟨a, h0⟩ (fun k b => ⟨g k b.1 b.2, (hg k b.1 b.2).2⟩) k
  exact ⟨fun k => (F k).1, rfl, fun k => ⟨(F k).2, (hg k _ (F k).2).1⟩⟩

/-- The hypotheses of `C35_collision` are met by an execution in which the distance halves its excess
over the security distance at every step: `d = 1/2 + 2⁻ᵏ`. -/
example : ∃ (s : ℕ → Coll ℚ) (poses : ℕ → ℕ → SchPose ℚ) (d : ℕ → CollData ℚ) (x : ℕ → ℕ → ℚ),
    (∀ k, (s k).update (bodiesOf two) data2
      (pointEnv [sliderAt (1 / 2 + (1 / 2) ^ k) 0, sliderAt 0 0]) (poses k)
        = .ok (s (k + 1), poses (k + 1))) ∧
    (∀ k, (d (k + 1)).distance = 1 / 2 + (1 / 2) ^ k) ∧
    ∀ k, (1 / 2 : ℚ) ≤ (d (k + 1)).distance := by
  obtain ⟨s₀, R, hdata, hrows, hcols, htot⟩ := reach2
  have hhalf : ∀ k : ℕ, 0 < ((1 : ℚ) / 2) ^ k ∧ ((1 : ℚ) / 2) ^ k ≤ 1 := fun k =>
    ⟨by positivity, pow_le_one₀ (by norm_num) (by norm_num)⟩
  obtain ⟨f, hf0, hf⟩ := exists_run
    (σ := Coll ℚ × (ℕ → SchPose ℚ) × CollData ℚ)
    (fun _ a => CollReach two (1 : ℚ) a.1 ∧ a.1.data = [a.2.2] ∧ a.1.A.rows = 1 ∧ a.1.A.cols = 2 ∧
      a.1.totalAlphaD = some 2 ∧ ∃ q1 q2, IsPair [body 0 1 q1, body 1 2 q2] a.2.2)
    (fun k a b => a.1.update (bodiesOf two) data2
      (pointEnv [sliderAt (1 / 2 + (1 / 2) ^ k) 0, sliderAt 0 0]) a.2.1 = .ok (b.1, b.2.1) ∧
      b.2.2.distance = 1 / 2 + (1 / 2) ^ k ∧
      (∀ x, pairRate (bodiesOf two) data2 (pointEnv [sliderAt (1 / 2 + (1 / 2) ^ k) 0, sliderAt 0 0]) 1
        a.2.2.normal b.2.2 x = x 0 - x 1) ∧
      ∀ x, SatInEq 2 b.1.inEq x ↔ -((1 / 2 + (1 / 2) ^ k) - 1 / 2) ≤ x 0 - x 1)
    (s₀, (fun _ => ⟨M3.one, 0⟩), pair [body 0 1 0, body 1 2 0])
    ⟨R, hdata, hrows, hcols, htot, 0, 0, pair_isPair _⟩
    (by
      rintro k ⟨a, po, d₀⟩ ⟨r1, r2, r3, r4, r5, q1, q2, r6⟩
      obtain ⟨b, po', d, q1', q2', e, t1, t2, t3, t4, t5, t6, t7, _, t8, t9⟩ := step2 r1 r2 r6 r3 r4 r5
        (1 / 2 + (1 / 2) ^ k) (by linarith [hhalf k]) (by linarith [hhalf k]) po
      exact ⟨(b, po', d), ⟨e, t7, t8, t9⟩, t1, t2, t4, t5, t6, q1', q2', t3⟩)
  refine ⟨fun k => (f k).1, fun k => (f k).2.1, fun k => (f k).2.2,
    fun k i => if i = 0 then -((1 / 2) ^ k / 2) else 0, fun k => (hf k).2.1, fun k => (hf k).2.2.1, ?_⟩
  obtain ⟨r1, r2, r3, r4, r5, q1, q2, r6⟩ := (hf 0).1
  refine C35_collision (rbs := two) two_ok one_pos (fun k => (f k).1) (fun _ => data2)
    (fun k => pointEnv [sliderAt (1 / 2 + (1 / 2) ^ k) 0, sliderAt 0 0]) (fun k => (f k).2.1)
    (fun k i => if i = 0 then -((1 / 2) ^ k / 2) else 0) r1 (fun _ => data2_ok)
    (fun k => env2_ok _ _ _ _) (fun k => (hf k).1.2.2.2.2.1) (by rw [r2, r3]; rfl)
    (fun k => (hf k).2.1) ?_ 0 (3 / 2) 2 (1 / 2) (fun k => (f k).2.2)
    (fun k => by rw [(hf k).1.2.1]; rfl) r6.di r6.ds r6.damping r6.dtype (by norm_num) (by norm_num)
    ?_ ?_ ?_
  · intro k
    rw [r4, (hf k).2.2.2.2]
    simp only [if_true, if_neg (one_ne_zero (α := ℕ))]
    linarith [hhalf k]
  · intro k
    rw [(hf k).2.2.1, (hf (k + 1)).2.2.1, (hf k).2.2.2.1]
    simp only [if_true, if_neg (one_ne_zero (α := ℕ))]
    rw [pow_succ]
    ring
  · intro k h
    rw [(hf k).2.2.1] at h
    linarith [hhalf k]
  · rw [(hf 0).2.2.1]
    linarith [hhalf 0]

/-! ## Counterexamples -/

/-- C33 fails when the first robot cannot move: the row of the pair is then built with the second
body's motion counted positively.  The slider, at rest at distance 1 from the immobile robot, is allowed
by the rows to accelerate towards it (`x = -10`, which brings the distance rate to -10, below the
admissible -1/2), and is not allowed to move away faster than 1/2. -/
theorem C33_fixed_first_counterexample : ∃ (s s' : Coll ℚ) (poses' : ℕ → SchPose ℚ) (d : CollData ℚ),
    CollReach fixedFirst (1 : ℚ) s ∧
    s.update (bodiesOf fixedFirst) data1 (pointEnv [groundAt, sliderAt 1 0]) (fun _ => ⟨M3.one, 0⟩)
      = .ok (s', poses') ∧ s'.data = [d] ∧ d.p1 = 0 ∧ d.p2 = ⟨1, 0, 0⟩ ∧ d.distance = 1 ∧
    d.damping * ((d.distance - d.ds) / (d.di - d.ds)) = 1 / 2 ∧
    (SatInEq 1 s'.inEq fun _ => -10) ∧ ¬ (SatInEq 1 s'.inEq fun _ => 1) := by
  obtain ⟨s, R, hdata, hrows, hcols, htot⟩ := reach1
  have hE : CollEnvOK fixedFirst (pointEnv [groundAt, sliderAt 1 0]) := env1_ok 1 0
  obtain ⟨s', poses', e, hn, hx⟩ := C33_update fixedFirst_ok one_ne_zero R data1_ok
    hE htot (by rw [hdata, hrows]; rfl) (fun _ => ⟨M3.one, 0⟩)
  have h0 : s.data[0]? = some (pair [body 1 2 0]) := by rw [hdata]; rfl
  obtain ⟨d, hd, G, D⟩ := C33_geometry fixedFirst_ok one_ne_zero R data1_ok hE htot
    (by rw [hdata, hrows]; rfl) e h0
  have g1 : d.hull1 = 1 := G.hull1
  have g2 : d.hull2 = 2 := G.hull2
  have hpos1 : posesAt (pointEnv [groundAt, sliderAt 1 0]) s.data (fun _ => ⟨M3.one, 0⟩) 1 1
      = ⟨M3.one, 0⟩ := by
    rw [hdata]
    simp [posesAt, pair, body, moved]
  have hpos2 : posesAt (pointEnv [groundAt, sliderAt 1 0]) s.data (fun _ => ⟨M3.one, 0⟩) 1 2
      = ⟨M3.one, ⟨1, 0, 0⟩⟩ := by
    rw [hdata]
    simp [posesAt, pair, body, moved, hullPose, pointEnv, sliderAt, tosch, PT.mul, M3.mul, M3.one,
      M3.transpose, M3.mulVec, V3.dot]
    rfl
  have hp1 : d.p1 = 0 := by rw [G.p1, g1, g2, hpos1, hpos2]; rfl
  have hp2 : d.p2 = ⟨1, 0, 0⟩ := by rw [G.p2, g1, g2, hpos1, hpos2]; rfl
  have hdist : d.distance = 1 := by
    rw [G.distance, ← signedRoot_eq, g1, g2, hpos1, hpos2]
    have : ((0 : V3 ℚ) - ⟨1, 0, 0⟩).sqNorm = 1 * 1 := by norm_num [V3.sqNorm, V3.dot]
    simp only [signedRoot, pointEnv, this]
    rw [if_pos (by norm_num), qsqrt_sq 1 (by norm_num)]
  have hnorm : d.normal = ⟨-1, 0, 0⟩ := by
    rw [G.normal, hdist, hp1, hp2]
    ext <;> norm_num
  have hdi : d.di = 2 := G.di
  have hds : d.ds = 1 / 2 := G.ds
  have hdam : d.damping = 3 / 2 := by
    unfold DampingOf at D
    rw [if_pos (by rw [hdist, hdi]; norm_num), if_neg (by simp [pair])] at D
    exact D.2
  have hlen : s'.data = [d] := by
    have hk := (update_eq_ok e).1
    rw [hdata] at hk
    cases hs' : s'.data with
    | nil => rw [hs'] at hd; simp at hd
    | cons a t =>
      rw [hs'] at hd hk
      simp at hd hk
      rw [hd, hk.2]
  have hrate : ∀ x, pairRate (bodiesOf fixedFirst) data1 (pointEnv [groundAt, sliderAt 1 0]) 1
      (pair [body 1 2 0]).normal d x = - x 0 := by
    intro x
    unfold pairRate
    rw [G.bodies, hnorm]
    simp [pair, withPoints, withPoint, pointEnv, body, sliderAt, signedSum, bodyRate, bodiesOf,
      fixedFirst, data1, pointRate, pointAcc, slider, onDofs, jpos, jdof, selected, V3.dot,
      MultiBody.nrDof]
  refine ⟨s, s', poses', d, R, e, hlen, hp1, hp2, hdist, ?_, ?_, ?_⟩
  · rw [hdist, hdi, hds, hdam]; norm_num
  · rw [← hcols, hx]
    intro j d₀ d' h1 h2 _
    rw [hlen] at h2
    cases j with
    | zero =>
      rw [h0] at h1
      simp at h1 h2
      subst h1 h2
      unfold DamperOK
      rw [hrate, hdist, hdi, hds, hdam]
      norm_num
    | succ j => simp at h2
  · rw [← hcols, hx]
    intro h
    have := h 0 _ d h0 hd (by rw [hdist, hdi]; norm_num)
    unfold DamperOK at this
    rw [hrate, hdist, hdi, hds, hdam] at this
    norm_num at this

/-- C34: adding a pair and updating without reallocating writes outside the rows. -/
theorem C34_stale_ub : ∃ s s' : Coll ℚ, CollReach two (1 : ℚ) s ∧ s.data = [] ∧
    s.add two (args 0 1) 0 = .ok s' ∧
    ∀ poses, s'.update (bodiesOf two) data2 (pointEnv [sliderAt 1 0, sliderAt 0 0]) poses = .ub := by
  refine ⟨_, _, .updateNrVars _ _ data2 (.make (fun _ _ => 0) _ rfl) data2_ok rfl, rfl, rfl, ?_⟩
  intro poses
  have hq : qsqrt 1 = 1 := by simpa using qsqrt_sq 1 (by norm_num)
  simp [Coll.update, Coll.updateNrVars, forRange, Coll.pairStep, vecAt, args, collGeom, moveHulls,
    forEach, pointEnv, sliderAt, tosch, PT.mul, M3.mul, M3.one, M3.transpose, M3.mulVec, V3.dot,
    signedRoot, fdivV, setPoints, V3.sqNorm, collActivate, hq, collRow, fdiv, Vec.set]
  norm_num

end CollEx
end Verif
