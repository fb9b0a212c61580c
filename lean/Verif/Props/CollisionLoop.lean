import Verif.Proofs.Balls
import Verif.Props.Barrier
import Verif.Props.Inexact

/-!
# C91: the collision constraint along the motion itself

The rows of `CollisionConstr` bound the rate, one time step ahead, of a coordinate of the two closest points, which it
takes for points fixed in the bodies.  Here the bodies are balls (`sch::S_Sphere`), whose distance is known in closed
form, and the loop is closed in continuous time with a possibly inexact numerical solver.
-/

set_option autoImplicit false
set_option linter.unusedSectionVars false

namespace Verif

open Finset Spec

namespace Spec

/-- What RBDyn gives a `CollisionConstr` for a robot at the configuration `st`: body poses, and Jacobian, velocity and
normal acceleration of the points of its bodies. -/
def PointKinOf (rb : RobotBodies ℝ) (st : KState ℝ) (r : PointKin ℝ) : Prop :=
  r.bodyPosW = st.bodyPosW ∧ ∀ name path, rb.kin.path name = .ok path → ∀ p, ∃ V A : MV ℝ,
    Jac.jacobian rb.kin.mb st ⟨path, p⟩ = .ok (r.jac name p) ∧ Jac.velocity st ⟨path, p⟩ = .ok V ∧
    Jac.normalAcc st ⟨path, p⟩ = .ok A ∧ r.vel name p = V.lin ∧ r.normalAcc name p = A.lin

/-- sch-core: hulls `h1` and `h2` are balls of radii `ρ1`, `ρ2` centred at their origins.  `n` is the unit vector from
the second centre to the first and `L` their distance. -/
def Balls (env : CollEnv ℝ) (h1 h2 : ℕ) (ρ1 ρ2 : ℝ) : Prop :=
  (∀ y, env.sqrt y = Real.sqrt y) ∧
  ∀ (P Q : SchPose ℝ) (L : ℝ) (n : V3 ℝ), 0 < L → n.dot n = 1 → P.t - Q.t = L • n →
    env.closest h1 P h2 Q
      = (if 0 ≤ L - ρ1 - ρ2 then (L - ρ1 - ρ2) * (L - ρ1 - ρ2) else -((L - ρ1 - ρ2) * (L - ρ1 - ρ2)),
        P.t - ρ1 • n, Q.t + ρ2 • n)

/-- What the first ball is kept away from: a ball on another movable body, or a fixed one with centre `Q`. -/
inductive Other
  | body (b : BodyColl ℝ)
  | fixed (Q : V3 ℝ)

/-- The movable bodies. -/
def Other.bodies : Other → List (BodyColl ℝ)
  | body b => [b]
  | fixed _ => []

/-- Position and velocity of the origin of the hull of an entry, and angular velocity of its body. -/
def entryPos (st : ℕ → ℝ → KState ℝ) (b : BodyColl ℝ) (t : ℝ) : V3 ℝ := ptPos (st b.rIndex t) b.bIndex b.X_op_o.r
def entryVel (st : ℕ → ℝ → KState ℝ) (b : BodyColl ℝ) (t : ℝ) : V3 ℝ := ptVel (st b.rIndex t) b.bIndex b.X_op_o.r
def entryAng (st : ℕ → ℝ → KState ℝ) (b : BodyColl ℝ) (t : ℝ) : V3 ℝ := angVel (st b.rIndex t) b.bIndex

def Other.pos (st : ℕ → ℝ → KState ℝ) (o : Other) (t : ℝ) : V3 ℝ :=
  match o with
  | body b => entryPos st b t
  | fixed Q => Q

def Other.vel (st : ℕ → ℝ → KState ℝ) (o : Other) (t : ℝ) : V3 ℝ :=
  match o with
  | body b => entryVel st b t
  | fixed _ => 0

def Other.ang (st : ℕ → ℝ → KState ℝ) (o : Other) (t : ℝ) : V3 ℝ :=
  match o with
  | body b => entryAng st b t
  | fixed _ => 0

/-- An entry without its controlled point, which every update sets. -/
def unpointed (b : BodyColl ℝ) : BodyColl ℝ := { b with point := 0 }

/-- An entry as `addCollision` makes it for the hull `h`, with the default selector. -/
def PairEntry (rbs : List (RobotBodies ℝ)) (h : ℕ) (b : BodyColl ℝ) : Prop :=
  b.hull = h ∧ b.path.getLast? = some b.bIndex ∧
  ∃ rb, rbs[b.rIndex]? = some rb ∧ ∀ i < rb.kin.mb.nrDof, selected b.selector i = 1

/-- A `CollisionConstr` (time step `dt`) at time `t`; `st r t` is the configuration of robot `r`.  After any calls, it has
at position `j` the pair made of the balls of `b1` and `o` (interaction distance `di`, security distance `ds`, damping
`c` given by the user) with `n₀` the normal of the last update, and it is updated at the current configuration. -/
def CollAt (rbs : List (RobotBodies ℝ)) (dt : ℝ) (st : ℕ → ℝ → KState ℝ) (h1 h2 : ℕ) (ρ1 ρ2 di ds c : ℝ)
    (b1 : BodyColl ℝ) (o : Other) (n₀ : V3 ℝ) (j : ℕ) (data : SolverData ℝ) (s s' : Coll ℝ) (env : CollEnv ℝ)
    (poses poses' : ℕ → SchPose ℝ) (t : ℝ) : Prop :=
  (CollReach rbs dt s ∧ CollEnvOK rbs env ∧ s.totalAlphaD = some data.totalAlphaD ∧
    s.nrVars = some data.nrVars ∧ s.data.length ≤ s.A.rows) ∧
  (∃ d₀, s.data[j]? = some d₀ ∧ d₀.hull1 = h1 ∧ d₀.hull2 = h2 ∧ d₀.di = di ∧ d₀.ds = ds ∧
    d₀.damping = c ∧ d₀.dtype = .hard ∧ d₀.normal = n₀ ∧
    d₀.bodies.map unpointed = (b1 :: o.bodies).map unpointed) ∧
  (Balls env h1 h2 ρ1 ρ2 ∧ ∀ Q, o = .fixed Q → (posesAt env s.data poses (j + 1) h2).t = Q) ∧
  (∀ (i : ℕ) rb r, rbs[i]? = some rb → env.robots[i]? = some r → PointKinOf rb (st i t) r) ∧
  s.update (bodiesOf rbs) data env poses = .ok (s', poses')

/-- Closed loop with a `CollisionConstr` in continuous time: at every `t ≥ 0` the constraint is updated (`CollAt`), some
call of `solve` succeeds with it among the registered constraints (the numerical solver has the tolerances `ε`, `δ`),
and the joint accelerations are those of the result. -/
def CollLoop (rbs : List (RobotBodies ℝ)) (dt ε δ : ℝ) (st : ℕ → ℝ → KState ℝ) (h1 h2 : ℕ) (ρ1 ρ2 di ds c : ℝ)
    (b1 : BodyColl ℝ) (o : Other) (n₀ : ℝ → V3 ℝ) : Prop :=
  ∃ (j : ℕ) (data : SolverData ℝ) (backend : String) (s s' : ℝ → Coll ℝ) (env : ℝ → CollEnv ℝ)
    (poses poses' : ℝ → ℕ → SchPose ℝ) (inp : ℝ → QPInput ℝ) (y : ℝ → Vec ℝ) (x : ℕ → ℝ → ℕ → ℝ),
    RobotsOK rbs ∧ DataOK rbs data ∧ ∀ t, 0 ≤ t →
      CollAt rbs dt st h1 h2 ρ1 ρ2 di ds c b1 o (n₀ t) j data (s t) (s' t) (env t) (poses t) (poses' t) t ∧
      SolvedNear ε δ backend (bodiesOf rbs) data.nrVars (inp t) (y t) ∧ (s' t).inEq ∈ (inp t).inEq ∧
      ∀ b ∈ b1 :: o.bodies, ∀ rb a, rbs[b.rIndex]? = some rb → data.alphaDBegin[b.rIndex]? = some a →
        Evolves rb.kin.mb (st b.rIndex) b.path (x b.rIndex) (fun i => (y t).get (a + i)) t

/-- How much more than the distance's the acceleration is that the constraint works with.  `n` is the direction
between the centres and `n'` its derivative, `n₀` the direction at the last update, `u` the relative velocity of the
centres, `ω1` and `ω2` the angular velocities. -/
noncomputable def ballError (dt ρ1 ρ2 : ℝ) (n n' n₀ ω1 ω2 u : V3 ℝ) : ℝ :=
  ρ1 * (ω1.cross n).dot (ω1.cross n - n') + ρ2 * (ω2.cross n).dot (ω2.cross n - n')
    + ((1 / dt) • (n - n₀) - n').dot (u - ρ1 • ω1.cross n - ρ2 • ω2.cross n)

end Spec

/-! ## One body -/

theorem pointKin_at {rb : RobotBodies ℝ} {st : ℕ → ℝ → KState ℝ} {r : PointKin ℝ} {b : BodyColl ℝ} {t : ℝ}
    {x : ℝ → ℕ → ℝ} {y : ℕ → ℝ} {a : ℕ} (hk : PointKinOf rb (st b.rIndex t) r)
    (hp : rb.kin.path b.body = .ok b.path) (hN : b.path.getLast? = some b.bIndex)
    (hev : Evolves rb.kin.mb (st b.rIndex) b.path x (fun i => y (a + i)) t)
    (hsel : ∀ i < rb.kin.mb.nrDof, selected b.selector i = 1) (q : V3 ℝ) :
    r.vel b.body q = ptVel (st b.rIndex t) b.bIndex q ∧
    r.normalAcc b.body q + pointAcc rb.kin.mb b.path b.selector (r.jac b.body q) a y
      = ptAcc rb.kin.mb (st b.rIndex t) b.path b.bIndex q (fun i => y (a + i)) := by
  obtain ⟨V, A, h1, h2, h3, h4, h5⟩ := hk.2 b.body b.path hp q
  have hm := hev.moves t
  refine ⟨?_, ?_⟩
  · rw [h4]
    rw [jac_vel (J := ⟨b.path, q⟩) hm.sized hN] at h2
    rw [← Out.ok.inj h2]
    rfl
  · rw [h5]
    exact pointAcc_eq hm hN q h1 h3 hsel a y

/-- The pose of a body as the distance query and the constraint see it. -/
theorem entry_pose {rb : RobotBodies ℝ} {st : ℕ → ℝ → KState ℝ} {env : CollEnv ℝ} {r : PointKin ℝ} {b : BodyColl ℝ}
    {t : ℝ} {mb : MultiBody ℝ} {v : ℕ → ℝ} (hr : env.robots[b.rIndex]? = some r)
    (hk : PointKinOf rb (st b.rIndex t) r) (hm : Moves mb (st b.rIndex t) b.path v)
    (hN : b.path.getLast? = some b.bIndex) :
    r.bodyPosW[b.bIndex]? = some (kPose (st b.rIndex t) b.bIndex) ∧
    (hullPose env b).t = entryPos st b t ∧
    ∀ p, ptPos (st b.rIndex t) b.bIndex (toBody (kPose (st b.rIndex t) b.bIndex) p) = p := by
  have hmem := List.mem_of_getLast? hN
  have e : r.bodyPosW[b.bIndex]? = some (kPose (st b.rIndex t) b.bIndex) := by
    rw [hk.1, List.getElem?_eq_getElem (hm.sized.pos _ hmem)]
    unfold kPose
    rw [List.getD_eq_getElem _ _ (hm.sized.pos _ hmem)]
  refine ⟨e, ?_, fun p => C33_point _ p (hm.rigid _ hmem)⟩
  unfold hullPose
  rw [hr]
  dsimp only
  rw [e]
  rfl

theorem unpointed_eq {b b' : BodyColl ℝ} (h : unpointed b' = unpointed b) : b' = { b with point := b'.point } := by
  unfold unpointed at h
  cases b
  cases b'
  simp only [BodyColl.mk.injEq] at h ⊢
  simp [h]

/-- Length and derivative of a moving vector. -/
theorem length_deriv {e u : ℝ → V3 ℝ} {L : ℝ → ℝ} {n : ℝ → V3 ℝ} {a : V3 ℝ} {t : ℝ} (he : HasD3 e (u t) t)
    (hu : HasD3 u a t) (hL : ∀ τ, 0 ≤ L τ ∧ L τ * L τ = (e τ).dot (e τ)) (hn : ∀ τ, n τ = (1 / L τ) • e τ)
    (h0 : 0 < L t) :
    HasDerivAt L ((n t).dot (u t)) t ∧
    ∃ n', HasD3 n n' t ∧ HasDerivAt (fun τ => (n τ).dot (u τ)) (n'.dot (u t) + (n t).dot a) t := by
  have eL : L = fun τ => Real.sqrt ((e τ).dot (e τ)) := by
    funext τ
    rw [← (hL τ).2, Real.sqrt_mul_self (hL τ).1]
  have hne : (e t).dot (e t) ≠ 0 := by
    rw [← (hL t).2]; exact (mul_pos h0 h0).ne'
  have hd : HasDerivAt L ((n t).dot (u t)) t := by
    have hs := (he.dot he).sqrt hne
    rw [← congrFun eL t] at hs
    refine (hs.congr_deriv ?_).congr_of_eventuallyEq (Filter.Eventually.of_forall fun τ => congrFun eL τ)
    rw [hn t]
    simp only [V3.dot, V3.smul_x, V3.smul_y, V3.smul_z]
    field_simp
    ring
  have hn' : HasD3 n (((n t).dot (u t) * -(1 / L t ^ 2)) • e t + (1 / L t) • u t) t := by
    have hi : HasDerivAt (fun τ => 1 / L τ) ((n t).dot (u t) * -(1 / L t ^ 2)) t := by
      have := hd.inv h0.ne'
      refine (this.congr_deriv (by field_simp)).congr_of_eventuallyEq
        (Filter.Eventually.of_forall fun τ => ?_)
      simp
    exact ((HasD3.smul hi he).congr_fun fun τ => hn τ)
  exact ⟨hd, _, hn', hn'.dot hu⟩

/-! ## The row of the pair -/

/-- The row of a pair with normal `n`, for velocities `v1`, `v2` and accelerations `a1`, `a2` of the closest points. -/
theorem ball_rate {dt ρ1 ρ2 : ℝ} {n n₀ v1 v2 a1 a2 u1 u2 c1 c2 w1 w2 : V3 ℝ}
    (e1 : v1 = u1 - ρ1 • w1) (e2 : v2 = u2 - (-ρ2) • w2) (k1 : n.dot v1 = n.dot u1) (k2 : n.dot v2 = n.dot u2)
    (g1 : n.dot a1 = n.dot c1 + ρ1 * w1.dot w1) (g2 : n.dot a2 = n.dot c2 + (-ρ2) * w2.dot w2) :
    n.dot (v1 - v2) + dt * (n.dot (a1 - a2) + ((1 / dt) • (n - n₀)).dot (v1 - v2))
      = n.dot (u1 - u2) + dt * (n.dot (c1 - c2) + ρ1 * w1.dot w1 + ρ2 * w2.dot w2
        + ((1 / dt) • (n - n₀)).dot (u1 - u2 - ρ1 • w1 - ρ2 • w2)) := by
  have hv : v1 - v2 = u1 - u2 - ρ1 • w1 - ρ2 • w2 := by
    rw [e1, e2]; ext <;> simp <;> ring
  rw [V3.dot_sub n v1 v2, k1, k2, V3.dot_sub n a1 a2, g1, g2, hv, V3.dot_sub n u1 u2, V3.dot_sub n c1 c2]
  ring

section
variable {rbs : List (RobotBodies ℝ)} {dt ε δ : ℝ} {st : ℕ → ℝ → KState ℝ} {h1 h2 : ℕ} {ρ1 ρ2 di ds c : ℝ}
  {b1 : BodyColl ℝ} {o : Other} {n₀ : ℝ → V3 ℝ}

/-- The centres move smoothly, and what the constraint knows about the pair. -/
theorem ball_pair (hdt : 0 < dt) (h12 : h1 ≠ h2) (E1 : PairEntry rbs h1 b1) (E2 : ∀ b, o = .body b → PairEntry rbs h2 b)
    {n₀ : V3 ℝ} {j : ℕ} {data : SolverData ℝ} {s s' : Coll ℝ} {env : CollEnv ℝ} {poses poses' : ℕ → SchPose ℝ} {t : ℝ}
    (hR : RobotsOK rbs) (hD : Spec.DataOK rbs data)
    (hA : CollAt rbs dt st h1 h2 ρ1 ρ2 di ds c b1 o n₀ j data s s' env poses poses' t) {y : ℕ → ℝ} {x : ℕ → ℝ → ℕ → ℝ}
    (hev : ∀ b ∈ b1 :: o.bodies, ∀ rb a, rbs[b.rIndex]? = some rb → data.alphaDBegin[b.rIndex]? = some a →
        Evolves rb.kin.mb (st b.rIndex) b.path (x b.rIndex) (fun i => y (a + i)) t) :
    HasD3 (fun τ => entryPos st b1 τ - o.pos st τ) (entryVel st b1 t - o.vel st t) t ∧
    ∃ a, HasD3 (fun τ => entryVel st b1 τ - o.vel st τ) a t ∧
      ∀ L n, 0 < L → n.dot n = 1 → entryPos st b1 t - o.pos st t = L • n → L - ρ1 - ρ2 ≠ 0 →
        ∃ d, s'.data[j]? = some d ∧ d.distance = L - ρ1 - ρ2 ∧ d.di = di ∧ d.ds = ds ∧ d.damping = c ∧
          d.dtype = .hard ∧ d.normal = n ∧
          pairRate (bodiesOf rbs) data env dt n₀ d y
          = n.dot (entryVel st b1 t - o.vel st t)
            + dt * (n.dot a + ρ1 * ((entryAng st b1 t).cross n).dot ((entryAng st b1 t).cross n)
              + ρ2 * ((o.ang st t).cross n).dot ((o.ang st t).cross n)
              + ((1 / dt) • (n - n₀)).dot (entryVel st b1 t - o.vel st t - ρ1 • (entryAng st b1 t).cross n
                - ρ2 • (o.ang st t).cross n)) := by
  obtain ⟨⟨hs, hE, htot, hnv, hrows⟩, ⟨d₀, hj, p1, p2, p3, p4, p5, p6, p7, p8⟩, ⟨hB, hfix⟩, hkin, hu⟩ := hA
  have W := collWF hR hdt.ne' hs
  -- the entries
  have hentry : ∀ b ∈ b1 :: o.bodies, PairEntry rbs b.hull b → ∃ rb r a, rbs[b.rIndex]? = some rb ∧
      (bodiesOf rbs)[b.rIndex]? = some rb.kin.mb ∧
      env.robots[b.rIndex]? = some r ∧ data.alphaDBegin[b.rIndex]? = some a ∧
      Evolves rb.kin.mb (st b.rIndex) b.path (x b.rIndex) (fun i => y (a + i)) t ∧
      r.bodyPosW[b.bIndex]? = some (kPose (st b.rIndex t) b.bIndex) ∧
      (hullPose env b).t = entryPos st b t ∧
      (∀ p, ptPos (st b.rIndex t) b.bIndex (toBody (kPose (st b.rIndex t) b.bIndex) p) = p) ∧
      ∀ q, r.vel b.body q = ptVel (st b.rIndex t) b.bIndex q ∧
        r.normalAcc b.body q + pointAcc rb.kin.mb b.path b.selector (r.jac b.body q) a y
          = ptAcc rb.kin.mb (st b.rIndex t) b.path b.bIndex q (fun i => y (a + i)) := by
    rintro b hb ⟨-, hN, rb, hrb, hsel⟩
    obtain ⟨a, ha, -⟩ := hD.2 _ rb hrb
    obtain ⟨r, hr, -⟩ := hE.2 _ rb hrb
    have hk := hkin _ rb r hrb hr
    have he := hev b hb rb a hrb ha
    obtain ⟨q1, q2, q3⟩ := entry_pose hr hk (he.moves t) hN
    have hpath : rb.kin.path b.body = .ok b.path := by
      have : unpointed b ∈ d₀.bodies.map unpointed := by rw [p8]; exact List.mem_map_of_mem hb
      obtain ⟨b', hb', e⟩ := List.mem_map.mp this
      obtain ⟨rb', k1, k2, -⟩ := (W.pairs d₀ (List.mem_of_getElem? hj)).2 b' hb'
      have e' := unpointed_eq e
      rw [e'] at k1 k2
      rw [hrb] at k1
      cases k1
      exact k2
    refine ⟨rb, r, a, hrb, ?_, hr, ha, he, q1, q2, q3, fun q => pointKin_at hk hpath hN he hsel q⟩
    unfold bodiesOf
    rw [List.getElem?_map, hrb]
    rfl
  obtain ⟨rb1, r1, a1, hrb1, hmb1, hr1, ha1, he1, hx1, hh1, hq1, hk1⟩ := hentry b1 (by simp) (E1.1 ▸ E1)
  have hN1 := E1.2.1
  have dpos1 : HasD3 (entryPos st b1) (entryVel st b1 t) t := ptPos_deriv he1 hN1 _
  have dvel1 := ptVel_deriv he1 hN1 b1.X_op_o.r
  -- the update
  obtain ⟨d, hd, G, hdamp⟩ := C33_geometry hR hdt.ne' hs hD hE htot hrows hu hj
  have hpos := posesAt_succ env s.data poses j d₀ hj
  have hdamp' : d.damping = c := by
    unfold DampingOf at hdamp
    split at hdamp
    · rw [if_neg (by rw [p6]; decide)] at hdamp
      rw [hdamp.2, p5]
    · rw [hdamp.1, p5]
  have hhard : d.dtype = .hard := by
    unfold DampingOf at hdamp
    split at hdamp
    · rw [if_neg (by rw [p6]; decide)] at hdamp
      rw [hdamp.1, p6]
    · rw [hdamp.2, p6]
      rfl
  have hgds : d.ds = ds := by rw [G.ds, p4]
  -- geometry of the balls
  have hgeom : ∀ L n (P Q : SchPose ℝ), posesAt env s.data poses (j + 1) h1 = P →
      posesAt env s.data poses (j + 1) h2 = Q → 0 < L → n.dot n = 1 → P.t - Q.t = L • n →
      L - ρ1 - ρ2 ≠ 0 →
      d.distance = L - ρ1 - ρ2 ∧ d.p1 = P.t - ρ1 • n ∧ d.p2 = Q.t + ρ2 • n ∧ d.normal = n := by
    intro L n P Q hP hQ hL0 hnn hPQ hg
    have hc := hB.2 P Q L n hL0 hnn hPQ
    have g1 := G.distance
    have g2 := G.p1
    have g3 := G.p2
    rw [G.hull1, G.hull2, p1, p2, hP, hQ, hc] at g1 g2 g3
    have gd : d.distance = L - ρ1 - ρ2 := by
      rw [g1]
      unfold signedDistance
      dsimp only
      rcases lt_or_gt_of_ne hg with hlt | hgt
      · rw [if_neg (not_le.mpr hlt), if_pos (by nlinarith), hB.1, neg_neg,
          show (L - ρ1 - ρ2) * (L - ρ1 - ρ2) = (-(L - ρ1 - ρ2)) * (-(L - ρ1 - ρ2)) by ring,
          Real.sqrt_mul_self (by linarith), neg_neg]
      · rw [if_pos hgt.le, if_neg (not_lt.mpr (by positivity)), hB.1, Real.sqrt_mul_self hgt.le]
    refine ⟨gd, g2, g3, ?_⟩
    have gn := G.normal
    have e : d.p1 - d.p2 = (L - ρ1 - ρ2) • n := by
      rw [g2, g3]
      dsimp only
      have : P.t - ρ1 • n - (Q.t + ρ2 • n) = (P.t - Q.t) - (ρ1 + ρ2) • n := by
        ext <;> simp <;> ring
      rw [this, hPQ]
      ext <;> simp <;> ring
    rw [gd, if_pos hg, e, V3.smul_smul', one_div_mul_cancel hg, V3.one_smul'] at gn
    exact gn
  have hgdi : d.di = di := by rw [G.di, p3]
  cases o with
  | fixed Q =>
    have hone : ∃ b', d₀.bodies = [b'] ∧ unpointed b' = unpointed b1 := by
      simp only [Other.bodies, List.map_cons, List.map_nil] at p8
      obtain ⟨b', e1, e2⟩ := List.map_eq_singleton_iff.mp p8
      exact ⟨b', e1, e2⟩
    obtain ⟨b', hb, hu'⟩ := hone
    have hb' := unpointed_eq hu'
    refine ⟨(dpos1.sub (HasD3.const Q t)).congr_deriv rfl, _, dvel1.sub (HasD3.const 0 t), ?_⟩
    intro L n hL0 hnn hC hg
    have hP : (posesAt env s.data poses (j + 1) h1) = hullPose env b1 := by
      rw [hpos, hb, hb']
      simp only [moved, List.foldl_cons, List.foldl_nil]
      rw [if_pos E1.1.symm]
      rfl
    have hQ := hfix Q rfl
    obtain ⟨gd, g2, g3, gn⟩ := hgeom L n _ _ rfl rfl hL0 hnn (by rw [hP, hh1, hQ]; exact hC) hg
    refine ⟨d, hd, gd, hgdi, hgds, hdamp', hhard, gn, ?_⟩
    have hb1 : b'.rIndex = b1.rIndex := by rw [hb']
    have hb2 : b'.bIndex = b1.bIndex := by rw [hb']
    have hb3 : b'.body = b1.body := by rw [hb']
    have hb4 : b'.path = b1.path := by rw [hb']
    have hb5 : b'.selector = b1.selector := by rw [hb']
    have e := C33_one_body (mbs := bodiesOf rbs) (data := data) (dt := dt) (n₀ := n₀) G hb (by rw [hb1]; exact hmb1)
      (by rw [hb1]; exact hr1) (by rw [hb2]; exact hx1) (by rw [hb1]; exact ha1) y
    rw [hb3, hb4, hb5] at e
    have hpt : ptPos (st b1.rIndex t) b1.bIndex (toBody (kPose (st b1.rIndex t) b1.bIndex) d.p1)
        = ptPos (st b1.rIndex t) b1.bIndex b1.X_op_o.r - ρ1 • n := by
      rw [hq1, g2, hP, hh1]
      rfl
    obtain ⟨f1, f2, f3⟩ := ball_point he1 hN1 hpt
    rw [e, gn, (hk1 _).1, (hk1 _).2]
    have key := ball_rate (dt := dt) (ρ2 := ρ2) (n₀ := n₀) (v2 := 0) (a2 := 0) (u2 := 0) (c2 := 0) (w2 := 0) f1
      (by ext <;> simp) f2 rfl f3 (by simp [V3.dot])
    have z : ∀ v : V3 ℝ, v - 0 = v := fun v => by ext <;> simp
    rw [z, z] at key
    rw [key]
    have zc : (Other.ang st (.fixed Q) t).cross n = 0 := V3.zero_cross n
    rw [zc]
    rfl
  | body b2 =>
    have F2 := E2 b2 rfl
    obtain ⟨rb2, r2, a2, hrb2, hmb2, hr2, ha2, he2, hx2, hh2, hq2, hk2⟩ :=
      hentry b2 (by simp [Other.bodies]) (F2.1 ▸ F2)
    have hN2 := F2.2.1
    have dpos2 : HasD3 (entryPos st b2) (entryVel st b2 t) t := ptPos_deriv he2 hN2 _
    have dvel2 := ptVel_deriv he2 hN2 b2.X_op_o.r
    have htwo : ∃ b' c', d₀.bodies = [b', c'] ∧ unpointed b' = unpointed b1 ∧ unpointed c' = unpointed b2 := by
      simp only [Other.bodies, List.map_cons, List.map_nil] at p8
      obtain ⟨b', l, e1, e2, e3⟩ := List.map_eq_cons_iff.mp p8
      obtain ⟨c', e4, e5⟩ := List.map_eq_singleton_iff.mp e3
      exact ⟨b', c', by rw [e1, e4], e2, e5⟩
    obtain ⟨b', c', hb, hu1, hu2⟩ := htwo
    have hb' := unpointed_eq hu1
    have hc' := unpointed_eq hu2
    refine ⟨dpos1.sub dpos2, _, dvel1.sub dvel2, ?_⟩
    intro L n hL0 hnn hC hg
    have hP : (posesAt env s.data poses (j + 1) h1) = hullPose env b1 := by
      rw [hpos, hb, hb', hc']
      simp only [moved, List.foldl_cons, List.foldl_nil]
      rw [if_neg (by rw [F2.1]; exact h12), if_pos E1.1.symm]
      rfl
    have hQ : (posesAt env s.data poses (j + 1) h2) = hullPose env b2 := by
      rw [hpos, hb, hb', hc']
      simp only [moved, List.foldl_cons, List.foldl_nil]
      rw [if_pos F2.1.symm]
      rfl
    obtain ⟨gd, g2, g3, gn⟩ := hgeom L n _ _ rfl rfl hL0 hnn (by rw [hP, hQ, hh1, hh2]; exact hC) hg
    refine ⟨d, hd, gd, hgdi, hgds, hdamp', hhard, gn, ?_⟩
    have e := C33_two_bodies (mbs := bodiesOf rbs) (data := data) (dt := dt) (n₀ := n₀) G hb (mb1 := rb1.kin.mb)
      (mb2 := rb2.kin.mb) (r1 := r1) (r2 := r2) (X1 := kPose (st b1.rIndex t) b1.bIndex)
      (X2 := kPose (st b2.rIndex t) b2.bIndex) (a1 := a1) (a2 := a2)
      (by rw [hb']; exact hmb1) (by rw [hc']; exact hmb2) (by rw [hb']; exact hr1) (by rw [hc']; exact hr2)
      (by rw [hb']; exact hx1) (by rw [hc']; exact hx2) (by rw [hb']; exact ha1) (by rw [hc']; exact ha2) y
    have hb3 : b'.body = b1.body := by rw [hb']
    have hb4 : b'.path = b1.path := by rw [hb']
    have hb5 : b'.selector = b1.selector := by rw [hb']
    have hc3 : c'.body = b2.body := by rw [hc']
    have hc4 : c'.path = b2.path := by rw [hc']
    have hc5 : c'.selector = b2.selector := by rw [hc']
    rw [hb3, hb4, hb5, hc3, hc4, hc5] at e
    have hpt1 : ptPos (st b1.rIndex t) b1.bIndex (toBody (kPose (st b1.rIndex t) b1.bIndex) d.p1)
        = ptPos (st b1.rIndex t) b1.bIndex b1.X_op_o.r - ρ1 • n := by
      rw [hq1, g2, hP, hh1]
      rfl
    have hpt2 : ptPos (st b2.rIndex t) b2.bIndex (toBody (kPose (st b2.rIndex t) b2.bIndex) d.p2)
        = ptPos (st b2.rIndex t) b2.bIndex b2.X_op_o.r - (-ρ2) • n := by
      rw [hq2, g3, hQ, hh2]
      show entryPos st b2 t + ρ2 • n = entryPos st b2 t - (-ρ2) • n
      ext <;> simp
    obtain ⟨f1, f2, f3⟩ := ball_point he1 hN1 hpt1
    obtain ⟨f4, f5, f6⟩ := ball_point he2 hN2 hpt2
    rw [e, gn, (hk1 _).1, (hk1 _).2, (hk2 _).1, (hk2 _).2]
    exact ball_rate (dt := dt) (n₀ := n₀) f1 f4 f2 f5 f3 f6

/-- The row of the pair when it is active. -/
theorem loop_row (hdt : 0 < dt) (h12 : h1 ≠ h2) (E1 : PairEntry rbs h1 b1) (E2 : ∀ b, o = .body b → PairEntry rbs h2 b)
    (hL : CollLoop rbs dt ε δ st h1 h2 ρ1 ρ2 di ds c b1 o n₀) {t : ℝ} (ht : 0 ≤ t) :
    HasD3 (fun τ => entryPos st b1 τ - o.pos st τ) (entryVel st b1 t - o.vel st t) t ∧
    ∃ a, HasD3 (fun τ => entryVel st b1 τ - o.vel st τ) a t ∧
      ∀ L n, 0 < L → n.dot n = 1 → entryPos st b1 t - o.pos st t = L • n → L - ρ1 - ρ2 ≠ 0 → L - ρ1 - ρ2 < di →
        -(c * ((L - ρ1 - ρ2 - ds) / (di - ds))) - ε
          ≤ n.dot (entryVel st b1 t - o.vel st t)
            + dt * (n.dot a + ρ1 * ((entryAng st b1 t).cross n).dot ((entryAng st b1 t).cross n)
              + ρ2 * ((o.ang st t).cross n).dot ((o.ang st t).cross n)
              + ((1 / dt) • (n - n₀ t)).dot (entryVel st b1 t - o.vel st t - ρ1 • (entryAng st b1 t).cross n
                - ρ2 • (o.ang st t).cross n)) := by
  obtain ⟨j, data, backend, s, s', env, poses, poses', inp, y, x, hR, hD, hL⟩ := hL
  obtain ⟨hA, hsol, hin, hev⟩ := hL t ht
  obtain ⟨k1, a, k2, k3⟩ := ball_pair hdt h12 E1 E2 hR hD hA hev
  refine ⟨k1, a, k2, fun L n hL0 hnn hC hg hact => ?_⟩
  obtain ⟨d, hd, gd, gdi, gds, gc, -, -, hrate⟩ := k3 L n hL0 hnn hC hg
  obtain ⟨⟨hs, hE, htot, hnv, hrows⟩, ⟨d₀, hj, p1, p2, p3, p4, p5, p6, p7, p8⟩, -, -, hu⟩ := hA
  have W := collWF hR hdt.ne' hs
  have hcols : (s t).A.cols = data.nrVars := by
    rcases W.alloc with ⟨k, -⟩ | ⟨tot, n, k1, k2, -, k4, -⟩
    · rw [htot] at k; cases k
    · rw [hnv] at k2; cases k2; exact k4
  have hact' : d.distance < d.di := by rw [gd, gdi]; exact hact
  have e := C33_row hR hdt.ne' hs hD hE htot hrows hu hj hd hact' (y t).get
  obtain ⟨s'', poses'', e2, hcount, -⟩ := C33_update hR hdt.ne' hs hD hE htot hrows (poses t)
  rw [hu] at e2
  cases e2
  have hlt : rowOf (s' t).data j < (s' t).inEq.nrInEq := by
    have k := filter_getElem active (s' t).data j d hd (decide_eq_true hact')
    rw [hcount]
    exact (List.getElem?_eq_some_iff.mp k).1
  have hl := (solvedNear_spec hsol).1.2.1 _ hin _ hlt
  have hl' : lineVal data.nrVars (s' t).A (rowOf (s' t).data j) (y t).get - ε
      ≤ (s' t).b.get (rowOf (s' t).data j) := hl
  rw [hcols, gds, gdi, gc, gd, p7, hrate] at e
  linarith

/-- **C91** (what is guaranteed).  Closed loop with the solver (`CollLoop`): `D` is the distance between the two balls and
`rate` its derivative, `nrm` the direction between the centres and `nrm'` its derivative.  The damping is such that
`c = r (1 - r dt) (di - ds)` for some rate `r`.  While the pair is active, the acceleration of the distance the constraint
works with exceeds the true one by at most `μ` (`ballError`); the numerical solver satisfies the rows up to `ε`.  If the
distance starts above the security distance with an approach speed at most `r` times what is left, and the approach
speed is at most `r (di - ds)` while the pair is inactive, then the distance never falls below the security distance by
more than `(ε + dt μ) (di - ds) / c`.

The full claim, that it never falls below the security distance, fails: `CollLoopEx.C91_spin_counterexample`. -/
theorem C91_distance_partial (hdt : 0 < dt) (h12 : h1 ≠ h2) (E1 : PairEntry rbs h1 b1)
    (E2 : ∀ b, o = .body b → PairEntry rbs h2 b) (hL : CollLoop rbs dt ε δ st h1 h2 ρ1 ρ2 di ds c b1 o n₀)
    (hρ1 : 0 ≤ ρ1) (hρ2 : 0 ≤ ρ2) {D rate : ℝ → ℝ} {nrm nrm' : ℝ → V3 ℝ} {r μ : ℝ}
    (hD : ∀ t, 0 ≤ D t + ρ1 + ρ2 ∧ (D t + ρ1 + ρ2) * (D t + ρ1 + ρ2)
      = (entryPos st b1 t - o.pos st t).dot (entryPos st b1 t - o.pos st t))
    (hrate : ∀ t, 0 ≤ t → 0 < D t → HasDerivAt D (rate t) t)
    (hnrm : ∀ t, nrm t = (1 / (D t + ρ1 + ρ2)) • (entryPos st b1 t - o.pos st t))
    (hnrm' : ∀ t, 0 ≤ t → 0 < D t → HasD3 nrm (nrm' t) t)
    (hε : 0 ≤ ε) (hμ : 0 ≤ μ) (hdd : ds < di) (hc : 0 < c) (hr : 0 ≤ r) (hroot : c = r * (1 - r * dt) * (di - ds))
    (htol : (ε + dt * μ) * (di - ds) / c < ds)
    (herr : ∀ t, 0 ≤ t → 0 < D t → D t < di → ballError dt ρ1 ρ2 (nrm t) (nrm' t) (n₀ t) (entryAng st b1 t)
      (o.ang st t) (entryVel st b1 t - o.vel st t) ≤ μ)
    (h0 : ds ≤ D 0) (hv0 : -(r * (D 0 - ds)) ≤ rate 0)
    (hout : ∀ t, 0 ≤ t → di ≤ D t → -(r * (di - ds)) ≤ rate t) :
    ∀ t, 0 ≤ t → ds - (ε + dt * μ) * (di - ds) / c ≤ D t ∧
      -(r * (D t - ds + (ε + dt * μ) * (di - ds) / c)) ≤ rate t := by
  have hR : 0 < di - ds := by linarith
  have hds : 0 < ds := lt_of_le_of_lt (by positivity) htol
  let u : ℝ → V3 ℝ := fun τ => entryVel st b1 τ - o.vel st τ
  have hrow := fun t ht => loop_row hdt h12 E1 E2 hL (t := t) ht
  choose! acc hacc hline using fun t ht => (hrow t ht).2
  have hLen : ∀ t, 0 ≤ t → 0 < D t →
      HasDerivAt D ((nrm t).dot (u t)) t ∧
        HasDerivAt (fun τ => (nrm τ).dot (u τ)) ((nrm' t).dot (u t) + (nrm t).dot (acc t)) t := by
    intro t ht hpos
    obtain ⟨k1, n', k2, k3⟩ := length_deriv (L := fun τ => D τ + ρ1 + ρ2) (hrow t ht).1 (hacc t ht) hD hnrm
      (by linarith)
    rw [Spec.HasD3.unique k2 (hnrm' t ht hpos)] at k3
    refine ⟨?_, k3⟩
    have := (k1.sub_const ρ2).sub_const ρ1
    refine this.congr_of_eventuallyEq (Filter.Eventually.of_forall fun τ => ?_)
    show D τ = D τ + ρ1 + ρ2 - ρ2 - ρ1
    ring
  have hrate' : ∀ t, 0 ≤ t → 0 < D t → rate t = (nrm t).dot (u t) := fun t ht hpos =>
    (hrate t ht hpos).unique (hLen t ht hpos).1
  have hcont : ∀ t, 0 ≤ t → ContinuousAt D t := by
    intro t ht
    have e : D = fun τ => Real.sqrt ((entryPos st b1 τ - o.pos st τ).dot (entryPos st b1 τ - o.pos st τ)) - ρ1 - ρ2 := by
      funext τ
      rw [← (hD τ).2, Real.sqrt_mul_self (hD τ).1]
      ring
    rw [e]
    have hdot := ((hrow t ht).1.dot (hrow t ht).1).continuousAt
    exact (hdot.sqrt.sub continuousAt_const).sub continuousAt_const
  have key := damper_barrier_tol (D := fun t => D t - ds) (V := fun t => (nrm t).dot (u t))
    (A := fun t => (nrm' t).dot (u t) + (nrm t).dot (acc t)) (R := di - ds) (c := c) (dt := dt) (r := r)
    (ε := ε + dt * μ) (η := ds) hdt hr hroot.symm hR hc (by positivity) htol
    (fun t ht => (hcont t ht).sub continuousAt_const)
    (fun t ht hpos => (hLen t ht (by linarith)).1.sub_const ds) (fun t ht hpos => (hLen t ht (by linarith)).2)
    (fun t ht hpos hact => ?_) (fun t ht hfar => ?_) (by linarith) ?_
  · intro t ht
    obtain ⟨k1, k2⟩ := key t ht
    refine ⟨by linarith, ?_⟩
    have hpos : 0 < D t := by linarith
    rw [hrate' t ht hpos]
    exact k2
  · have hpos : 0 < D t := by linarith
    have hL0 : 0 < D t + ρ1 + ρ2 := by linarith
    have hC : entryPos st b1 t - o.pos st t = (D t + ρ1 + ρ2) • nrm t := by
      rw [hnrm t, V3.smul_smul', mul_one_div_cancel hL0.ne', V3.one_smul']
    have hnn : (nrm t).dot (nrm t) = 1 := by
      have h1 := (hD t).2
      rw [hC, V3.smul_dot, V3.dot_smul] at h1
      have h2 : (D t + ρ1 + ρ2) * (D t + ρ1 + ρ2) ≠ 0 := (mul_pos hL0 hL0).ne'
      have h3 : (D t + ρ1 + ρ2) * (D t + ρ1 + ρ2) * ((nrm t).dot (nrm t) - 1) = 0 := by linear_combination -h1
      rcases mul_eq_zero.mp h3 with h | h
      · exact absurd h h2
      · linarith
    have hg : D t + ρ1 + ρ2 - ρ1 - ρ2 = D t := by ring
    have hl := hline t ht (D t + ρ1 + ρ2) (nrm t) hL0 hnn hC (by rw [hg]; exact hpos.ne') (by rw [hg]; linarith)
    rw [hg] at hl
    have he := herr t ht hpos (by linarith)
    have e1 : dt * ((nrm t).dot (acc t) + ρ1 * ((entryAng st b1 t).cross (nrm t)).dot ((entryAng st b1 t).cross (nrm t))
        + ρ2 * ((o.ang st t).cross (nrm t)).dot ((o.ang st t).cross (nrm t))
        + ((1 / dt) • (nrm t - n₀ t)).dot (entryVel st b1 t - o.vel st t - ρ1 • (entryAng st b1 t).cross (nrm t)
          - ρ2 • (o.ang st t).cross (nrm t)))
        = dt * ((nrm' t).dot (u t) + (nrm t).dot (acc t)) + dt * ballError dt ρ1 ρ2 (nrm t) (nrm' t) (n₀ t)
          (entryAng st b1 t) (o.ang st t) (entryVel st b1 t - o.vel st t) := by
      show _ = dt * ((nrm' t).dot (entryVel st b1 t - o.vel st t) + _) + _
      unfold ballError
      simp only [V3.dot_sub, V3.sub_dot, V3.dot_smul]
      rw [V3.dot_comm (nrm' t) ((entryAng st b1 t).cross (nrm t)), V3.dot_comm (nrm' t) ((o.ang st t).cross (nrm t))]
      ring
    rw [e1] at hl
    have h2 := mul_le_mul_of_nonneg_left he hdt.le
    show -(c * ((D t - ds) / (di - ds))) - (ε + dt * μ) ≤ (nrm t).dot (entryVel st b1 t - o.vel st t) + _
    linarith
  · have hpos : 0 < D t := by linarith
    rw [← hrate' t ht hpos]
    exact hout t ht (by linarith)
  · rw [← hrate' 0 le_rfl (by linarith)]
    exact hv0

/-- **C91.**  Balls that do not turn relative to the line of their centres, or have radius zero: nothing but the finite
difference of the direction is missing. -/
theorem C91_no_turn {n n' ω1 ω2 u : V3 ℝ} {m : V3 ℝ} (h1 : ρ1 = 0 ∨ ω1.cross n = n') (h2 : ρ2 = 0 ∨ ω2.cross n = n') :
    ballError dt ρ1 ρ2 n n' m ω1 ω2 u
      = ((1 / dt) • (n - m) - n').dot (u - ρ1 • ω1.cross n - ρ2 • ω2.cross n) := by
  have e : ∀ {ρ : ℝ} {ω : V3 ℝ}, (ρ = 0 ∨ ω.cross n = n') → ρ * (ω.cross n).dot (ω.cross n - n') = 0 := by
    rintro ρ ω (h | h)
    · rw [h, zero_mul]
    · rw [h]; simp [V3.dot]
  unfold ballError
  rw [e h1, e h2]
  ring

end

end Verif
