import Verif.Proofs.Barrier
import Verif.Props.ComPlane
import Verif.Props.CoM
import Verif.Props.BoundedSpeed
import Verif.Props.Realise
import Verif.Props.Converge
import Mathlib.Analysis.SpecialFunctions.Trigonometric.Deriv

/-!
# C80: dampers and speed bounds along the motion itself

The damper and speed rows bound a rate one time step ahead.  Here the loop is closed in continuous time: at every
instant the constraint is updated, `solve` succeeds with the constraint registered, and the robot moves with the
accelerations of the result.  The distances and velocities are those of the bodies.
-/

set_option autoImplicit false
set_option linter.unusedSectionVars false

namespace Verif

open Finset Spec

namespace Spec

/-- What RBDyn gives a `CoMIncPlaneConstr` for a robot with bodies `bs` at the configuration `st`. -/
def PlaneEnvOf (bs : List (BodyM ℝ)) (mb : MultiBody ℝ) (st : KState ℝ) (env : ComEnv ℝ) : Prop :=
  ∃ e, comEnv bs mb st = .ok e ∧ env = ⟨e.com, e.jac, e.vel, e.nacc⟩

/-- A fixed plane with normal `nrm`, offset `off`, interaction distance `di`, security distance `ds` and damping
`c`, registered with a positive damping. -/
def FixedPlane (nrm : V3 ℝ) (off di ds c : ℝ) (d : PlaneData ℝ) : Prop :=
  d.normal = nrm ∧ d.offset = off ∧ d.di = di ∧ d.ds = ds ∧ d.damping = c ∧ d.dtype = .hard ∧
  d.speed = 0 ∧ d.normalDot = 0

/-- Closed loop with a `CoMIncPlaneConstr` of robot `ri` (time step `dt`) in continuous time.  At every `t ≥ 0` the
constraint, after any calls, with the default selector and rows for all its planes, has the given plane; it is
updated at the configuration `st t`, some call of `solve` succeeds with it among the registered constraints, and the
joint accelerations of the robot are those of the result (they begin at variable `a`). -/
def PlaneLoop (mbs : List (MultiBody ℝ)) (mb : MultiBody ℝ) (ri : ℕ) (dt : ℝ) (bs : List (BodyM ℝ))
    (nrm : V3 ℝ) (off di ds c : ℝ) (st : ℝ → KState ℝ) : Prop :=
  mbs[ri]? = some mb ∧
  ∃ (s s' : ℝ → ComPlane ℝ) (env : ℝ → ComEnv ℝ) (a n : ℕ) (backend : String) (inp : ℝ → QPInput ℝ)
    (x : ℝ → ℕ → ℝ) (y : ℝ → Vec ℝ), ∀ t, 0 ≤ t →
      (PlaneReach mbs mb ri dt (s t) ∧ (s t).alphaDBegin = some a ∧ (s t).nrVars = n ∧
        (s t).data.length ≤ (s t).A.rows ∧ (∀ d ∈ (s t).data, d.ds ≠ d.di) ∧
        ∀ i < mb.nrDof, (s t).selector.get i = 1) ∧
      (∃ d ∈ (s t).data, FixedPlane nrm off di ds c d) ∧
      PlaneEnvOf bs mb (st t) (env t) ∧ (s t).update mbs (env t) = .ok (s' t) ∧
      Solved backend mbs n (inp t) (y t) ∧ (s' t).inEq ∈ (inp t).inEq ∧
      BodiesEvolve bs mb st x (fun i => (y t).get (a + i)) t

/-- What RBDyn gives a `BoundedSpeedConstr` for the point of a body: body Jacobian, velocity and normal
acceleration in the axes of the body. -/
def SpeedKinOf (mb : MultiBody ℝ) (st : KState ℝ) (c : SpeedData ℝ) (k : BodyKin6 ℝ) : Prop :=
  ∃ V A, Jac.bodyJacobian mb st ⟨c.path, c.point⟩ = .ok k.jac ∧
    Jac.bodyVelocity st ⟨c.path, c.point⟩ = .ok V ∧ Jac.bodyNormalAcc st ⟨c.path, c.point⟩ = .ok A ∧
    ∀ i < 6, k.vel i = V.get i ∧ k.nacc i = A.get i

end Spec

/-- The centre of mass is unique. -/
theorem isCoM_unique {bs : List (BodyM ℝ)} {st : KState ℝ} {c : V3 ℝ} (hm : MassOK bs) (hM : massSum bs ≠ 0)
    (h : IsCoM bs st c) :
    c = (1 / massSum bs) • ∑ i ∈ range bs.length, (bodyAt bs i).mass • comPos bs st i := by
  obtain ⟨p, hp, hc⟩ := h
  have e : ∀ i ∈ range bs.length, (bodyAt bs i).mass • ((PT.ofTrans (p i)).mul (kPose st i)).r
      = (bodyAt bs i).mass • comPos bs st i := by
    intro i hi
    have h1 := hp i (by simpa using hi)
    have h2 := mass_comPt hm (i := i) (by simpa using hi)
    have h3 : ∀ q : V3 ℝ, (bodyAt bs i).mass • q = (bodyAt bs i).h →
        (bodyAt bs i).mass • ((PT.ofTrans q).mul (kPose st i)).r
          = (bodyAt bs i).mass • (kPose st i).r + (kPose st i).E.transpose.mulVec (bodyAt bs i).h := by
      intro q hq
      rw [← hq]
      ext <;> simp [PT.mul, PT.ofTrans, M3.mulVec, V3.dot] <;> ring
    rw [h3 _ h1]
    exact (h3 _ h2).symm
  rw [← Finset.sum_congr rfl e, ← hc]
  ext <;> simp <;> field_simp

/-- The derivative of the velocity of a point of a body, in the axes of the body, is the body Jacobian times the
joint accelerations plus the body normal acceleration. -/
theorem body_vel_deriv {mb : MultiBody ℝ} {st : ℝ → KState ℝ} {path : List ℕ} {x : ℝ → ℕ → ℝ} {xd : ℕ → ℝ} {t : ℝ}
    (h : Evolves mb st path x xd t) {N : ℕ} (hN : path.getLast? = some N) (p : V3 ℝ) :
    HasDM (fun τ => (PT.ofTrans p).mulM (kVel (st τ) N))
      (((PT.ofTrans p).mul (kPose (st t) N)).mulM (wSum mb (st t) path xd)
        + (PT.ofTrans p).mulM (kAcc (st t) N)) t := by
  have hp : (PT.ofTrans p).Rigid := PT.rigid_ofTrans p
  have hrig := (h.moves t).rigid N (List.mem_of_getLast? hN)
  refine (frame_acc h hN (X := fun τ => (PT.ofTrans p).mul (kPose (st τ) N)) (Y := fun _ => PT.ofTrans p)
    (fun τ => rfl) ((h.frame N (List.mem_of_getLast? hN)).carried hp) (M3.IsRot.mul hp hrig)).congr_deriv ?_
  have : ∀ m : MV ℝ, m.cross m = 0 := by
    intro m
    ext <;> simp [MV.cross, V3.cross] <;> ring
  rw [this, sub_zero]

/-- **C80** (CoM planes).  Closed loop with the solver (`PlaneLoop`).  `com` is the centre of mass of the robot and `vel` its velocity; its distance to a
fixed plane is `nrm·com + off`.  The damping `c` is such that `c = r (1 - r dt) (di - ds)` for some rate `r` (there
is one exactly when `4 c dt ≤ di - ds`, see `C80_rates`).  If the centre of mass starts beyond the security
distance, with an approach speed at most `r` times the distance left, and approaches at most at `r (di - ds)` while
it is farther than the interaction distance, it is beyond the security distance at all times, and the approach
speed at most `r` times the distance left, whatever the tasks and the other constraints. -/
theorem C80_com_plane {mbs : List (MultiBody ℝ)} {mb : MultiBody ℝ} {ri : ℕ} {dt : ℝ} (hdt : 0 < dt)
    {bs : List (BodyM ℝ)} (hm : MassOK bs) (hM : massSum bs ≠ 0) {st : ℝ → KState ℝ}
    {nrm : V3 ℝ} {off di ds c r : ℝ} (hL : PlaneLoop mbs mb ri dt bs nrm off di ds c st)
    {com vel : ℝ → V3 ℝ} (hcom : ∀ t, IsCoM bs (st t) (com t)) (hvel : ∀ t, 0 ≤ t → HasD3 com (vel t) t)
    (hdd : ds < di) (hr : 0 ≤ r) (hc : c = r * (1 - r * dt) * (di - ds))
    (h0 : ds ≤ nrm.dot (com 0) + off) (hv0 : -(r * (nrm.dot (com 0) + off - ds)) ≤ nrm.dot (vel 0))
    (hout : ∀ t, 0 ≤ t → di < nrm.dot (com t) + off → -(r * (di - ds)) ≤ nrm.dot (vel t)) :
    ∀ t, 0 ≤ t → ds ≤ nrm.dot (com t) + off ∧ -(r * (nrm.dot (com t) + off - ds)) ≤ nrm.dot (vel t) := by
  obtain ⟨hmb, s, s', env, a, n, backend, inp, x, y, hL⟩ := hL
  have hs := fun t ht => (hL t ht).1
  have hplane := fun t ht => (hL t ht).2.1
  have henv := fun t ht => (hL t ht).2.2.1
  have hu := fun t ht => (hL t ht).2.2.2.1
  have hsol := fun t ht => (hL t ht).2.2.2.2.1
  have hin := fun t ht => (hL t ht).2.2.2.2.2.1
  have hev := fun t ht => (hL t ht).2.2.2.2.2.2
  have hR : 0 < di - ds := by linarith
  have ecom : com = fun τ => (1 / massSum bs) • ∑ i ∈ range bs.length, (bodyAt bs i).mass • comPos bs (st τ) i :=
    funext fun τ => isCoM_unique hm hM (hcom τ)
  have ones : ∀ i < bs.length, (List.replicate bs.length (1 : ℝ)).getD i 0 = 1 := fun i hi => getD_replicate_one hi
  have evel : ∀ t, 0 ≤ t → vel t
      = ∑ i ∈ range bs.length, comCoef bs (List.replicate bs.length 1) i • (comVel bs (st t) i).lin := by
    intro t ht
    have h1 := com_pos_deriv (hev t ht) hm ones
    rw [← ecom] at h1
    have h2 := hvel t ht
    ext
    · exact h2.1.unique h1.1
    · exact h2.2.1.unique h1.2.1
    · exact h2.2.2.unique h1.2.2
  let vel' : ℝ → V3 ℝ := fun τ => ∑ i ∈ range bs.length,
    comCoef bs (List.replicate bs.length 1) i • (comVel bs (st τ) i).lin
  let acc : ℝ → V3 ℝ := fun t => ∑ i ∈ range bs.length, comCoef bs (List.replicate bs.length 1) i •
      (comJacc bs mb (st t) (fun i => (y t).get (a + i)) i).lin
    + ∑ i ∈ range bs.length, comCoef bs (List.replicate bs.length 1) i • (comNacc bs (st t) i).lin
  have hdot : ∀ {f : ℝ → V3 ℝ} {f' : V3 ℝ} {t : ℝ}, HasD3 f f' t →
      HasDerivAt (fun τ => nrm.dot (f τ)) (nrm.dot f') t := by
    intro f f' t hf
    refine ((HasD3.const nrm t).dot hf).congr_deriv ?_
    simp [V3.dot]
  -- the row
  have hrow : ∀ t, 0 ≤ t → nrm.dot (com t) + off - ds ≤ di - ds →
      -(c * ((nrm.dot (com t) + off - ds) / (di - ds))) ≤ nrm.dot (vel' t) + dt * nrm.dot (acc t) := by
    intro t ht hle
    obtain ⟨k1, k2, k3, k4, k5, k6⟩ := hs t ht
    obtain ⟨e, he, hen⟩ := henv t ht
    obtain ⟨M, m1, m2, m3, m4⟩ := comEnv_ok ((hev t ht).moves t) hm hM
    have ee := Out.ok.inj (m1.symm.trans he)
    have hok : ComEnvOK mb (env t) := by rw [hen, ← ee]; exact ⟨m2, m3⟩
    obtain ⟨s1, e1, hU, -, -, -, hx⟩ := C36_update hmb k1 hok k2 k5 k4
    have e2 := Out.ok.inj (e1.symm.trans (hu t ht))
    subst e2
    obtain ⟨d₀, hd₀, p1, p2, p3, p4, p5, p6, p7, p8⟩ := hplane t ht
    obtain ⟨j, hj⟩ := List.getElem?_of_mem hd₀
    obtain ⟨d, hd, U⟩ := hU j d₀ hj
    obtain ⟨u1, u2, u3, u4, u5, u6, u7, u8, u9, u10⟩ := U
    have W := planeReach_wf hmb k1
    obtain ⟨⟨hsat, -⟩, -, -⟩ := solved_optimal (hsol t ht)
    have hsat' : SatInEq (s t).A.cols (s' t).inEq (y t).get := by
      rw [W.cols, k3]
      exact hsat.1.2.1 _ (hin t ht)
    have ecomt : (env t).com = com t := by rw [hen, ← ee, ecom]
    have hdist : d.dist = nrm.dot (com t) + off := by rw [u9, p1, p2, ecomt]
    have hdi : d.di = di := u4.trans p3
    have hds : d.ds = ds := u5.trans p4
    have hdamp : d.damping = c := by
      split at u10
      · rw [if_neg (by rw [p6]; decide)] at u10
        exact u10.2.trans p5
      · exact u10.1.trans p5
    have key := (hx (y t).get).mp hsat' d (List.mem_of_getElem? hd) (by rw [hdist, hdi]; linarith)
    unfold planeDamper planeRate at key
    rw [hdist, hdi, hds, hdamp, u1, u2, u8, p1, p7, p8] at key
    have evt : (env t).vel = vel' t := by rw [hen, ← ee]
    have ena : (env t).normalAcc = ∑ i ∈ range bs.length,
        comCoef bs (List.replicate bs.length 1) i • (comNacc bs (st t) i).lin := by rw [hen, ← ee]
    have eja : (env t).jac = M := by rw [hen, ← ee]
    have eacc : comAcc mb.nrDof (s t).selector (env t).jac a (y t).get
        = ∑ i ∈ range bs.length, comCoef bs (List.replicate bs.length 1) i •
            (comJacc bs mb (st t) (fun i => (y t).get (a + i)) i).lin := by
      have : ∀ q < 3, (∑ i ∈ range mb.nrDof, (env t).jac.get q i * ((s t).selector.get i * (y t).get (a + i)))
          = M.rowMul q fun i => (y t).get (a + i) := by
        intro q _
        unfold Mat.rowMul
        rw [m3, eja]
        refine Finset.sum_congr rfl fun i hi => ?_
        rw [k6 i (by simpa using hi), one_mul]
      unfold comAcc
      dsimp only
      rw [this 0 (by norm_num), this 1 (by norm_num), this 2 (by norm_num), m4 _ 0 (by norm_num),
        m4 _ 1 (by norm_num), m4 _ 2 (by norm_num)]
      rfl
    rw [evt, ena, eacc] at key
    refine key.trans (le_of_eq ?_)
    simp only [acc]
    simp [V3.dot, -mul_eq_mul_left_iff]
    ring
  have B := damper_barrier (D := fun t => nrm.dot (com t) + off - ds) (V := fun t => nrm.dot (vel' t))
    (A := fun t => nrm.dot (acc t)) (R := di - ds) (c := c) hdt hr hc.symm hR
    (fun t ht => by
      have := ((hdot (hvel t ht)).add_const off).sub_const ds
      rw [evel t ht] at this
      exact this)
    (fun t ht => hdot (com_vel_deriv (hev t ht) _)) hrow
    (fun t ht h => by
      have := hout t ht (by linarith)
      rw [evel t ht] at this
      exact this)
    (by linarith) (by
      have := hv0
      rw [evel 0 le_rfl] at this
      exact this)
  intro t ht
  obtain ⟨b1, b2⟩ := B t ht
  rw [evel t ht]
  exact ⟨by linarith, b2⟩

/-- **C80** (admissible dampings): a positive damping is `r (1 - r dt) R` for some rate `r ≥ 0` exactly when
`4 c dt ≤ R`; then there is such a rate of at least `1 / (2 dt)`. -/
theorem C80_rates {R c dt : ℝ} (hR : 0 < R) (hdt : 0 < dt) :
    ((∃ r, 0 ≤ r ∧ c = r * (1 - r * dt) * R) ↔ 4 * c * dt ≤ R) ∧
    (4 * c * dt ≤ R → ∃ r, 1 / (2 * dt) ≤ r ∧ c = r * (1 - r * dt) * R) := by
  have key : 4 * c * dt ≤ R → ∃ r, 1 / (2 * dt) ≤ r ∧ c = r * (1 - r * dt) * R := by
    intro h
    have hn : 0 ≤ 1 - 4 * c * dt / R := by
      rw [sub_nonneg, div_le_one hR]; exact h
    have hs := Real.mul_self_sqrt hn
    have hs0 := Real.sqrt_nonneg (1 - 4 * c * dt / R)
    refine ⟨(1 + Real.sqrt (1 - 4 * c * dt / R)) / (2 * dt), ?_, ?_⟩
    · exact div_le_div_of_nonneg_right (by linarith) (by positivity)
    have : (1 + Real.sqrt (1 - 4 * c * dt / R)) / (2 * dt)
        * (1 - (1 + Real.sqrt (1 - 4 * c * dt / R)) / (2 * dt) * dt) * R
        = (1 - Real.sqrt (1 - 4 * c * dt / R) * Real.sqrt (1 - 4 * c * dt / R)) * R / (4 * dt) := by
      field_simp
      ring
    rw [this, hs]
    field_simp
    ring
  refine ⟨⟨?_, fun h => ?_⟩, key⟩
  · rintro ⟨r, -, rfl⟩
    have : 0 ≤ R * (1 - 2 * r * dt) ^ 2 := mul_nonneg hR.le (sq_nonneg _)
    nlinarith
  · obtain ⟨r, h1, h2⟩ := key h
    exact ⟨r, (by positivity : (0 : ℝ) ≤ 1 / (2 * dt)).trans h1, h2⟩

/-- **C80** (bounded speeds).  Closed loop with the solver and a `BoundedSpeedConstr` of robot `r`, in continuous
time.  `c` is a registered entry, `V` the velocity of its point in the axes of its body.  If the selected component
`q` of the velocity starts within its bounds it stays within, whatever the tasks and the other constraints. -/
theorem C80_bounded_speed {mbs : List (MultiBody ℝ)} {rk : RobotKin ℝ} {r : ℕ} {dt : ℝ} (hdt : 0 < dt)
    {mb : MultiBody ℝ} (hmb : mbs[r]? = some mb) {d : SolverData ℝ} {a : ℕ} (ha : d.alphaDBegin[r]? = some a)
    {s s' : ℝ → BoundedSpeed ℝ} {st : ℝ → KState ℝ} {kin : ℝ → String → V3 ℝ → BodyKin6 ℝ} {backend : String}
    {inp : ℝ → QPInput ℝ} {x : ℝ → ℕ → ℝ} {y : ℝ → Vec ℝ}
    (hs : ∀ t, 0 ≤ t → SpeedRun mbs rk r dt true (some d) (s t) ∧
      ∀ c ∈ (s t).cont, SpeedShaped mb c ∧ KinShaped mb (kin t) c)
    (hu : ∀ t, 0 ≤ t → (s t).update mbs (kin t) = .ok (s' t))
    (hsol : ∀ t, 0 ≤ t → Solved backend mbs d.nrVars (inp t) (y t))
    (hin : ∀ t, 0 ≤ t → (s' t).gen ∈ (inp t).gen)
    {c : SpeedData ℝ} (hc : ∀ t, 0 ≤ t → c ∈ (s t).cont)
    (hkin : ∀ t, 0 ≤ t → SpeedKinOf mb (st t) c (kin t c.bodyName c.point)) {N : ℕ}
    (hN : c.path.getLast? = some N)
    (hev : ∀ t, 0 ≤ t → Evolves mb st c.path x (fun i => (y t).get (a + i)) t)
    {V : ℝ → MV ℝ} (hV : ∀ t, Jac.bodyVelocity (st t) ⟨c.path, c.point⟩ = .ok (V t))
    {q : ℕ} (hq : q < c.dof.rows) :
    ((c.l.get q).LowerOK (∑ k ∈ range 6, c.dof.get q k * (V 0).get k) →
      ∀ t, 0 ≤ t → (c.l.get q).LowerOK (∑ k ∈ range 6, c.dof.get q k * (V t).get k)) ∧
    ((c.u.get q).UpperOK (∑ k ∈ range 6, c.dof.get q k * (V 0).get k) →
      ∀ t, 0 ≤ t → (c.u.get q).UpperOK (∑ k ∈ range 6, c.dof.get q k * (V t).get k)) := by
  have hmem := List.mem_of_getLast? hN
  have hVe : ∀ τ, V τ = (PT.ofTrans c.point).mulM (kVel (st τ) N) := by
    intro τ
    have h1 := hV τ
    unfold Jac.bodyVelocity at h1
    rw [jac_velAt ((hev 0 le_rfl).moves τ).sized hN] at h1
    exact (Out.ok.inj h1).symm
  let A : ℝ → MV ℝ := fun t => ((PT.ofTrans c.point).mul (kPose (st t) N)).mulM
      (wSum mb (st t) c.path fun i => (y t).get (a + i))
    + (PT.ofTrans c.point).mulM (kAcc (st t) N)
  have hder : ∀ t, 0 ≤ t → HasDerivAt (fun τ => ∑ k ∈ range 6, c.dof.get q k * (V τ).get k)
      (∑ k ∈ range 6, c.dof.get q k * (A t).get k) t := by
    intro t ht
    have h1 := body_vel_deriv (hev t ht) hN c.point
    rw [show V = fun τ => (PT.ofTrans c.point).mulM (kVel (st τ) N) from funext hVe]
    have := HasDerivAt.sum (u := range 6) (fun k _ => (h1.get k).const_mul (c.dof.get q k))
    refine this.congr_of_eventuallyEq (Filter.Eventually.of_forall fun τ => ?_)
    simp
  have hrow : ∀ t, 0 ≤ t →
      (c.l.get q).LowerOK (∑ k ∈ range 6, c.dof.get q k * (V t).get k
        + dt * ∑ k ∈ range 6, c.dof.get q k * (A t).get k) ∧
      (c.u.get q).UpperOK (∑ k ∈ range 6, c.dof.get q k * (V t).get k
        + dt * ∑ k ∈ range 6, c.dof.get q k * (A t).get k) := by
    intro t ht
    obtain ⟨s1, a', e1, -, k1, -, -, -, -, -, -, hx⟩ := C38_rows mbs rk r dt mb hmb hdt d (s t) (hs t ht).1 (kin t)
      (fun c hc => ((hs t ht).2 c hc).1) (fun c hc => ((hs t ht).2 c hc).2)
    have := Out.ok.inj (e1.symm.trans (hu t ht))
    subst this
    have : a' = a := Option.some.inj (k1.symm.trans ha)
    subst this
    obtain ⟨⟨hsat, -⟩, -, -⟩ := solved_optimal (hsol t ht)
    have hok := (hx (y t).get).mp (hsat.1.2.2 _ (hin t ht)) c (hc t ht) q hq
    obtain ⟨V', A', j1, j2, j3, j4⟩ := hkin t ht
    have hm := (hev t ht).moves t
    rw [jac_bodyJac (J := ⟨c.path, c.point⟩) hm.sized hN] at j1
    have eJ := Out.ok.inj j1
    have eV : V' = V t := Out.ok.inj (j2.symm.trans (hV t))
    have eA : A' = (PT.ofTrans c.point).mulM (kAcc (st t) N) := by
      unfold Jac.bodyNormalAcc at j3
      rw [jac_accAt hm.sized hN] at j3
      rw [← Out.ok.inj j3]
      ext <;> simp [MV.cross, V3.cross, kAcc]
    have e : ∑ k ∈ range 6, c.dof.get q k * speedAfter mb (kin t) dt a' (y t).get c k
        = ∑ k ∈ range 6, c.dof.get q k * (V t).get k + dt * ∑ k ∈ range 6, c.dof.get q k * (A t).get k := by
      rw [Finset.mul_sum, ← Finset.sum_add_distrib]
      refine Finset.sum_congr rfl fun k hk => ?_
      have hk6 : k < 6 := by simpa using hk
      obtain ⟨v1, v2⟩ := j4 k hk6
      have hJ : ∑ i ∈ range mb.nrDof, onDofs mb c.path (fun p => (kin t c.bodyName c.point).jac.get k p) i
          * (y t).get (a' + i) = (((PT.ofTrans c.point).mul (kPose (st t) N)).mulM
            (wSum mb (st t) c.path fun i => (y t).get (a' + i))).get k := by
        have := full_gen hm.sized.mem hm.rigid ((PT.ofTrans c.point).mul (kPose (st t) N))
          ⟨6, mb.nrDof, fun k i => onDofs mb c.path (fun p => (kin t c.bodyName c.point).jac.get k p) i⟩ 6
          (fun a v => v.get a) lin_get rfl (fun a _ i _ => by rw [← eJ]) (fun i => (y t).get (a' + i)) k hk6
        exact this
      unfold speedAfter
      rw [hJ, v1, v2, eV, eA]
      simp only [A, MV.get_add]
      ring
    rw [e] at hok
    exact hok
  constructor
  · intro h0 t ht
    generalize c.l.get q = b at *
    cases b with
    | negInf => trivial
    | posInf => exact h0.elim
    | fin l => exact bound_barrier hdt hder (fun t ht => (hrow t ht).1) h0 t ht
  · intro h0 t ht
    generalize c.u.get q = b at *
    cases b with
    | posInf => trivial
    | negInf => exact h0.elim
    | fin u =>
      have := bound_barrier (V := fun τ => -∑ k ∈ range 6, c.dof.get q k * (V τ).get k)
        (A := fun τ => -∑ k ∈ range 6, c.dof.get q k * (A τ).get k) (l := -u) hdt (fun t ht => (hder t ht).neg)
        (fun t ht => by have : _ ≤ u := (hrow t ht).2; linarith)
        (by have : _ ≤ u := h0; linarith) t ht
      show _ ≤ u
      linarith

/-! ## Examples -/

namespace BarrierEx

open ConvEx (mb)
open ComEx (bs massOK massNe mass)

/-- A slider along `x` at position `q`, velocity `v`. -/
def st (q v : ℝ → ℝ) (τ : ℝ) : KState ℝ :=
  ⟨[PT.ofTrans ⟨q τ, 0, 0⟩], [⟨0, ⟨v τ, 0, 0⟩⟩], [[⟨0, ⟨1, 0, 0⟩⟩]], [[v τ]], [0]⟩

theorem evolves {q v acc : ℝ → ℝ} {t : ℝ} (hq : HasDerivAt q (v t) t) (hv : HasDerivAt v (acc t) t) {xd : ℕ → ℝ}
    (hx : ∀ i, xd i = acc t) : Evolves mb (st q v) [0] (fun τ _ => v τ) xd t := by
  refine ⟨fun τ => ⟨⟨by simp, by simp, by simp [mb], by simp [st], by simp [st], by simp [st], ?_⟩,
    ?_, ?_⟩, fun τ i _ d => rfl, fun c => by rw [hx]; exact hv, ?_, ?_⟩
  · simp [st, mb, jdof]
  · intro i hi
    simp at hi
    subst hi
    exact PT.rigid_ofTrans _
  · refine ⟨?_, trivial⟩
    ext <;> simp [kVel, kSub, st, mb, jdof, jpos]
  · intro i hi
    simp at hi
    subst hi
    refine ⟨fun v => ((HasD3.const v t).congr_fun fun τ => M3.one_mulVec v).congr_deriv ?_,
      ⟨?_, ?_, ?_⟩⟩
    · ext <;> simp [kVel, st]
    · refine hq.congr_deriv ?_
      simp [kVel, kPose, st, PT.ofTrans, M3.transpose, M3.one, M3.mulVec, V3.dot]
    · refine (hasDerivAt_const t (0 : ℝ)).congr_deriv ?_
      simp [kVel, kPose, st, PT.ofTrans, M3.transpose, M3.one, M3.mulVec, V3.dot]
    · refine (hasDerivAt_const t (0 : ℝ)).congr_deriv ?_
      simp [kVel, kPose, st, PT.ofTrans, M3.transpose, M3.one, M3.mulVec, V3.dot]
  · refine ⟨?_, trivial⟩
    ext <;> simp [kVel, kSub, kAcc, st, mb, jdof, jpos, MV.cross]

theorem bodies {q v acc : ℝ → ℝ} {t : ℝ} (hq : HasDerivAt q (v t) t) (hv : HasDerivAt v (acc t) t) {xd : ℕ → ℝ}
    (hx : ∀ i, xd i = acc t) : BodiesEvolve bs mb (st q v) (fun τ _ => v τ) xd t := by
  intro i hi
  have : i = 0 := by simp [bs] at hi; exact hi
  subst this
  exact ⟨rfl, evolves hq hv hx⟩

theorem isCoM (q v : ℝ → ℝ) (t : ℝ) : IsCoM bs (st q v t) ⟨q t, 0, 1⟩ := by
  refine ⟨fun _ => ⟨0, 0, 1⟩, fun i hi => ?_, ?_⟩
  · have : i = 0 := by simp [bs] at hi; exact hi
    subst this
    ext <;> simp [bs, bodyAt]
  · rw [mass]
    ext <;> simp [bs, bodyAt, kPose, st, PT.mul, PT.ofTrans, M3.transpose, M3.one, M3.mulVec, V3.dot]

/-- The task `(x₀ - p)² / 2` (up to a constant). -/
def pull (p : ℝ) : TaskQC ℝ := ⟨Mat.ofRows 1 [[1]], Vec.ofList [-p], (0, 0), 1⟩

/-- A successful step with that task, some constraints and the acceleration `y`, when `y` satisfies the constraints
and is the closest to `p` that does. -/
theorem solve1 {p y : ℝ} {ie : List (InEqC ℝ)} {ge : List (GenC ℝ)} (h1 : ∀ c ∈ ie, c.Sized 1) (h2 : ∀ c ∈ ge, c.Sized 1)
    (hy : AllSatisfied 1 ⟨[pull p], [], ie, ge, []⟩ fun _ => y)
    (hopt : ∀ z, AllSatisfied 1 ⟨[pull p], [], ie, ge, []⟩ z → (y - p) ^ 2 ≤ (z 0 - p) ^ 2) :
    ∃ x, Solved "QLD" [mb] 1 ⟨[pull p], [], ie, ge, []⟩ x ∧ ∀ i, x.get i = y := by
  have hno : ∀ m ∈ [mb], NoMimic m := by
    intro m hm j hj
    simp only [List.mem_singleton] at hm
    subst hm
    simp only [mb, List.mem_singleton] at hj
    subst hj
    rfl
  have hok : ∀ m ∈ [mb], MimicOK m := by
    intro m hm
    refine ⟨?_, fun j hj l q h => by rw [hno m hm j hj] at h; cases h⟩
    simp only [List.mem_singleton] at hm
    subst hm
    simp [mb]
  have hobj : ∀ z : ℕ → ℝ, objective 1 ⟨[pull p], [], ie, ge, []⟩ z = ((z 0 - p) ^ 2 - p ^ 2) / 2 := by
    intro z
    unfold objective
    rw [Finset.sum_eq_zero fun i hi => ?_]
    · simp only [TaskQC.obj, pull, Mat.ofRows, Vec.ofList, List.map_cons, List.map_nil, List.sum_cons, List.sum_nil,
        List.length_cons, List.length_nil, Finset.sum_range_succ, Finset.sum_range_zero, List.getD_cons_zero]
      simp
      ring
    · simp only [mem_filter, mem_range] at hi
      have h0 : i = 0 := by omega
      subst h0
      have := hi.2
      simp [accDiag, TaskQC.q, pull, Mat.ofRows] at this
      norm_num at this
  refine realise (mbs := [mb]) (uni := []) (bi := []) (mbcs := [⟨[[0]], [PT.one], [0], [0], ()⟩])
    (inp := ⟨[pull p], [], ie, ge, []⟩) hok hno ?_
    (by intro c hc; simp at hc) rfl ?_ ⟨?_, by simp, h1, h2, by simp⟩ Nat.one_pos (by simp) hy (fun z hz => ?_)
  · intro m hm _
    simp only [List.mem_singleton] at hm
    subst hm
    refine ⟨rfl, rfl, rfl, ?_⟩
    intro i p h
    match i with
    | 0 => simp [mb] at h; exact Or.inl h.symm
    | k + 1 => simp [mb] at h
  · intro r m mc hr hmm
    cases r with
    | zero => simp at hr hmm; subst hr; subst hmm; exact ⟨rfl, fun _ => ⟨rfl, rfl, rfl⟩⟩
    | succ r => simp at hr
  · intro t ht
    simp only [List.mem_singleton] at ht
    subst ht
    show TaskQC.Sized 1 _
    simp [TaskQC.Sized, pull, Mat.ofRows, Vec.ofList]
  · have e : nrVariables [mb] ([] : List (UniContact ℝ)) [] = 1 := rfl
    rw [e, hobj, hobj]
    have := hopt z hz
    linarith

/-- Plane `x = 0`, interaction distance 2, security distance 1, damping `c`. -/
def plane (c : ℝ) : PlaneData ℝ := ⟨⟨1, 0, 0⟩, 0, 0, 0, 2, 1, c, 7, .hard, 0, 0⟩

def constr (dt c : ℝ) : ComPlane ℝ :=
  ⟨0, some 0, [plane c], dt, 1, 0, ⟨1, fun _ => 1⟩, Mat.zero 1 1, ⟨1, fun _ => 0⟩⟩

theorem constr_reach (dt : ℝ) {c : ℝ} (hc : 0 < c) : PlaneReach [mb] mb 0 dt (constr dt c) := by
  refine .step _ _ (.updateNrVars { (SolverData.init : SolverData ℝ) with
    alphaD := [1], alphaDBegin := [0], totalAlphaD := 1, nrVars := 1 })
    (.step _ _ (.add 7 ⟨1, 0, 0⟩ 0 2 1 c 0 0 0) .make trivial rfl) ?_ ?_
  · intro a h
    simp at h
    subst h
    decide
  · simp [PlaneOp.run, ComPlane.updateNrVars, ComPlane.add, ComPlane.make, vecAt, constr, plane,
      ComPlane.updateNrPlanes, mb, MultiBody.nrDof, hc]

/-- A task pulls the slider towards the plane, the damper allows no more: every motion in the zone that uses up what
the damper allows is a closed loop. -/
theorem loop {q v acc : ℝ → ℝ} {dt c : ℝ} (hc : 0 < c) (hdt : 0 < dt) (hq : ∀ t, 0 ≤ t → HasDerivAt q (v t) t)
    (hv : ∀ t, 0 ≤ t → HasDerivAt v (acc t) t) (hz : ∀ t, 0 ≤ t → q t ≤ 2)
    (hb : ∀ t, 0 ≤ t → v t + dt * acc t = -(c * (q t - 1))) :
    PlaneLoop [mb] mb 0 dt bs ⟨1, 0, 0⟩ 0 2 1 c (st q v) := by
  refine ⟨rfl, ?_⟩
  have main : ∀ t, 0 ≤ t → ∃ s' env inp y, PlaneEnvOf bs mb (st q v t) env ∧
      (constr dt c).update [mb] env = .ok s' ∧ Solved "QLD" [mb] 1 inp y ∧ s'.inEq ∈ inp.inEq ∧
      ∀ i, y.get i = acc t := by
    intro t ht
    obtain ⟨M, m1, m2, m3, m4⟩ := comEnv_ok (mb := mb) (st := st q v t)
      ((bodies (hq t ht) (hv t ht) (xd := fun _ => acc t) fun _ => rfl).moves t) massOK massNe
    have z1 : comCoef bs (List.replicate bs.length (1 : ℝ)) 0 = 1 := by
      rw [comCoef_one massOK (by simp [bs]) (getD_replicate_one (by simp [bs])), mass]
      simp [bs, bodyAt]
    have ecom : (1 / massSum bs) • ∑ i ∈ range bs.length, (bodyAt bs i).mass • comPos bs (st q v t) i = ⟨q t, 0, 1⟩ :=
      (isCoM_unique massOK massNe (isCoM q v t)).symm
    have evel : ∑ i ∈ range bs.length, comCoef bs (List.replicate bs.length (1 : ℝ)) i • (comVel bs (st q v t) i).lin
        = ⟨v t, 0, 0⟩ := by
      rw [show bs.length = 1 from rfl] at z1 ⊢
      rw [Finset.sum_range_one, z1]
      ext <;> simp [comVel, kPose, kVel, st, PT.mul, PT.mulM, PT.ofTrans, PT.ofRot, M3.transpose, M3.one, M3.mul,
        M3.mulVec, V3.dot]
    have enacc : ∑ i ∈ range bs.length, comCoef bs (List.replicate bs.length (1 : ℝ)) i • (comNacc bs (st q v t) i).lin
        = 0 := by
      rw [show bs.length = 1 from rfl] at z1 ⊢
      rw [Finset.sum_range_one, z1]
      ext <;> simp [comNacc, kPose, kVel, kAcc, st, PT.mul, PT.mulM, PT.ofTrans, PT.ofRot, M3.transpose, M3.one, M3.mul,
        M3.mulVec, V3.dot, MV.cross]
    have ejac : ∀ z, M.rowMul 0 z = z 0 := by
      intro z
      rw [m4 z 0 (by norm_num), show bs.length = 1 from rfl]
      rw [show bs.length = 1 from rfl] at z1
      rw [Finset.sum_range_one, z1]
      simp [comJacc, wSum, pathSum, bs, bodyAt, V3.get, kPose, kSub, st, jdof, jpos, mb, PT.mul, PT.mulM, PT.inv,
        PT.ofTrans, PT.ofRot, M3.transpose, M3.one, M3.mul, M3.mulVec, V3.dot]
    rw [ecom, evel, enacc] at m1
    let env : ComEnv ℝ := ⟨⟨q t, 0, 1⟩, M, ⟨v t, 0, 0⟩, 0⟩
    have hok : ComEnvOK mb env := ⟨m2, m3⟩
    have W := planeReach_wf (mb := mb) rfl (constr_reach dt hc)
    have hd : ∀ d ∈ (constr dt c).data, d.ds ≠ d.di := by
      intro d hd
      simp [constr, plane] at hd
      subst hd
      norm_num
    obtain ⟨s', e, hU, hl, hn, -, hx⟩ := C36_update (mb := mb) rfl (constr_reach dt hc) hok (a := 0) rfl hd le_rfl
    obtain ⟨s1, e1, I⟩ := plane_update (mbs := [mb]) (mb := mb) rfl (W.ready hok (a := 0) rfl) hd le_rfl le_rfl
    have := Out.ok.inj (e1.symm.trans e)
    subst this
    obtain ⟨d, hd, U⟩ := hU 0 _ rfl
    obtain ⟨u1, u2, u3, u4, u5, u6, u7, u8, u9, u10⟩ := U
    have hdata : s1.data = [d] := by
      cases h : s1.data with
      | nil => rw [h] at hd; simp at hd
      | cons a t => rw [h] at hl hd; simp [constr] at hl hd; rw [hl, hd]
    have hdist : d.dist = q t := by rw [u9]; simp [plane, env, V3.dot]
    have hdi : d.di = 2 := u4
    have hds : d.ds = 1 := u5
    have hdamp : d.damping = c := by
      split at u10
      · rw [if_neg (by simp [plane])] at u10; exact u10.2
      · exact u10.1
    have hrow : ∀ z, SatInEq 1 s1.inEq z ↔ -(c * (q t - 1)) ≤ v t + dt * z 0 := by
      intro z
      have : SatInEq 1 s1.inEq z ↔ _ := hx z
      rw [this, hdata]
      simp only [List.mem_singleton, forall_eq]
      rw [hdist, hdi]
      have hacc : (comAcc mb.nrDof (constr dt c).selector env.jac 0 z).x = z 0 := by
        have := ejac z
        unfold Mat.rowMul at this
        rw [m3] at this
        simpa [comAcc, constr, env] using this
      have e2 : planeDamper d = c * (q t - 1) := by
        unfold planeDamper
        rw [hdist, hdi, hds, hdamp]
        norm_num
      have e3 : planeRate mb.nrDof env (constr dt c).selector 0 dt d z = v t + dt * z 0 := by
        unfold planeRate
        rw [u1, u2, u8]
        simp [plane, V3.dot, hacc]
        simp [env]
      rw [e2, e3]
      exact ⟨fun h => h (hz t ht), fun h _ => h⟩
    have hsz : ∀ k ∈ [s1.inEq], k.Sized 1 := by
      intro k hk
      simp only [List.mem_singleton] at hk
      subst hk
      have h1 : s1.nrAct ≤ 1 := by
        have : s1.nrAct = _ := hn
        rw [this, hdata]
        exact List.length_filter_le _ _
      refine ⟨?_, ?_, ?_, ?_⟩
      · show s1.nrAct ≤ s1.data.length
        rw [hdata]; exact h1
      · show s1.nrAct ≤ s1.A.rows
        rw [I.arows]; exact h1
      · show 1 ≤ s1.A.cols
        rw [I.ready.cols]; exact le_rfl
      · show s1.nrAct ≤ s1.b.size
        rw [I.bsize]; exact h1
    have hall : ∀ z, AllSatisfied 1 ⟨[pull (acc t - 1)], [], [s1.inEq], [], []⟩ z ↔ SatInEq 1 s1.inEq z := by
      intro z
      refine ⟨fun h => h.1.2.1 _ (by simp), fun h => ⟨⟨by simp, ?_, by simp⟩, by simp⟩⟩
      intro k hk
      simp only [List.mem_singleton] at hk
      subst hk
      exact h
    obtain ⟨y, hy1, hy2⟩ := solve1 (p := acc t - 1) (y := acc t) (ie := [s1.inEq]) (ge := []) hsz (by simp)
      ((hall _).mpr ((hrow _).mpr (by rw [hb t ht])))
      (fun z hz => by
        have h1 := (hrow z).mp ((hall z).mp hz)
        rw [← hb t ht] at h1
        have h2 : acc t ≤ z 0 := le_of_mul_le_mul_left (by linarith) hdt
        nlinarith)
    exact ⟨s1, env, _, y, ⟨_, m1, rfl⟩, e, hy1, by simp, hy2⟩
  have main' : ∀ t, ∃ s' env inp y, 0 ≤ t → PlaneEnvOf bs mb (st q v t) env ∧
      (constr dt c).update [mb] env = .ok s' ∧ Solved "QLD" [mb] 1 inp y ∧ s'.inEq ∈ inp.inEq ∧
      ∀ i, y.get i = acc t := by
    intro t
    by_cases ht : 0 ≤ t
    · obtain ⟨s', env, inp, y, h⟩ := main t ht
      exact ⟨s', env, inp, y, fun _ => h⟩
    · exact ⟨constr dt c, ⟨0, Mat.zero 0 0, 0, 0⟩, ⟨[], [], [], [], []⟩, ⟨0, fun _ => 0⟩, fun h => absurd h ht⟩
  choose s' env inp y h using main'
  refine ⟨fun _ => constr dt c, s', env, 0, 1, "QLD", inp, fun τ _ => v τ, y, fun t ht => ?_⟩
  obtain ⟨h1, h2, h3, h4, h5⟩ := h t ht
  refine ⟨⟨constr_reach dt hc, rfl, rfl, le_rfl, ?_, fun _ _ => rfl⟩, ⟨plane c, by simp [constr], rfl, rfl, rfl, rfl, rfl, rfl,
    rfl, rfl⟩, h1, h2, h3, h4, bodies (hq t ht) (hv t ht) fun i => h5 _⟩
  intro d hd
  simp [constr, plane] at hd
  subst hd
  norm_num

theorem com_moves {q v : ℝ → ℝ} {t : ℝ} (hq : HasDerivAt q (v t) t) :
    HasD3 (fun τ => (⟨q τ, 0, 1⟩ : V3 ℝ)) ⟨v t, 0, 0⟩ t :=
  ⟨hq, hasDerivAt_const _ _, hasDerivAt_const _ _⟩

/-- **C80** applies: from twice the security distance the slider is pulled towards the plane; with time step `1/4`
and damping `3/4` (rate 1) it is at `1 + exp (-t)`. -/
example : ∃ q v : ℝ → ℝ, PlaneLoop [mb] mb 0 (1/4) bs ⟨1, 0, 0⟩ 0 2 1 (3/4) (st q v) ∧
    (∀ t, q t = 1 + Real.exp (-t)) ∧ ∀ t, 0 ≤ t → 1 ≤ (⟨1, 0, 0⟩ : V3 ℝ).dot ⟨q t, 0, 1⟩ + 0 ∧
      -(1 * ((⟨1, 0, 0⟩ : V3 ℝ).dot ⟨q t, 0, 1⟩ + 0 - 1)) ≤ (⟨1, 0, 0⟩ : V3 ℝ).dot ⟨v t, 0, 0⟩ := by
  have hq : ∀ t, 0 ≤ t → HasDerivAt (fun τ => 1 + Real.exp (-τ)) (-Real.exp (-t)) t := fun t _ =>
    (ConvEx.exp_deriv t).const_add 1
  have hv : ∀ t, 0 ≤ t → HasDerivAt (fun τ => -Real.exp (-τ)) (Real.exp (-t)) t := fun t _ =>
    (ConvEx.exp_deriv t).neg.congr_deriv (by ring)
  have hle : ∀ t : ℝ, 0 ≤ t → Real.exp (-t) ≤ 1 := fun t ht => Real.exp_le_one_iff.mpr (by linarith)
  have L := loop (q := fun τ => 1 + Real.exp (-τ)) (v := fun τ => -Real.exp (-τ)) (acc := fun τ => Real.exp (-τ))
    (dt := 1/4) (c := 3/4) (by norm_num) (by norm_num) hq hv (fun t ht => by linarith [hle t ht]) (fun t _ => by ring)
  refine ⟨_, _, L, fun _ => rfl, C80_com_plane (by norm_num) massOK massNe L (fun t => isCoM _ _ t)
    (fun t ht => com_moves (q := fun τ => 1 + Real.exp (-τ)) (v := fun τ => -Real.exp (-τ)) (hq t ht))
    (by norm_num) (by norm_num) (by norm_num) ?_ ?_ fun t ht h => ?_⟩
  · simp [V3.dot]
  · simp [V3.dot]
  · simp [V3.dot] at h ⊢
    linarith [hle t ht]

/-- **C80** (the bound on the damping is needed).  Time step `1/2` and damping 1 on a zone of width 1: the damping
times the step is half the width of the zone, and the approach speed is at the start the distance left.  The slider
follows `1 + exp (-t) cos t`: it is beyond the security distance at `t = π`. -/
theorem C80_damping_counterexample : ∃ q v : ℝ → ℝ, PlaneLoop [mb] mb 0 (1/2) bs ⟨1, 0, 0⟩ 0 2 1 1 (st q v) ∧
    (∀ t, IsCoM bs (st q v t) ⟨q t, 0, 1⟩) ∧ (∀ t, 0 ≤ t → HasD3 (fun τ => (⟨q τ, 0, 1⟩ : V3 ℝ)) ⟨v t, 0, 0⟩ t) ∧
    q 0 = 2 ∧ v 0 = -1 ∧ (∀ t, 0 ≤ t → q t ≤ 2) ∧ q Real.pi < 1 := by
  let q : ℝ → ℝ := fun τ => 1 + Real.exp (-τ) * Real.cos τ
  let v : ℝ → ℝ := fun τ => -(Real.exp (-τ) * (Real.cos τ + Real.sin τ))
  let acc : ℝ → ℝ := fun τ => 2 * (Real.exp (-τ) * Real.sin τ)
  have hq : ∀ t, 0 ≤ t → HasDerivAt q (v t) t := fun t _ =>
    (((ConvEx.exp_deriv t).mul (Real.hasDerivAt_cos t)).const_add 1).congr_deriv (by simp only [v]; ring)
  have hv : ∀ t, 0 ≤ t → HasDerivAt v (acc t) t := fun t _ =>
    (((ConvEx.exp_deriv t).mul ((Real.hasDerivAt_cos t).add (Real.hasDerivAt_sin t))).neg).congr_deriv (by
      simp only [acc]; simp; ring)
  have hz : ∀ t, 0 ≤ t → q t ≤ 2 := by
    intro t ht
    have h1 : Real.exp (-t) ≤ 1 := Real.exp_le_one_iff.mpr (by linarith)
    have h2 := Real.cos_le_one t
    have h3 := Real.exp_pos (-t)
    show 1 + Real.exp (-t) * Real.cos t ≤ 2
    nlinarith
  have L := loop (q := q) (v := v) (acc := acc) (dt := 1/2) (c := 1) one_pos (by norm_num) hq hv hz (fun t _ => by
    simp only [q, v, acc]; ring)
  refine ⟨q, v, L, isCoM q v, fun t ht => com_moves (hq t ht), ?_, ?_, hz, ?_⟩
  · simp [q]; norm_num
  · simp [v]
  · simp [q, Real.exp_pos]

/-- One row: the velocity along `x`, at most 1. -/
def ent : SpeedData ℝ := ⟨"a", 0, [0], ⟨1, 6, fun _ j => if j = 3 then 1 else 0⟩, ⟨1, fun _ => .negInf⟩,
  ⟨1, fun _ => .fin 1⟩, 0⟩

/-- **C80** applies: a slider at rest is pulled along `x` with a bound 1 on its velocity; with time step 1 its
velocity is `1 - exp (-t)`. -/
example : ∃ (q v : ℝ → ℝ) (V : ℝ → MV ℝ), (∀ t, v t = 1 - Real.exp (-t)) ∧ (∀ t, (V t).lin = ⟨v t, 0, 0⟩) ∧
    ∀ t, 0 ≤ t → (Ext.fin (1 : ℝ)).UpperOK (∑ k ∈ range 6, ent.dof.get 0 k * (V t).get k) := by
  have hg : GoodInput [mb] ([] : List (BiContact ℝ)) := by
    refine ⟨?_, by simp⟩
    intro m hm j hj l q hl
    simp only [List.mem_cons, List.not_mem_nil, or_false] at hm
    subst hm
    simp only [mb, List.mem_cons, List.not_mem_nil, or_false] at hj
    subst hj
    cases hl
  obtain ⟨d, deps, e, L⟩ := layout_ok SolverData.init [mb] [] [] hg.1 hg.2
  have hd : d.alphaDBegin[0]? = some 0 := by rw [L.alphaDBegin]; rfl
  have hnv : d.nrVars = 1 := by rw [L.nrVars, L.totalAlphaD, L.totalLambda, L.nrUniLambda, L.nrBiLambda]; rfl
  obtain ⟨s, hs, hcont⟩ : ∃ s, SpeedRun [mb] ⟨mb, fun _ => .ok [0]⟩ 0 1 true (some d) s ∧ s.cont = [ent] :=
    ⟨_, .nrVars _ _ _ _ _ _ [] [] deps (.add _ _ _ _ "a" 0 ent.dof ent.l ent.u (.make (fun _ _ => 7) _ rfl) rfl) hg e
      (by unfold BoundedSpeed.updateNrVars; rw [vecAt_eq_ok.mpr hd, Out.ok_bind]; rfl), rfl⟩
  let q : ℝ → ℝ := fun τ => τ + Real.exp (-τ)
  let v : ℝ → ℝ := fun τ => 1 - Real.exp (-τ)
  let acc : ℝ → ℝ := fun τ => Real.exp (-τ)
  have hq : ∀ t, HasDerivAt q (v t) t := fun t =>
    ((hasDerivAt_id t).add (ConvEx.exp_deriv t)).congr_deriv (by simp only [v]; ring)
  have hv : ∀ t, HasDerivAt v (acc t) t := fun t => ((ConvEx.exp_deriv t).const_sub 1).congr_deriv (by simp [acc])
  have hm : ∀ t, Moves mb (st q v t) [0] fun _ => v t := fun t =>
    (evolves (hq t) (hv t) (xd := fun _ => acc t) fun _ => rfl).moves t
  let jac : ℝ → Mat ℝ := fun t => ⟨6, pathDof mb [0], fun a k =>
    ((pathCols mb (kCol (st q v t) ((PT.ofTrans 0).mul (kPose (st q v t) 0))) [0]).getD k 0).get a⟩
  let V : ℝ → MV ℝ := fun t => (PT.ofTrans 0).mulM (kVel (st q v t) 0)
  have hV : ∀ t, Jac.bodyVelocity (st q v t) ⟨[0], 0⟩ = .ok (V t) := fun t =>
    jac_velAt (J := ⟨[0], 0⟩) (hm t).sized rfl _
  have hA : ∀ t, Jac.bodyNormalAcc (st q v t) ⟨[0], 0⟩ = .ok 0 := by
    intro t
    unfold Jac.bodyNormalAcc
    rw [jac_accAt (J := ⟨[0], 0⟩) (hm t).sized rfl]
    congr 1
    ext <;> simp [st, PT.mulM, PT.ofTrans, M3.mulVec, V3.dot, MV.cross]
  have hJ : ∀ t, Jac.bodyJacobian mb (st q v t) ⟨[0], 0⟩ = .ok (jac t) := fun t =>
    jac_bodyJac (J := ⟨[0], 0⟩) (hm t).sized rfl
  let kin : ℝ → String → V3 ℝ → BodyKin6 ℝ := fun t _ _ => ⟨jac t, (V t).get, fun _ => 0⟩
  have hVl : ∀ t, V t = ⟨0, ⟨v t, 0, 0⟩⟩ := by
    intro t
    ext <;> simp [V, kVel, st, PT.mulM, PT.ofTrans, M3.one, M3.mulVec, V3.dot]
  have hsh : ∀ t, ∀ c ∈ s.cont, SpeedShaped mb c ∧ KinShaped mb (kin t) c := by
    intro t c hc
    rw [hcont] at hc
    simp only [List.mem_singleton] at hc
    subst hc
    exact ⟨⟨by simp [ent, mb], by simp [ent], rfl, rfl, rfl⟩, rfl, rfl⟩
  have main : ∀ t, ∃ s' inp y, s.update [mb] (kin t) = .ok s' ∧ Solved "QLD" [mb] 1 inp y ∧ s'.gen ∈ inp.gen ∧
      ∀ i, y.get i = acc t := by
    intro t
    obtain ⟨s', a, h1, -, h2, h3, h4, h5, h6, h7, h8, hx⟩ := C38_rows [mb] _ 0 1 mb rfl one_pos d s hs (kin t)
      (fun c hc => (hsh t c hc).1) (fun c hc => (hsh t c hc).2)
    have ha : a = 0 := Option.some.inj (h2.symm.trans hd)
    subst ha
    rw [hnv] at hx h6
    have hrow : ∀ z, SatGen 1 s'.gen z ↔ v t + z 0 ≤ 1 := by
      intro z
      rw [hx z, hcont]
      simp only [List.mem_singleton, forall_eq]
      have e : ∑ k ∈ range 6, ent.dof.get 0 k * speedAfter mb (kin t) 1 0 z ent k = v t + z 0 := by
        simp only [ent, Finset.sum_range_succ, Finset.sum_range_zero]
        simp [speedAfter, kin, hVl, jac, mb, MultiBody.nrDof, onDofs, jpos, jdof, pathCols, MV.get, V3.get, kCol, kPose,
          kSub, st, PT.mul, PT.mulM, PT.inv, PT.ofTrans, M3.transpose, M3.one, M3.mul, M3.mulVec, V3.dot]
      constructor
      · intro h
        have : _ ≤ (1 : ℝ) := (h 0 (by simp [ent])).2
        rwa [e] at this
      · intro h r hr
        have : r = 0 := by simp [ent] at hr; exact hr
        subst this
        refine ⟨trivial, ?_⟩
        show _ ≤ (1 : ℝ)
        rw [e]; exact h
    have hall : ∀ z, AllSatisfied 1 ⟨[pull (acc t + 1)], [], [], [s'.gen], []⟩ z ↔ SatGen 1 s'.gen z := by
      intro z
      refine ⟨fun h => h.1.2.2 _ (by simp), fun h => ⟨⟨by simp, by simp, ?_⟩, by simp⟩⟩
      intro k hk
      simp only [List.mem_singleton] at hk
      subst hk
      exact h
    obtain ⟨y, hy1, hy2⟩ := solve1 (p := acc t + 1) (y := acc t) (ie := []) (ge := [s'.gen]) (by simp) (by
        intro k hk
        simp only [List.mem_singleton] at hk
        subst hk
        exact ⟨h4.ge, h5.ge, h6.ge, h7.ge, h8.ge⟩)
      ((hall _).mpr ((hrow _).mpr (by simp [v, acc]))) (fun z hz => by
        have h1 := (hrow z).mp ((hall z).mp hz)
        have h2 : z 0 ≤ acc t := by simp only [v, acc] at h1 ⊢; linarith
        nlinarith)
    exact ⟨s', _, y, h1, hy1, by simp, hy2⟩
  choose s' inp y g1 g2 g3 g4 using main
  refine ⟨q, v, V, fun _ => rfl, fun t => by rw [hVl], ?_⟩
  exact (C80_bounded_speed (mbs := [mb]) one_pos rfl hd (fun t _ => ⟨hs, hsh t⟩) (fun t _ => g1 t)
    (fun t _ => by rw [hnv]; exact g2 t) (fun t _ => g3 t) (c := ent) (fun t _ => by rw [hcont]; simp)
    (st := st q v) (fun t _ => ⟨V t, 0, hJ t, hV t, hA t, fun i _ => ⟨rfl, by simp [kin, MV.get_zero]⟩⟩) (N := 0) rfl
    (fun t _ => evolves (hq t) (hv t) fun i => g4 t _) hV (q := 0) (by simp [ent])).2 (by
      show _ ≤ (1 : ℝ)
      simp [ent, hVl, MV.get, V3.get, Finset.sum_range_succ, v])

end BarrierEx

end Verif
