import Verif.Proofs.BarrierNear
import Verif.Props.Barrier
import Verif.Props.Inexact

/-!
# C92: CoM planes and speed bounds along the motion, with an inexact numerical solver

As C80, for solvers whose answers are feasible up to `ε`.
-/

set_option autoImplicit false
set_option linter.unusedSectionVars false

namespace Verif

open Finset Spec

namespace Spec

/-- `PlaneLoop` with a numerical solver of tolerances `ε` and `δ`. -/
def PlaneLoopNear (ε δ : ℝ) (mbs : List (MultiBody ℝ)) (mb : MultiBody ℝ) (ri : ℕ) (dt : ℝ) (bs : List (BodyM ℝ))
    (nrm : V3 ℝ) (off di ds c : ℝ) (st : ℝ → KState ℝ) : Prop :=
  mbs[ri]? = some mb ∧
  ∃ (s s' : ℝ → ComPlane ℝ) (env : ℝ → ComEnv ℝ) (a n : ℕ) (backend : String) (inp : ℝ → QPInput ℝ)
    (x : ℝ → ℕ → ℝ) (y : ℝ → Vec ℝ), ∀ t, 0 ≤ t →
      (PlaneReach mbs mb ri dt (s t) ∧ (s t).alphaDBegin = some a ∧ (s t).nrVars = n ∧
        (s t).data.length ≤ (s t).A.rows ∧ (∀ d ∈ (s t).data, d.ds ≠ d.di) ∧
        ∀ i < mb.nrDof, (s t).selector.get i = 1) ∧
      (∃ d ∈ (s t).data, FixedPlane nrm off di ds c d) ∧
      PlaneEnvOf bs mb (st t) (env t) ∧ (s t).update mbs (env t) = .ok (s' t) ∧
      SolvedNear ε δ backend mbs n (inp t) (y t) ∧ (s' t).inEq ∈ (inp t).inEq ∧
      BodiesEvolve bs mb st x (fun i => (y t).get (a + i)) t

end Spec

/-- **C92** (CoM planes).  `C80_com_plane` with an inexact numerical solver: the centre of mass of the robot may come
closer to a fixed plane than the security distance `ds`, by at most `ε (di - ds) / c`, and the approach speed is at
most `r` times the distance left to that. -/
theorem C92_com_plane {mbs : List (MultiBody ℝ)} {mb : MultiBody ℝ} {ri : ℕ} {dt : ℝ} (hdt : 0 < dt)
    {bs : List (BodyM ℝ)} (hm : MassOK bs) (hM : massSum bs ≠ 0) {st : ℝ → KState ℝ}
    {nrm : V3 ℝ} {off di ds c r ε δ : ℝ} (hε : 0 ≤ ε) (hL : PlaneLoopNear ε δ mbs mb ri dt bs nrm off di ds c st)
    {com vel : ℝ → V3 ℝ} (hcom : ∀ t, IsCoM bs (st t) (com t)) (hvel : ∀ t, 0 ≤ t → HasD3 com (vel t) t)
    (hdd : ds < di) (hr : 0 ≤ r) (hc0 : 0 < c) (hc : c = r * (1 - r * dt) * (di - ds))
    (h0 : ds ≤ nrm.dot (com 0) + off) (hv0 : -(r * (nrm.dot (com 0) + off - ds)) ≤ nrm.dot (vel 0))
    (hout : ∀ t, 0 ≤ t → di < nrm.dot (com t) + off → -(r * (di - ds)) ≤ nrm.dot (vel t)) :
    ∀ t, 0 ≤ t → ds - ε * (di - ds) / c ≤ nrm.dot (com t) + off ∧
      -(r * (nrm.dot (com t) + off - (ds - ε * (di - ds) / c))) ≤ nrm.dot (vel t) := by
  obtain ⟨hmb, s, s', env, a, n, backend, inp, x, y, hL⟩ := hL
  have hs := fun t ht => (hL t ht).1
  have hplane := fun t ht => (hL t ht).2.1
  have henv := fun t ht => (hL t ht).2.2.1
  have hu := fun t ht => (hL t ht).2.2.2.1
  have hsol := fun t ht => (hL t ht).2.2.2.2.1
  have hin := fun t ht => (hL t ht).2.2.2.2.2.1
  have hev := fun t ht => (hL t ht).2.2.2.2.2.2
  have hR : 0 < di - ds := by linarith
  have ecom : com = fun τ => (1 / massSum bs) • ∑ i ∈ range bs.length, (bodyAt bs i).mass • comPos bs (st τ) i :=
    funext fun τ => isCoM_unique hm hM (hcom τ)
  have ones : ∀ i < bs.length, (List.replicate bs.length (1 : ℝ)).getD i 0 = 1 := fun i hi => getD_replicate_one hi
  have evel : ∀ t, 0 ≤ t → vel t
      = ∑ i ∈ range bs.length, comCoef bs (List.replicate bs.length 1) i • (comVel bs (st t) i).lin := by
    intro t ht
    have h1 := com_pos_deriv (hev t ht) hm ones
    rw [← ecom] at h1
    have h2 := hvel t ht
    ext
    · exact h2.1.unique h1.1
    · exact h2.2.1.unique h1.2.1
    · exact h2.2.2.unique h1.2.2
  let vel' : ℝ → V3 ℝ := fun τ => ∑ i ∈ range bs.length,
    comCoef bs (List.replicate bs.length 1) i • (comVel bs (st τ) i).lin
  let acc : ℝ → V3 ℝ := fun t => ∑ i ∈ range bs.length, comCoef bs (List.replicate bs.length 1) i •
      (comJacc bs mb (st t) (fun i => (y t).get (a + i)) i).lin
    + ∑ i ∈ range bs.length, comCoef bs (List.replicate bs.length 1) i • (comNacc bs (st t) i).lin
  have hdot : ∀ {f : ℝ → V3 ℝ} {f' : V3 ℝ} {t : ℝ}, HasD3 f f' t →
      HasDerivAt (fun τ => nrm.dot (f τ)) (nrm.dot f') t := by
    intro f f' t hf
    refine ((HasD3.const nrm t).dot hf).congr_deriv ?_
    simp [V3.dot]
  -- the row
  have hrow : ∀ t, 0 ≤ t → nrm.dot (com t) + off - ds ≤ di - ds →
      -(c * ((nrm.dot (com t) + off - ds) / (di - ds))) - ε ≤ nrm.dot (vel' t) + dt * nrm.dot (acc t) := by
    intro t ht hle
    obtain ⟨k1, k2, k3, k4, k5, k6⟩ := hs t ht
    obtain ⟨e, he, hen⟩ := henv t ht
    obtain ⟨M, m1, m2, m3, m4⟩ := comEnv_ok ((hev t ht).moves t) hm hM
    have ee := Out.ok.inj (m1.symm.trans he)
    have hok : ComEnvOK mb (env t) := by rw [hen, ← ee]; exact ⟨m2, m3⟩
    obtain ⟨s1, e1, hU, -, hn, hx, -⟩ := C36_update hmb k1 hok k2 k5 k4
    have e2 := Out.ok.inj (e1.symm.trans (hu t ht))
    subst e2
    obtain ⟨d₀, hd₀, p1, p2, p3, p4, p5, p6, p7, p8⟩ := hplane t ht
    obtain ⟨j, hj⟩ := List.getElem?_of_mem hd₀
    obtain ⟨d, hd, U⟩ := hU j d₀ hj
    obtain ⟨u1, u2, u3, u4, u5, u6, u7, u8, u9, u10⟩ := U
    have W := planeReach_wf hmb k1
    have ecomt : (env t).com = com t := by rw [hen, ← ee, ecom]
    have hdist : d.dist = nrm.dot (com t) + off := by rw [u9, p1, p2, ecomt]
    have hdi : d.di = di := u4.trans p3
    have hds : d.ds = ds := u5.trans p4
    have hdamp : d.damping = c := by
      split at u10
      · rw [if_neg (by rw [p6]; decide)] at u10
        exact u10.2.trans p5
      · exact u10.1.trans p5
    have hdd' : d.dist ≤ d.di := by rw [hdist, hdi]; linarith
    have hlt : (((s' t).data.take j).filter fun d => decide (d.dist ≤ d.di)).length < (s' t).inEq.nrInEq := by
      rw [hn]
      have := filter_take_lt (fun d => decide (d.dist ≤ d.di)) _ j d hd (decide_eq_true hdd') (s' t).data.length
        (List.getElem?_eq_some_iff.mp hd).1
      rwa [List.take_of_length_le le_rfl] at this
    have hb := (solvedNear_spec (hsol t ht)).1.2.1 _ (hin t ht) _ hlt
    have hb' : lineVal n (s' t).A (((s' t).data.take j).filter fun d => decide (d.dist ≤ d.di)).length (y t).get - ε
        ≤ (s' t).b.get (((s' t).data.take j).filter fun d => decide (d.dist ≤ d.di)).length := hb
    have hx' := hx j d hd hdd' (y t).get
    rw [W.cols, k3] at hx'
    have key : -planeDamper d - ε ≤ planeRate mb.nrDof (env t) (s t).selector a dt d (y t).get := by linarith
    unfold planeDamper planeRate at key
    rw [hdist, hdi, hds, hdamp, u1, u2, u8, p1, p7, p8] at key
    have evt : (env t).vel = vel' t := by rw [hen, ← ee]
    have ena : (env t).normalAcc = ∑ i ∈ range bs.length,
        comCoef bs (List.replicate bs.length 1) i • (comNacc bs (st t) i).lin := by rw [hen, ← ee]
    have eja : (env t).jac = M := by rw [hen, ← ee]
    have eacc : comAcc mb.nrDof (s t).selector (env t).jac a (y t).get
        = ∑ i ∈ range bs.length, comCoef bs (List.replicate bs.length 1) i •
            (comJacc bs mb (st t) (fun i => (y t).get (a + i)) i).lin := by
      have : ∀ q < 3, (∑ i ∈ range mb.nrDof, (env t).jac.get q i * ((s t).selector.get i * (y t).get (a + i)))
          = M.rowMul q fun i => (y t).get (a + i) := by
        intro q _
        unfold Mat.rowMul
        rw [m3, eja]
        refine Finset.sum_congr rfl fun i hi => ?_
        rw [k6 i (by simpa using hi), one_mul]
      unfold comAcc
      dsimp only
      rw [this 0 (by norm_num), this 1 (by norm_num), this 2 (by norm_num), m4 _ 0 (by norm_num),
        m4 _ 1 (by norm_num), m4 _ 2 (by norm_num)]
      rfl
    rw [evt, ena, eacc] at key
    refine key.trans (le_of_eq ?_)
    simp only [acc]
    simp [V3.dot, -mul_eq_mul_left_iff]
    ring
  have B := damper_barrier_near (D := fun t => nrm.dot (com t) + off - ds) (V := fun t => nrm.dot (vel' t))
    (A := fun t => nrm.dot (acc t)) (R := di - ds) (c := c) hdt hr hc.symm hR hc0 hε
    (fun t ht => by
      have := ((hdot (hvel t ht)).add_const off).sub_const ds
      rw [evel t ht] at this
      exact this)
    (fun t ht => hdot (com_vel_deriv (hev t ht) _)) hrow
    (fun t ht h => by
      have := hout t ht (by linarith)
      rw [evel t ht] at this
      exact this)
    (by linarith) (by
      have := hv0
      rw [evel 0 le_rfl] at this
      exact this)
  intro t ht
  obtain ⟨b1, b2⟩ := B t ht
  rw [evel t ht]
  exact ⟨by linarith, le_trans (le_of_eq (by ring)) b2⟩

/-- **C92** (bounded speeds).  `C80_bounded_speed` with an inexact numerical solver: the selected components of the
velocity of the registered point stay within their bounds up to `dt ε`. -/
theorem C92_bounded_speed {mbs : List (MultiBody ℝ)} {rk : RobotKin ℝ} {r : ℕ} {dt ε δ : ℝ} (hdt : 0 < dt)
    (hε : 0 ≤ ε)
    {mb : MultiBody ℝ} (hmb : mbs[r]? = some mb) {d : SolverData ℝ} {a : ℕ} (ha : d.alphaDBegin[r]? = some a)
    {s s' : ℝ → BoundedSpeed ℝ} {st : ℝ → KState ℝ} {kin : ℝ → String → V3 ℝ → BodyKin6 ℝ} {backend : String}
    {inp : ℝ → QPInput ℝ} {x : ℝ → ℕ → ℝ} {y : ℝ → Vec ℝ}
    (hs : ∀ t, 0 ≤ t → SpeedRun mbs rk r dt true (some d) (s t) ∧
      ∀ c ∈ (s t).cont, SpeedShaped mb c ∧ KinShaped mb (kin t) c)
    (hu : ∀ t, 0 ≤ t → (s t).update mbs (kin t) = .ok (s' t))
    (hsol : ∀ t, 0 ≤ t → SolvedNear ε δ backend mbs d.nrVars (inp t) (y t))
    (hin : ∀ t, 0 ≤ t → (s' t).gen ∈ (inp t).gen)
    {c : SpeedData ℝ} (hc : ∀ t, 0 ≤ t → c ∈ (s t).cont)
    (hkin : ∀ t, 0 ≤ t → SpeedKinOf mb (st t) c (kin t c.bodyName c.point)) {N : ℕ}
    (hN : c.path.getLast? = some N)
    (hev : ∀ t, 0 ≤ t → Evolves mb st c.path x (fun i => (y t).get (a + i)) t)
    {V : ℝ → MV ℝ} (hV : ∀ t, Jac.bodyVelocity (st t) ⟨c.path, c.point⟩ = .ok (V t))
    {q : ℕ} (hq : q < c.dof.rows) :
    ((c.l.get q).LowerOK (∑ k ∈ range 6, c.dof.get q k * (V 0).get k) →
      ∀ t, 0 ≤ t → (c.l.get q).LowerOK (∑ k ∈ range 6, c.dof.get q k * (V t).get k + dt * ε)) ∧
    ((c.u.get q).UpperOK (∑ k ∈ range 6, c.dof.get q k * (V 0).get k) →
      ∀ t, 0 ≤ t → (c.u.get q).UpperOK (∑ k ∈ range 6, c.dof.get q k * (V t).get k - dt * ε)) := by
  have hmem := List.mem_of_getLast? hN
  have hVe : ∀ τ, V τ = (PT.ofTrans c.point).mulM (kVel (st τ) N) := by
    intro τ
    have h1 := hV τ
    unfold Jac.bodyVelocity at h1
    rw [jac_velAt ((hev 0 le_rfl).moves τ).sized hN] at h1
    exact (Out.ok.inj h1).symm
  let A : ℝ → MV ℝ := fun t => ((PT.ofTrans c.point).mul (kPose (st t) N)).mulM
      (wSum mb (st t) c.path fun i => (y t).get (a + i))
    + (PT.ofTrans c.point).mulM (kAcc (st t) N)
  have hder : ∀ t, 0 ≤ t → HasDerivAt (fun τ => ∑ k ∈ range 6, c.dof.get q k * (V τ).get k)
      (∑ k ∈ range 6, c.dof.get q k * (A t).get k) t := by
    intro t ht
    have h1 := body_vel_deriv (hev t ht) hN c.point
    rw [show V = fun τ => (PT.ofTrans c.point).mulM (kVel (st τ) N) from funext hVe]
    have := HasDerivAt.sum (u := range 6) (fun k _ => (h1.get k).const_mul (c.dof.get q k))
    refine this.congr_of_eventuallyEq (Filter.Eventually.of_forall fun τ => ?_)
    simp
  have hrow : ∀ t, 0 ≤ t →
      (c.l.get q).LowerOK (∑ k ∈ range 6, c.dof.get q k * (V t).get k
        + dt * ∑ k ∈ range 6, c.dof.get q k * (A t).get k + dt * ε) ∧
      (c.u.get q).UpperOK (∑ k ∈ range 6, c.dof.get q k * (V t).get k
        + dt * ∑ k ∈ range 6, c.dof.get q k * (A t).get k - dt * ε) := by
    intro t ht
    obtain ⟨i1, i2, -, -, i5⟩ := speedRun_inv hmb (hs t ht).1
    obtain ⟨a', k1, -, -, -, k5⟩ := i5 d rfl
    obtain ⟨s1, e1, R', p1, -, -, -, hrows⟩ := speed_update (by rw [i1]; exact hmb)
      (fun c hc => ((hs t ht).2 c hc).1) (fun c hc => ((hs t ht).2 c hc).2) (k5 rfl hdt.ne')
    have := Out.ok.inj (e1.symm.trans (hu t ht))
    subst this
    have : a' = a := Option.some.inj (k1.symm.trans ha)
    subst this
    have hst : (s' t).step = dt := p1.trans i2
    obtain ⟨l₁, l₂, hl⟩ := List.append_of_mem (hc t ht)
    have hi : rowSum l₁ + q < (s' t).gen.nrGen := by
      rw [show (s' t).gen.nrGen = rowSum (s t).cont from R'.rows, hl, rowSum_append, rowSum_cons]; omega
    have hb := (solvedNear_spec (hsol t ht)).1.2.2 _ (hin t ht) _ hi
    have hr := hrows l₁ c l₂ hl q hq
    have hok : (c.l.get q).LowerOK
          (∑ k ∈ range 6, c.dof.get q k * speedAfter mb (kin t) dt a' (y t).get c k + dt * ε) ∧
        (c.u.get q).UpperOK
          (∑ k ∈ range 6, c.dof.get q k * speedAfter mb (kin t) dt a' (y t).get c k - dt * ε) := by
      have g1 := (speedRow_off R' (by rw [hst]; exact hdt) hr (y t).get ε).1.mp hb.1
      have g2 := (speedRow_off R' (by rw [hst]; exact hdt) hr (y t).get (-ε)).2.mp hb.2
      rw [hst] at g1 g2
      refine ⟨g1, ?_⟩
      rw [mul_neg] at g2
      exact g2
    obtain ⟨V', A', j1, j2, j3, j4⟩ := hkin t ht
    have hm := (hev t ht).moves t
    rw [jac_bodyJac (J := ⟨c.path, c.point⟩) hm.sized hN] at j1
    have eJ := Out.ok.inj j1
    have eV : V' = V t := Out.ok.inj (j2.symm.trans (hV t))
    have eA : A' = (PT.ofTrans c.point).mulM (kAcc (st t) N) := by
      unfold Jac.bodyNormalAcc at j3
      rw [jac_accAt hm.sized hN] at j3
      rw [← Out.ok.inj j3]
      ext <;> simp [MV.cross, V3.cross, kAcc]
    have e : ∑ k ∈ range 6, c.dof.get q k * speedAfter mb (kin t) dt a' (y t).get c k
        = ∑ k ∈ range 6, c.dof.get q k * (V t).get k + dt * ∑ k ∈ range 6, c.dof.get q k * (A t).get k := by
      rw [Finset.mul_sum, ← Finset.sum_add_distrib]
      refine Finset.sum_congr rfl fun k hk => ?_
      have hk6 : k < 6 := by simpa using hk
      obtain ⟨v1, v2⟩ := j4 k hk6
      have hJ : ∑ i ∈ range mb.nrDof, onDofs mb c.path (fun p => (kin t c.bodyName c.point).jac.get k p) i
          * (y t).get (a' + i) = (((PT.ofTrans c.point).mul (kPose (st t) N)).mulM
            (wSum mb (st t) c.path fun i => (y t).get (a' + i))).get k := by
        have := full_gen hm.sized.mem hm.rigid ((PT.ofTrans c.point).mul (kPose (st t) N))
          ⟨6, mb.nrDof, fun k i => onDofs mb c.path (fun p => (kin t c.bodyName c.point).jac.get k p) i⟩ 6
          (fun a v => v.get a) lin_get rfl (fun a _ i _ => by rw [← eJ]) (fun i => (y t).get (a' + i)) k hk6
        exact this
      unfold speedAfter
      rw [hJ, v1, v2, eV, eA]
      simp only [A, MV.get_add]
      ring
    rw [e] at hok
    exact hok
  constructor
  · intro h0 t ht
    generalize c.l.get q = b at *
    cases b with
    | negInf => trivial
    | posInf => exact h0.elim
    | fin l =>
      have := bound_barrier (l := l - dt * ε) hdt hder
        (fun t ht => by have : l ≤ _ := (hrow t ht).1; linarith)
        (by have : l ≤ _ := h0; have := mul_nonneg hdt.le hε; linarith) t ht
      show l ≤ _
      linarith
  · intro h0 t ht
    generalize c.u.get q = b at *
    cases b with
    | posInf => trivial
    | negInf => exact h0.elim
    | fin u =>
      have := bound_barrier (V := fun τ => -∑ k ∈ range 6, c.dof.get q k * (V τ).get k)
        (A := fun τ => -∑ k ∈ range 6, c.dof.get q k * (A τ).get k) (l := -u - dt * ε) hdt (fun t ht => (hder t ht).neg)
        (fun t ht => by have : _ ≤ u := (hrow t ht).2; linarith)
        (by have : _ ≤ u := h0; have := mul_nonneg hdt.le hε; linarith) t ht
      show _ ≤ u
      linarith

/-! ## Examples -/

namespace BarrierEx

open ConvEx (mb)
open ComEx (bs massOK massNe mass)

/-- `solve1` with a solver of tolerance `ε`: the acceleration `y` satisfies the rows up to `ε` and is the closest to
`p`. -/
theorem solveNear1 {ε p y : ℝ} (hε : 0 ≤ ε) {ie : List (InEqC ℝ)} {ge : List (GenC ℝ)} (h1 : ∀ c ∈ ie, c.Sized 1)
    (h2 : ∀ c ∈ ge, c.Sized 1) (hy : LinesNear ε 1 ⟨[pull p], [], ie, ge, []⟩ fun _ => y)
    (hopt : ∀ z, AllSatisfied 1 ⟨[pull p], [], ie, ge, []⟩ z → (y - p) ^ 2 ≤ (z 0 - p) ^ 2) :
    ∃ x, SolvedNear ε 0 "QLD" [mb] 1 ⟨[pull p], [], ie, ge, []⟩ x ∧ ∀ i, x.get i = y := by
  have hno : ∀ m ∈ [mb], NoMimic m := by
    intro m hm j hj
    simp only [List.mem_singleton] at hm
    subst hm
    simp only [mb, List.mem_singleton] at hj
    subst hj
    rfl
  have hok : ∀ m ∈ [mb], MimicOK m := by
    intro m hm
    refine ⟨?_, fun j hj l q h => by rw [hno m hm j hj] at h; cases h⟩
    simp only [List.mem_singleton] at hm
    subst hm
    simp [mb]
  have hobj : ∀ z : ℕ → ℝ, objective 1 ⟨[pull p], [], ie, ge, []⟩ z = ((z 0 - p) ^ 2 - p ^ 2) / 2 := by
    intro z
    unfold objective
    rw [Finset.sum_eq_zero fun i hi => ?_]
    · simp only [TaskQC.obj, pull, Mat.ofRows, Vec.ofList, List.map_cons, List.map_nil, List.sum_cons, List.sum_nil,
        List.length_cons, List.length_nil, Finset.sum_range_succ, Finset.sum_range_zero, List.getD_cons_zero]
      simp
      ring
    · simp only [mem_filter, mem_range] at hi
      have h0 : i = 0 := by omega
      subst h0
      have := hi.2
      simp [accDiag, TaskQC.q, pull, Mat.ofRows] at this
      norm_num at this
  refine realiseNear (mbs := [mb]) (uni := []) (bi := []) (mbcs := [⟨[[0]], [PT.one], [0], [0], ()⟩])
    (inp := ⟨[pull p], [], ie, ge, []⟩) hε hok hno ?_
    (by intro c hc; simp at hc) rfl ?_ ⟨?_, by simp, h1, h2, by simp⟩ Nat.one_pos (by simp) hy (z0 := fun _ => y)
    (by simp) (fun v _ => by simpa using hε) (fun z hz => ?_)
  · intro m hm _
    simp only [List.mem_singleton] at hm
    subst hm
    refine ⟨rfl, rfl, rfl, ?_⟩
    intro i p h
    match i with
    | 0 => simp [mb] at h; exact Or.inl h.symm
    | k + 1 => simp [mb] at h
  · intro r m mc hr hmm
    cases r with
    | zero => simp at hr hmm; subst hr; subst hmm; exact ⟨rfl, fun _ => ⟨rfl, rfl, rfl⟩⟩
    | succ r => simp at hr
  · intro t ht
    simp only [List.mem_singleton] at ht
    subst ht
    show TaskQC.Sized 1 _
    simp [TaskQC.Sized, pull, Mat.ofRows, Vec.ofList]
  · have e : nrVariables [mb] ([] : List (UniContact ℝ)) [] = 1 := rfl
    rw [e, hobj, hobj]
    have := hopt z hz
    linarith

/-- One update of `constr`: its only row. -/
theorem plane_row {q v : ℝ → ℝ} {acc t dt c : ℝ} (hc : 0 < c) (hq : HasDerivAt q (v t) t)
    (hv : HasDerivAt v acc t) (hz : q t ≤ 2) : ∃ s' env, PlaneEnvOf bs mb (st q v t) env ∧
      (constr dt c).update [mb] env = .ok s' ∧ s'.inEq.Sized 1 ∧ s'.inEq.nrInEq = 1 ∧
      ∀ z, s'.b.get 0 - lineVal 1 s'.A 0 z = c * (q t - 1) + (v t + dt * z 0) := by
  obtain ⟨M, m1, m2, m3, m4⟩ := comEnv_ok (mb := mb) (st := st q v t)
    ((bodies (acc := fun _ => acc) hq hv (xd := fun _ => acc) fun _ => rfl).moves t) massOK massNe
  have z1 : comCoef bs (List.replicate bs.length (1 : ℝ)) 0 = 1 := by
    rw [comCoef_one massOK (by simp [bs]) (getD_replicate_one (by simp [bs])), mass]
    simp [bs, bodyAt]
  have ecom : (1 / massSum bs) • ∑ i ∈ range bs.length, (bodyAt bs i).mass • comPos bs (st q v t) i = ⟨q t, 0, 1⟩ :=
    (isCoM_unique massOK massNe (isCoM q v t)).symm
  have evel : ∑ i ∈ range bs.length, comCoef bs (List.replicate bs.length (1 : ℝ)) i • (comVel bs (st q v t) i).lin
      = ⟨v t, 0, 0⟩ := by
    rw [show bs.length = 1 from rfl] at z1 ⊢
    rw [Finset.sum_range_one, z1]
    ext <;> simp [comVel, kPose, kVel, st, PT.mul, PT.mulM, PT.ofTrans, PT.ofRot, M3.transpose, M3.one, M3.mul,
      M3.mulVec, V3.dot]
  have enacc : ∑ i ∈ range bs.length, comCoef bs (List.replicate bs.length (1 : ℝ)) i • (comNacc bs (st q v t) i).lin
      = 0 := by
    rw [show bs.length = 1 from rfl] at z1 ⊢
    rw [Finset.sum_range_one, z1]
    ext <;> simp [comNacc, kPose, kVel, kAcc, st, PT.mul, PT.mulM, PT.ofTrans, PT.ofRot, M3.transpose, M3.one, M3.mul,
      M3.mulVec, V3.dot, MV.cross]
  have ejac : ∀ z, M.rowMul 0 z = z 0 := by
    intro z
    rw [m4 z 0 (by norm_num), show bs.length = 1 from rfl]
    rw [show bs.length = 1 from rfl] at z1
    rw [Finset.sum_range_one, z1]
    simp [comJacc, wSum, pathSum, bs, bodyAt, V3.get, kPose, kSub, st, jdof, jpos, mb, PT.mulM, PT.inv,
      PT.ofTrans, M3.transpose, M3.one, M3.mulVec, V3.dot]
  rw [ecom, evel, enacc] at m1
  let env : ComEnv ℝ := ⟨⟨q t, 0, 1⟩, M, ⟨v t, 0, 0⟩, 0⟩
  have hok : ComEnvOK mb env := ⟨m2, m3⟩
  have W := planeReach_wf (mb := mb) rfl (constr_reach dt hc)
  have hd : ∀ d ∈ (constr dt c).data, d.ds ≠ d.di := by
    intro d hd
    simp [constr, plane] at hd
    subst hd
    norm_num
  obtain ⟨s', e, hU, hl, hn, hx, -⟩ := C36_update (mb := mb) rfl (constr_reach dt hc) hok (a := 0) rfl hd le_rfl
  obtain ⟨s1, e1, I⟩ := plane_update (mbs := [mb]) (mb := mb) rfl (W.ready hok (a := 0) rfl) hd le_rfl le_rfl
  have := Out.ok.inj (e1.symm.trans e)
  subst this
  obtain ⟨d, hd, U⟩ := hU 0 _ rfl
  obtain ⟨u1, u2, u3, u4, u5, u6, u7, u8, u9, u10⟩ := U
  have hdata : s1.data = [d] := by
    cases h : s1.data with
    | nil => rw [h] at hd; simp at hd
    | cons a t => rw [h] at hl hd; simp [constr] at hl hd; rw [hl, hd]
  have hdist : d.dist = q t := by rw [u9]; simp [plane, env, V3.dot]
  have hdi : d.di = 2 := u4
  have hds : d.ds = 1 := u5
  have hdamp : d.damping = c := by
    split at u10
    · rw [if_neg (by simp [plane])] at u10; exact u10.2
    · exact u10.1
  have hn1 : s1.inEq.nrInEq = 1 := by
    rw [hn, hdata, List.filter_cons_of_pos (by rw [hdist, hdi]; simpa using hz)]
    rfl
  refine ⟨s1, env, ⟨_, m1, rfl⟩, e, ⟨?_, ?_, ?_, ?_⟩, hn1, fun z => ?_⟩
  · rw [hn1]
    show 1 ≤ s1.data.length
    rw [hdata]; exact le_rfl
  · rw [hn1]
    show 1 ≤ s1.A.rows
    rw [I.arows]; exact le_rfl
  · show 1 ≤ s1.A.cols
    rw [I.ready.cols]; exact le_rfl
  · rw [hn1]
    show 1 ≤ s1.b.size
    rw [I.bsize]; exact le_rfl
  · have hx' := hx 0 d hd (by rw [hdist, hdi]; exact hz) z
    simp only [List.take_zero, List.filter_nil, List.length_nil] at hx'
    have hacc : (comAcc mb.nrDof (constr dt c).selector env.jac 0 z).x = z 0 := by
      have := ejac z
      unfold Mat.rowMul at this
      rw [m3] at this
      simpa [comAcc, constr, env] using this
    have e2 : planeDamper d = c * (q t - 1) := by
      unfold planeDamper
      rw [hdist, hdi, hds, hdamp]
      norm_num
    have e3 : planeRate mb.nrDof env (constr dt c).selector 0 dt d z = v t + dt * z 0 := by
      unfold planeRate
      rw [u1, u2, u8]
      simp [plane, V3.dot, hacc]
      simp [env]
    rw [e2, e3] at hx'
    exact hx'

/-- A task pulls the slider towards the plane; every motion in the zone that uses up what the damper allows, plus the
tolerance of the solver, is a closed loop. -/
theorem loopNear {q v acc : ℝ → ℝ} {ε dt c : ℝ} (hε : 0 ≤ ε) (hc : 0 < c) (hdt : 0 < dt)
    (hq : ∀ t, 0 ≤ t → HasDerivAt q (v t) t) (hv : ∀ t, 0 ≤ t → HasDerivAt v (acc t) t) (hz : ∀ t, 0 ≤ t → q t ≤ 2)
    (hb : ∀ t, 0 ≤ t → v t + dt * acc t = -(c * (q t - 1)) - ε) :
    PlaneLoopNear ε 0 [mb] mb 0 dt bs ⟨1, 0, 0⟩ 0 2 1 c (st q v) := by
  refine ⟨rfl, ?_⟩
  have main : ∀ t, 0 ≤ t → ∃ s' env inp y, PlaneEnvOf bs mb (st q v t) env ∧
      (constr dt c).update [mb] env = .ok s' ∧ SolvedNear ε 0 "QLD" [mb] 1 inp y ∧ s'.inEq ∈ inp.inEq ∧
      ∀ i, y.get i = acc t := by
    intro t ht
    obtain ⟨s1, env, h1, h2, h3, h4, h5⟩ := plane_row (dt := dt) hc (hq t ht) (hv t ht) (hz t ht)
    obtain ⟨y, hy1, hy2⟩ := solveNear1 (p := acc t - 1) (y := acc t) hε (ie := [s1.inEq]) (ge := [])
      (by intro k hk; simp only [List.mem_singleton] at hk; subst hk; exact h3) (by simp)
      ⟨by simp, by
        intro k hk i hi
        simp only [List.mem_singleton] at hk
        subst hk
        have : i = 0 := by omega
        subst this
        show lineVal 1 s1.A 0 _ - ε ≤ s1.b.get 0
        have e1 := h5 fun _ => acc t
        have e2 := hb t ht
        linarith, by simp⟩
      (fun z hz => by
        have g1 : lineVal 1 s1.A 0 z ≤ s1.b.get 0 := hz.1.2.1 s1.inEq (by simp) 0 (by omega)
        have e1 := h5 z
        have e2 := hb t ht
        have e3 : acc t ≤ z 0 := le_of_mul_le_mul_left (by linarith) hdt
        nlinarith)
    exact ⟨s1, env, _, y, h1, h2, hy1, by simp, hy2⟩
  have main' : ∀ t, ∃ s' env inp y, 0 ≤ t → PlaneEnvOf bs mb (st q v t) env ∧
      (constr dt c).update [mb] env = .ok s' ∧ SolvedNear ε 0 "QLD" [mb] 1 inp y ∧ s'.inEq ∈ inp.inEq ∧
      ∀ i, y.get i = acc t := by
    intro t
    by_cases ht : 0 ≤ t
    · obtain ⟨s', env, inp, y, h⟩ := main t ht
      exact ⟨s', env, inp, y, fun _ => h⟩
    · exact ⟨constr dt c, ⟨0, Mat.zero 0 0, 0, 0⟩, ⟨[], [], [], [], []⟩, ⟨0, fun _ => 0⟩, fun h => absurd h ht⟩
  choose s' env inp y h using main'
  refine ⟨fun _ => constr dt c, s', env, 0, 1, "QLD", inp, fun τ _ => v τ, y, fun t ht => ?_⟩
  obtain ⟨h1, h2, h3, h4, h5⟩ := h t ht
  refine ⟨⟨constr_reach dt hc, rfl, rfl, le_rfl, ?_, fun _ _ => rfl⟩, ⟨plane c, by simp [constr], rfl, rfl, rfl, rfl,
    rfl, rfl, rfl, rfl⟩, h1, h2, h3, h4, bodies (hq t ht) (hv t ht) fun i => h5 _⟩
  intro d hd
  simp [constr, plane] at hd
  subst hd
  norm_num

/-- **C92** (CoM planes; applies, and the tolerance is reached).  Time step `1/4`, damping `3/4` on a zone of width 1.
The slider starts at rest at the security distance, a task pulls it towards the plane and a solver of tolerance `ε`
lets it: C92 holds, the distance tends to the bound `1 - ε / c` of C92 and is less than the security distance at all
times. -/
theorem C92_sharp {ε : ℝ} (hε : 0 < ε) : ∃ q v : ℝ → ℝ,
    PlaneLoopNear ε 0 [mb] mb 0 (1/4) bs ⟨1, 0, 0⟩ 0 2 1 (3/4) (st q v) ∧
    (∀ t, IsCoM bs (st q v t) ⟨q t, 0, 1⟩) ∧ q 0 = 1 ∧ v 0 = 0 ∧
    (∀ t, 0 ≤ t → 1 - ε * (2 - 1) / (3/4) ≤ (⟨1, 0, 0⟩ : V3 ℝ).dot ⟨q t, 0, 1⟩ + 0) ∧
    (∀ t, 0 < t → q t < 1) ∧
    Filter.Tendsto q Filter.atTop (nhds (1 - ε * (2 - 1) / (3/4))) := by
  let E : ℝ → ℝ := fun t => Real.exp (-t)
  let q : ℝ → ℝ := fun t => 1 - 4 / 3 * ε * (1 - 3/2 * E t + 1/2 * E t ^ 3)
  let v : ℝ → ℝ := fun t => -(4 / 3 * ε * (3/2 * E t - 3/2 * E t ^ 3))
  let acc : ℝ → ℝ := fun t => -(4 / 3 * ε * (-(3/2) * E t + 9/2 * E t ^ 3))
  have hE : ∀ t, HasDerivAt E (-E t) t := fun t => (ConvEx.exp_deriv t)
  have hE3 : ∀ t, HasDerivAt (fun t => E t ^ 3) (-(3 * E t ^ 3)) t := fun t =>
    ((hE t).pow 3).congr_deriv (by simp; ring)
  have hq : ∀ t, HasDerivAt q (v t) t := fun t =>
    ((((((hE t).const_mul (3/2)).const_sub 1).add ((hE3 t).const_mul (1/2))).const_mul (4/3*ε)).const_sub 1).congr_deriv
      (by simp only [v]; ring)
  have hv : ∀ t, HasDerivAt v (acc t) t := fun t =>
    ((((hE t).const_mul (3/2)).sub ((hE3 t).const_mul (3/2))).const_mul (4/3*ε)).neg.congr_deriv
      (by simp only [acc]; ring)
  have hpos : ∀ t, 0 < E t := fun t => Real.exp_pos _
  have hfac : ∀ t, 1 - 3/2 * E t + 1/2 * E t ^ 3 = 1/2 * ((1 - E t) ^ 2 * (2 + E t)) := fun t => by ring
  have hnn : ∀ t, 0 ≤ 1 - 3/2 * E t + 1/2 * E t ^ 3 := fun t => by
    rw [hfac]
    have := hpos t
    positivity
  have L := loopNear (q := q) (v := v) (acc := acc) (dt := 1/4) (c := 3/4) hε.le (by norm_num) (by norm_num)
    (fun t _ => hq t) (fun t _ => hv t) (fun t _ => by
      have := mul_nonneg (by linarith : 0 ≤ 4 / 3 * ε) (hnn t)
      simp only [q]
      linarith) (fun t _ => by simp only [q, v, acc]; ring)
  have hq0 : q 0 = 1 := by simp [q, E]; norm_num
  have hv0 : v 0 = 0 := by simp [v, E]
  have B := C92_com_plane (r := 1) (by norm_num) massOK massNe hε.le L (fun t => isCoM _ _ t)
    (fun t ht => com_moves (q := q) (v := v) (hq t)) (by norm_num) (by norm_num) (by norm_num) (by norm_num)
    (by simp [V3.dot, hq0]) (by simp [V3.dot, hq0, hv0]) (fun t ht h => by
      simp [V3.dot] at h
      have := mul_nonneg (by linarith : 0 ≤ 4 / 3 * ε) (hnn t)
      simp only [q] at h
      linarith)
  refine ⟨q, v, L, isCoM q v, hq0, hv0, fun t ht => (B t ht).1, fun t ht => ?_, ?_⟩
  · have h1 : E t < 1 := by simpa [E] using ht
    have : 0 < 1 - 3/2 * E t + 1/2 * E t ^ 3 := by
      rw [hfac]
      have := hpos t
      have h2 : 0 < 1 - E t := by linarith
      positivity
    have := mul_pos (by linarith : 0 < 4 / 3 * ε) this
    simp only [q]
    linarith
  · have hT : Filter.Tendsto E Filter.atTop (nhds 0) :=
      Real.tendsto_exp_atBot.comp Filter.tendsto_neg_atTop_atBot
    have := (((((hT.const_mul (3/2)).const_sub 1).add ((hT.pow 3).const_mul (1/2))).const_mul (4/3*ε)).const_sub 1)
    convert this using 2
    ring

/-- **C92** (bounded speeds; applies, and the tolerance is reached).  A slider at its maximal velocity 1 is pulled along
`x`; with a solver of tolerance `ε` and time step 1 its velocity is `1 + ε (1 - exp (-t))`: above 1, below the bound
`1 + dt ε` of C92, which it approaches. -/
example {ε : ℝ} (hε : 0 ≤ ε) : ∃ (v : ℝ → ℝ) (V : ℝ → MV ℝ), (∀ t, v t = 1 + ε - ε * Real.exp (-t)) ∧
    (∀ t, (V t).lin = ⟨v t, 0, 0⟩) ∧
    ∀ t, 0 ≤ t → (Ext.fin (1 : ℝ)).UpperOK (∑ k ∈ range 6, ent.dof.get 0 k * (V t).get k - 1 * ε) := by
  have hg : GoodInput [mb] ([] : List (BiContact ℝ)) := by
    refine ⟨?_, by simp⟩
    intro m hm j hj l q hl
    simp only [List.mem_cons, List.not_mem_nil, or_false] at hm
    subst hm
    simp only [mb, List.mem_cons, List.not_mem_nil, or_false] at hj
    subst hj
    cases hl
  obtain ⟨d, deps, e, L⟩ := layout_ok SolverData.init [mb] [] [] hg.1 hg.2
  have hd : d.alphaDBegin[0]? = some 0 := by rw [L.alphaDBegin]; rfl
  have hnv : d.nrVars = 1 := by rw [L.nrVars, L.totalAlphaD, L.totalLambda, L.nrUniLambda, L.nrBiLambda]; rfl
  obtain ⟨s, hs, hcont⟩ : ∃ s, SpeedRun [mb] ⟨mb, fun _ => .ok [0]⟩ 0 1 true (some d) s ∧ s.cont = [ent] :=
    ⟨_, .nrVars _ _ _ _ _ _ [] [] deps (.add _ _ _ _ "a" 0 ent.dof ent.l ent.u (.make (fun _ _ => 7) _ rfl) rfl) hg e
      (by unfold BoundedSpeed.updateNrVars; rw [vecAt_eq_ok.mpr hd, Out.ok_bind]; rfl), rfl⟩
  let q : ℝ → ℝ := fun τ => (1 + ε) * τ + ε * Real.exp (-τ)
  let v : ℝ → ℝ := fun τ => 1 + ε - ε * Real.exp (-τ)
  let acc : ℝ → ℝ := fun τ => ε * Real.exp (-τ)
  have hq : ∀ t, HasDerivAt q (v t) t := fun t =>
    (((hasDerivAt_id t).const_mul (1 + ε)).add ((ConvEx.exp_deriv t).const_mul ε)).congr_deriv (by simp only [v]; ring)
  have hv : ∀ t, HasDerivAt v (acc t) t := fun t =>
    (((ConvEx.exp_deriv t).const_mul ε).const_sub (1 + ε)).congr_deriv (by simp [acc])
  have hm : ∀ t, Moves mb (st q v t) [0] fun _ => v t := fun t =>
    (evolves (hq t) (hv t) (xd := fun _ => acc t) fun _ => rfl).moves t
  let jac : ℝ → Mat ℝ := fun t => ⟨6, pathDof mb [0], fun a k =>
    ((pathCols mb (kCol (st q v t) ((PT.ofTrans 0).mul (kPose (st q v t) 0))) [0]).getD k 0).get a⟩
  let V : ℝ → MV ℝ := fun t => (PT.ofTrans 0).mulM (kVel (st q v t) 0)
  have hV : ∀ t, Jac.bodyVelocity (st q v t) ⟨[0], 0⟩ = .ok (V t) := fun t =>
    jac_velAt (J := ⟨[0], 0⟩) (hm t).sized rfl _
  have hA : ∀ t, Jac.bodyNormalAcc (st q v t) ⟨[0], 0⟩ = .ok 0 := by
    intro t
    unfold Jac.bodyNormalAcc
    rw [jac_accAt (J := ⟨[0], 0⟩) (hm t).sized rfl]
    congr 1
    ext <;> simp [st, PT.mulM, PT.ofTrans, M3.mulVec, V3.dot, MV.cross]
  have hJ : ∀ t, Jac.bodyJacobian mb (st q v t) ⟨[0], 0⟩ = .ok (jac t) := fun t =>
    jac_bodyJac (J := ⟨[0], 0⟩) (hm t).sized rfl
  let kin : ℝ → String → V3 ℝ → BodyKin6 ℝ := fun t _ _ => ⟨jac t, (V t).get, fun _ => 0⟩
  have hVl : ∀ t, V t = ⟨0, ⟨v t, 0, 0⟩⟩ := by
    intro t
    ext <;> simp [V, kVel, st, PT.mulM, PT.ofTrans, M3.one, M3.mulVec, V3.dot]
  have hsh : ∀ t, ∀ c ∈ s.cont, SpeedShaped mb c ∧ KinShaped mb (kin t) c := by
    intro t c hc
    rw [hcont] at hc
    simp only [List.mem_singleton] at hc
    subst hc
    exact ⟨⟨by simp [ent, mb], by simp [ent], rfl, rfl, rfl⟩, rfl, rfl⟩
  have main : ∀ t, ∃ s' inp y, s.update [mb] (kin t) = .ok s' ∧ SolvedNear ε 0 "QLD" [mb] 1 inp y ∧ s'.gen ∈ inp.gen ∧
      ∀ i, y.get i = acc t := by
    intro t
    obtain ⟨s', a, h1, -, h2, h3, h4, h5, h6, h7, h8, -⟩ := C38_rows [mb] _ 0 1 mb rfl one_pos d s hs (kin t)
      (fun c hc => (hsh t c hc).1) (fun c hc => (hsh t c hc).2)
    have ha : a = 0 := Option.some.inj (h2.symm.trans hd)
    subst ha
    obtain ⟨i1, i2, -, -, i5⟩ := speedRun_inv (mb := mb) rfl hs
    obtain ⟨a', k1, -, -, -, k5⟩ := i5 d rfl
    obtain ⟨s1, e1, R', p1, -, -, -, hrows⟩ := speed_update (mbs := [mb]) (by rw [i1]; rfl)
      (fun c hc => (hsh t c hc).1) (fun c hc => (hsh t c hc).2) (k5 rfl one_ne_zero)
    have := Out.ok.inj (e1.symm.trans h1)
    subst this
    have : a' = 0 := Option.some.inj (k1.symm.trans hd)
    subst this
    have hst : s1.step = 1 := p1.trans i2
    have hr := hrows [] ent [] (by rw [hcont]; rfl) 0 (by simp [ent])
    have hn1 : s1.gen.nrGen = 1 := by rw [h3, hcont]; rfl
    rw [hnv] at R' h6
    have hrow : ∀ z e, (s1.upper.get 0).UpperOK (lineVal 1 s1.A 0 z + e) ↔ v t + z 0 + e ≤ 1 := by
      intro z e
      have e1 : ∑ k ∈ range 6, ent.dof.get 0 k * speedAfter mb (kin t) 1 0 z ent k = v t + z 0 := by
        simp only [ent, Finset.sum_range_succ, Finset.sum_range_zero]
        simp [speedAfter, kin, hVl, jac, mb, MultiBody.nrDof, onDofs, jpos, jdof, pathCols, MV.get, V3.get, kCol, kPose,
          kSub, st, PT.mul, PT.mulM, PT.inv, PT.ofTrans, M3.transpose, M3.one, M3.mul, M3.mulVec, V3.dot]
      have := (speedRow_off R' (by rw [hst]; exact one_pos) hr z e).2
      rw [hst, e1, one_mul] at this
      exact this
    have hlow : ∀ w : ℝ, (s1.lower.get 0).LowerOK w := by
      intro w
      have := hr.2.1
      simp only [rowSum, List.map_nil, List.sum_nil, zero_add] at this
      rw [this, Ext.lowerOK_addFin, Ext.lowerOK_divBy_pos (by rw [hst]; exact one_pos)]
      trivial
    obtain ⟨y, hy1, hy2⟩ := solveNear1 (p := acc t + 1) (y := acc t) hε (ie := []) (ge := [s1.gen]) (by simp) (by
        intro k hk
        simp only [List.mem_singleton] at hk
        subst hk
        exact ⟨h4.ge, h5.ge, h6.ge, h7.ge, h8.ge⟩)
      ⟨by simp, by simp, by
        intro k hk i hi
        simp only [List.mem_singleton] at hk
        subst hk
        have : i = 0 := by omega
        subst this
        refine ⟨hlow _, ?_⟩
        have := (hrow (fun _ => acc t) (-ε)).mpr (by simp only [v, acc]; linarith)
        rwa [← sub_eq_add_neg] at this⟩ (fun z hz => by
        have h1 : (s1.upper.get 0).UpperOK (lineVal 1 s1.A 0 z) := (hz.1.2.2 s1.gen (by simp) 0 (by omega)).2
        have h2 := (hrow z 0).mp (by rwa [add_zero])
        have h3 : z 0 ≤ acc t := by simp only [v, acc] at h2 ⊢; linarith
        nlinarith)
    exact ⟨s1, _, y, h1, hy1, by simp, hy2⟩
  choose s' inp y g1 g2 g3 g4 using main
  refine ⟨v, V, fun _ => rfl, fun t => by rw [hVl], ?_⟩
  exact (C92_bounded_speed (mbs := [mb]) one_pos hε rfl hd (fun t _ => ⟨hs, hsh t⟩) (fun t _ => g1 t)
    (fun t _ => by rw [hnv]; exact g2 t) (fun t _ => g3 t) (c := ent) (fun t _ => by rw [hcont]; simp)
    (st := st q v) (fun t _ => ⟨V t, 0, hJ t, hV t, hA t, fun i _ => ⟨rfl, by simp [kin, MV.get_zero]⟩⟩) (N := 0) rfl
    (fun t _ => evolves (hq t) (hv t) fun i => g4 t _) hV (q := 0) (by simp [ent])).2 (by
      show _ ≤ (1 : ℝ)
      simp [ent, hVl, MV.get, V3.get, Finset.sum_range_succ, v])

end BarrierEx

end Verif
