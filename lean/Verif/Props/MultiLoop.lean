import Verif.Props.Multi
import Verif.Props.CoM
import Verif.Props.Converge

/-!
# C70: the closed loop of the multi-robot CoM task

Asked for: like a set-point task, the joint centre of mass goes to its target as a critically damped system.
The code minimises one term per robot (C49), and the accelerations add up: with `n` robots the centre of mass
gets `n` times the acceleration asked for, less `n - 1` times the normal acceleration.
-/

set_option autoImplicit false
set_option linter.unusedSectionVars false

namespace Verif

open Finset Spec

namespace Spec

/-- Row `a` of the values of a task on `n` robots follows a motion of acceleration `y`, the unknowns of robot
number `i` beginning at `b i`. -/
structure FollowsMulti (hl : ℝ → MultiHL ℝ) (n : ℕ) (b : ℕ → ℕ) (a : ℕ) (y : ℝ → ℕ → ℝ) : Prop where
  err : ∀ t, 0 ≤ t → HasDerivAt (fun τ => (hl τ).eval.get a) (-(hl t).speed.get a) t
  speed : ∀ t, 0 ≤ t → HasDerivAt (fun τ => (hl τ).speed.get a)
    (∑ i ∈ range n, rowAt ((hl t).J i) (b i) (y t) a + (hl t).normalAcc.get a) t

/-- A multi-robot task (either kind) of stiffness `k`, with any calls before; at each time `t ≥ 0` it is updated with
`hl t`, and `y t` minimises its objective.  Every robot alone could reach the target on all `dim` rows. -/
def MultiLoop (kind : MultiKind) (mbs : List (MultiBody ℝ)) (robots : List ℕ) (dim : ℕ) (k : ℝ)
    (hl : ℝ → MultiHL ℝ) (y : ℝ → ℕ → ℝ) : Prop :=
  ∃ (sqrt : ℝ → Out ℝ) (w : ℝ) (d : SolverData ℝ) (W : ℝ → Vec ℝ) (s s' : ℝ → MultiT ℝ),
    SqrtOK sqrt ∧ 0 < w ∧ (kind = .com → robots.Nodup) ∧ (∀ t, 0 ≤ t → (W t).size = dim ∧ ∀ a < dim, 0 < (W t).get a) ∧
    (∀ t, 0 ≤ t → MultiRun kind sqrt mbs robots w (some d) k (W t) (s t)) ∧
    (∀ t, 0 ≤ t → kind.update d (hl t) (s t) = .ok (s' t)) ∧
    (∀ t, 0 ≤ t → ∃ x0, ∀ i < robots.length, ∀ a < dim,
      rowAt ((hl t).J i) (robotBegin mbs robots i) x0 a + (hl t).normalAcc.get a
        = multiTarget k (2 * Real.sqrt k) (hl t) a) ∧
    ∀ t, 0 ≤ t → Minimises (s' t).task (y t)

end Spec

section
variable {kind : MultiKind} {mbs : List (MultiBody ℝ)} {robots : List ℕ} {dim : ℕ} {k : ℝ}
  {hl : ℝ → MultiHL ℝ} {y : ℝ → ℕ → ℝ} {a : ℕ}

/-- The exact law: the acceleration of the joint error is `n` times what a set-point task asks for, less
`n - 1` times the normal acceleration. -/
theorem C70_law (L : MultiLoop kind mbs robots dim k hl y) (ha : a < dim)
    (hf : FollowsMulti hl robots.length (robotBegin mbs robots) a y) {t : ℝ} (ht : 0 ≤ t) :
    0 ≤ k ∧ HasDerivAt (fun τ => (hl τ).speed.get a)
      (robots.length * (k * (hl t).eval.get a - 2 * Real.sqrt k * (hl t).speed.get a)
        - ((robots.length : ℝ) - 1) * (hl t).normalAcc.get a) t := by
  obtain ⟨sqrt, w, d, W, s, s', hs, hw, hn, hW, R, hu, hreach, hopt⟩ := L
  obtain ⟨c, ⟨c0, c1⟩, h⟩ := C49_overshoot hs hn hw (W := W t) 
    (fun a ha => (hW t ht).2 a (by rw [← (hW t ht).1]; exact ha)) (R t ht) (hu t ht)
  have hk : 0 ≤ k := by nlinarith [sq_nonneg c]
  have hc : c = 2 * Real.sqrt k := by
    have : c ^ 2 = (2 * Real.sqrt k) ^ 2 := by rw [c1, mul_pow, Real.sq_sqrt hk]; norm_num
    exact (pow_left_inj₀ c0 (by positivity) two_ne_zero).1 this
  subst hc
  obtain ⟨x0, hx0⟩ := hreach t ht
  rw [(hW t ht).1] at h
  refine ⟨hk, (hf.speed t ht).congr_deriv ?_⟩
  rw [h x0 hx0 (y t) (hopt t ht) a ha]
  unfold multiTarget
  ring

/-- With a single robot the error follows the critically damped response, as asked.  The full claim is about
any number of robots; `MultiLoopEx.C70_counterexample` has two. -/
theorem C70_one_robot_partial (L : MultiLoop kind mbs robots dim k hl y) (ha : a < dim)
    (hf : FollowsMulti hl robots.length (robotBegin mbs robots) a y) (h1 : robots.length = 1) {t : ℝ}
    (ht : 0 ≤ t) :
    (hl t).eval.get a = critical (Real.sqrt k) ((hl 0).eval.get a) (-(hl 0).speed.get a) t := by
  have hk := (C70_law L ha hf le_rfl).1
  refine critical_solution (v := fun τ => -(hl τ).speed.get a) hf.err (fun t ht => ?_) ht
  refine ((C70_law L ha hf ht).2.neg).congr_deriv ?_
  rw [h1, Real.mul_self_sqrt hk]
  push_cast
  ring

/-- With any number of robots whose normal acceleration vanishes (sliders, for instance), the error still
tends to zero, as the overdamped system of stiffness `n k` and damping `2 n sqrt k`. -/
theorem C70_converges_partial (L : MultiLoop kind mbs robots dim k hl y) (ha : a < dim)
    (hf : FollowsMulti hl robots.length (robotBegin mbs robots) a y) (hn : 0 < robots.length) (hk : 0 < k)
    (hz : ∀ t, (hl t).normalAcc.get a = 0) :
    Filter.Tendsto (fun t => (hl t).eval.get a) Filter.atTop (nhds 0) := by
  have hn' : (0 : ℝ) < robots.length := by exact_mod_cast hn
  obtain ⟨C, c, hc, hb⟩ := damped_tendsto (e := fun τ => (hl τ).eval.get a)
    (v := fun τ => -(hl τ).speed.get a) (k := robots.length * k) (d := robots.length * (2 * Real.sqrt k))
    (by positivity) (by have := Real.sqrt_pos.2 hk; positivity) hf.err (fun t ht => by
      refine ((C70_law L ha hf ht).2.neg).congr_deriv ?_
      rw [hz t]
      ring)
  have h1 : Filter.Tendsto (fun t : ℝ => C * Real.exp (-(c * t))) Filter.atTop (nhds 0) := by
    have := (Real.tendsto_exp_neg_atTop_nhds_zero.comp
      ((Filter.tendsto_id (α := ℝ) (x := Filter.atTop)).const_mul_atTop hc)).const_mul C
    simpa using this
  have h2 : Filter.Tendsto (fun t => (hl t).eval.get a ^ 2) Filter.atTop (nhds 0) := by
    refine squeeze_zero' (Filter.Eventually.of_forall fun t => sq_nonneg _) ?_ h1
    filter_upwards [Filter.eventually_ge_atTop 0] with t ht
    have := hb t ht
    nlinarith [sq_nonneg (-(hl t).speed.get a)]
  have h3 := (Real.continuous_sqrt.tendsto 0).comp h2
  simp only [Real.sqrt_zero] at h3
  rw [tendsto_zero_iff_abs_tendsto_zero]
  refine h3.congr fun t => ?_
  simp [Real.sqrt_sq_eq_abs]

/-- The CoM task of several robots, along every motion of the robots: the law holds of the distance of the
joint centre of mass to its target. -/
theorem C70_com {masses : List (List ℝ)} {target : V3 ℝ} {s : MultiCoMHL ℝ}
    (hr : ∀ r ∈ robots, r < masses.length) (hM : totalMass masses robots ≠ 0)
    (R : MCoMRun robots masses target s) {bs : ℕ → List (BodyM ℝ)} {mb : ℕ → MultiBody ℝ}
    {st : ℕ → ℝ → KState ℝ} {x : ℕ → ℝ → ℕ → ℝ}
    (h : ∀ t, 0 ≤ t → ∀ r ∈ robots, BodiesEvolve (bs r) (mb r) (st r) (x r) (fun c => y t (aBegin mbs r + c)) t)
    (hm : ∀ r ∈ robots, MassOK (bs r)) (hMr : ∀ r ∈ robots, massSum (bs r) ≠ 0) {env : ℝ → List (CoMEnv ℝ)}
    (he : ∀ τ, ∀ r ∈ robots, ∃ e, (env τ)[r]? = some e ∧ comEnv (bs r) (mb r) (st r τ) = .ok e)
    {s' : ℝ → MultiCoMHL ℝ} (hu : ∀ τ, s.update (env τ) = .ok (s' τ))
    (L : MultiLoop .com mbs robots 3 k (fun t => (s' t).hl) y) (ha : a < 3) :
    FollowsMulti (fun t => (s' t).hl) robots.length (robotBegin mbs robots) a y ∧
    ∀ t, 0 ≤ t → HasDerivAt (fun τ => (s' τ).speed.get a)
      (robots.length * (k * (s' t).eval.get a - 2 * Real.sqrt k * (s' t).speed.get a)
        - ((robots.length : ℝ) - 1) * (s' t).normalAcc.get a) t := by
  have gv : ∀ v : V3 ℝ, v.toVec.get a = v.get a := by
    intro v
    match a, ha with
    | 0, _ => rfl
    | 1, _ => rfl
    | 2, _ => rfl
  have F : FollowsMulti (fun t => (s' t).hl) robots.length (robotBegin mbs robots) a y := by
    constructor
    · intro t ht
      obtain ⟨q, q1, q2, q3, q4⟩ := C61_multi hr hM R (h t ht) hm hMr he
      have e : q = s' := funext fun τ => Out.ok.inj ((q1 τ).symm.trans (hu τ))
      subst e
      simp only [MultiCoMHL.hl, gv]
      refine (q3.get a).congr_deriv ?_
      match a, ha with
      | 0, _ => rfl
      | 1, _ => rfl
      | 2, _ => rfl
    · intro t ht
      obtain ⟨q, q1, q2, q3, q4⟩ := C61_multi hr hM R (h t ht) hm hMr he
      have e : q = s' := funext fun τ => Out.ok.inj ((q1 τ).symm.trans (hu τ))
      subst e
      simp only [MultiCoMHL.hl, gv]
      exact q4 a ha
  refine ⟨F, fun t ht => ?_⟩
  have := (C70_law L ha F ht).2
  simp only [MultiCoMHL.hl, gv] at this
  exact this

end

namespace MultiLoopEx

noncomputable section

/-- Two sliders of equal mass, each moving the mean position by half of its own motion. -/
def mb : MultiBody ℝ := ⟨[⟨"a", 1, none⟩], 1, [-1], [0]⟩

def data : SolverData ℝ :=
  ((layout SolverData.init [mb, mb] [] []).val?.map Prod.fst).getD SolverData.init

theorem isLayout_data : IsLayout [mb, mb] data :=
  ⟨SolverData.init, [], [], [], ⟨by
    intro m hm
    simp only [List.mem_cons, List.not_mem_nil, or_false, or_self] at hm
    subst hm
    intro j hj
    simp [mb] at hj
    subst hj
    simp, by simp⟩, rfl⟩

/-- The rate of the motion below: a root of `z² + 4 z + 2`. -/
def rate : ℝ := -2 + Real.sqrt 2

theorem rate_root : rate ^ 2 + 4 * rate + 2 = 0 := by
  unfold rate
  have := Real.sq_sqrt (show (0 : ℝ) ≤ 2 by norm_num)
  nlinarith

/-- The error decreases as `exp (rate t)`. -/
def hl (t : ℝ) : MultiHL ℝ :=
  ⟨[Mat.ofRows 1 [[1 / 2]], Mat.ofRows 1 [[1 / 2]]], Vec.ofList [Real.exp (rate * t)],
    Vec.ofList [-(rate * Real.exp (rate * t))], Vec.ofList [0]⟩

/-- Both sliders accelerate alike. -/
def y (t : ℝ) : ℕ → ℝ := fun _ => -(rate ^ 2 * Real.exp (rate * t))

theorem follows : FollowsMulti hl 2 (robotBegin [mb, mb] [0, 1]) 0 y := by
  have hE : ∀ t, HasDerivAt (fun τ => Real.exp (rate * τ)) (Real.exp (rate * t) * rate) t := fun t => by
    simpa using ((hasDerivAt_id t).const_mul rate).exp
  constructor
  · intro t _
    refine (hE t).congr_deriv ?_
    simp [hl, Vec.ofList]
    ring
  · intro t _
    refine (((hE t).const_mul rate).neg).congr_deriv ?_
    simp [hl, Vec.ofList, rowAt, MultiHL.J, Finset.sum_range_succ, Mat.ofRows, y]
    ring

def sqr (x : ℝ) : Out ℝ := if 0 ≤ x then .ok (Real.sqrt x) else .ub

theorem sqr_ok : SqrtOK sqr := by
  constructor
  · intro k hk
    exact ⟨_, if_pos hk⟩
  · intro k r h
    unfold sqr at h
    split_ifs at h with hk
    rw [← Out.ok.inj h]
    exact ⟨Real.sqrt_nonneg k, Real.mul_self_sqrt hk⟩

theorem loop : MultiLoop .com [mb, mb] [0, 1] 1 1 hl y := by
  let s : MultiT ℝ := ⟨10, 0, 1, 2 * Real.sqrt 1, Vec.ofList [1], [0, 1], [0, 1], 1, true, Mat.zero 2 2,
    Vec.const 2 0⟩
  have R : MultiRun .com sqr [mb, mb] [0, 1] 10 (some data) 1 (Vec.ofList [1]) s := by
    refine .nrVars data _ (.make 1 (Vec.ofList [1]) ⟨10, 0, 1, 2 * Real.sqrt 1, Vec.ofList [1], [0, 1], [], 1,
      false, Mat.zero 0 0, Vec.const 0 0⟩ ?_) isLayout_data rfl
    unfold MultiT.make
    rw [show sqr 1 = .ok (Real.sqrt 1) from if_pos (by norm_num)]
    rfl
  have hu : ∀ t, ∃ s', MultiKind.com.update data (hl t) s = .ok s' := fun t => ⟨_, rfl⟩
  choose s' hu using hu
  refine ⟨sqr, 10, data, fun _ => Vec.ofList [1], fun _ => s, s', sqr_ok, by norm_num, fun _ => by decide,
    fun t _ => ⟨rfl, fun a ha => ?_⟩, fun _ _ => R, fun t _ => hu t, fun t _ => ⟨y t, ?_⟩, fun t _ z => ?_⟩
  · have : a = 0 := by omega
    subst this
    simp [Vec.ofList]
  · have hr := rate_root
    intro i hi a ha
    have ha : a = 0 := by omega
    subst ha
    have : i = 0 ∨ i = 1 := by simp at hi; omega
    rcases this with rfl | rfl <;>
    · simp [hl, y, rowAt, MultiHL.J, Mat.ofRows, Vec.ofList, multiTarget]
      have : rate ^ 2 = -4 * rate - 2 := by linarith
      rw [this]
      ring
  · obtain ⟨c, ⟨c0, c1⟩, -, hobj⟩ := C49_decoupled_partial sqr_ok (fun _ => by decide) R (hu t)
    have hc : c = 2 := by nlinarith
    subst hc
    rw [hobj, hobj]
    refine Finset.sum_le_sum fun i hi => ?_
    have hr := rate_root
    have hzero : lsq (Vec.ofList [(1 : ℝ)]).get ((hl t).J i) (hl t).normalAcc.get (multiTarget 1 2 (hl t))
        (robotBegin [mb, mb] [0, 1] i) (y t) = 0 := by
      have : i = 0 ∨ i = 1 := by simp at hi; omega
      have hr' : rate ^ 2 = -4 * rate - 2 := by linarith
      rcases this with rfl | rfl <;>
      · simp [lsq, hl, y, rowAt, MultiHL.J, Mat.ofRows, Vec.ofList, multiTarget, hr']
        ring
    have hpos : 0 ≤ lsq (Vec.ofList [(1 : ℝ)]).get ((hl t).J i) (hl t).normalAcc.get (multiTarget 1 2 (hl t))
        (robotBegin [mb, mb] [0, 1] i) z := by
      unfold lsq
      refine div_nonneg (Finset.sum_nonneg fun j hj => mul_nonneg ?_ (sq_nonneg _)) (by norm_num)
      have : i = 0 ∨ i = 1 := by simp at hi; omega
      have hj' : j = 0 := by
        rcases this with rfl | rfl <;> simpa [hl, MultiHL.J, Mat.ofRows] using hj
      subst hj'
      simp [Vec.ofList]
    rw [hzero]
    linarith

/-- The claim is false with two robots: along this motion of two sliders the error is
`exp ((-2 + √2) t)`; the critically damped response of stiffness 1 from the same state is below it at
`t = 1`. -/
theorem C70_counterexample : MultiLoop .com [mb, mb] [0, 1] 1 1 hl y ∧
    FollowsMulti hl 2 (robotBegin [mb, mb] [0, 1]) 0 y ∧
    critical (Real.sqrt 1) ((hl 0).eval.get 0) (-(hl 0).speed.get 0) 1 < (hl 1).eval.get 0 := by
  refine ⟨loop, follows, ?_⟩
  have h1 : rate + 1 ≠ 0 := by
    intro h
    have := rate_root
    have e : rate = -1 := by linarith
    rw [e] at this
    norm_num at this
  have h2 := Real.add_one_lt_exp h1
  have h3 : Real.exp (rate + 1) * Real.exp (-1) = Real.exp rate := by
    rw [← Real.exp_add]
    congr 1
    ring
  have h4 := mul_lt_mul_of_pos_right h2 (Real.exp_pos (-1))
  rw [h3] at h4
  simp [critical, hl, Vec.ofList]
  calc (1 + (rate + 1)) * Real.exp (-1) = (rate + 1 + 1) * Real.exp (-1) := by ring
    _ < Real.exp rate := h4

/-- The hypotheses of `C70_converges_partial` hold on it too. -/
example : Filter.Tendsto (fun t => (hl t).eval.get 0) Filter.atTop (nhds 0) :=
  C70_converges_partial loop (by norm_num) follows (by norm_num) (by norm_num) (fun t => rfl)

end

end MultiLoopEx

end Verif
