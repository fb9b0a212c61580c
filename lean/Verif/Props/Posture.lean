import Verif.Proofs.Posture

/-!
# C47: the posture task drives each joint to its target
-/

set_option autoImplicit false
set_option linter.unusedSectionVars false

namespace Verif

open Finset Spec

namespace Spec

variable {K : Type} [Field K] [LinearOrder K]

/-- The settings of a freshly built posture task. -/
def initPosture (mb : MultiBody K) (q : List (List K)) (k : K) : PostureSet K :=
  ⟨⟨mb.nrDof, fun _ => 1⟩, 0, q, (k, none), [], ⟨mb.nrDof, fun _ => 0⟩, ⟨mb.nrDof, fun _ => 0⟩⟩

/-- `tgt` is the acceleration the posture task asks of each dof after the first joint:
`k * err - d * (alpha - refVel) + refAccel`, with the gains of the dof. -/
def IsPostureTarget (mb : MultiBody K) (v : PostureSet K) (env : PostureEnv K) (err tgt : ℕ → K) :
    Prop :=
  ∀ c, jpos mb 1 ≤ c → c < mb.nrDof → ∃ g k d a, GainFor mb v.g v.js c g ∧ GainIs (k, d) g ∧
    env.alpha.flatten[c]? = some a ∧
    tgt c = k * err c - d * (a - v.vel.get c) + v.acc.get c

end Spec

section
variable {K : Type} [Field K] [LinearOrder K] [IsStrictOrderedRing K]

/-- Every joint after the first has 0, 1 or 3 dofs. -/
def PostureDofs (mb : MultiBody K) : Prop :=
  ∀ i (j : Joint K), 1 ≤ i → mb.joints[i]? = some j → j.dof = 0 ∨ j.dof = 1 ∨ j.dof = 3

/-- Error part, for joint structures with 0, 1 and 3 dofs.  Missing for the full claim: it does not
hold for other joints, see `C47_two_dof_counterexample`. -/
theorem C47_error_partial {sqrt : K → Out K} (hs : SqrtOK sqrt) {mb : MultiBody K}
    (hdof : PostureDofs mb) {free : Bool} {w k : K} {rI : ℕ} {q : List (List K)}
    {junk : ℕ → ℕ → K} {s0 s s' : Posture K} {ops : List (PostureOp K)} {env : PostureEnv K}
    (h0 : Posture.make sqrt mb free rI q k w junk = .ok s0)
    (h1 : forEach ops (Posture.step sqrt mb) s0 = .ok s) (h2 : s.update mb env = .ok s') :
    s'.pt.eval.size = mb.nrDof ∧
      IsPostureErr mb (ops.foldl (·.apply rI) (initPosture mb q k)).q env s'.pt.eval.get := by
  have hv := posture_run_view hs hdof (posture_make_view hs h0) h1
  obtain ⟨pt, alpha, C2, e1, _, _, _, _, rfl⟩ := posture_update_ok h2
  obtain ⟨f1, f2, f3, f4⟩ := postureHL_update_ok hdof hv.eval0 e1
  exact ⟨f4.trans hv.evalSize, hv.q ▸ f1⟩

/-- Objective part: for every joint structure with 0, 1 and 3 dofs after the first joint, after every
history of calls, the objective is the weighted least squares of `alphaD - target` on the dofs after
the first joint, plus, if the first joint is not a free joint, the weighted squares of the
accelerations of its own dofs.  No joint gain is given to the first joint
(see `C47_root_gain_counterexample`). -/
theorem C47_objective_partial {sqrt : K → Out K} (hs : SqrtOK sqrt) {mb : MultiBody K}
    (hdof : PostureDofs mb) {free : Bool} (hfree : free = true → jdof mb 0 = 6) {w k : K} {rI : ℕ}
    {q : List (List K)}
    {junk : ℕ → ℕ → K} {s0 s s' : Posture K} {ops : List (PostureOp K)} {env : PostureEnv K}
    (halpha : mb.nrDof ≤ env.alpha.flatten.length)
    (h0 : Posture.make sqrt mb free rI q k w junk = .ok s0)
    (h1 : forEach ops (Posture.step sqrt mb) s0 = .ok s) (h2 : s.update mb env = .ok s')
    (v : PostureSet K) (hv : v = ops.foldl (·.apply rI) (initPosture mb q k))
    (hroot : ∀ e ∈ v.js, ∀ c < jpos mb 1, ¬ ColOf mb e.1 c) :
    s'.task.begin' = (v.b, v.b) ∧ s'.task.weight = w ∧ s'.task.Q.rows = mb.nrDof ∧
    s'.task.Q.cols = mb.nrDof ∧ s'.task.C.size = mb.nrDof ∧
    ∃ err tgt, IsPostureErr mb v.q env err ∧ IsPostureTarget mb v env err tgt ∧
    ∃ const, ∀ x : ℕ → K, s'.task.obj x = w * (∑ c ∈ range mb.nrDof,
      v.W.get c * (if jpos mb 1 ≤ c then (x (v.b + c) - tgt c) ^ 2
        else if free = true then 0 else x (v.b + c) ^ 2)) / 2 - const := by
  have hview := posture_run_view hs hdof (posture_make_view hs h0) h1
  rw [show (⟨⟨mb.nrDof, fun _ => 1⟩, 0, q, (k, none), [], ⟨mb.nrDof, fun _ => 0⟩,
    ⟨mb.nrDof, fun _ => 0⟩⟩ : PostureSet K) = initPosture mb q k from rfl, ← hv] at hview
  have hlen : 1 < mb.joints.length := by
    unfold Posture.update PostureHL.update at h2
    obtain ⟨_, h2, _⟩ := Out.bind_eq_ok.1 h2
    obtain ⟨_, h2, _⟩ := Out.bind_eq_ok.1 h2
    unfold MultiBody.jointPosInDof at h2
    split at h2
    · assumption
    · cases h2
  have hdeb : jpos mb 1 = jdof mb 0 := by
    rw [jpos_succ mb 0 (by omega)]
    simp [jpos]
  have hdebn : jpos mb 1 ≤ mb.nrDof := by
    have := jpos_fit mb hlen
    omega
  obtain ⟨pt, alpha, C2, e1, e2, ⟨C1, c1, c2, c3⟩, e4, e5, rfl⟩ := posture_update_ok h2
  obtain ⟨f1, f2, f3, f4⟩ := postureHL_update_ok hdof hview.eval0 e1
  obtain ⟨g1, g2⟩ := paramToVector_ok_eq e2
  obtain ⟨j1, j2⟩ := jdLoop_ok hview.js c3
  have hrows : pt.jac.rows = mb.nrDof := e4.symm.trans hview.WSize
  have hcols : pt.jac.cols = mb.nrDof := by
    rw [f3]
    rcases hview.jac with h | ⟨h, _, h'⟩
    · rw [h]
    · rw [h', h]
  have hC2 : C2.size = mb.nrDof := e5.symm.trans hview.WSize
  refine ⟨by simp [Posture.task, hview.b], hview.weight, hrows, hcols, hC2, pt.eval.get,
    fun c => - C2.get c, hview.q ▸ f1, ?_, ?_⟩
  · intro c hc1 hc2
    have hlt : c < env.alpha.flatten.length := by omega
    have ha : alpha.get c = env.alpha.flatten[c] := by
      rw [g2]
      simp only [List.getElem?_eq_getElem hlt, Option.getD_some]
    rcases j2 c with ⟨a1, a2⟩ | ⟨l1, e, l2, kd, b1, b2, b3, b4, b5⟩
    · refine ⟨v.g, s.stiffness, s.damping, _, Or.inl ⟨a1, rfl⟩, hview.g,
        List.getElem?_eq_getElem hlt, ?_⟩
      dsimp only
      rw [a2, c2, if_pos (by omega), postureF, ha, ← hview.vel, ← hview.acc]
      ring
    · refine ⟨e.2, kd.1, kd.2, _, Or.inr ⟨l1, e, l2, b1, b2, b3, rfl⟩, b4,
        List.getElem?_eq_getElem hlt, ?_⟩
      dsimp only
      rw [b5, postureF, ha, ← hview.vel, ← hview.acc]
      ring
  · have hC0 : ∀ c < jpos mb 1, C2.get c = 0 := by
      intro c hc
      rcases j2 c with ⟨a1, a2⟩ | ⟨l1, e, l2, kd, b1, b2, b3, b4, b5⟩
      · rw [a2, c2, if_neg (by omega)]
      · exact absurd b2 (hroot e (by rw [b1]; simp) c hc)
    have hjac : ∀ i < mb.nrDof, ∀ j, pt.jac.get i j = if i = j then
        (if jpos mb 1 ≤ i then 1 else if free = true then 0 else 1) else 0 := by
      intro i hi j
      rw [f3]
      rcases hview.jac with h | ⟨h, _, h'⟩
      · rw [h]
        dsimp only
        split
        · by_cases hf : free = true
          · have := hfree hf
            by_cases hi6 : i < 6
            · rw [if_pos ⟨hf, hi6⟩, if_neg (by omega), if_pos hf]
            · rw [if_neg (fun hh => hi6 hh.2), if_pos (by omega)]
          · rw [if_neg (fun hh => hf hh.1), if_neg hf, ite_self]
        · rfl
      · omega
    refine ⟨s.weight * (∑ c ∈ range mb.nrDof, s.dimWeight.get c * C2.get c ^ 2) / 2,
      fun x => ?_⟩
    unfold TaskQC.obj Posture.task
    dsimp only
    rw [hrows, hcols, hview.b, ← hview.W, ← hview.weight]
    have hq : ∀ a ∈ range mb.nrDof, ∑ b ∈ range mb.nrDof,
        x (v.b + a) * (s.dimWeight.get a * pt.jac.get a b) * x (v.b + b) =
        s.dimWeight.get a * (if jpos mb 1 ≤ a then 1 else if free = true then 0 else 1)
          * x (v.b + a) ^ 2 := by
      intro a ha
      rw [Finset.sum_eq_single a]
      · rw [hjac a (mem_range.1 ha), if_pos rfl]
        ring
      · intro b _ hb
        rw [hjac a (mem_range.1 ha), if_neg (Ne.symm hb)]
        ring
      · intro hh
        exact absurd ha hh
    rw [Finset.sum_congr rfl hq]
    have key : ∀ c ∈ range mb.nrDof,
        s.dimWeight.get c * (if jpos mb 1 ≤ c then (x (v.b + c) - -C2.get c) ^ 2
          else if free = true then 0 else x (v.b + c) ^ 2) =
        s.dimWeight.get c * (if jpos mb 1 ≤ c then 1 else if free = true then 0 else 1)
          * x (v.b + c) ^ 2 + 2 * (s.dimWeight.get c * C2.get c * x (v.b + c))
          + s.dimWeight.get c * C2.get c ^ 2 := by
      intro c _
      by_cases hc : jpos mb 1 ≤ c
      · rw [if_pos hc, if_pos hc]
        ring
      · rw [if_neg hc, if_neg hc, hC0 c (by omega)]
        split <;> ring
    rw [Finset.sum_congr rfl key, Finset.sum_add_distrib, Finset.sum_add_distrib,
      ← Finset.mul_sum]
    ring

/-- The claim for the usual robots: the first joint is a free joint or a fixed one, so only the dofs
after it appear in the objective. -/
theorem C47_objective {sqrt : K → Out K} (hs : SqrtOK sqrt) {mb : MultiBody K}
    (hdof : PostureDofs mb) {free : Bool} (hbase : jdof mb 0 = if free = true then 6 else 0)
    {w k : K} {rI : ℕ} {q : List (List K)}
    {junk : ℕ → ℕ → K} {s0 s s' : Posture K} {ops : List (PostureOp K)} {env : PostureEnv K}
    (halpha : mb.nrDof ≤ env.alpha.flatten.length)
    (h0 : Posture.make sqrt mb free rI q k w junk = .ok s0)
    (h1 : forEach ops (Posture.step sqrt mb) s0 = .ok s) (h2 : s.update mb env = .ok s')
    (v : PostureSet K) (hv : v = ops.foldl (·.apply rI) (initPosture mb q k))
    (hroot : ∀ e ∈ v.js, ∀ c < jpos mb 1, ¬ ColOf mb e.1 c) :
    ∃ err tgt, IsPostureErr mb v.q env err ∧ IsPostureTarget mb v env err tgt ∧
    ∃ const, ∀ x : ℕ → K, s'.task.obj x = w * (∑ c ∈ range mb.nrDof,
      if jpos mb 1 ≤ c then v.W.get c * (x (v.b + c) - tgt c) ^ 2 else 0) / 2 - const := by
  obtain ⟨_, _, _, _, _, err, tgt, a1, a2, const, a3⟩ := C47_objective_partial hs hdof
    (fun hf => by rw [hbase, if_pos hf]) halpha h0 h1 h2 v hv hroot
  refine ⟨err, tgt, a1, a2, const, fun x => ?_⟩
  rw [a3 x]
  congr 3
  refine Finset.sum_congr rfl fun c _ => ?_
  by_cases hc : jpos mb 1 ≤ c
  · rw [if_pos hc, if_pos hc]
  · rw [if_neg hc, if_neg hc]
    by_cases hf : free = true
    · rw [if_pos hf, mul_zero]
    · have : jpos mb 1 = 0 := by
        by_cases hl : 0 < mb.joints.length
        · rw [jpos_succ mb 0 hl, hbase, if_neg hf]
          simp [jpos]
        · have : mb.joints = [] := List.length_eq_zero_iff.1 (by omega)
          simp [jpos, this]
      omega

end

namespace PostureEx

/-- A fixed base and two one-dof joints, with a three-dof joint between them. -/
def mb : MultiBody ℚ :=
  ⟨[⟨"root", 0, none⟩, ⟨"a", 1, none⟩, ⟨"s", 3, none⟩, ⟨"b", 1, none⟩], 4, [-1, 0, 1, 2],
    [0, 1, 2, 3]⟩

/-- Configuration read by the task. -/
def env : PostureEnv ℚ :=
  ⟨[[], [1], [1, 0, 0, 0], [2]], [[], [1], [0, 0, 0], [3]], fun _ _ a b c => ⟨a, b, c⟩⟩

/-- Errors `5 - 1`, the rotation error, `7 - 2`, each at its own dof; gains of `b` are
`(4, 4)` (critical), those of the other joints `(1, 2)`. -/
example : ∃ s0 s s', Posture.make SetPointEx.sq mb false 0 [[], [0], [1, 0, 0, 0], [0]] 1 10
      (fun _ _ => 7) = .ok s0 ∧
    forEach [.posture [[], [5], [9, 1/2, 1/3, 1/4], [7]], .jointsStiffness [("b", 4)], .update env]
      (Posture.step SetPointEx.sq mb) s0 = .ok s ∧
    s.update mb env = .ok s' ∧
    (List.range 5).map s'.pt.eval.get = [4, 1/2, 1/3, 1/4, 5] ∧
    (List.range 5).map s'.C.get = [-(1 * 4 - 2 * 1), -1/2, -1/3, -1/4, -(4 * 5 - 4 * 3)] := by
  refine ⟨_, _, _, rfl, rfl, rfl, ?_, ?_⟩
  · norm_num [List.range, List.range.loop, env, mb, MultiBody.nrDof]
  · norm_num [List.range, List.range.loop, env, Vec.const, mb, MultiBody.nrDof]

example : PostureDofs mb := by
  intro i j hi hj
  rcases i with _ | _ | _ | _ | i
  · omega
  all_goals simp [mb] at hj
  all_goals subst hj
  all_goals simp

/-- A two-dof joint before a one-dof joint. -/
def mb2 : MultiBody ℚ :=
  ⟨[⟨"root", 0, none⟩, ⟨"u", 2, none⟩, ⟨"b", 1, none⟩], 3, [-1, 0, 1], [0, 1, 2]⟩

/-- A revolute first joint. -/
def mb1 : MultiBody ℚ :=
  ⟨[⟨"root", 1, none⟩, ⟨"b", 1, none⟩], 2, [-1, 0], [0, 1]⟩

/-- A free-flyer and a one-dof joint. -/
def mbF : MultiBody ℚ :=
  ⟨[⟨"root", 6, none⟩, ⟨"b", 1, none⟩], 2, [-1, 0], [0, 1]⟩

/-- A planar joint (3 dofs, 3 parameters) after the base. -/
def mbP : MultiBody ℚ :=
  ⟨[⟨"root", 0, none⟩, ⟨"p", 3, none⟩], 2, [-1, 0], [0, 1]⟩

/-- Configuration of `mb2` with joint `b` one unit away from the target. -/
def env2 : PostureEnv ℚ := ⟨[[], [0, 0], [0]], [[], [0, 0], [0]], fun _ _ a b c => ⟨a, b, c⟩⟩

/-- Configuration of `mbF`. -/
def envF : PostureEnv ℚ :=
  ⟨[[1, 0, 0, 0, 0, 0, 0], [0]], [[1, 0, 0, 0, 0, 0], [0]], fun _ _ a b c => ⟨a, b, c⟩⟩

end PostureEx

open PostureEx in
/-- A joint with two dofs shifts the errors of the later joints: joint `b` is one unit away from its
target, but the error is written at the first dof of the two-dof joint, and the objective does not
depend on the target of `b` through `b`'s acceleration. -/
theorem C47_two_dof_counterexample :
    ∃ s0 s', Posture.make SetPointEx.sq mb2 false 0 [[], [0, 0], [1]] 1 10 (fun _ _ => 7) = .ok s0 ∧
      s0.update mb2 env2 = .ok s' ∧ jpos mb2 2 = 2 ∧ s'.pt.eval.get 0 = 1 ∧
      s'.pt.eval.get 2 = 0 ∧ ¬ IsPostureErr mb2 [[], [0, 0], [1]] env2 s'.pt.eval.get := by
  refine ⟨_, _, rfl, rfl, rfl, ?_, ?_, ?_⟩
  · simp [env2, mb2]
  · simp [Vec.const, mb2]
  · rintro ⟨_, h⟩
    obtain ⟨a, b, ha, hb, hc⟩ := (h 2 ⟨"b", 1, none⟩ (by omega) rfl).1 rfl
    simp [nested, vecAt] at ha
    simp [nested, vecAt, env2] at hb
    subst ha hb
    simp [Vec.const, jpos, mb2] at hc

open PostureEx in
/-- A joint with three dofs and three parameters (planar) makes the update read past the target
configuration of that joint, whatever the task did before. -/
theorem C47_planar_ub {s : Posture ℚ} {env : PostureEnv ℚ} {a b c : ℚ}
    (hq : s.pt.q = [[], [a, b, c]]) : s.update mbP env = .ub := by
  unfold Posture.update PostureHL.update
  rw [hq]
  rfl

/-- On a robot with a single joint the update is undefined: the code asks for the position of the
second joint. -/
theorem C47_single_joint_ub {K : Type} [CommRing K] {mb : MultiBody K}
    (h : mb.joints.length ≤ 1) (s : Posture K) (env : PostureEnv K) : s.update mb env = .ub := by
  unfold Posture.update PostureHL.update MultiBody.jointPosInDof
  rw [if_neg (by omega)]
  rfl

open PostureEx in
/-- A gain given to the free-flyer puts a linear term without Hessian in the objective, which is then
unbounded below. -/
theorem C47_root_gain_counterexample :
    ∃ s0 s s', Posture.make SetPointEx.sq mbF true 0 [[1, 0, 0, 0, 0, 0, 0], [0]] 1 10
        (fun _ _ => 7) = .ok s0 ∧
      forEach [.jointsStiffness [("root", 1)]] (Posture.step SetPointEx.sq mbF) s0 = .ok s ∧
      s.update mbF envF = .ok s' ∧
      ∀ m : ℚ, ∃ x : ℕ → ℚ, s'.task.obj x < m := by
  refine ⟨_, _, _, rfl, rfl, rfl, fun m => ⟨fun i => if i = 0 then (m - 1) / 20 else 0, ?_⟩⟩
  simp [TaskQC.obj, Posture.task, Finset.sum_range_succ, envF, Vec.const, mbF, MultiBody.nrDof]
  linarith

open PostureEx in
/-- With a mobile first joint that is not a free joint, the objective also penalises the acceleration
of that joint, which has no target. -/
theorem C47_mobile_base_counterexample :
    ∃ s0 s', Posture.make SetPointEx.sq mb1 false 0 [[0], [0]] 1 10 (fun _ _ => 7) = .ok s0 ∧
      s0.update mb1 ⟨[[0], [0]], [[0], [0]], fun _ _ a b c => ⟨a, b, c⟩⟩ = .ok s' ∧
      ∀ x, s'.task.obj x = 10 * (x 0 ^ 2 + x 1 ^ 2) / 2 := by
  refine ⟨_, _, rfl, rfl, fun x => ?_⟩
  simp [TaskQC.obj, Posture.task, Finset.sum_range_succ, Vec.const, mb1, MultiBody.nrDof]
  ring

end Verif
