import Verif.Proofs.Rotation
import Verif.Props.Physical
import Verif.Props.Inexact

/-!
# C88: physical feasibility with an inexact numerical solver

C76 with a numerical solver whose answers satisfy their problem up to `ε`.
-/

set_option autoImplicit false
set_option linter.unusedSectionVars false

namespace Verif

open Finset Spec

section
variable {K : Type} [Field K] [LinearOrder K] [IsStrictOrderedRing K]

/-- The data of a successful step, as `solvedIn_data`. -/
theorem solvedInNear_data {ε δ : K} {backend : String}
    {mbs : List (MultiBody K)} {uni : List (UniContact K)} {bi : List (BiContact K)} {d : SolverData K}
    {inp : QPInput K} {x : Vec K} (h : SolvedInNear ε δ backend mbs uni bi d inp x) :
    GoodInput mbs bi ∧ (∃ old d0 deps, layout old mbs uni bi = .ok (d0, deps) ∧ SameLayout d0 d) ∧
      x.size = d.nrVars := by
  obtain ⟨Ob, W, R, _, ob, hasLssol, pre, post, sw0, s, s', w, w', eng, mbcs, mbcs', h1, h2, h3, h4, h5, h6,
    h7, h8, h9, h10, h11, h12, -, rfl, rfl, rfl⟩ := h
  have hready := ready_of_run h1 h2 h4 h5
  obtain ⟨⟨msg, e⟩, -⟩ := solve_parts h10
  have hready' := hready.solveNoMbcUpdate e
  obtain ⟨d, w1, c1, c2, hnd, _, _, hu, hs, rfl, _⟩ := solveNoMbcUpdate_parts e
  obtain ⟨b1, ok, b2, e1, e2, _, hsz, -⟩ := Backend.assemble_solve h6 hready.sized hready.deps.ok.1 h11
  rw [hu] at e1
  cases e1
  rw [hs] at e2
  cases e2
  obtain ⟨old, d0, hlay, hsame⟩ := hready'.lay
  exact ⟨⟨fun mb h => MimicOK.named (h1 mb h), h2⟩, ⟨old, d0, _, hlay, hsame⟩,
    hsz.trans (computeNormalAccB_layout hnd).nrVars.symm⟩

/-- A mimic variable is an acceleration. -/
theorem mimicVar_lt {mbs : List (MultiBody K)} (hok : ∀ mb ∈ mbs, MimicOK mb) {v : ℕ} (h : MimicVar mbs v) :
    v < (mbs.map MultiBody.nrDof).sum := by
  obtain ⟨r, mb, i, j, h1, h2, h3, rfl⟩ := h
  obtain ⟨⟨l, m⟩, hm⟩ := Option.ne_none_iff_exists'.mp h3
  have hd := ((hok mb (List.mem_of_getElem? h1)).2 j (List.mem_of_getElem? h2) l m hm).1
  have h4 := dofBefore_lt h2 (by omega)
  have h5 := List.sum_take_add_sum_drop (mbs.map MultiBody.nrDof) (r + 1)
  rw [List.take_add_one, List.getElem?_map, h1] at h5
  simp only [Option.map_some, Option.toList_some, List.sum_append, List.sum_cons, List.sum_nil] at h5
  rw [List.map_take]
  omega

/-- The weights of contact `k` in a successful step are reported, as many as the contact has. -/
theorem weights_near {ε δ : K} {backend : String} {mbs : List (MultiBody K)} {uni : List (UniContact K)}
    {bi : List (BiContact K)} {d : SolverData K} {inp : QPInput K} {x : Vec K}
    (h : SolvedInNear ε δ backend mbs uni bi d inp x) {k n : ℕ}
    (hk : (uni.map UniContact.nL ++ bi.map BiContact.nL)[k]? = some n) :
    ∃ lam b, lambdaVecAt d x k = .ok lam ∧ lam.size = n ∧
      b = (mbs.map MultiBody.nrDof).sum + ((uni.map UniContact.nL ++ bi.map BiContact.nL).take k).sum ∧
      b + n ≤ d.nrVars ∧ ∀ i, lam.get i = x.get (b + i) := by
  obtain ⟨g, ⟨old', d0, deps', e0, hsame⟩, hx⟩ := solvedInNear_data h
  obtain ⟨d2, deps2, e2, S2⟩ := layout_ok old' mbs uni bi g.1 g.2
  rw [e0] at e2
  cases e2
  have hkl : k < (uni.map UniContact.nL ++ bi.map BiContact.nL).length := by
    by_contra hc
    rw [List.getElem?_eq_none (not_lt.1 hc)] at hk
    cases hk
  have r1 : k < d0.lambdaBegin.length := by rw [S2.lambdaBegin]; simpa using hkl
  have r2 : k < d0.lambda.length := by rw [S2.lambda]; exact hkl
  have hn : d0.lambda[k] = n := by
    have : d0.lambda[k]? = some n := by rw [S2.lambda]; exact hk
    rw [List.getElem?_eq_getElem r2] at this
    exact Option.some.inj this
  have hb' : d0.lambdaBegin[k] = d0.totalAlphaD + ((uni.map UniContact.nL ++ bi.map BiContact.nL).take k).sum := by
    simp only [S2.lambdaBegin, getElem_starts]
  have htot : d0.nrVars = d0.totalAlphaD + (uni.map UniContact.nL ++ bi.map BiContact.nL).sum := by
    rw [S2.nrVars, S2.totalLambda, S2.nrUniLambda, S2.nrBiLambda, List.sum_append]
  have hle : ((uni.map UniContact.nL ++ bi.map BiContact.nL).take k).sum + n
      ≤ (uni.map UniContact.nL ++ bi.map BiContact.nL).sum := by
    have := List.sum_take_add_sum_drop (uni.map UniContact.nL ++ bi.map BiContact.nL) (k + 1)
    rw [List.take_add_one, hk] at this
    simp only [Option.toList_some, List.sum_append, List.sum_cons, List.sum_nil] at this ⊢
    omega
  rw [hsame.nrVars] at hx
  refine ⟨⟨n, fun i => x.get (d0.lambdaBegin[k] + i)⟩, d0.lambdaBegin[k], ?_, rfl, by rw [hb', S2.totalAlphaD],
    by rw [hsame.nrVars]; omega, fun i => rfl⟩
  rw [hsame.lambdaVecAt]
  simp only [lambdaVecAt, vecAt_ok r1, vecAt_ok r2, Out.ok_bind, Vec.segment, hn]
  rw [if_pos (by omega)]

/-- **C88 (weights).**  In a successful step with a numerical solver of tolerance `ε` and a `PositiveLambda` among the
constraints, the weights of contact `k` are reported, as many as the contact has, and none is less than `-ε`. -/
theorem C88_weights {ε δ : K} {backend : String} {mbs : List (MultiBody K)} {uni : List (UniContact K)}
    {bi : List (BiContact K)} {d : SolverData K} {inp : QPInput K} {x : Vec K}
    (h : SolvedInNear ε δ backend mbs uni bi d inp x) {old d1 : SolverData K} {deps : List (Dep K)}
    (hd : layout old mbs uni bi = .ok (d1, deps)) {s s1 : PositiveLambda K} (hu : s.updateNrVars d1 = .ok s1)
    (hb : s1.bound ∈ inp.bound) {k n : ℕ}
    (hk : (uni.map UniContact.nL ++ bi.map BiContact.nL)[k]? = some n) :
    ∃ lam, lambdaVecAt d x k = .ok lam ∧ lam.size = n ∧ ∀ i < lam.size, -ε ≤ lam.get i := by
  have hS : SolvedNear ε δ backend mbs d.nrVars inp x := ⟨uni, bi, d, h, rfl⟩
  obtain ⟨hok, -⟩ := solvedNear_wf hS
  obtain ⟨-, ⟨z, hz, -, hnear⟩, -, -, -⟩ := solvedNear_spec hS
  obtain ⟨g, ⟨old', d0, deps', e0, hsame⟩, hx⟩ := solvedInNear_data h
  obtain ⟨d2, deps2, e2, S2⟩ := layout_ok old' mbs uni bi g.1 g.2
  rw [e0] at e2
  cases e2
  obtain ⟨d3, deps3, e3, S3⟩ := layout_ok old mbs uni bi g.1 g.2
  rw [hd] at e3
  cases e3
  obtain ⟨d4, deps4, s4, e4, e4', p1, -, -⟩ := C24_weights_nonneg old mbs uni bi g s
  rw [hd] at e4
  cases e4
  rw [hu] at e4'
  cases e4'
  have hpos := (p1 z).1 (hz _ hb)
  have hn1 : d1.nrVars = d.nrVars := by
    rw [hsame.nrVars, S2.nrVars, S3.nrVars, S2.totalAlphaD, S3.totalAlphaD, S2.totalLambda, S3.totalLambda,
      S2.nrUniLambda, S3.nrUniLambda, S2.nrBiLambda, S3.nrBiLambda]
  obtain ⟨lam, b, q1, q2, q3, q4, q5⟩ := weights_near h hk
  refine ⟨lam, q1, q2, fun i hi => ?_⟩
  have h1 := hpos (b + i) (by omega) (by omega)
  have h2 := hnear (b + i) (by omega) fun hm => by
    have := mimicVar_lt hok hm
    omega
  have h3 := (abs_le.1 h2).1
  rw [q5]
  linarith

/-- Lines for a `MotionConstr` (no spring), any execution, with a tolerance. -/
theorem motion_lines_tol {rk : RobotKin K} {r : ℕ} {p : TorqueParams K} (hp : p.Full rk.mb.nrDof)
    (hdt : 0 < p.dt) {d : SolverData K} {k : ℕ} {last : ℕ → K} {s : MotionConstr K}
    (R : MotionRun rk r p [] (some d) k last s) {mbs : List (MultiBody K)} (S : Setting rk r mbs d)
    (env : MotionEnv K) (E : EnvOK rk env) :
    ∃ s', s.update rk.mb env = .ok s' ∧ s'.common.gen.nrGen = rk.mb.nrDof ∧
      ∀ (x : ℕ → K) (e : K), (∀ i < rk.mb.nrDof,
          (s'.common.gen.L.get i).LowerOK (lineVal d.nrVars s'.common.gen.A i x + e) ∧
          (s'.common.gen.U.get i).UpperOK (lineVal d.nrVars s'.common.gen.A i x - e)) ↔
        ∀ i < rk.mb.nrDof,
          (p.lower i).LowerOK (invDyn rk env (aBegin mbs r) (lastSides r d) x i + e) ∧
          (p.upper i).UpperOK (invDyn rk env (aBegin mbs r) (lastSides r d) x i - e) ∧
          (0 < k → ((p.lTD.flatten[i]?).getD .negInf).LowerOK
              ((invDyn rk env (aBegin mbs r) (lastSides r d) x i + e - last i) / p.dt) ∧
            ((p.uTD.flatten[i]?).getD .posInf).UpperOK
              ((invDyn rk env (aBegin mbs r) (lastSides r d) x i - e - last i) / p.dt)) := by
  have I := runInv R
  obtain ⟨s1, s', h1, h2, h3, h4, h5, h6⟩ := update_lines_tol R S env E (by simp)
  refine ⟨s', by rw [update_eq_spring]; exact h2, h4, fun x e => ?_⟩
  simp only [forEach, Out.ok.injEq] at h1
  subst h1
  rw [h6 x e]
  refine forall_congr' fun i => forall_congr' fun hi => ?_
  have a1 : s.torqueL.get i = p.lower i := by
    have : i < p.lT.flatten.length := by rw [hp.1]; exact hi
    rw [I.tL i _ (List.getElem?_eq_getElem this) (by simp)]
    unfold TorqueParams.lower
    rw [List.getElem?_eq_getElem this]; rfl
  have a2 : s.torqueU.get i = p.upper i := by
    have : i < p.uT.flatten.length := by rw [hp.2]; exact hi
    rw [I.tU i _ (List.getElem?_eq_getElem this) (by simp)]
    unfold TorqueParams.upper
    rw [List.getElem?_eq_getElem this]; rfl
  rw [a1, a2, mulPos_lowerOK hdt, mulPos_upperOK hdt]

/-- **C88 (torques).**  Hypotheses of `C76_torques`, with a numerical solver of tolerance `ε`.  `computeTorque` on the
reported accelerations and weights gives torques that satisfy the equation of motion exactly, exceed the torque limits
by no more than `ε` and, from the second update on, the rate limits by no more than `ε / dt`.  On a dof whose limits are
zero, gravity, inertia and contact forces balance up to `ε`. -/
theorem C88_torques {ε δ : K} {backend : String} {mbs : List (MultiBody K)} {uni : List (UniContact K)}
    {bi : List (BiContact K)} {d : SolverData K} {inp : QPInput K} {x : Vec K}
    (h : SolvedInNear ε δ backend mbs uni bi d inp x) {old d1 : SolverData K} {deps : List (Dep K)}
    (hd : layout old mbs uni bi = .ok (d1, deps)) {rk : RobotKin K} {r : ℕ} {p : TorqueParams K}
    (hp : p.Full rk.mb.nrDof) (hdt : 0 < p.dt) {k : ℕ} {last : ℕ → K} {s s' : MotionConstr K}
    (R : MotionRun rk r p [] (some d1) k last s) (S : Setting rk r mbs d1) (N : NoSelf r d1) {env : MotionEnv K}
    (E : EnvOK rk env) (hs : s.update rk.mb env = .ok s') (hg : s'.common.gen ∈ inp.gen) :
    ∃ aD lam c, alphaDVec d x = .ok aD ∧ lambdaVec d x = .ok lam ∧ s'.common.computeTorque aD lam = .ok c ∧
      ∀ a < rk.mb.nrDof, c.curTorque.get a = invDyn rk env (aBegin mbs r) (sides r d1) x.get a ∧
        (p.lower a).LowerOK (c.curTorque.get a + ε) ∧ (p.upper a).UpperOK (c.curTorque.get a - ε) ∧
        (0 < k → ((p.lTD.flatten[a]?).getD .negInf).LowerOK ((c.curTorque.get a - last a) / p.dt + ε / p.dt) ∧
          ((p.uTD.flatten[a]?).getD .posInf).UpperOK ((c.curTorque.get a - last a) / p.dt - ε / p.dt)) ∧
        (p.lower a = .fin 0 → p.upper a = .fin 0 →
          |∑ j ∈ range rk.mb.nrDof, env.H.get a j * x.get (aBegin mbs r + j) + env.C.get a
            - ((sides r d1).map fun s => contactTorque rk env s x.get a).sum| ≤ ε) := by
  obtain ⟨g, ⟨old', d0, deps', e0, hsame⟩, hx⟩ := solvedInNear_data h
  obtain ⟨⟨-, -, hlin⟩, -⟩ := solvedNear_spec (⟨uni, bi, d, h, rfl⟩ : SolvedNear ε δ backend mbs d.nrVars inp x)
  obtain ⟨d2, deps2, e2, S2⟩ := layout_ok old' mbs uni bi g.1 g.2
  rw [e0] at e2
  cases e2
  obtain ⟨d3, deps3, e3, S3⟩ := layout_ok old mbs uni bi g.1 g.2
  rw [hd] at e3
  cases e3
  have hA : d1.totalAlphaD = d0.totalAlphaD := by rw [S2.totalAlphaD, S3.totalAlphaD]
  have hT : d1.totalLambda = d0.totalLambda := by
    rw [S2.totalLambda, S3.totalLambda, S2.nrUniLambda, S3.nrUniLambda, S2.nrBiLambda, S3.nrBiLambda]
  have hn1 : d1.nrVars = d.nrVars := by rw [hsame.nrVars, S2.nrVars, S3.nrVars, hA, hT]
  obtain ⟨s2, h1, -, -, -, h5⟩ := motion_lines hp hdt R S env E
  obtain ⟨s3, h1', h2, h4⟩ := motion_lines_tol hp hdt R S env E
  rw [hs] at h1 h1'
  cases h1
  cases h1'
  rw [lastSides_eq_sides N] at h4 h5
  obtain ⟨aD, lam, c, c1, c2, c3, c4, c5⟩ := h5 x (hx.trans hn1.symm)
  have hl := (h4 x.get ε).1 (by
    intro i hi
    rw [hn1]
    exact hlin _ hg i (by rw [h2]; exact hi))
  refine ⟨aD, lam, c, ?_, ?_, c3, fun a ha => ?_⟩
  · rw [hsame.alphaDVec, ← c1]
    simp only [alphaDVec, hA]
  · rw [hsame.lambdaVec, ← c2]
    simp only [lambdaVec, SolverData.lambdaBegin0, hA, hT]
  · obtain ⟨b1, b2, b3⟩ := hl a ha
    rw [c5 a ha]
    refine ⟨rfl, b1, b2, fun hk => ?_, fun z1 z2 => ?_⟩
    · have := b3 hk
      rw [← add_div, ← sub_div]
      refine ⟨?_, ?_⟩
      · convert this.1 using 2; ring
      · convert this.2 using 2; ring
    · rw [z1, Ext.lowerOK_fin] at b1
      rw [z2, Ext.upperOK_fin] at b2
      unfold invDyn at b1 b2
      rw [abs_le]
      constructor <;> linarith

end

/-! ## Forces -/

namespace Spec

/-- `F` is within `e` of a force of Coulomb's cone. -/
def NearCone (n : V3 ℝ) (mu e : ℝ) (F : V3 ℝ) : Prop := ∃ G, InCone n mu G ∧ len (F - G) ≤ e

end Spec

theorem len_smul' (c : ℝ) (g : V3 ℝ) : len (c • g) = |c| * len g := by
  rw [len_eq, len_eq, ← Real.sqrt_sq_eq_abs, ← Real.sqrt_mul (sq_nonneg c)]
  congr 1
  simp only [V3.sqNorm, V3.dot, V3.smul_x, V3.smul_y, V3.smul_z]
  ring

theorem len_zero' : len (0 : V3 ℝ) = 0 := by simp [len]

/-- Nearly equal weights give nearly equal forces. -/
theorem combo_near {gens : List (V3 ℝ)} (hg : ∀ g ∈ gens, len g = 1) {lam lam' : ℕ → ℝ} {e : ℝ}
    (h : ∀ k < gens.length, |lam k - lam' k| ≤ e) :
    len (combo gens lam - combo gens lam') ≤ gens.length * e := by
  induction gens generalizing lam lam' with
  | nil => simp [combo_nil, len_zero']
  | cons g gs ih =>
    have h1 := ih (fun g hg' => hg g (List.mem_cons_of_mem _ hg')) (lam := fun k => lam (k + 1))
      (lam' := fun k => lam' (k + 1)) (fun k hk => h (k + 1) (by simpa using hk))
    have h2 : len ((lam 0 - lam' 0) • g) ≤ e := by
      rw [len_smul', hg g List.mem_cons_self, mul_one]
      exact h 0 (by simp)
    have h3 : combo (g :: gs) lam - combo (g :: gs) lam' = (lam 0 - lam' 0) • g +
        (combo gs (fun k => lam (k + 1)) - combo gs (fun k => lam' (k + 1))) := by
      rw [combo_cons, combo_cons]
      ext <;> simp <;> ring
    rw [h3, List.length_cons]
    push_cast
    have := len_add_le' ((lam 0 - lam' 0) • g) (combo gs (fun k => lam (k + 1)) - combo gs (fun k => lam' (k + 1)))
    linarith

theorem nearCone_add {n : V3 ℝ} {mu e e' : ℝ} {F F' : V3 ℝ} (h : NearCone n mu e F) (h' : NearCone n mu e' F') :
    NearCone n mu (e + e') (F + F') := by
  obtain ⟨G, h1, h2⟩ := h
  obtain ⟨G', h1', h2'⟩ := h'
  refine ⟨G + G', inCone_add n h1 h1', ?_⟩
  have : F + F' - (G + G') = (F - G) + (F' - G') := by ext <;> simp <;> ring
  rw [this]
  exact (len_add_le' _ _).trans (add_le_add h2 h2')

theorem nearCone_sum (n : V3 ℝ) (mu e : ℝ) (m : ℕ) (f : ℕ → V3 ℝ) (h : ∀ i < m, NearCone n mu e (f i)) :
    NearCone n mu (m * e) (∑ i ∈ range m, f i) := by
  induction m with
  | zero => exact ⟨0, inCone_zero n mu, by simp [len_zero']⟩
  | succ m ih =>
    rw [Finset.sum_range_succ]
    have := nearCone_add (ih fun i hi => h i (by omega)) (h m (by omega))
    convert this using 1
    push_cast
    ring

/-- Weights no less than `-e` give a force near the cone. -/
theorem nearCone_combo {frame : M3 ℝ} (hf : frame.RowsOrtho) (nrGen : ℕ) {mu : ℝ} (hmu : 0 ≤ mu) {dir : ℝ}
    (hd : dir = 1 ∨ dir = -1) {lam : ℕ → ℝ} {e : ℝ} (he : 0 ≤ e) (h : ∀ k < nrGen, -e ≤ lam k) :
    NearCone frame.r2 mu (nrGen * e) (combo (FrictionCone.make frame nrGen mu dir).generators lam) := by
  obtain ⟨hl, hg⟩ := C19_generators frame hf nrGen mu dir hd
  refine ⟨combo (FrictionCone.make frame nrGen mu dir).generators fun k => max (lam k) 0,
    inCone_combo _ hf.2.2.1 hmu _ (inCone_generator frame hf nrGen hmu dir hd) _ fun k _ => le_max_right _ _, ?_⟩
  have := combo_near (gens := (FrictionCone.make frame nrGen mu dir).generators) (lam := lam)
    (lam' := fun k => max (lam k) 0) (e := e) (by
      intro g hgm
      obtain ⟨i', hi', e2⟩ := List.mem_iff_getElem.1 hgm
      rw [hl] at hi'
      obtain ⟨g', g0, h1, -, -, -, h2, -⟩ := hg i' hi'
      rw [List.getElem?_eq_getElem (by rw [hl]; exact hi'), e2] at h1
      rw [Option.some.inj h1]
      exact h2) (by
      intro k hk
      rw [hl] at hk
      have := h k hk
      rcases le_total (lam k) 0 with h0 | h0
      · rw [max_eq_right h0, sub_zero, abs_of_nonpos h0]
        linarith
      · rw [max_eq_left h0, sub_self, abs_zero]
        exact he)
  rw [hl] at this
  exact this

/-- **C88 (cone).**  A force within `e` of the cone of friction coefficient `mu ≥ 0` around the unit normal `n` pulls by
no more than `e`, and its tangential part exceeds `mu` times the normal one by no more than `(1 + mu) e`. -/
theorem C88_cone {n : V3 ℝ} (hn : n.dot n = 1) {mu e : ℝ} (hmu : 0 ≤ mu) {F : V3 ℝ} (h : NearCone n mu e F) :
    -e ≤ n.dot F ∧ len (tangential n F) ≤ mu * n.dot F + (1 + mu) * e := by
  obtain ⟨G, ⟨h1, h2⟩, h3⟩ := h
  have e1 : F = G + (F - G) := by ext <;> simp
  have h4 : |n.dot (F - G)| ≤ e := by
    refine le_trans ?_ h3
    rw [len_eq]
    refine Real.abs_le_sqrt ?_
    have := V3.dot_sq_le n (F - G)
    rw [hn, one_mul] at this
    exact this
  have h5 : len (tangential n (F - G)) ≤ e := by
    refine le_trans ?_ h3
    rw [len_eq, len_eq, tangential_sqNorm _ _ hn]
    exact Real.sqrt_le_sqrt (by nlinarith [sq_nonneg (n.dot (F - G))])
  have h6 : n.dot F = n.dot G + n.dot (F - G) := by
    conv_lhs => rw [e1]
    exact V3.dot_add _ _ _
  have h7 : len (tangential n F) ≤ len (tangential n G) + len (tangential n (F - G)) := by
    conv_lhs => rw [e1]
    rw [tangential_add]
    exact len_add_le' _ _
  have h8 := (abs_le.1 h4).1
  refine ⟨by linarith, ?_⟩
  rw [h6]
  nlinarith

/-- **C88 (forces).**  Hypotheses of `C76_forces`, with a numerical solver of tolerance `ε`.  The force that each
unilateral contact makes from the weights reported for it is within `ε` times the number of its weights of the friction
cone, on both bodies; and the force at each point of each bilateral contact is within `ε` times its number of
generators. -/
theorem C88_forces {ε δ : ℝ} (hε : 0 ≤ ε) {backend : String} {mbs : List (MultiBody ℝ)} {uni : List (UniContact ℝ)}
    {bi : List (BiContact ℝ)} {d : SolverData ℝ} {inp : QPInput ℝ} {x : Vec ℝ}
    (h : SolvedInNear ε δ backend mbs uni bi d inp x) {old d1 : SolverData ℝ} {deps : List (Dep ℝ)}
    (hd : layout old mbs uni bi = .ok (d1, deps)) {s s1 : PositiveLambda ℝ} (hu : s.updateNrVars d1 = .ok s1)
    (hb : s1.bound ∈ inp.bound) (id : ContactId) (pts : List (V3 ℝ)) (X Xcf : PT ℝ) (hX : X.E.RowsOrtho)
    (nrGen : ℕ) (mu : ℝ) (hmu : 0 ≤ mu) (k : ℕ) :
    (∀ frame : M3 ℝ, frame.RowsOrtho → ∀ c, uni[k]? = some c →
      c = UniContact.make id pts frame X nrGen mu Xcf →
      ∃ lam F₁ F₂, lambdaVecAt d x k = .ok lam ∧
        c.forceTotal lam c.r1Cone = .ok F₁ ∧ NearCone frame.r2 mu (pts.length * nrGen * ε) F₁ ∧
        c.forceTotal lam c.r2Cone = .ok F₂ ∧ NearCone (-X.E.mulVec frame.r2) mu (pts.length * nrGen * ε) F₂) ∧
    (∀ frames : List (M3 ℝ), (∀ R ∈ frames, R.RowsOrtho) → ∀ c, bi[k]? = some c →
      BiContact.make id pts frames X nrGen mu Xcf = .ok c →
      ∃ lam, lambdaVecAt d x (uni.length + k) = .ok lam ∧ lam.size = pts.length * nrGen ∧
        ∀ i < pts.length, ∃ l R F₁ F₂, lam.segment (i * nrGen) nrGen = .ok l ∧ frames[i]? = some R ∧
          c.forceAt l i c.r1Cones = .ok F₁ ∧ NearCone R.r2 mu (nrGen * ε) F₁ ∧
          c.forceAt l i c.r2Cones = .ok F₂ ∧ NearCone (-X.E.mulVec R.r2) mu (nrGen * ε) F₂) := by
  constructor
  · intro frame hf c hk hc
    have hkl : k < uni.length := by
      by_contra hh
      rw [List.getElem?_eq_none (not_lt.1 hh)] at hk
      cases hk
    obtain ⟨lam, e, hs, hpos⟩ := C88_weights h hd hu hb (k := k) (n := c.nL) (by
      rw [List.getElem?_append_left (by simpa using hkl)]
      simp [hk])
    have hnl : c.nL = pts.length * nrGen := by
      rw [hc]
      simp [UniContact.nL, UniContact.make, (C19_generators frame hf nrGen mu 1 (Or.inl rfl)).1]
    have hl1 : c.r1Cone.generators.length = nrGen := by subst hc; simp [UniContact.make]
    have hl2 : c.r2Cone.generators.length = nrGen := by subst hc; simp [UniContact.make]
    have hp : c.r1Points.length = pts.length := by subst hc; simp [UniContact.make]
    have hg1 : c.r1Cone = FrictionCone.make frame nrGen mu 1 := by subst hc; rfl
    have hg2 : c.r2Cone = FrictionCone.make ((PT.ofRot frame).mul X.inv).E.neg nrGen mu (-1) := by subst hc; rfl
    have hlt : ∀ i < pts.length, ∀ k < nrGen, -ε ≤ lam.get (i * nrGen + k) := by
      intro i hi k hk
      have : (i + 1) * nrGen ≤ pts.length * nrGen := Nat.mul_le_mul_right _ (by omega)
      rw [Nat.add_mul, Nat.one_mul] at this
      exact hpos _ (by omega)
    refine ⟨lam, _, _, e, uni_forceTotal c lam _ (by omega) (by rw [hp, hl1, hs, hnl]), ?_,
      uni_forceTotal c lam _ (by omega) (by rw [hp, hl1, hs, hnl]), ?_⟩
    · rw [mul_assoc, hp, hl1, hg1]
      exact nearCone_sum _ _ _ _ _ fun i hi => nearCone_combo hf nrGen hmu (Or.inl rfl) hε (hlt i hi)
    · rw [mul_assoc, hp, hl1, hg2, ← r2Frame_r2]
      exact nearCone_sum _ _ _ _ _ fun i hi =>
        nearCone_combo (r2Frame_ortho hf hX) nrGen hmu (Or.inr rfl) hε (hlt i hi)
  · intro frames hf c hk hc
    have hkl : k < bi.length := by
      by_contra hh
      rw [List.getElem?_eq_none (not_lt.1 hh)] at hk
      cases hk
    obtain ⟨lam, e, hs, hpos⟩ := C88_weights h hd hu hb (k := uni.length + k) (n := c.nL) (by
      rw [List.getElem?_append_right (by simp)]
      simp [hk])
    have hnl : c.nL = pts.length * nrGen := by
      unfold BiContact.make at hc
      split at hc
      · cases hc
      · rename_i hlen
        simp only [Out.ok.injEq] at hc
        subst hc
        simp only [BiContact.nL]
        rw [List.take_of_length_le (by simp), List.map_map]
        have : ((pts.zip frames).map ((fun k => k.generators.length) ∘
            fun q : V3 ℝ × M3 ℝ => FrictionCone.make q.2 nrGen mu 1)) = (pts.zip frames).map fun _ => nrGen := by
          refine List.map_congr_left fun q hq => ?_
          exact (C19_generators q.2 (hf _ (List.of_mem_zip hq).2) nrGen mu 1 (Or.inl rfl)).1
        rw [this]
        simp
        left
        omega
    unfold BiContact.make at hc
    split at hc
    · cases hc
    rename_i hlen
    simp only [Out.ok.injEq] at hc
    subst hc
    refine ⟨lam, e, hs.trans hnl, fun i hi => ?_⟩
    have hle : i * nrGen + nrGen ≤ lam.size := by
      rw [hs, hnl]
      nlinarith
    have hi2 : i < frames.length := by omega
    have hz : i < (pts.zip frames).length := by simp; omega
    have hR := hf _ (List.getElem_mem hi2)
    have hw : ∀ j < nrGen, -ε ≤ lam.get (i * nrGen + j) := fun j hj => hpos _ (by omega)
    refine ⟨⟨nrGen, fun j => lam.get (i * nrGen + j)⟩, frames[i], _, _, by rw [Vec.segment, if_pos hle],
      List.getElem?_eq_getElem hi2,
      bi_forceAt _ _ _ _ (by simpa using hz) (by simp [hi, hi2]), ?_,
      bi_forceAt _ _ _ _ (by simpa using hz) (by simp [hi, hi2]), ?_⟩
    · have e : (((pts.zip frames).map fun q => FrictionCone.make q.2 nrGen mu 1).getD i ⟨[]⟩) =
          FrictionCone.make frames[i] nrGen mu 1 := by simp [hi, hi2]
      rw [e]
      exact nearCone_combo hR nrGen hmu (Or.inl rfl) hε hw
    · have e : (((pts.zip frames).map fun q =>
          FrictionCone.make ((PT.mk q.2 q.1).mul X.inv).E.neg nrGen mu (-1)).getD i ⟨[]⟩) =
          FrictionCone.make ((PT.ofRot frames[i]).mul X.inv).E.neg nrGen mu (-1) := by
        simp [hi, hi2, PT.mul, PT.ofRot]
      rw [e, ← r2Frame_r2]
      exact nearCone_combo (r2Frame_ortho hR hX) nrGen hmu (Or.inr rfl) hε hw

namespace PhysEx

/-- A body that falls a little faster than gravity wants, held down by a weight of `-ε`. -/
noncomputable def pulled (ε : ℝ) : ℕ → ℝ := fun i => if i = 1 then -ε else -10 - Real.cos (Real.arctan (1/2)) * ε

/-- Non-vacuity of C88, and the bound is attained: a solve within the tolerance `ε` with both constraints in which the
ground pulls the body with a force of length `ε`, `ε cos (atan mu)` of it along the normal. -/
theorem C88_sharp {ε : ℝ} (hε : 0 < ε) : ∃ (d d1 : SolverData ℝ) (deps : List (Dep ℝ)) (inp : QPInput ℝ) (x : Vec ℝ)
    (s1 : PositiveLambda ℝ) (s s' : MotionConstr ℝ) (lam : Vec ℝ) (F : V3 ℝ),
    SolvedInNear ε 0 "QLD" [robot] [foot] [] d inp x ∧
    layout SolverData.init [robot] [foot] [] = .ok (d1, deps) ∧
    (⟨0, Vec.const 0 (.fin 0), Vec.const 0 .posInf, []⟩ : PositiveLambda ℝ).updateNrVars d1 = .ok s1 ∧
    s1.bound ∈ inp.bound ∧ MotionRun rk 0 prm [] (some d1) 0 (fun _ => 0) s ∧ Setting rk 0 [robot] d1 ∧
    NoSelf 0 d1 ∧ EnvOK rk env ∧ s.update rk.mb env = .ok s' ∧ s'.common.gen ∈ inp.gen ∧
    prm.Full rk.mb.nrDof ∧ lambdaVecAt d x 0 = .ok lam ∧ lam.get 0 = -ε ∧
    foot.forceTotal lam foot.r1Cone = .ok F ∧ len F = ε ∧ M3.one.r2.dot F = -(Real.cos (Real.arctan (1/2)) * ε) := by
  obtain ⟨d1, deps, s1, s, s', e, e1, R, S, N, E, u, hf, hnv, hforce, hgen, hbound, hz, hz'⟩ := setup
  have hpos := Real.cos_arctan_pos (1/2 : ℝ)
  obtain ⟨d, x, hx, -, ex⟩ := realiseInNear (ε := ε) (δ := 0) hε.le (mbs := [robot]) (uni := [foot]) (bi := [])
    (mbcs := [mbc]) (inp := problem (toward (pulled ε)) s' s1) (y := pulled ε) mimicOK noMimic tree
    (by intro c hc; simp at hc) rfl shaped
    (by rw [hnv]; exact problem_sized _ hz hz') (by rw [hnv]; exact Nat.succ_pos _) (by simp [problem]) (by
      rw [hnv]
      refine Spec.SatLines.near ⟨by simp [problem], by simp [problem], fun c hc => ?_⟩ hε.le
      simp only [problem, List.mem_singleton] at hc
      rw [hc]
      refine (hgen _).2 ?_
      simp [pulled]
      ring) (z0 := fun i => if i = 1 then 0 else pulled ε i) (by
      intro c hc
      simp only [problem, List.mem_singleton] at hc
      rw [hc]
      refine (hbound _).2 ?_
      simp) (by
      intro v _
      by_cases hv : v = 1
      · simp [hv, pulled, abs_of_pos hε]
      · simp [hv, hε.le]) (by
      rw [hnv]
      exact fun z _ => (problem_best _ s' s1 z).trans (add_zero _).ge)
  have hgl := C19_generators M3.one ortho 1 (1/2) 1 (Or.inl rfl)
  have hnl : foot.nL = 1 := by simp [UniContact.nL, foot, UniContact.make, hgl.1]
  obtain ⟨lam, b, q1, q2, q3, q4, q5⟩ := weights_near hx (k := 0) (n := 1) (by simp [hnl])
  have hb : b = 1 := by rw [q3]; simp [robot, MultiBody.nrDof]
  have hl0 : lam.get 0 = -ε := by rw [q5, ex, hb]; simp [pulled]
  obtain ⟨g1, g0, k1, -, -, -, k2, k3, -, -⟩ := hgl.2 0 (by norm_num)
  have hg : foot.r1Cone.generators = [g1] := by
    show (FrictionCone.make (M3.one : M3 ℝ) 1 (1/2) 1).generators = [g1]
    match hl : (FrictionCone.make (M3.one : M3 ℝ) 1 (1/2) 1).generators with
    | [a] => rw [hl] at k1; simp at k1; rw [k1]
    | [] => rw [hl] at k1; simp at k1
    | a :: b :: t => have := hgl.1; rw [hl] at this; simp at this
  have hp : foot.r1Points.length = 1 := by simp [foot, UniContact.make]
  have hF : foot.forceTotal lam foot.r1Cone = .ok ((-ε) • g1) := by
    rw [uni_forceTotal foot lam _ le_rfl (by rw [hp, hg, q2]; simp), hp, hg]
    simp [combo, hl0]
  refine ⟨d, d1, deps, _, x, s1, s, s', lam, _, hx, e, e1, by simp [problem], R, S, N, E, u, by simp [problem], hf, q1,
    hl0, hF, ?_, ?_⟩
  · rw [len_smul', k2, abs_neg, abs_of_pos hε, mul_one]
  · rw [V3.dot_smul, k3]
    ring

end PhysEx

end Verif
