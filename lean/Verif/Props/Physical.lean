import Verif.Props.Weights
import Verif.Props.Contacts
import Verif.Props.Motion

/-!
# C76: a solution is physically feasible

After a successful `solve`, the forces and torques that the accessors report are those of the contact and motion
constraints that the problem contains.
-/

set_option autoImplicit false
set_option linter.unusedSectionVars false

namespace Verif

open Finset Spec

section
variable {K : Type} [Field K] [LinearOrder K] [IsStrictOrderedRing K]

theorem SameLayout.lambdaVecAt {d d' : SolverData K} (h : SameLayout d d') (x : Vec K) (c : ℕ) :
    lambdaVecAt d' x c = lambdaVecAt d x c := by
  unfold SameLayout at h
  rw [← h]
  rfl

theorem SameLayout.alphaDVec {d d' : SolverData K} (h : SameLayout d d') (x : Vec K) :
    alphaDVec d' x = alphaDVec d x := by
  unfold SameLayout at h
  rw [← h]
  rfl

/-- The weights of contact `k` in a successful step: they are reported, as many as the contact has, and none is
negative when a `PositiveLambda` is among the constraints. -/
theorem weights_reported {backend : String} {mbs : List (MultiBody K)} {uni : List (UniContact K)}
    {bi : List (BiContact K)} {d : SolverData K} {inp : QPInput K} {x : Vec K}
    (h : SolvedIn backend mbs uni bi d inp x) {old d1 : SolverData K} {deps : List (Dep K)}
    (hd : layout old mbs uni bi = .ok (d1, deps)) {s s1 : PositiveLambda K} (hu : s.updateNrVars d1 = .ok s1)
    (hb : s1.bound ∈ inp.bound) {k n : ℕ}
    (hk : (uni.map UniContact.nL ++ bi.map BiContact.nL)[k]? = some n) :
    ∃ lam, lambdaVecAt d x k = .ok lam ∧ lam.size = n ∧ ∀ i < lam.size, 0 ≤ lam.get i := by
  obtain ⟨g, ⟨old', d0, deps', e0, hsame⟩, hx⟩ := solvedIn_data h
  obtain ⟨⟨hsat, -⟩, -⟩ := solvedIn_optimal h
  obtain ⟨d2, deps2, e2, S2⟩ := layout_ok old' mbs uni bi g.1 g.2
  rw [e0] at e2
  cases e2
  obtain ⟨d3, deps3, e3, S3⟩ := layout_ok old mbs uni bi g.1 g.2
  rw [hd] at e3
  cases e3
  obtain ⟨d4, deps4, s4, e4, e4', p1, -, -⟩ := C24_weights_nonneg old mbs uni bi g s
  rw [hd] at e4
  cases e4
  rw [hu] at e4'
  cases e4'
  have hpos := (p1 x.get).1 (hsat.2 _ hb)
  have hn1 : d1.nrVars = d0.nrVars := by
    rw [S2.nrVars, S3.nrVars, S2.totalAlphaD, S3.totalAlphaD, S2.totalLambda, S3.totalLambda, S2.nrUniLambda,
      S3.nrUniLambda, S2.nrBiLambda, S3.nrBiLambda]
  have hkl : k < (uni.map UniContact.nL ++ bi.map BiContact.nL).length := by
    by_contra hc
    rw [List.getElem?_eq_none (not_lt.1 hc)] at hk
    cases hk
  have r1 : k < d0.lambdaBegin.length := by rw [S2.lambdaBegin]; simpa using hkl
  have r2 : k < d0.lambda.length := by rw [S2.lambda]; exact hkl
  have hn : d0.lambda[k] = n := by
    have : d0.lambda[k]? = some n := by rw [S2.lambda]; exact hk
    rw [List.getElem?_eq_getElem r2] at this
    exact Option.some.inj this
  have hb' : d0.lambdaBegin[k] = d0.totalAlphaD + ((uni.map UniContact.nL ++ bi.map BiContact.nL).take k).sum := by
    simp only [S2.lambdaBegin, getElem_starts]
  have htot : d0.nrVars = d0.totalAlphaD + (uni.map UniContact.nL ++ bi.map BiContact.nL).sum := by
    rw [S2.nrVars, S2.totalLambda, S2.nrUniLambda, S2.nrBiLambda, List.sum_append]
  have hle : ((uni.map UniContact.nL ++ bi.map BiContact.nL).take k).sum + n
      ≤ (uni.map UniContact.nL ++ bi.map BiContact.nL).sum := by
    have := List.sum_take_add_sum_drop (uni.map UniContact.nL ++ bi.map BiContact.nL) (k + 1)
    rw [List.take_add_one, hk] at this
    simp only [Option.toList_some, List.sum_append, List.sum_cons, List.sum_nil] at this ⊢
    omega
  rw [hsame.nrVars] at hx
  refine ⟨⟨n, fun i => x.get (d0.lambdaBegin[k] + i)⟩, ?_, rfl, fun i hi => ?_⟩
  · rw [hsame.lambdaVecAt]
    simp only [lambdaVecAt, vecAt_ok r1, vecAt_ok r2, Out.ok_bind, Vec.segment, hn]
    rw [if_pos (by omega)]
  · have hi' : i < n := hi
    have hA := S2.totalAlphaD
    exact hpos _ (by omega) (by omega)

end

/-- **C76 (forces).**  After a successful solve with a `PositiveLambda` constraint registered, the force that
each unilateral contact makes from the weights reported for it is in the friction cone, on both bodies; and so is
the force at each point of each bilateral contact.  (Contacts built by their constructors from orthonormal frames,
with `mu ≥ 0`.) -/
theorem C76_forces {backend : String} {mbs : List (MultiBody ℝ)} {uni : List (UniContact ℝ)}
    {bi : List (BiContact ℝ)} {d : SolverData ℝ} {inp : QPInput ℝ} {x : Vec ℝ}
    (h : SolvedIn backend mbs uni bi d inp x) {old d1 : SolverData ℝ} {deps : List (Dep ℝ)}
    (hd : layout old mbs uni bi = .ok (d1, deps)) {s s1 : PositiveLambda ℝ} (hu : s.updateNrVars d1 = .ok s1)
    (hb : s1.bound ∈ inp.bound) (id : ContactId) (pts : List (V3 ℝ)) (X Xcf : PT ℝ) (hX : X.E.RowsOrtho)
    (nrGen : ℕ) (mu : ℝ) (hmu : 0 ≤ mu) (k : ℕ) :
    (∀ frame : M3 ℝ, frame.RowsOrtho → ∀ c, uni[k]? = some c →
      c = UniContact.make id pts frame X nrGen mu Xcf →
      ∃ lam F₁ F₂, lambdaVecAt d x k = .ok lam ∧
        c.forceTotal lam c.r1Cone = .ok F₁ ∧ InCone frame.r2 mu F₁ ∧
        c.forceTotal lam c.r2Cone = .ok F₂ ∧ InCone (-X.E.mulVec frame.r2) mu F₂) ∧
    (∀ frames : List (M3 ℝ), (∀ R ∈ frames, R.RowsOrtho) → ∀ c, bi[k]? = some c →
      BiContact.make id pts frames X nrGen mu Xcf = .ok c →
      ∃ lam, lambdaVecAt d x (uni.length + k) = .ok lam ∧ lam.size = pts.length * nrGen ∧
        ∀ i < pts.length, ∃ l R F₁ F₂, lam.segment (i * nrGen) nrGen = .ok l ∧ frames[i]? = some R ∧
          c.forceAt l i c.r1Cones = .ok F₁ ∧ InCone R.r2 mu F₁ ∧
          c.forceAt l i c.r2Cones = .ok F₂ ∧ InCone (-X.E.mulVec R.r2) mu F₂) := by
  constructor
  · intro frame hf c hk hc
    have hkl : k < uni.length := by
      by_contra hh
      rw [List.getElem?_eq_none (not_lt.1 hh)] at hk
      cases hk
    obtain ⟨lam, e, hs, hpos⟩ := weights_reported h hd hu hb (k := k) (n := c.nL) (by
      rw [List.getElem?_append_left (by simpa using hkl)]
      simp [hk])
    have hnl : c.nL = pts.length * nrGen := by
      rw [hc]
      simp [UniContact.nL, UniContact.make, (C19_generators frame hf nrGen mu 1 (Or.inl rfl)).1]
    obtain ⟨F₁, F₂, h1, h2, h3, h4⟩ := (C20_uni_force_in_cone id pts frame hf X Xcf hX nrGen mu hmu c hc lam hpos).2
      (hs.trans hnl)
    exact ⟨lam, F₁, F₂, e, h1, h2, h3, h4⟩
  · intro frames hf c hk hc
    have hkl : k < bi.length := by
      by_contra hh
      rw [List.getElem?_eq_none (not_lt.1 hh)] at hk
      cases hk
    obtain ⟨lam, e, hs, hpos⟩ := weights_reported h hd hu hb (k := uni.length + k) (n := c.nL) (by
      rw [List.getElem?_append_right (by simp)]
      simp [hk])
    have hnl : c.nL = pts.length * nrGen := by
      unfold BiContact.make at hc
      split at hc
      · cases hc
      · rename_i hlen
        simp only [Out.ok.injEq] at hc
        subst hc
        simp only [BiContact.nL]
        rw [List.take_of_length_le (by simp), List.map_map]
        have : ((pts.zip frames).map ((fun k => k.generators.length) ∘
            fun q : V3 ℝ × M3 ℝ => FrictionCone.make q.2 nrGen mu 1)) = (pts.zip frames).map fun _ => nrGen := by
          refine List.map_congr_left fun q hq => ?_
          exact (C19_generators q.2 (hf _ (List.of_mem_zip hq).2) nrGen mu 1 (Or.inl rfl)).1
        rw [this]
        simp
        left
        omega
    refine ⟨lam, e, hs.trans hnl, fun i hi => ?_⟩
    have hle : i * nrGen + nrGen ≤ lam.size := by
      rw [hs, hnl]
      nlinarith
    obtain ⟨R, F₁, F₂, g1, g2, g3, g4, g5⟩ := C20_bi_force_in_cone id pts frames hf X Xcf hX nrGen mu hmu c hc
      ⟨nrGen, fun j => lam.get (i * nrGen + j)⟩ rfl (fun j hj => hpos _ (by
        have : j < nrGen := hj
        omega)) i hi
    exact ⟨_, R, F₁, F₂, by rw [Vec.segment, if_pos hle], g1, g2, g3, g4, g5⟩

section
variable {K : Type} [Field K] [LinearOrder K] [IsStrictOrderedRing K]

theorem addHead_size {a w v : Vec (Ext K)} (h : addHead a w = .ok v) : v.size = a.size := by
  unfold addHead at h
  split at h
  · cases h; rfl
  · cases h

/-- The limits have one entry per line: the constraint can be assembled. -/
theorem motion_sized {mb : MultiBody K} {env : MotionEnv K} {s s' : MotionConstr K}
    (h : s.update mb env = .ok s') : s'.common.AL.size = env.C.size ∧ s'.common.AU.size = env.C.size := by
  simp only [MotionConstr.update, Out.bind_eq_ok] at h
  obtain ⟨c, hc, h⟩ := h
  have hc' : c.AL.size = env.C.size ∧ c.AU.size = env.C.size := by
    unfold MotionCommon.computeMatrix at hc
    split at hc
    · cases hc
    · simp only [Out.bind_eq_ok, Out.pure_eq, Out.ok.injEq] at hc
      obtain ⟨_, _, _, _, rfl⟩ := hc
      exact ⟨rfl, rfl⟩
  unfold MotionConstr.addTorque at h
  split at h
  · simp only [Out.bind_eq_ok, Out.pure_eq, Out.ok.injEq] at h
    obtain ⟨_, _, _, _, _, _, _, _, AL, e1, AU, e2, rfl⟩ := h
    exact ⟨(addHead_size e1).trans hc'.1, (addHead_size e2).trans hc'.2⟩
  · simp only [Out.bind_eq_ok, Out.pure_eq, Out.ok.injEq] at h
    obtain ⟨AL, e1, AU, e2, rfl⟩ := h
    exact ⟨(addHead_size e1).trans hc'.1, (addHead_size e2).trans hc'.2⟩

/-- **C76 (torques).**  After a successful solve with a `MotionConstr` of robot `r` registered (any execution of
it; `k` updates and last torques `last` before), `computeTorque` on the reported accelerations and weights
succeeds, and its torques satisfy the equation of motion `τ = H α̇ + C - Σ Jᵀ F`, are within the torque limits and,
from the second update on, within the rate limits.  A dof whose limits are zero is moved by gravity, inertia and
contact forces alone. -/
theorem C76_torques {backend : String} {mbs : List (MultiBody K)} {uni : List (UniContact K)}
    {bi : List (BiContact K)} {d : SolverData K} {inp : QPInput K} {x : Vec K}
    (h : SolvedIn backend mbs uni bi d inp x) {old d1 : SolverData K} {deps : List (Dep K)}
    (hd : layout old mbs uni bi = .ok (d1, deps)) {rk : RobotKin K} {r : ℕ} {p : TorqueParams K}
    (hp : p.Full rk.mb.nrDof) (hdt : 0 < p.dt) {k : ℕ} {last : ℕ → K} {s s' : MotionConstr K}
    (R : MotionRun rk r p [] (some d1) k last s) (S : Setting rk r mbs d1) (N : NoSelf r d1) {env : MotionEnv K}
    (E : EnvOK rk env) (hs : s.update rk.mb env = .ok s') (hg : s'.common.gen ∈ inp.gen) :
    ∃ aD lam c, alphaDVec d x = .ok aD ∧ lambdaVec d x = .ok lam ∧ s'.common.computeTorque aD lam = .ok c ∧
      ∀ a < rk.mb.nrDof, c.curTorque.get a = invDyn rk env (aBegin mbs r) (sides r d1) x.get a ∧
        p.InLimits a (c.curTorque.get a) ∧ (0 < k → p.RateOK a (last a) (c.curTorque.get a)) ∧
        (p.lower a = .fin 0 → p.upper a = .fin 0 →
          ∑ j ∈ range rk.mb.nrDof, env.H.get a j * x.get (aBegin mbs r + j) + env.C.get a
            = ((sides r d1).map fun s => contactTorque rk env s x.get a).sum) := by
  obtain ⟨g, ⟨old', d0, deps', e0, hsame⟩, hx⟩ := solvedIn_data h
  obtain ⟨⟨hsat, -⟩, -⟩ := solvedIn_optimal h
  obtain ⟨d2, deps2, e2, S2⟩ := layout_ok old' mbs uni bi g.1 g.2
  rw [e0] at e2
  cases e2
  obtain ⟨d3, deps3, e3, S3⟩ := layout_ok old mbs uni bi g.1 g.2
  rw [hd] at e3
  cases e3
  have hA : d1.totalAlphaD = d0.totalAlphaD := by rw [S2.totalAlphaD, S3.totalAlphaD]
  have hT : d1.totalLambda = d0.totalLambda := by
    rw [S2.totalLambda, S3.totalLambda, S2.nrUniLambda, S3.nrUniLambda, S2.nrBiLambda, S3.nrBiLambda]
  have hn1 : d1.nrVars = d.nrVars := by rw [hsame.nrVars, S2.nrVars, S3.nrVars, hA, hT]
  obtain ⟨s2, h1, h2, h3, h4, h5⟩ := motion_lines hp hdt R S env E
  rw [hs] at h1
  cases h1
  rw [lastSides_eq_sides N] at h4 h5
  obtain ⟨aD, lam, c, c1, c2, c3, c4, c5⟩ := h5 x (hx.trans hn1.symm)
  have hl := (h4 x.get).1 (by rw [hn1]; exact hsat.1.2.2 _ hg)
  refine ⟨aD, lam, c, ?_, ?_, c3, fun a ha => ?_⟩
  · rw [hsame.alphaDVec, ← c1]
    simp only [alphaDVec, hA]
  · rw [hsame.lambdaVec, ← c2]
    simp only [lambdaVec, SolverData.lambdaBegin0, hA, hT]
  · have := hl a ha
    rw [c5 a ha]
    refine ⟨rfl, this.1, this.2, fun z1 z2 => ?_⟩
    have h0 := this.1
    unfold TorqueParams.InLimits at h0
    rw [z1, z2] at h0
    simp only [Ext.lowerOK_fin, Ext.upperOK_fin] at h0
    have h00 := le_antisymm h0.2 h0.1
    unfold invDyn at h00
    linarith

end

namespace PhysEx

/-- A body on a vertical slider without actuator. -/
def robot : MultiBody ℝ := ⟨[⟨"z", 1, none⟩], 1, [-1], [0]⟩
def rk : RobotKin ℝ := ⟨robot, fun _ => .ok [0]⟩
def mbc : Mbc ℝ Unit := ⟨[[0]], [PT.one], [0], [0], ()⟩

/-- Mass 1, weight 10. -/
def env : MotionEnv ℝ :=
  ⟨⟨1, 1, fun _ _ => 1⟩, ⟨1, fun _ => 10⟩, fun _ _ => ⟨6, 1, fun i _ => if i = 5 then 1 else 0⟩, [[0]], [[0]]⟩

/-- It stands on the ground on one point, friction 1/2, one generator. -/
noncomputable def foot : UniContact ℝ :=
  UniContact.make ⟨0, 1, "foot", "ground", -1⟩ [0] M3.one PT.one 1 (1/2) PT.one

/-- No torque. -/
noncomputable def prm : TorqueParams ℝ := ⟨[[.fin 0]], [[.fin 0]], [], [], 1/200⟩

/-- The weight of the generator that carries the body. -/
noncomputable def load : ℝ := 10 / Real.cos (Real.arctan (1/2))

/-- Stand still. -/
noncomputable def y : ℕ → ℝ := fun i => if i = 1 then load else 0

theorem load_pos : 0 < load := div_pos (by norm_num) (Real.cos_arctan_pos _)

theorem ortho : (M3.one : M3 ℝ).RowsOrtho := by
  refine ⟨?_, ?_, ?_, ?_, ?_, ?_⟩ <;> norm_num [M3.one, V3.dot]

theorem noMimic : ∀ mb ∈ [robot], NoMimic mb := by
  intro mb hmb j hj
  simp only [List.mem_singleton] at hmb
  subst hmb
  simp only [robot, List.mem_singleton] at hj
  subst hj
  rfl

theorem mimicOK : ∀ mb ∈ [robot], MimicOK mb := by
  intro mb hmb
  refine ⟨?_, fun j hj l m h => by rw [noMimic mb hmb j hj] at h; cases h⟩
  simp only [List.mem_singleton] at hmb
  subst hmb
  simp [robot]

theorem tree : ∀ mb ∈ [robot], 0 < mb.nrDof → Tree mb := by
  intro mb hmb _
  simp only [List.mem_singleton] at hmb
  subst hmb
  refine ⟨rfl, rfl, rfl, ?_⟩
  intro i p h
  match i with
  | 0 => simp [robot] at h; exact Or.inl h.symm
  | k + 1 => simp [robot] at h

theorem shaped : ∀ (r : ℕ) (mb : MultiBody ℝ) (m : Mbc ℝ Unit), [robot][r]? = some mb → [mbc][r]? = some m →
    Shaped mb m ∧ (0 < mb.nrDof → MbcSized mb m) := by
  intro r mb m hr hmm
  cases r with
  | zero => simp at hr hmm; subst hr; subst hmm; exact ⟨rfl, fun _ => ⟨rfl, rfl, rfl⟩⟩
  | succ r => simp at hr

/-- The two constraints, updated for the robot and its contact: what they say of the acceleration and the weight. -/
theorem setup : ∃ (d1 : SolverData ℝ) (deps : List (Dep ℝ)) (s1 : PositiveLambda ℝ) (s s' : MotionConstr ℝ),
    layout SolverData.init [robot] [foot] [] = .ok (d1, deps) ∧
    (⟨0, Vec.const 0 (.fin 0), Vec.const 0 .posInf, []⟩ : PositiveLambda ℝ).updateNrVars d1 = .ok s1 ∧
    MotionRun rk 0 prm [] (some d1) 0 (fun _ => 0) s ∧ Setting rk 0 [robot] d1 ∧
    NoSelf 0 d1 ∧ EnvOK rk env ∧ s.update rk.mb env = .ok s' ∧
    prm.Full rk.mb.nrDof ∧ nrVariables [robot] [foot] [] = 2 ∧
    (∀ z, ((sides 0 d1).map fun s => contactTorque rk env s z 0).sum = Real.cos (Real.arctan (1/2)) * z 1) ∧
    (∀ z, SatGen 2 s'.common.gen z ↔ z 0 + 10 = Real.cos (Real.arctan (1/2)) * z 1) ∧
    (∀ z, SatBound s1.bound z ↔ 0 ≤ z 1) ∧ s'.common.gen.Sized 2 ∧ s1.bound.Sized 2 := by
  have g : GoodInput [robot] ([] : List (BiContact ℝ)) := ⟨fun mb h => MimicOK.named (mimicOK mb h), by simp⟩
  obtain ⟨d1, deps, e, L⟩ := layout_ok SolverData.init [robot] [foot] [] g.1 g.2
  have hgen := C19_generators M3.one ortho 1 (1/2) 1 (Or.inl rfl)
  have h1 : d1.allCont = [BiContact.ofUni foot] := by rw [L.allCont]; rfl
  have h2 : d1.totalAlphaD = 1 := by rw [L.totalAlphaD]; rfl
  have hnl : foot.nL = 1 := by
    simp [UniContact.nL, foot, UniContact.make, hgen.1]
  have h3 : d1.lambdaBegin = [1] := by rw [L.lambdaBegin, h2]; rfl
  have hT : d1.totalLambda = 1 := by rw [L.totalLambda, L.nrUniLambda, L.nrBiLambda]; simp [hnl]
  have h4 : d1.nrVars = 2 := by rw [L.nrVars, h2, hT]
  have hnv : nrVariables [robot] [foot] [] = 2 := by
    have : uniWeights foot = 1 := hnl
    simp [nrVariables, this, robot, MultiBody.nrDof]
  have S : Setting rk 0 [robot] d1 := by
    refine ⟨rfl, ⟨_, _, _, _, g, e⟩, ?_, ?_⟩
    · intro c hc
      rw [h1] at hc
      obtain rfl : c = _ := by simpa using hc
      have e2 := (C19_generators (((PT.ofRot M3.one).mul (PT.one : PT ℝ).inv).E.neg) (by
        refine ⟨?_, ?_, ?_, ?_, ?_, ?_⟩ <;>
          norm_num [PT.ofRot, PT.mul, PT.inv, PT.one, M3.one, V3.dot, M3.neg, M3.mul, M3.transpose]) 1 (1/2) (-1)
        (Or.inr rfl)).1
      refine ⟨by simp [BiContact.ofUni, foot, UniContact.make], by simp [BiContact.ofUni, foot, UniContact.make], ?_⟩
      simp [BiContact.ofUni, foot, UniContact.make, before, hgen.1, e2]
    · intro sd _
      exact ⟨[0], rfl, by simp, by simp, by simp [rk, robot]⟩
  have N : NoSelf 0 d1 := by
    intro c hc
    rw [h1] at hc
    obtain rfl : c = _ := by simpa using hc
    simp [BiContact.ofUni, foot, UniContact.make]
  have hfull : prm.Full rk.mb.nrDof := ⟨rfl, rfl⟩
  have E : EnvOK rk env := ⟨rfl, rfl, rfl⟩
  obtain ⟨⟨s, _, R⟩, hrun⟩ := C25_setup (rk := rk) (r := 0) (p := prm) (by simp [prm, rk, robot, MultiBody.nrDof])
    (by simp [prm, rk, robot, MultiBody.nrDof]) (by simp [prm]) (by simp [prm]) (fun _ => .negInf) []
  obtain ⟨c, _, R'⟩ := hrun _ _ _ s R _ d1 S
  obtain ⟨s', u1, u2, u3, u4, -⟩ := motion_lines hfull (by norm_num [prm]) R' S env E
  obtain ⟨d4, deps4, s1, e4, e4', p1, -, -⟩ := C24_weights_nonneg SolverData.init [robot] [foot] [] g
    (⟨0, Vec.const 0 (.fin 0), Vec.const 0 .posInf, []⟩ : PositiveLambda ℝ)
  rw [e] at e4
  cases e4
  -- the force of the ground on the body
  have hforce : ∀ z : ℕ → ℝ, ((sides 0 d1).map fun s => contactTorque rk env s z 0).sum
      = Real.cos (Real.arctan (1/2)) * z 1 := by
    intro z
    obtain ⟨g1, g0, q1, -, -, -, -, q2, -, -⟩ := hgen.2 0 (by norm_num)
    have hg : (FrictionCone.make (M3.one : M3 ℝ) 1 (1/2) 1).generators = [g1] := by
      match hl : (FrictionCone.make (M3.one : M3 ℝ) 1 (1/2) 1).generators with
      | [a] => rw [hl] at q1; simp at q1; rw [q1]
      | [] => rw [hl] at q1; simp at q1
      | a :: b :: t => have := hgen.1; rw [hl] at this; simp at this
    have hcone : FrictionCone.make (M3.one : M3 ℝ) 1 (1/2) 1 = ⟨[g1]⟩ := by
      cases hc : FrictionCone.make (M3.one : M3 ℝ) 1 (1/2) 1
      rw [hc] at hg
      exact congrArg _ hg
    have hs : sides 0 d1 = [⟨"foot", 1, [0], [⟨[g1]⟩]⟩] := by
      unfold sides
      rw [h1, h3]
      simp only [sidesOf, BiContact.ofUni, foot, UniContact.make, hcone]
      simp
    have hd : g1.z = Real.cos (Real.arctan (1/2)) := by
      rw [← q2]; simp [M3.one, V3.dot]
    rw [hs]
    simp [contactTorque, Side.force, combo, before, pointCol, pathOf, rk, robot, env, onDofs, jpos, jdof, V3.dot,
      MultiBody.joints, Out.val?, hd]
    ring
  refine ⟨d1, deps, s1, _, s', e, e4', R', S, N, E, u1, hfull, hnv, hforce, ?_, ?_, ?_, ?_⟩
  · intro z
    rw [← h4, u4 z]
    have hz : invDyn rk env (aBegin [robot] 0) (lastSides 0 d1) z 0 = z 0 + 10 - Real.cos (Real.arctan (1/2)) * z 1 := by
      unfold invDyn
      rw [lastSides_eq_sides N, hforce]
      simp [env, rk, robot, MultiBody.nrDof, aBegin]
    have hn : rk.mb.nrDof = 1 := by simp [rk, robot, MultiBody.nrDof]
    have hl : ∀ t, prm.InLimits 0 t ↔ t = 0 := by
      intro t
      simp only [TorqueParams.InLimits, TorqueParams.lower, TorqueParams.upper, prm]
      simp [le_antisymm_iff, and_comm]
    constructor
    · intro h
      have := (hl _).1 (h 0 (by omega)).1
      rw [hz] at this
      linarith
    · intro h i hi
      have hi0 : i = 0 := by omega
      subst hi0
      rw [hz, hl]
      exact ⟨by linarith, fun h => absurd h (lt_irrefl _)⟩
  · intro z
    rw [p1 z]
    constructor
    · intro h
      exact h 1 (by simp [robot, MultiBody.nrDof]) (by omega)
    · intro h i hi hi'
      have : i = 1 := by simp [robot, MultiBody.nrDof] at hi; omega
      rw [this]
      exact h
  · have hz := motion_sized u1
    have u2' : s'.common.A.rows = 1 := u2
    have u3' : s'.common.A.cols = d1.nrVars := u3
    exact ⟨le_rfl, le_rfl, by rw [← h4]; exact u3'.ge, (u2'.trans hz.1.symm).le, (u2'.trans hz.2.symm).le⟩
  · have := positiveLambda_ok d1 (⟨0, Vec.const 0 (.fin 0), Vec.const 0 .posInf, []⟩ : PositiveLambda ℝ)
      (by rw [h1, h3]; rfl) (by rw [h1]; simp [BiContact.ofUni])
    rw [e4'] at this
    cases this
    simp [BoundC.Sized, PositiveLambda.bound, SolverData.lambdaBegin0, h2, hT, Vec.const]

/-- The problem: a task and the two constraints. -/
noncomputable def problem (t : TaskQC ℝ) (s' : MotionConstr ℝ) (s1 : PositiveLambda ℝ) : QPInput ℝ :=
  ⟨[t], [], [], [s'.common.gen], [s1.bound]⟩

/-- A task whose minimiser is a given point. -/
noncomputable def toward (y : ℕ → ℝ) : TaskQC ℝ :=
  ⟨⟨2, 2, fun i j => if i = j then 1 else 0⟩, ⟨2, fun i => -y i⟩, (0, 0), 1⟩

theorem problem_sized (y : ℕ → ℝ) {s' : MotionConstr ℝ} {s1 : PositiveLambda ℝ} (h : s'.common.gen.Sized 2)
    (h' : s1.bound.Sized 2) : InputSized 2 (problem (toward y) s' s1) := by
  refine ⟨?_, by simp [problem], by simp [problem], ?_, ?_⟩
  · intro t ht
    simp only [problem, List.mem_singleton] at ht
    subst ht
    simp [TaskQC.Sized, toward]
  · intro c hc
    simp only [problem, List.mem_singleton] at hc
    rw [hc]
    exact h
  · intro c hc
    simp only [problem, List.mem_singleton] at hc
    rw [hc]
    exact h'

theorem problem_best (y : ℕ → ℝ) (s' : MotionConstr ℝ) (s1 : PositiveLambda ℝ) (z : ℕ → ℝ) :
    objective 2 (problem (toward y) s' s1) y ≤ objective 2 (problem (toward y) s' s1) z := by
  have hreg : ∀ i, ¬ Regularised 2 (problem (toward y) s' s1) i := by
    rintro i ⟨hi, h⟩
    have : i = 0 ∨ i = 1 := by omega
    rcases this with rfl | rfl <;> norm_num [accDiag, problem, toward, TaskQC.q] at h
  have hobj : ∀ z, objective 2 (problem (toward y) s' s1) z = (toward y).obj z := by
    intro z
    unfold objective
    rw [Finset.sum_eq_zero fun i hi => ?_]
    · simp [problem]
    · simp only [mem_filter, mem_range] at hi
      exact absurd hi (hreg i)
  have htask : ∀ z, (toward y).obj z = (z 0 ^ 2 + z 1 ^ 2) / 2 - y 0 * z 0 - y 1 * z 1 := by
    intro z
    simp [TaskQC.obj, TaskQC.q, TaskQC.c, toward, quadObj, Finset.sum_range_succ]
    ring
  rw [hobj, hobj, htask, htask]
  nlinarith [sq_nonneg (z 1 - y 1), sq_nonneg (z 0 - y 0)]

/-- Non-vacuity of C76: a solve with both constraints; the ground carries the body. -/
example : ∃ (d d1 : SolverData ℝ) (deps : List (Dep ℝ)) (inp : QPInput ℝ) (x : Vec ℝ) (s1 : PositiveLambda ℝ)
    (s s' : MotionConstr ℝ), SolvedIn "QLD" [robot] [foot] [] d inp x ∧
    layout SolverData.init [robot] [foot] [] = .ok (d1, deps) ∧
    (⟨0, Vec.const 0 (.fin 0), Vec.const 0 .posInf, []⟩ : PositiveLambda ℝ).updateNrVars d1 = .ok s1 ∧
    s1.bound ∈ inp.bound ∧ MotionRun rk 0 prm [] (some d1) 0 (fun _ => 0) s ∧ Setting rk 0 [robot] d1 ∧
    NoSelf 0 d1 ∧ EnvOK rk env ∧ s.update rk.mb env = .ok s' ∧ s'.common.gen ∈ inp.gen ∧
    prm.Full rk.mb.nrDof ∧ x.get 1 = load ∧
    ((sides 0 d1).map fun s => contactTorque rk env s x.get 0).sum = 10 := by
  obtain ⟨d1, deps, s1, s, s', e, e1, R, S, N, E, u, hf, hnv, hforce, hgen, hbound, hz, hz'⟩ := setup
  have hpos := Real.cos_arctan_pos (1/2 : ℝ)
  obtain ⟨d, x, hx, -, ex⟩ := realiseIn (mbs := [robot]) (uni := [foot]) (bi := []) (mbcs := [mbc])
    (inp := problem (toward y) s' s1) (y := y) mimicOK noMimic tree (by intro c hc; simp at hc) rfl shaped
    (by rw [hnv]; exact problem_sized y hz hz') (by rw [hnv]; exact Nat.succ_pos _) (by simp [problem]) (by
      rw [hnv]
      refine ⟨⟨by simp [problem], by simp [problem], fun c hc => ?_⟩, fun c hc => ?_⟩
      · simp only [problem, List.mem_singleton] at hc
        rw [hc]
        refine (hgen y).2 ?_
        simp [y, load]
        field_simp
      · simp only [problem, List.mem_singleton] at hc
        rw [hc]
        refine (hbound y).2 ?_
        simp [y, load_pos.le]) (by
      rw [hnv]
      exact fun z _ => problem_best y s' s1 z)
  refine ⟨d, d1, deps, _, x, s1, s, s', hx, e, e1, by simp [problem], R, S, N, E, u, by simp [problem], hf, ?_, ?_⟩
  · rw [ex]; simp [y]
  · rw [hforce, ex]
    simp [y, load]
    field_simp

end PhysEx

end Verif
