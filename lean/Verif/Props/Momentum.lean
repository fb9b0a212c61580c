import Verif.Proofs.Momentum
import Verif.Props.Converge

/-!
# C64: momentum task

The error of the task is the target minus the momentum of the robot about its centre of mass, in the sense
of mechanics: for every way of seeing the bodies as finitely many particles, the sum of `μ v` and of
`μ (P - c) × v` over the particles.  Jacobian and normal acceleration are those of the momentum, and in a
`SetPointTask` the error decreases as `exp (-k t)` (also for `LinVelocityTask`, whose error is a velocity
error too).
-/

set_option autoImplicit false
set_option linter.unusedSectionVars false

namespace Verif

open Finset Spec

namespace Spec

/-- The inertia of the body is that of `n` particles of masses `μ` at the points `p` of the body. -/
structure Particles (B : BodyI ℝ) (n : ℕ) (μ : ℕ → ℝ) (p : ℕ → V3 ℝ) : Prop where
  mass : B.b.mass = ∑ k ∈ range n, μ k
  first : B.b.h = ∑ k ∈ range n, μ k • p k
  second : ∀ w, B.I.mulVec w = ∑ k ∈ range n, μ k • (p k).cross (w.cross (p k))

/-- World position of the point `p` of body `i`. -/
def particleAt (st : KState ℝ) (i : ℕ) (p : V3 ℝ) : V3 ℝ :=
  (kPose st i).r + (kPose st i).E.transpose.mulVec p

end Spec

theorem HasD3.unique {f : ℝ → V3 ℝ} {u v : V3 ℝ} {t : ℝ} (hu : HasD3 f u t) (hv : HasD3 f v t) : u = v :=
  V3.ext (hu.1.unique hv.1) (hu.2.1.unique hv.2.1) (hu.2.2.unique hv.2.2)

section
variable {K : Type} [Field K] [LinearOrder K] [IsStrictOrderedRing K]

/-- The update succeeds on every state computed by forward kinematics of a robot with mass; the Jacobian
applied to the joint velocities is the momentum the error is taken of, and the reported speed is the one
of the constructor, zero. -/
theorem C64_jacobian {bs : List (BodyI K)} {mb : MultiBody K} {st : KState K} {x : ℕ → K}
    (hB : BodiesMove (bs.map BodyI.b) mb st x) (hM : massSum (bs.map BodyI.b) ≠ 0) (s : MomentumT K) :
    ∃ s', s.update bs mb st = .ok s' ∧ s'.momentum = s.momentum ∧ s'.speed = s.speed ∧
      s'.jacMat.rows = 6 ∧ s'.jacMat.cols = mb.nrDof ∧
      ∀ a < 6, s'.jacMat.rowMul a x = s.momentum.get a - s'.eval.get a := by
  obtain ⟨M, h1, h2, h3, h4⟩ := momentum_exact hB hM s
  refine ⟨_, h1, rfl, rfl, h2, h3, fun a ha => ?_⟩
  dsimp only
  rw [h4 x a ha, FV.get_sub, sub_sub_cancel]
  congr 1
  refine Finset.sum_congr rfl fun i hi => ?_
  obtain ⟨hl, hm⟩ := hB i (by simpa using hi)
  have hrig := hm.rigid _ (List.mem_of_getLast? hl)
  have e := moves_vel hm hl
  rw [bodyAt_map] at e
  unfold wSum
  rw [← e, PT.mulM_inv _ hrig]

/-- A robot without mass: the update divides by zero. -/
theorem C64_no_mass {bs : List (BodyI K)} {mb : MultiBody K} {st : KState K}
    (hp : ∀ i < bs.length, i < st.bodyPosW.length) (hM : massSum (bs.map BodyI.b) = 0)
    (s : MomentumT K) : s.update bs mb st = .ub := by
  have := (C61_rejected (bs := bs.map BodyI.b) 0 [] 0 ⟨0, 0, 0, Mat.zero 0 0⟩).2.2 mb st
    ⟨0, 0, ⟨[], [], []⟩, ⟨0, 0, 0, Mat.zero 0 0⟩⟩ (by simpa using hp) hM
  unfold MomentumT.update
  unfold CoMT.update at this
  cases h : computeCoM (bs.map BodyI.b) st with
  | ub => rfl
  | throws e => rw [h] at this; cases this
  | ok c =>
    exfalso
    rw [h] at this
    have e : (CoMT.updateAt mb st c ⟨0, 0, ⟨[], [], []⟩, ⟨0, 0, 0, Mat.zero 0 0⟩⟩ : Out (CoMT K))
        = .ok ⟨0, c, ⟨[], [], []⟩, ⟨0 - c, 0, 0, Mat.zero 3 mb.nrDof⟩⟩ := rfl
    rw [Out.ok_bind, e] at this
    cases this

end

section
variable {bs : List (BodyI ℝ)} {mb : MultiBody ℝ} {st : ℝ → KState ℝ} {x : ℝ → ℕ → ℝ} {xd : ℕ → ℝ} {t : ℝ}

theorem inertiaAt_evolves (h : BodiesEvolve (bs.map BodyI.b) mb st x xd t) {i : ℕ} (hi : i < bs.length) :
    (inertiaAt bs i).b.path.getLast? = some i ∧ Evolves mb st (inertiaAt bs i).b.path x xd t := by
  have := h i (by simpa using hi)
  rwa [bodyAt_map] at this

theorem particle_deriv (h : BodiesEvolve (bs.map BodyI.b) mb st x xd t) {i : ℕ} (hi : i < bs.length)
    (p : V3 ℝ) : HasD3 (fun τ => particleAt (st τ) i p)
      ((kPose (st t) i).E.transpose.mulVec ((kVel (st t) i).lin - p.cross (kVel (st t) i).ang)) t := by
  obtain ⟨hl, hm⟩ := inertiaAt_evolves h hi
  exact (hm.frame i (List.mem_of_getLast? hl)).origin p

/-- The error is the target minus the momentum of the particles about their centre of mass `c`, whatever
the particles the inertias of the bodies are made of. -/
theorem C64_momentum (h : BodiesEvolve (bs.map BodyI.b) mb st x xd t)
    (hM : massSum (bs.map BodyI.b) ≠ 0) (s : MomentumT ℝ) {n : ℕ → ℕ} {μ : ℕ → ℕ → ℝ} {p : ℕ → ℕ → V3 ℝ}
    (hpart : ∀ i < bs.length, Particles (inertiaAt bs i) (n i) (μ i) (p i))
    {v : ℕ → ℕ → V3 ℝ}
    (hv : ∀ i < bs.length, ∀ k < n i, HasD3 (fun τ => particleAt (st τ) i (p i k)) (v i k) t)
    {c : V3 ℝ} (hc : (∑ i ∈ range bs.length, ∑ k ∈ range (n i), μ i k) • c
      = ∑ i ∈ range bs.length, ∑ k ∈ range (n i), μ i k • particleAt (st t) i (p i k)) :
    ∃ s', s.update bs mb (st t) = .ok s' ∧
      s'.eval.couple = s.momentum.couple - ∑ i ∈ range bs.length, ∑ k ∈ range (n i),
        μ i k • (particleAt (st t) i (p i k) - c).cross (v i k) ∧
      s'.eval.force = s.momentum.force
        - ∑ i ∈ range bs.length, ∑ k ∈ range (n i), μ i k • v i k := by
  obtain ⟨M, h1, -⟩ := momentum_exact (h.moves t) hM s
  have hv' : ∀ i < bs.length, ∀ k < n i, v i k = (kPose (st t) i).E.transpose.mulVec
      ((kVel (st t) i).lin - (p i k).cross (kVel (st t) i).ang) := fun i hi k hk =>
    HasD3.unique (hv i hi k hk) (particle_deriv h hi _)
  have hmass : massSum (bs.map BodyI.b) = ∑ i ∈ range bs.length, ∑ k ∈ range (n i), μ i k := by
    unfold massSum
    rw [List.length_map]
    exact Finset.sum_congr rfl fun i hi => by
      rw [bodyAt_map, (hpart i (by simpa using hi)).mass]
  have hcom : momCom bs (st t) = c := by
    have e : ∑ i ∈ range bs.length, ((inertiaAt bs i).b.mass • (kPose (st t) i).r
        + (kPose (st t) i).E.transpose.mulVec (inertiaAt bs i).b.h)
        = ∑ i ∈ range bs.length, ∑ k ∈ range (n i), μ i k • particleAt (st t) i (p i k) := by
      refine Finset.sum_congr rfl fun i hi => ?_
      obtain ⟨a1, a2, -⟩ := hpart i (by simpa using hi)
      rw [a1, a2, M3.mulVec_sum', V3.sum_smul', ← Finset.sum_add_distrib]
      refine Finset.sum_congr rfl fun k _ => ?_
      unfold particleAt
      rw [M3.mulVec_smul, V3.smul_add']
    unfold momCom
    rw [e, ← hc, ← hmass]
    ext <;> simp [hM]
  have hforce : ∀ i < bs.length, ((inertiaAt bs i).mul (kVel (st t) i)).force
      = ∑ k ∈ range (n i), μ i k • ((kVel (st t) i).lin - (p i k).cross (kVel (st t) i).ang) := by
    intro i hi
    obtain ⟨a1, a2, -⟩ := hpart i hi
    unfold BodyI.mul
    dsimp only
    rw [a1, a2, V3.sum_smul', V3.sum_cross', ← Finset.sum_sub_distrib]
    refine Finset.sum_congr rfl fun k _ => ?_
    ext <;> simp <;> ring
  have hcouple : ∀ i < bs.length, ((inertiaAt bs i).mul (kVel (st t) i)).couple
      = ∑ k ∈ range (n i), μ i k •
        (p i k).cross ((kVel (st t) i).lin - (p i k).cross (kVel (st t) i).ang) := by
    intro i hi
    obtain ⟨-, a2, a3⟩ := hpart i hi
    unfold BodyI.mul
    dsimp only
    rw [a2, a3, V3.sum_cross', ← Finset.sum_add_distrib]
    refine Finset.sum_congr rfl fun k _ => ?_
    ext <;> simp <;> ring
  refine ⟨_, h1, ?_, ?_⟩
  · dsimp only [FV.sub_couple]
    congr 1
    rw [FV.sum_couple, hcom]
    refine Finset.sum_congr rfl fun i hi => ?_
    simp only [Finset.mem_range] at hi
    obtain ⟨hl, hm⟩ := inertiaAt_evolves h hi
    have hrig := (hm.moves t).rigid _ (List.mem_of_getLast? hl)
    rw [bodyMom_couple, hforce i hi, hcouple i hi, M3.mulVec_sum', M3.mulVec_sum', V3.cross_sum',
      ← Finset.sum_add_distrib]
    refine Finset.sum_congr rfl fun k hk => ?_
    rw [hv' i hi k (by simpa using hk), M3.mulVec_smul, M3.mulVec_smul,
      ← hrig.transpose.cross_mulVec]
    unfold particleAt
    ext <;> simp <;> ring
  · dsimp only [FV.sub_force]
    congr 1
    rw [FV.sum_force]
    refine Finset.sum_congr rfl fun i hi => ?_
    simp only [Finset.mem_range] at hi
    rw [bodyMom_force, hforce i hi, M3.mulVec_sum']
    refine Finset.sum_congr rfl fun k hk => ?_
    rw [hv' i hi k (by simpa using hk), M3.mulVec_smul]

/-- The centre of mass moves with the velocity RBDyn computes. -/
theorem momCom_deriv (h : BodiesEvolve (bs.map BodyI.b) mb st x xd t) :
    HasD3 (fun τ => momCom bs (st τ)) (momComDot bs (st t)) t := by
  refine HasD3.smul_const _ (HasD3.sum fun i hi => ?_)
  obtain ⟨hl, hm⟩ := inertiaAt_evolves h hi
  have hf := hm.frame i (List.mem_of_getLast? hl)
  refine ((HasD3.smul_const (inertiaAt bs i).b.mass hf.2).add
    (hf.transpose_mulVec (HasD3.const (inertiaAt bs i).b.h t))).congr_deriv ?_
  rw [← M3.mulVec_smul, ← M3.mulVec_add]
  congr 1
  ext <;> simp <;> ring

theorem inertia_deriv {V : ℝ → MV ℝ} {V' : MV ℝ} (B : BodyI ℝ) (hV : HasDM V V' t) :
    HasD3 (fun τ => (B.mul (V τ)).couple) (B.mul V').couple t ∧
      HasD3 (fun τ => (B.mul (V τ)).force) (B.mul V').force t := by
  constructor
  · refine ((HasD3.mulVec_const B.I hV.1).add ((HasD3.const B.b.h t).cross hV.2)).congr_deriv ?_
    unfold BodyI.mul
    ext <;> simp
  · refine ((HasD3.smul_const B.b.mass hV.2).sub ((HasD3.const B.b.h t).cross hV.1)).congr_deriv ?_
    unfold BodyI.mul
    ext <;> simp

theorem bodyMom_deriv (h : BodiesEvolve (bs.map BodyI.b) mb st x xd t) {i : ℕ} (hi : i < bs.length) :
    let D := bodyMom bs (st t) (momCom bs (st t)) i
        ((kPose (st t) i).mulM (wSum mb (st t) (inertiaAt bs i).b.path xd))
      + bodyMomDot bs (st t) (momCom bs (st t)) (momComDot bs (st t)) i
    HasD3 (fun τ => (bodyMom bs (st τ) (momCom bs (st τ)) i (kVel (st τ) i)).couple) D.couple t ∧
      HasD3 (fun τ => (bodyMom bs (st τ) (momCom bs (st τ)) i (kVel (st τ) i)).force) D.force t := by
  dsimp only
  obtain ⟨hl, hm⟩ := inertiaAt_evolves h hi
  have hmem := List.mem_of_getLast? hl
  have hf := hm.frame i hmem
  have hrig := (hm.moves t).rigid _ hmem
  have hone : ∀ m : MV ℝ, (PT.ofTrans (0 : V3 ℝ)).mulM m = m := by
    intro m
    ext <;> simp [PT.ofTrans, PT.mulM, M3.one, M3.mulVec, V3.dot]
  have hX : (PT.ofTrans (0 : V3 ℝ)).mul (kPose (st t) i) = kPose (st t) i := by
    ext <;> simp [PT.mul, PT.ofTrans, M3.one, M3.mul, M3.mulVec, M3.transpose, V3.dot]
  have hV := body_acc hm hl (PT.rigid_ofTrans (0 : V3 ℝ))
  simp only [hone, hX] at hV
  obtain ⟨dn, df⟩ := inertia_deriv (inertiaAt bs i) hV
  have dF := hf.transpose_mulVec df
  have dN := hf.transpose_mulVec dn
  have e := hrig.transpose.cross_mulVec (kVel (st t) i).lin
    ((inertiaAt bs i).mul (kVel (st t) i)).force
  constructor
  · refine ((dN.add ((hf.2.sub (momCom_deriv h)).cross dF)).congr_fun
      fun τ => bodyMom_couple _ _ _ _ _).congr_deriv ?_
    simp only [FV.add_couple, bodyMom_couple, bodyMomDot, FV.sub_couple]
    rw [show ((kPose (st t) i).E.transpose.mulVec (kVel (st t) i).lin - momComDot bs (st t)).cross
        ((kPose (st t) i).E.transpose.mulVec ((inertiaAt bs i).mul (kVel (st t) i)).force)
      = (kPose (st t) i).E.transpose.mulVec ((kVel (st t) i).lin.cross
        ((inertiaAt bs i).mul (kVel (st t) i)).force) - (momComDot bs (st t)).cross
        ((kPose (st t) i).E.transpose.mulVec ((inertiaAt bs i).mul (kVel (st t) i)).force) from by
      rw [← e]; ext <;> simp <;> ring]
    rw [inertia_add]
    unfold PT.transMul MV.crossDual
    rw [atCom_E, atCom_r, bodyMom_force]
    simp only [FV.add_couple, FV.add_force, M3.mulVec_add]
    ext <;> simp <;> ring
  · refine (dF.congr_fun fun τ => bodyMom_force _ _ _ _ _).congr_deriv ?_
    simp only [FV.add_force, bodyMom_force, bodyMomDot, FV.sub_force]
    rw [inertia_add]
    unfold PT.transMul MV.crossDual
    rw [atCom_E]
    simp only [FV.add_force, M3.mulVec_add]
    ext <;> simp <;> ring

/-- Along every differentiable motion the error changes with minus (Jacobian times joint accelerations plus
normal acceleration): these two are the derivative of the momentum. -/
theorem C64_drift (h : BodiesEvolve (bs.map BodyI.b) mb st x xd t)
    (hM : massSum (bs.map BodyI.b) ≠ 0) (s : MomentumT ℝ) :
    ∃ s' : ℝ → MomentumT ℝ, (∀ τ, s.update bs mb (st τ) = .ok (s' τ)) ∧
      ∀ a < 6, HasDerivAt (fun τ => (s' τ).eval.get a)
        (-((s' t).jacMat.rowMul a xd + (s' t).normalAcc.get a)) t := by
  choose M h1 h2 h3 h4 using fun τ => momentum_exact (h.moves τ) hM s
  refine ⟨_, h1, fun a ha => ?_⟩
  have d : HasDerivAt (fun τ => (∑ i ∈ range bs.length,
      bodyMom bs (st τ) (momCom bs (st τ)) i (kVel (st τ) i)).get a)
      ((∑ i ∈ range bs.length, (bodyMom bs (st t) (momCom bs (st t)) i
        ((kPose (st t) i).mulM (wSum mb (st t) (inertiaAt bs i).b.path xd))
        + bodyMomDot bs (st t) (momCom bs (st t)) (momComDot bs (st t)) i)).get a) t := by
    unfold FV.get
    simp only [FV.sum_couple, FV.sum_force]
    split
    · exact (HasD3.sum fun i hi => (bodyMom_deriv h hi).1).get a
    · exact (HasD3.sum fun i hi => (bodyMom_deriv h hi).2).get _
  refine (((hasDerivAt_const t (s.momentum.get a)).sub d).congr_deriv ?_).congr_of_eventuallyEq
    (Filter.Eventually.of_forall fun τ => FV.get_sub _ _ _)
  dsimp only
  rw [h4 t xd a ha, Finset.sum_add_distrib, FV.get_add]
  ring

end

/-! ## Closed loop of a velocity error -/

theorem exp_solution {e : ℝ → ℝ} {k : ℝ} (h : ∀ t, 0 ≤ t → HasDerivAt e (-(k * e t)) t) {t : ℝ} (ht : 0 ≤ t) :
    e t = e 0 * Real.exp (-(k * t)) := by
  have hE : ∀ t, HasDerivAt (fun τ => Real.exp (k * τ)) (Real.exp (k * t) * k) t := fun t => by
    simpa using ((hasDerivAt_id t).const_mul k).exp
  have := const_of_hasDerivAt_zero (f := fun τ => e τ * Real.exp (k * τ))
    (fun t ht => ((h t ht).mul (hE t)).congr_deriv (by ring)) ht
  simp only [mul_zero, Real.exp_zero, mul_one] at this
  rw [← this, mul_assoc, ← Real.exp_add, add_neg_cancel, Real.exp_zero, mul_one]

theorem exp_tendsto {k : ℝ} (hk : 0 < k) (c : ℝ) :
    Filter.Tendsto (fun t => c * Real.exp (-(k * t))) Filter.atTop (nhds 0) := by
  have h0 : Filter.Tendsto (fun t : ℝ => k * t) Filter.atTop Filter.atTop :=
    Filter.tendsto_id.const_mul_atTop hk
  simpa using (Real.tendsto_exp_neg_atTop_nhds_zero.comp h0).const_mul c

/-- A `SetPointTask` over a task whose error is a velocity error and whose speed is zero. -/
theorem C64_closed_loop {dim b a : ℕ} {k : ℝ} {hl : ℝ → HL ℝ} {y : ℝ → ℕ → ℝ}
    (L : SetPointLoop dim k b hl y) (ha : ∀ t, a < (hl t).jac.rows)
    (hs : ∀ t, (hl t).speed.get a = 0)
    (hf : ∀ t, 0 ≤ t → HasDerivAt (fun τ => (hl τ).eval.get a)
      (-(rowAt (hl t).jac b (y t) a + (hl t).normalAcc.get a)) t) :
    (∀ t, 0 ≤ t → (hl t).eval.get a = (hl 0).eval.get a * Real.exp (-(k * t))) ∧
      (0 < k → Filter.Tendsto (fun t => (hl t).eval.get a) Filter.atTop (nhds 0)) := by
  have key : ∀ t, 0 ≤ t → rowAt (hl t).jac b (y t) a + (hl t).normalAcc.get a = k * (hl t).eval.get a := fun t ht => by
    rw [(setpoint_key L ha).2 t ht, hs t, mul_zero, sub_zero]
  have A : ∀ t, 0 ≤ t → (hl t).eval.get a = (hl 0).eval.get a * Real.exp (-(k * t)) := fun t ht =>
    exp_solution (e := fun τ => (hl τ).eval.get a) (fun t ht => (hf t ht).congr_deriv (by rw [key t ht])) ht
  refine ⟨A, fun hk => (exp_tendsto hk ((hl 0).eval.get a)).congr' ?_⟩
  filter_upwards [Filter.eventually_ge_atTop 0] with t ht
  exact (A t ht).symm

section
variable {mb : MultiBody ℝ} {st : ℝ → KState ℝ} {x y : ℝ → ℕ → ℝ} {b : ℕ} {k : ℝ}

/-- Momentum task: the momentum of the robot tends to the target. -/
theorem C64_converges {bs : List (BodyI ℝ)} {mom : FV ℝ} {junk : MomentumT ℝ} {s' : ℝ → MomentumT ℝ}
    (h : ∀ t, 0 ≤ t → BodiesEvolve (bs.map BodyI.b) mb st x (fun c => y t (b + c)) t)
    (hM : massSum (bs.map BodyI.b) ≠ 0)
    (hu : ∀ t, (MomentumT.make mom junk).update bs mb (st t) = .ok (s' t))
    (L : SetPointLoop 6 k b (fun t => (s' t).hl) y) {a : ℕ} (ha : a < 6) :
    (∀ t, 0 ≤ t → (s' t).eval.get a = (s' 0).eval.get a * Real.exp (-(k * t))) ∧
      (0 < k → Filter.Tendsto (fun t => (s' t).eval.get a) Filter.atTop (nhds 0)) := by
  refine C64_closed_loop L (fun t => ?_) (fun t => ?_) (fun t ht => ?_)
  · obtain ⟨q, h1, -, -, h2, -⟩ := C64_jacobian ((h 0 le_rfl).moves t) hM (MomentumT.make mom junk)
    rw [Out.ok.inj ((hu t).symm.trans h1)]
    exact ha.trans_eq h2.symm
  · obtain ⟨q, h1, -, h2, -⟩ := C64_jacobian ((h 0 le_rfl).moves t) hM (MomentumT.make mom junk)
    rw [Out.ok.inj ((hu t).symm.trans h1)]
    show q.speed.get a = 0
    rw [h2]
    exact FV.get_zero a
  · obtain ⟨q, h1, h2⟩ := C64_drift (h t ht) hM (MomentumT.make mom junk)
    have e : q = s' := funext fun τ => Out.ok.inj ((h1 τ).symm.trans (hu τ))
    exact e ▸ h2 a ha

theorem linvel_rows {mb : MultiBody ℝ} {st : KState ℝ} {x : ℕ → ℝ} (bodyIndex : ℕ) {path : List ℕ}
    (v p : V3 ℝ) (junk : Out3 ℝ) {N : ℕ} (hm : Moves mb st path x) (hb : path.getLast? = some N)
    (hr : junk.jacMat.rows = 3) (hc : junk.jacMat.cols = mb.nrDof) {s' : LinVelT ℝ}
    (e : (LinVelT.make bodyIndex path v p junk).update mb st = .ok s') :
    s'.out.jacMat.rows = 3 ∧ s'.out.speed = 0 := by
  obtain ⟨sh, R, b1, b2, b3, -⟩ := linear_full hm hb _ _
    (world_frame (kPose st N) (hm.rigid _ (List.mem_of_getLast? hb)) p) junk.jacMat hr hc
  unfold LinVelT.update LinVelT.make at e
  dsimp only at e
  rw [jac_vel (J := ⟨path, p⟩) hm.sized hb, Out.ok_bind, jac_acc (J := ⟨path, p⟩) hm.sized hb, Out.ok_bind,
    jac_world (J := ⟨path, p⟩) hm.sized hb, Out.ok_bind, b1, Out.ok_bind, b2, Out.ok_bind] at e
  rw [← Out.ok.inj e]
  exact ⟨b3, rfl⟩

/-- Linear velocity task: the velocity of the point tends to the target. -/
theorem C64_lin_velocity (bodyIndex : ℕ) (path : List ℕ) (v p : V3 ℝ) (junk : Out3 ℝ) {N : ℕ}
    (h : ∀ t, 0 ≤ t → Evolves mb st path x (fun c => y t (b + c)) t) (hb : path.getLast? = some N)
    (hr : junk.jacMat.rows = 3) (hc : junk.jacMat.cols = mb.nrDof) {s' : ℝ → LinVelT ℝ}
    (hu : ∀ t, (LinVelT.make bodyIndex path v p junk).update mb (st t) = .ok (s' t))
    (L : SetPointLoop 3 k b (fun t => (s' t).out.hl) y) {a : ℕ} (ha : a < 3) :
    (∀ t, 0 ≤ t → (s' t).out.eval.get a = (s' 0).out.eval.get a * Real.exp (-(k * t))) ∧
      (0 < k → Filter.Tendsto (fun t => (s' t).out.eval.get a) Filter.atTop (nhds 0)) := by
  have hz : ∀ b : ℕ, (0 : V3 ℝ).get b = 0 := by
    intro b
    match b with
    | 0 => rfl
    | 1 => rfl
    | k + 2 => rfl
  have ex : ∀ t, (s' t).out.jacMat.rows = 3 ∧ (s' t).out.speed = 0 := fun t =>
    linvel_rows bodyIndex v p junk ((h 0 le_rfl).moves t) hb hr hc (hu t)
  refine C64_closed_loop L (fun t => ?_) (fun t => ?_) (fun t ht => ?_)
  · exact ha.trans_eq (ex t).1.symm
  · show (s' t).out.speed.get a = 0
    rw [(ex t).2, hz]
  · obtain ⟨q, h1, h2⟩ := C58_lin_velocity (LinVelT.make bodyIndex path v p junk) (h t ht) hb hr hc
    have e : q = s' := funext fun τ => Out.ok.inj ((h1 τ).symm.trans (hu τ))
    exact e ▸ h2 a ha

end

namespace MomEx

/-- The turning joint of `DriftEx` carries two particles of mass 1, at `(1, 0, 0)` and `(0, 1, 0)`. -/
noncomputable def bs : List (BodyI ℝ) := [⟨⟨2, ⟨1, 1, 0⟩, [0]⟩, ⟨⟨1, 0, 0⟩, ⟨0, 1, 0⟩, ⟨0, 0, 2⟩⟩⟩]
def pts (k : ℕ) : V3 ℝ := if k = 0 then ⟨1, 0, 0⟩ else ⟨0, 1, 0⟩

theorem particles : Particles (inertiaAt bs 0) 2 (fun _ => 1) pts := by
  refine ⟨?_, ?_, fun w => ?_⟩
  · norm_num [inertiaAt, bs]
  · ext <;> simp [inertiaAt, bs, pts, Finset.sum_range_succ]
  · ext <;> simp [inertiaAt, bs, pts, Finset.sum_range_succ, M3.mulVec, V3.dot]
    ring

theorem evolves (t : ℝ) : BodiesEvolve (bs.map BodyI.b) DriftEx.mb DriftEx.st (fun τ _ => 1 + τ) (fun _ => 1) t := by
  intro i hi
  have : i = 0 := by simpa [bs] using hi
  subst this
  exact ⟨rfl, DriftEx.evolves t⟩

theorem hasMass : massSum (bs.map BodyI.b) ≠ 0 := by
  simp [massSum, bodyAt, bs]

noncomputable def task : MomentumT ℝ := MomentumT.make 0 ⟨0, 0, ⟨0, ⟨7, 7, 7⟩⟩, 0, Mat.zero 0 0⟩

/-- The momentum at time 0 is that of the particles: linear `(-1, 1, 0)`, angular `(0, 0, 1)` about the
centre of mass `(1/2, 1/2, 0)`; the Jacobian and the normal part are its derivative. -/
example : ∃ s' : ℝ → MomentumT ℝ, (∀ τ, task.update bs DriftEx.mb (DriftEx.st τ) = .ok (s' τ)) ∧
    (s' 0).eval = ⟨⟨0, 0, -1⟩, ⟨1, -1, 0⟩⟩ ∧ (s' 0).speed = 0 ∧
    (∀ a < 6, (s' 0).jacMat.rowMul a (fun _ => 1) = -(s' 0).eval.get a) ∧
    ∀ a < 6, HasDerivAt (fun τ => (s' τ).eval.get a)
        (-((s' 0).jacMat.rowMul a (fun _ => 1) + (s' 0).normalAcc.get a)) 0 := by
  obtain ⟨s', h1, h2⟩ := C64_drift (evolves 0) hasMass task
  have hlen : bs.length = 1 := rfl
  obtain ⟨q, g1, g2, g3⟩ := C64_momentum (evolves 0) hasMass task (n := fun _ => 2) (μ := fun _ _ => 1)
    (p := fun _ => pts) (by
      intro i hi
      have : i = 0 := by omega
      subst this
      exact particles) (v := fun _ k => (kPose (DriftEx.st 0) 0).E.transpose.mulVec
        ((kVel (DriftEx.st 0) 0).lin - (pts k).cross (kVel (DriftEx.st 0) 0).ang))
    (by
      intro i hi k _
      have : i = 0 := by omega
      subst this
      exact particle_deriv (evolves 0) hi _)
    (c := ⟨1 / 2, 1 / 2, 0⟩) (by
      ext <;> simp [hlen, Finset.sum_range_succ, particleAt, pts, kPose, DriftEx.st, DriftEx.pose, DriftEx.ang,
        M3.mulVec, M3.transpose, V3.dot])
  obtain ⟨r, k1, k2, k3, -, -, k4⟩ := C64_jacobian ((evolves 0).moves 0) hasMass task
  have e1 := Out.ok.inj ((h1 0).symm.trans g1)
  have e2 := Out.ok.inj ((h1 0).symm.trans k1)
  refine ⟨s', h1, ?_, ?_, fun a ha => ?_, h2⟩
  · rw [e1]
    refine FV.ext (g2.trans ?_) (g3.trans ?_)
    · ext <;> simp [hlen, Finset.sum_range_succ, particleAt, pts, kPose, kVel, DriftEx.st, DriftEx.pose,
        DriftEx.ang, M3.mulVec, M3.transpose, V3.dot, task, MomentumT.make]
      norm_num
    · ext <;> simp [hlen, Finset.sum_range_succ, particleAt, pts, kPose, kVel, DriftEx.st, DriftEx.pose,
        DriftEx.ang, M3.mulVec, M3.transpose, V3.dot, task, MomentumT.make]
  · rw [e2, k3]
    rfl
  · have := k4 a ha
    rw [e2]
    have hz : task.momentum.get a = 0 := FV.get_zero a
    simp only [add_zero, hz, zero_sub] at this
    exact this

/-! A slider of mass 2 that is braked to rest. -/

noncomputable def w (τ : ℝ) : ℝ := -Real.exp (-τ)
noncomputable def st2 (τ : ℝ) : KState ℝ :=
  ⟨[PT.ofTrans ⟨Real.exp (-τ), 0, 0⟩], [⟨0, ⟨w τ, 0, 0⟩⟩], [[⟨0, ⟨1, 0, 0⟩⟩]], [[w τ]], [0]⟩
noncomputable def bs2 : List (BodyI ℝ) := [⟨⟨2, 0, [0]⟩, M3.one⟩]

theorem evolves2 (t : ℝ) : Evolves ConvEx.mb st2 [0] (fun τ _ => w τ) (fun _ => Real.exp (-t)) t := by
  have hd : HasDerivAt w (Real.exp (-t)) t := (ConvEx.exp_deriv t).neg.congr_deriv (neg_neg _)
  refine ⟨fun τ => ⟨⟨by simp, by simp, by simp [ConvEx.mb], by simp [st2], by simp [st2], by simp [st2], ?_⟩,
    ?_, ?_⟩, fun τ i _ d => rfl, fun c => hd, ?_, ?_⟩
  · simp [st2, ConvEx.mb, jdof]
  · intro i hi
    simp at hi
    subst hi
    exact PT.rigid_ofTrans _
  · refine ⟨?_, trivial⟩
    ext <;> simp [kVel, kSub, st2, ConvEx.mb, jdof, jpos]
  · intro i hi
    simp at hi
    subst hi
    refine ⟨fun v => ((HasD3.const v t).congr_fun fun τ => M3.one_mulVec v).congr_deriv ?_,
      ⟨?_, ?_, ?_⟩⟩
    · ext <;> simp [kVel, st2]
    · refine (ConvEx.exp_deriv t).congr_deriv ?_
      simp [kVel, kPose, st2, w, PT.ofTrans, M3.transpose, M3.one, M3.mulVec, V3.dot]
    · refine (hasDerivAt_const t (0 : ℝ)).congr_deriv ?_
      simp [kVel, kPose, st2, PT.ofTrans, M3.transpose, M3.one, M3.mulVec, V3.dot]
    · refine (hasDerivAt_const t (0 : ℝ)).congr_deriv ?_
      simp [kVel, kPose, st2, PT.ofTrans, M3.transpose, M3.one, M3.mulVec, V3.dot]
  · refine ⟨?_, trivial⟩
    ext <;> simp [kVel, kSub, kAcc, st2, ConvEx.mb, jdof, jpos, MV.cross]

theorem bodies2 (t : ℝ) : BodiesEvolve (bs2.map BodyI.b) ConvEx.mb st2 (fun τ _ => w τ)
    (fun _ => Real.exp (-t)) t := by
  intro i hi
  have : i = 0 := by simpa [bs2] using hi
  subst this
  exact ⟨rfl, evolves2 t⟩

theorem hasMass2 : massSum (bs2.map BodyI.b) ≠ 0 := by
  simp [massSum, bodyAt, bs2]

/-- A loop of stiffness 1 and weight 10 over any task that reaches its target with the acceleration
`y`. -/
theorem loop_of {n : ℕ} {hl : ℝ → HL ℝ} {y : ℝ → ℝ}
    (h1 : ∀ t, (hl t).eval.size = n ∧ (hl t).speed.size = n ∧ (hl t).normalAcc.size = n ∧ (hl t).jac.rows = n)
    (reach : ∀ t, 0 ≤ t → ∀ i < (hl t).jac.rows, rowAt (hl t).jac 0 (fun _ => y t) i + (hl t).normalAcc.get i
      = 1 * (hl t).eval.get i - 2 * Real.sqrt 1 * (hl t).speed.get i) :
    SetPointLoop n 1 0 hl (fun t _ => y t) := by
  have hm : SetPoint.make RelEx.sqrtR [ConvEx.mb] 0 n 1 none 10 (fun _ _ => 7)
      = .ok ⟨⟨10, Vec.const n 1, 0, 0, ⟨1, 1, fun _ _ => 7⟩, ⟨1, fun _ => 7⟩, ⟨n, fun _ => 7⟩⟩, 1,
        2 * Real.sqrt 1⟩ := by
    simp [SetPoint.make, SPCommon.make, RelEx.sqrtR, vecAt, ConvEx.mb, MultiBody.nrDof]
  have hd : ∀ t, ∃ s1, SetPoint.update (hl t)
      ⟨⟨10, Vec.const n 1, 0, 0, ⟨1, 1, fun _ _ => 7⟩, ⟨1, fun _ => 7⟩, ⟨n, fun _ => 7⟩⟩, 1,
        2 * Real.sqrt 1⟩ = .ok s1 := fun t => by
    obtain ⟨a1, a2, a3, a4⟩ := h1 t
    rw [C43_setpoint_defined]
    simp [a1, a2, a3, a4, Vec.const]
  choose s1 hs1 using hd
  refine ⟨RelEx.sqrtR, [ConvEx.mb], 0, 10, 1, none, fun _ _ => 7, _, fun _ => _, s1, fun _ => [],
    RelEx.sqrtR_ok, by norm_num, hm, fun t _ => rfl, fun t _ => hs1 t,
    fun t _ => ⟨rfl, rfl, fun i _ => ?_⟩, fun t ht => ⟨fun _ => y t, reach t ht⟩, fun t ht z => ?_⟩
  · simp [initW]
  · obtain ⟨⟨d, d0, d1, hl⟩, -⟩ := C43_setpoint RelEx.sqrtR_ok (ops := []) hm rfl (hs1 t)
    have hd : d = 2 * Real.sqrt 1 := by
      simp at d1 ⊢
      nlinarith
    subst hd
    exact C43_minimiser hl (by norm_num) (fun i _ => by simp [initW]) (reach t ht) z

/-- The loop of stiffness 1 with target momentum 0 produces this motion; the momentum error is
`2 exp (-t)`. -/
example : ∃ s' : ℝ → MomentumT ℝ, (∀ t, task.update bs2 ConvEx.mb (st2 t) = .ok (s' t)) ∧
    SetPointLoop 6 1 0 (fun t => (s' t).hl) (fun t _ => Real.exp (-t)) ∧
    (∀ t, 0 ≤ t → (s' t).eval.get 3 = 2 * Real.exp (-(1 * t))) ∧
    Filter.Tendsto (fun t => (s' t).eval.get 3) Filter.atTop (nhds 0) := by
  choose M h1 h2 h3 h4 using fun τ => momentum_exact ((bodies2 0).moves τ) hasMass2 task
  have hlen : bs2.length = 1 := rfl
  have hev : ∀ t, (task.momentum - ∑ i ∈ range bs2.length, bodyMom bs2 (st2 t) (momCom bs2 (st2 t)) i (kVel (st2 t) i))
      = ⟨0, ⟨2 * Real.exp (-t), 0, 0⟩⟩ := by
    intro t
    ext <;> simp [hlen, bodyMom, momCom, massSum, bodyAt, bs2, inertiaAt, BodyI.mul, kPose, kVel, st2, w, atCom,
      PT.transMul, PT.mul, PT.ofTrans, M3.mul, M3.one, M3.mulVec, M3.transpose, V3.dot, task, MomentumT.make]
  have hna : ∀ t, ∑ i ∈ range bs2.length,
      bodyMomDot bs2 (st2 t) (momCom bs2 (st2 t)) (momComDot bs2 (st2 t)) i = 0 := by
    intro t
    ext <;> simp [hlen, bodyMom, bodyMomDot, momCom, momComDot, massSum, bodyAt, bs2, inertiaAt, BodyI.mul, kPose, kVel, kAcc, st2,
      w, atCom, PT.transMul, PT.mul, PT.ofTrans, M3.mul, M3.one, M3.mulVec, M3.transpose, V3.dot, MV.crossDual]
  have hj : ∀ t, ∀ z : ℕ → ℝ, ∑ i ∈ range bs2.length, bodyMom bs2 (st2 t) (momCom bs2 (st2 t)) i
      ((kPose (st2 t) i).mulM (wSum ConvEx.mb (st2 t) (inertiaAt bs2 i).b.path z)) = ⟨0, ⟨2 * z 0, 0, 0⟩⟩ := by
    intro t z
    ext <;> simp [hlen, bodyMom, momCom, massSum, bodyAt, bs2, inertiaAt, BodyI.mul, kPose, kSub, st2, wSum, pathSum,
      ConvEx.mb, jdof, jpos, atCom, PT.transMul, PT.mul, PT.mulM, PT.inv, PT.ofTrans, M3.mul, M3.one, M3.mulVec,
      M3.transpose, V3.dot]
  simp only [hev, hna] at h1
  simp only [hj] at h4
  refine ⟨_, h1, ?_⟩
  have L := loop_of (n := 6) (hl := fun t => MomentumT.hl { task with
    eval := ⟨0, ⟨2 * Real.exp (-t), 0, 0⟩⟩, normalAcc := 0, jacMat := M t }) (y := fun t => Real.exp (-t))
    (fun t => ⟨rfl, rfl, rfl, h2 t⟩) (by
      intro t _ i hi
      have hi' : i < 6 := by
        have : i < (M t).rows := hi
        rwa [h2] at this
      have e : rowAt (M t) 0 (fun _ => Real.exp (-t)) i = (M t).rowMul i fun _ => Real.exp (-t) := by
        simp [rowAt, Mat.rowMul]
      show rowAt (M t) 0 (fun _ => Real.exp (-t)) i + FV.get 0 i = 1 * FV.get _ i - _ * FV.get 0 i
      rw [e, h4 t _ i hi', FV.get_zero]
      ring)
  refine ⟨L, ?_⟩
  obtain ⟨A, B⟩ := C64_converges (b := 0) (y := fun t _ => Real.exp (-t)) (fun t _ => bodies2 t) hasMass2 h1 L (a := 3)
    (by norm_num)
  refine ⟨fun t ht => ?_, B one_pos⟩
  rw [A t ht]
  simp [FV.get, V3.get]

/-- The same motion seen by a linear velocity task with target 0. -/
example : ∃ s' : ℝ → LinVelT ℝ,
    (∀ t, (LinVelT.make 0 [0] 0 0 ⟨0, 0, 0, ⟨3, 1, fun _ _ => 7⟩⟩ : LinVelT ℝ).update ConvEx.mb (st2 t)
      = .ok (s' t)) ∧
    SetPointLoop 3 1 0 (fun t => (s' t).out.hl) (fun t _ => Real.exp (-t)) ∧
    ∀ t, 0 ≤ t → (s' t).out.eval.get 0 = (s' 0).out.eval.get 0 * Real.exp (-(1 * t)) := by
  have hx : ∀ t, ∃ M : Mat ℝ,
      (LinVelT.make 0 [0] 0 0 ⟨0, 0, 0, ⟨3, 1, fun _ _ => 7⟩⟩ : LinVelT ℝ).update ConvEx.mb (st2 t)
        = .ok ⟨0, 0, ⟨[0], 0⟩, ⟨⟨Real.exp (-t), 0, 0⟩, 0, 0, M⟩⟩ ∧
      ∀ z, M.rowMul 0 z = z 0 ∧ M.rowMul 1 z = 0 ∧ M.rowMul 2 z = 0 := by
    intro t
    obtain ⟨R, h1, h2⟩ := linvel_exact (LinVelT.make 0 [0] 0 0 ⟨0, 0, 0, ⟨3, 1, fun _ _ => 7⟩⟩)
      ((evolves2 0).moves t) (b := 0) rfl rfl rfl
    refine ⟨R, h1.trans ?_, fun z => ⟨?_, ?_, ?_⟩⟩
    · refine congrArg (fun o : Out3 ℝ => Out.ok (⟨0, 0, ⟨[0], 0⟩, o⟩ : LinVelT ℝ)) ?_
      refine (Out3.mk.injEq ..).mpr ⟨?_, rfl, ?_, rfl⟩ <;> unfold LinVelT.make
      · ext <;> simp [kPose, kVel, st2, w, PT.mul, PT.mulM, PT.ofTrans, PT.ofRot,
          M3.transpose, M3.one, M3.mul, M3.mulVec, V3.dot]
      · ext <;> simp [kPose, kVel, kAcc, st2, PT.mul, PT.mulM, PT.ofTrans, PT.ofRot,
          M3.transpose, M3.one, M3.mul, M3.mulVec, V3.dot, MV.cross]
    all_goals
      rw [h2 z _ (by norm_num)]
      simp [LinVelT.make, wSum, pathSum, kPose, kSub, st2, ConvEx.mb, jdof, jpos, PT.mul, PT.mulM, PT.ofTrans,
        PT.inv, M3.transpose, M3.one, M3.mul, M3.mulVec, V3.dot, V3.get]
  choose M h1 h4 using hx
  have h2 : ∀ t, (M t).rows = 3 := fun t => (linvel_rows 0 0 0 _ ((evolves2 0).moves t) rfl rfl rfl (h1 t)).1
  refine ⟨_, h1, ?_⟩
  have L := loop_of (n := 3) (hl := fun t => Out3.hl ⟨⟨Real.exp (-t), 0, 0⟩, 0, 0, M t⟩)
    (y := fun t => Real.exp (-t)) (fun t => ⟨rfl, rfl, rfl, h2 t⟩) (by
      intro t _ i hi
      have hi' : i < 3 := by
        have : i < (M t).rows := hi
        rwa [h2] at this
      have e : rowAt (M t) 0 (fun _ => Real.exp (-t)) i = (M t).rowMul i fun _ => Real.exp (-t) := by
        simp [rowAt, Mat.rowMul]
      obtain ⟨a0, a1, a2⟩ := h4 t fun _ => Real.exp (-t)
      show rowAt (M t) 0 (fun _ => Real.exp (-t)) i + V3.get 0 i = _
      rw [e]
      match i, hi' with
      | 0, _ => rw [a0]; simp [Out3.hl, V3.get]
      | 1, _ => rw [a1]; simp [Out3.hl, V3.get]
      | 2, _ => rw [a2]; simp [Out3.hl, V3.get])
  exact ⟨L, (C64_lin_velocity 0 [0] 0 0 _ (b := 0) (y := fun t _ => Real.exp (-t)) (fun t _ => evolves2 t) rfl rfl rfl h1 L
    (a := 0) (by norm_num)).1⟩

end MomEx

end Verif
