import Verif.Proofs.Dynamics
import Verif.Props.Momentum
import Verif.Props.Physical

/-!
# C97, C98, C99: the reported accelerations, contact forces and torques are those of a physical robot

The robot is a set of particles.  Its momentum changes with the reported contact forces and gravity (Newton, Euler), the
forces keep it balanced, and its energy changes with the power of the reported torques and of the contact forces.
-/

set_option autoImplicit false
set_option linter.unusedSectionVars false

namespace Verif

open Finset Spec

namespace Spec

/-- A successful solve of a problem with a motion constraint (`MotionConstr`, torque limits `p`) of robot `r`:
`env` is what RBDyn computed for its update, `d1` the data of the problem, `s'` the constraint, `x` the solution. -/
structure SolvedMotion (backend : String) (mbs : List (MultiBody ℝ)) (uni : List (UniContact ℝ))
    (bi : List (BiContact ℝ)) (rk : RobotKin ℝ) (r : ℕ) (p : TorqueParams ℝ) (env : MotionEnv ℝ)
    (d d1 : SolverData ℝ) (inp : QPInput ℝ) (s' : MotionConstr ℝ) (x : Vec ℝ) : Prop where
  solved : SolvedIn backend mbs uni bi d inp x
  data : ∃ old deps, layout old mbs uni bi = .ok (d1, deps)
  full : p.Full rk.mb.nrDof
  step : 0 < p.dt
  constr : ∃ k last s, MotionRun rk r p [] (some d1) k last s ∧ s.update rk.mb env = .ok s'
  setting : Setting rk r mbs d1
  noSelf : NoSelf r d1
  envOK : EnvOK rk env
  mem : s'.common.gen ∈ inp.gen

/-- The bodies of the robot are made of particles: `n i` particles of masses `μ i` at `p i` in body `i`. -/
def MadeOf (bs : List (BodyI ℝ)) (n : ℕ → ℕ) (μ : ℕ → ℕ → ℝ) (p : ℕ → ℕ → V3 ℝ) : Prop :=
  ∀ i < bs.length, Particles (inertiaAt bs i) (n i) (μ i) (p i)

/-- The sum of `f` over the particles. -/
def overParticles {M : Type} [AddCommMonoid M] (bs : List (BodyI ℝ)) (n : ℕ → ℕ) (f : ℕ → ℕ → M) : M :=
  ∑ i ∈ range bs.length, ∑ k ∈ range (n i), f i k

/-- The motion `st` of the robot, and `v` the velocities of its particles. -/
def Velocities (bs : List (BodyI ℝ)) (st : ℝ → KState ℝ) (n : ℕ → ℕ) (p : ℕ → ℕ → V3 ℝ) (v : ℝ → ℕ → ℕ → V3 ℝ) :
    Prop :=
  ∀ t, ∀ i < bs.length, ∀ k < n i, HasD3 (fun τ => particleAt (st τ) i (p i k)) (v t i k) t

/-- The robot has a floating base: joint 0 is free, without actuator, and carries all bodies. -/
structure Floats (bs : List (BodyI ℝ)) (mb : MultiBody ℝ) (st : KState ℝ) (p : TorqueParams ℝ) : Prop where
  base : FloatingBase mb st
  all : ∀ i < bs.length, (inertiaAt bs i).b.path.head? = some 0
  free : ∀ a < 6, p.lower a = .fin 0 ∧ p.upper a = .fin 0

end Spec

section
variable {backend : String} {mbs : List (MultiBody ℝ)} {uni : List (UniContact ℝ)} {bi : List (BiContact ℝ)}
  {rk : RobotKin ℝ} {r : ℕ} {P : TorqueParams ℝ} {env : MotionEnv ℝ} {d d1 : SolverData ℝ} {inp : QPInput ℝ}
  {s' : MotionConstr ℝ} {x : Vec ℝ} {bs : List (BodyI ℝ)} {st : ℝ → KState ℝ} {al : ℝ → ℕ → ℝ} {ad : ℝ → ℕ → ℝ} {g : V3 ℝ}
  {t : ℝ} {n : ℕ → ℕ} {μ : ℕ → ℕ → ℝ} {p : ℕ → ℕ → V3 ℝ} {v : ℝ → ℕ → ℕ → V3 ℝ} {c : ℝ → V3 ℝ}

theorem madeOf_mass (hp : MadeOf bs n μ p) : overParticles bs n μ = massSum (bs.map BodyI.b) := by
  rw [massSum_eq]
  exact Finset.sum_congr rfl fun i hi => ((hp i (by simpa using hi)).mass).symm

/-- The rows of the base. -/
theorem base_rows (S : SolvedMotion backend mbs uni bi rk r P env d d1 inp s' x) (F : Floats bs rk.mb (st t) P)
    (h6 : 6 ≤ rk.mb.nrDof) (ha : ∀ c < rk.mb.nrDof, ad t c = x.get (aBegin mbs r + c)) :
    ∀ a < 6, ∑ c ∈ range rk.mb.nrDof, env.H.get a c * ad t c + env.C.get a
      = ((sides r d1).map fun s => contactTorque rk env s x.get a).sum := by
  obtain ⟨old, deps, hd⟩ := S.data
  obtain ⟨k, last, s, R, hs⟩ := S.constr
  obtain ⟨aD, lam, c, -, -, -, h⟩ := C76_torques S.solved hd S.full S.step R S.setting S.noSelf S.envOK hs S.mem
  intro a hlt
  rw [← (h a (by omega)).2.2.2 (F.free a hlt).1 (F.free a hlt).2]
  congr 1
  exact Finset.sum_congr rfl fun j hj => by rw [ha j (by simpa using hj)]

/-- **C97.**  After a successful solve with the motion constraint of a robot with an unactuated floating base, if the
robot moves with the reported accelerations, the total momentum of its particles changes with the sum of the reported
contact forces minus the weight (Newton), and their angular momentum about the centre of mass `c` with the moments of the
contact forces about it (Euler).  `g` is `mbc.gravity` (upwards). -/
theorem C97_newton_euler (S : SolvedMotion backend mbs uni bi rk r P env d d1 inp s' x)
    (F : Floats bs rk.mb (st t) P) (D : Dynamics bs rk.mb (st t) g env)
    (C : ContactsOn bs rk (st t) env (sides r d1))
    (h : ∀ τ, BodiesEvolve (bs.map BodyI.b) rk.mb st al (ad τ) τ)
    (ha : ∀ c < rk.mb.nrDof, ad t c = x.get (aBegin mbs r + c))
    (hp : MadeOf bs n μ p) (hM : overParticles bs n μ ≠ 0) (hv : Velocities bs st n p v)
    (hc : ∀ τ, overParticles bs n μ • c τ = overParticles bs n fun i k => μ i k • particleAt (st τ) i (p i k)) :
    HasD3 (fun τ => overParticles bs n fun i k => μ i k • v τ i k)
      (((contactPairs rk (st t) x.get (sides r d1)).map Prod.snd).sum - overParticles bs n μ • g) t ∧
    HasD3 (fun τ => overParticles bs n fun i k => μ i k • (particleAt (st τ) i (p i k) - c τ).cross (v τ i k))
      ((contactPairs rk (st t) x.get (sides r d1)).map fun q => (q.1 - c t).cross q.2).sum t := by
  have hmass := madeOf_mass hp
  rw [hmass] at hM ⊢
  have hne : 0 < bs.length := by
    rcases Nat.eq_zero_or_pos bs.length with e | e
    · exact absurd (by rw [massSum_eq, e]; rfl) hM
    · exact e
  have hm0 := ((h t).moves t) 0 (by simpa using hne)
  rw [bodyAt_map] at hm0
  have h6 : 6 ≤ rk.mb.nrDof := F.base.dof ▸ nrDof_ge (hm0.2.sized.mem 0 (List.mem_of_head? (F.all 0 hne)))
  have key := momentum_balance D F.base ((h t).moves t) hM F.all C x.get (ad t) (base_rows S F h6 ha)
  -- the momentum task computes the momentum of the particles
  let s0 : MomentumT ℝ := MomentumT.make 0 ⟨0, 0, 0, 0, Mat.zero 0 0⟩
  obtain ⟨q, q1, q2⟩ := C64_drift (h t) hM s0
  obtain ⟨M, m1, m2, m3, m4⟩ := momentum_exact ((h t).moves t) hM s0
  have e1 := Out.ok.inj ((q1 t).symm.trans m1)
  have hmom : ∀ τ, (overParticles bs n fun i k => μ i k • (particleAt (st τ) i (p i k) - c τ).cross (v τ i k))
      = -(q τ).eval.couple ∧ (overParticles bs n fun i k => μ i k • v τ i k) = -(q τ).eval.force := fun τ => by
    obtain ⟨w, w1, w2, w3⟩ := C64_momentum (h τ) hM s0 hp (hv τ) (hc τ)
    have e := Out.ok.inj ((q1 τ).symm.trans w1)
    rw [e, w2, w3]
    unfold overParticles
    constructor <;> (ext <;> simp [s0, MomentumT.make])
  have hcom : momCom bs (st t) = c t := by
    have := hc t
    rw [hmass] at this
    unfold momCom
    have e : ∑ i ∈ range bs.length, ((inertiaAt bs i).b.mass • (kPose (st t) i).r
        + (kPose (st t) i).E.transpose.mulVec (inertiaAt bs i).b.h) = massSum (bs.map BodyI.b) • c t := by
      rw [this]
      refine Finset.sum_congr rfl fun i hi => ?_
      obtain ⟨a1, a2, -⟩ := hp i (by simpa using hi)
      rw [a1, a2, M3.mulVec_sum', V3.sum_smul', ← Finset.sum_add_distrib]
      refine Finset.sum_congr rfl fun k _ => ?_
      unfold particleAt
      rw [M3.mulVec_smul]
      dsimp only
      rw [V3.smul_add']
    rw [e]
    ext <;> simp [hM]
  rw [hcom] at key
  have hrate : ∀ a < 6, HasDerivAt (fun τ => (q τ).eval.get a)
      (-((⟨((contactPairs rk (st t) x.get (sides r d1)).map fun q => (q.1 - c t).cross q.2).sum,
        ((contactPairs rk (st t) x.get (sides r d1)).map Prod.snd).sum - massSum (bs.map BodyI.b) • g⟩ : FV ℝ).get a)) t :=
    fun a ha => by
      refine (q2 a ha).congr_deriv ?_
      rw [e1]
      dsimp only
      rw [m4 _ a ha, ← FV.get_add]
      congr 2
      rw [hcom, FV.ext_iff]
      rw [FV.ext_iff] at key
      obtain ⟨k1, k2⟩ := key
      dsimp only at k1 k2 ⊢
      rw [← k1, ← k2]
      constructor <;> (ext <;> simp)
  refine ⟨HasD3.congr_fun (f := fun τ => -(q τ).eval.force) ?_ fun τ => (hmom τ).2,
    HasD3.congr_fun (f := fun τ => -(q τ).eval.couple) ?_ fun τ => (hmom τ).1⟩
  · refine ⟨?_, ?_, ?_⟩
    · exact (hrate 3 (by norm_num)).neg.congr_deriv (by simp [FV.get, V3.get])
    · exact (hrate 4 (by norm_num)).neg.congr_deriv (by simp [FV.get, V3.get])
    · exact (hrate 5 (by norm_num)).neg.congr_deriv (by simp [FV.get, V3.get])
  · refine ⟨?_, ?_, ?_⟩
    · exact (hrate 0 (by norm_num)).neg.congr_deriv (by simp [FV.get, V3.get])
    · exact (hrate 1 (by norm_num)).neg.congr_deriv (by simp [FV.get, V3.get])
    · exact (hrate 2 (by norm_num)).neg.congr_deriv (by simp [FV.get, V3.get])


theorem layout_free {old : SolverData ℝ} {deps : List (Dep ℝ)} (S : Setting rk r mbs d1)
    (hd : layout old mbs [] [] = .ok (d1, deps)) : sides r d1 = [] := by
  obtain ⟨-, ⟨o, u, b, de, G, -⟩, -⟩ := S
  obtain ⟨d2, deps2, e, L⟩ := layout_ok old mbs [] ([] : List (BiContact ℝ)) G.1 (by simp)
  rw [hd] at e
  cases e
  unfold sides
  rw [L.allCont]
  rfl

/-- A vector function without derivative on an interval is constant. -/
theorem hasD3_const {f : ℝ → V3 ℝ} {T : ℝ} (hT : 0 ≤ T) (h : ∀ t, 0 ≤ t → t ≤ T → HasD3 f 0 t) : f T = f 0 := by
  have key : ∀ f : ℝ → ℝ, (∀ t, 0 ≤ t → t ≤ T → HasDerivAt f 0 t) → f T = f 0 := fun f h =>
    constant_of_has_deriv_right_zero (fun t ht => (h t ht.1 ht.2).continuousAt.continuousWithinAt)
      (fun t ht => (h t ht.1 ht.2.le).hasDerivWithinAt) T ⟨hT, le_rfl⟩
  exact V3.ext (key _ fun t a b => (h t a b).1) (key _ fun t a b => (h t a b).2.1) (key _ fun t a b => (h t a b).2.2)

/-- **C97 (flight).**  A robot with a floating base and without contacts, controlled by the solver from time 0 to time
`T`: whatever the tasks and the other constraints, its angular momentum about its centre of mass does not change, and its
momentum changes with gravity alone. -/
theorem C97_flight {env : ℝ → MotionEnv ℝ} {d d1 : ℝ → SolverData ℝ} {inp : ℝ → QPInput ℝ} {s' : ℝ → MotionConstr ℝ}
    {x : ℝ → Vec ℝ} {T : ℝ} (hT : 0 ≤ T)
    (S : ∀ t, 0 ≤ t → t ≤ T → SolvedMotion backend mbs [] [] rk r P (env t) (d t) (d1 t) (inp t) (s' t) (x t))
    (F : ∀ t, 0 ≤ t → t ≤ T → Floats bs rk.mb (st t) P)
    (D : ∀ t, 0 ≤ t → t ≤ T → Dynamics bs rk.mb (st t) g (env t))
    (h : ∀ τ, BodiesEvolve (bs.map BodyI.b) rk.mb st al (ad τ) τ)
    (ha : ∀ t, 0 ≤ t → t ≤ T → ∀ c < rk.mb.nrDof, ad t c = (x t).get (aBegin mbs r + c))
    (hp : MadeOf bs n μ p) (hM : overParticles bs n μ ≠ 0) (hv : Velocities bs st n p v)
    (hc : ∀ τ, overParticles bs n μ • c τ = overParticles bs n fun i k => μ i k • particleAt (st τ) i (p i k)) :
    (overParticles bs n fun i k => μ i k • (particleAt (st T) i (p i k) - c T).cross (v T i k))
      = (overParticles bs n fun i k => μ i k • (particleAt (st 0) i (p i k) - c 0).cross (v 0 i k)) ∧
    (overParticles bs n fun i k => μ i k • v T i k)
      = (overParticles bs n fun i k => μ i k • v 0 i k) - (T * overParticles bs n μ) • g := by
  have hs : ∀ t, 0 ≤ t → t ≤ T → sides r (d1 t) = [] := fun t a b => by
    obtain ⟨old, deps, hd⟩ := (S t a b).data
    exact layout_free (S t a b).setting hd
  have key := fun t a b => C97_newton_euler (S t a b) (F t a b) (D t a b) (by rw [hs t a b]; intro s h; simp at h) h
    (ha t a b) hp hM hv hc
  constructor
  · refine hasD3_const (f := fun t => overParticles bs n fun i k => μ i k • (particleAt (st t) i (p i k) - c t).cross
      (v t i k)) hT fun t a b => ?_
    refine (key t a b).2.congr_deriv ?_
    rw [hs t a b]
    rfl
  · have := hasD3_const (f := fun t => (overParticles bs n fun i k => μ i k • v t i k) + (t * overParticles bs n μ) • g) hT
      fun t a b => by
        refine ((key t a b).1.add (HasD3.smul ((hasDerivAt_id t).mul_const
          (overParticles bs n μ)) (HasD3.const g t))).congr_deriv ?_
        rw [hs t a b]
        ext <;> simp [contactPairs]
    have e : ∀ a b c : V3 ℝ, a + b = c → a = c - b := fun a b c h => by rw [← h]; ext <;> simp
    refine (e _ _ _ this).trans ?_
    ext <;> simp

/-! ## C98 -/

theorem mulVec_combo (m : M3 ℝ) (gens : List (V3 ℝ)) (lam : ℕ → ℝ) :
    m.mulVec (combo gens lam) = combo (gens.map m.mulVec) lam := by
  unfold combo
  rw [M3.mulVec_sum', List.length_map]
  refine Finset.sum_congr rfl fun k hk => ?_
  rw [M3.mulVec_smul, List.getD_eq_getElem?_getD, List.getD_eq_getElem?_getD, List.getElem?_map,
    List.getElem?_eq_getElem (by simpa using hk)]
  rfl

/-- The weights the contacts of the robot use are nonnegative. -/
theorem side_weights (S : SolvedMotion backend mbs uni bi rk r P env d d1 inp s' x) {q q1 : PositiveLambda ℝ}
    (hq : q.updateNrVars d1 = .ok q1) (hb : q1.bound ∈ inp.bound) {s : Side ℝ} (hs : s ∈ sides r d1) {j k : ℕ}
    (hj : j < s.points.length) (hk : k < (s.cones.getD j ⟨[]⟩).generators.length) :
    0 ≤ x.get (s.begin' + before s.cones j + k) := by
  obtain ⟨old, deps, hd⟩ := S.data
  obtain ⟨⟨hsat, -⟩, -⟩ := solvedIn_optimal S.solved
  obtain ⟨gi, -, -⟩ := solvedIn_data S.solved
  obtain ⟨d2, deps2, q2, e2, e3, e4, -⟩ := C24_weights_nonneg old mbs uni bi gi q
  rw [hd] at e2
  cases e2
  rw [hq] at e3
  cases e3
  obtain ⟨f1, f2, -, f3⟩ := mem_sides_fit (setting_data S.setting) S.setting.2.2.1 hs
  have hA : d1.totalAlphaD = (mbs.map MultiBody.nrDof).sum := by
    obtain ⟨d3, deps3, e5, L⟩ := layout_ok old mbs uni bi gi.1 gi.2
    rw [hd] at e5
    cases e5
    exact L.totalAlphaD
  refine (e4 x.get).1 (hsat.2 _ hb) _ (by omega) ?_
  have : before s.cones j + (s.cones.getD j ⟨[]⟩).generators.length ≤ s.width := by
    unfold Side.width before
    rw [← Finset.sum_range_succ]
    exact Finset.sum_le_sum_of_subset (Finset.range_mono hj)
  omega

/-- **C98 (friction).**  Same robot, with the constraint on the contact forces (`PositiveLambda`).  If the friction
cones of all its contacts are, in the world, in the cone of axis `e` and coefficient `mu` (horizontal ground), then so is
the rate of change of its momentum plus its weight: the centre of mass never accelerates faster than the ground can
push it, nor falls faster than gravity. -/
theorem C98_friction (S : SolvedMotion backend mbs uni bi rk r P env d d1 inp s' x)
    (F : Floats bs rk.mb (st t) P) (D : Dynamics bs rk.mb (st t) g env)
    (C : ContactsOn bs rk (st t) env (sides r d1))
    (h : ∀ τ, BodiesEvolve (bs.map BodyI.b) rk.mb st al (ad τ) τ)
    (ha : ∀ c < rk.mb.nrDof, ad t c = x.get (aBegin mbs r + c))
    (hp : MadeOf bs n μ p) (hM : overParticles bs n μ ≠ 0) (hv : Velocities bs st n p v)
    {q q1 : PositiveLambda ℝ} (hq : q.updateNrVars d1 = .ok q1) (hb : q1.bound ∈ inp.bound)
    {e : V3 ℝ} (he : e.dot e = 1) {mu : ℝ} (hmu : 0 ≤ mu)
    (hcone : ∀ s ∈ sides r d1, ∀ j < s.points.length, ∀ gen ∈ (s.cones.getD j ⟨[]⟩).generators,
      InCone e mu ((kPose (st t) (Side.at rk s)).E.transpose.mulVec gen)) :
    ∃ P', HasD3 (fun τ => overParticles bs n fun i k => μ i k • v τ i k) P' t ∧
      InCone e mu (P' + overParticles bs n μ • g) := by
  have key := (C97_newton_euler (c := fun τ => (1 / overParticles bs n μ) • overParticles bs n fun i k =>
    μ i k • particleAt (st τ) i (p i k)) S F D C h ha hp hM hv fun τ => v3_mul_inv hM _).1
  refine ⟨_, key, ?_⟩
  rw [show ∀ a b : V3 ℝ, a - b + b = a from fun a b => by ext <;> simp]
  have hall : ∀ l : List (V3 ℝ × V3 ℝ), (∀ q ∈ l, InCone e mu q.2) → InCone e mu (l.map Prod.snd).sum := by
    intro l hl
    induction l with
    | nil => exact inCone_zero e mu
    | cons a t ih =>
      rw [List.map_cons, List.sum_cons]
      exact inCone_add e (hl a (by simp)) (ih fun q hq => hl q (by simp [hq]))
  refine hall _ fun f hf => ?_
  unfold contactPairs at hf
  obtain ⟨s, hs, hf⟩ := List.mem_flatMap.1 hf
  obtain ⟨j, hj, rfl⟩ := List.mem_map.1 hf
  have hj := List.mem_range.1 hj
  dsimp only
  unfold Side.forceW Side.force
  rw [mulVec_combo]
  refine inCone_combo e he hmu _ (fun gen hg => ?_) _ fun k hk => side_weights S hq hb hs hj (by simpa using hk)
  obtain ⟨gen0, h0, rfl⟩ := List.mem_map.1 hg
  exact hcone s hs j hj gen0 h0

theorem dot_sum3 {n : ℕ} (a : V3 ℝ) (f : ℕ → V3 ℝ) : a.dot (∑ i ∈ range n, f i) = ∑ i ∈ range n, a.dot (f i) := by
  induction n with
  | zero => simp [V3.dot]
  | succ n ih => rw [Finset.sum_range_succ, Finset.sum_range_succ, ← ih]; simp [V3.dot]; ring

theorem list_sum_range {M : Type} [AddCommMonoid M] (l : List (V3 ℝ × V3 ℝ)) (f : V3 ℝ × V3 ℝ → M) :
    (l.map f).sum = ∑ i ∈ range l.length, f (l.getD i 0) := by
  induction l with
  | nil => rfl
  | cons a t ih => rw [List.map_cons, List.sum_cons, ih, List.length_cons, Finset.sum_range_succ', add_comm]; rfl

theorem zmp_list (e : V3 ℝ) (ht : ℝ) (l : List (V3 ℝ × V3 ℝ)) (hpl : ∀ q ∈ l, e.dot q.1 = ht)
    (hnn : ∀ q ∈ l, 0 ≤ e.dot q.2) (hpos : 0 < e.dot (l.map Prod.snd).sum) :
    ∃ z : V3 ℝ, ∃ w : ℕ → ℝ, (∀ i < l.length, 0 ≤ w i) ∧ ∑ i ∈ range l.length, w i = 1 ∧
      z = ∑ i ∈ range l.length, w i • (l.getD i 0).1 ∧
      e.cross (l.map fun q => (q.1 - z).cross q.2).sum = 0 := by
  rw [list_sum_range, dot_sum3] at hpos
  set N := ∑ i ∈ range l.length, e.dot (l.getD i 0).2 with hN
  have hmem : ∀ i < l.length, l.getD i 0 ∈ l := fun i hi => by
    rw [List.getD_eq_getElem _ _ hi]
    exact List.getElem_mem _
  have hw : ∑ i ∈ range l.length, e.dot (l.getD i 0).2 / N = 1 := by
    rw [← Finset.sum_div, ← hN, div_self hpos.ne']
  set z := ∑ i ∈ range l.length, (e.dot (l.getD i 0).2 / N) • (l.getD i 0).1 with hz
  refine ⟨z, fun i => e.dot (l.getD i 0).2 / N, fun i hi => div_nonneg (hnn _ (hmem i hi)) hpos.le, hw, rfl, ?_⟩
  have hez : e.dot z = ht := by
    rw [hz, dot_sum3]
    refine (Finset.sum_congr rfl fun i hi => ?_).trans (?_ : ∑ i ∈ range l.length, e.dot (l.getD i 0).2 / N * ht = ht)
    · rw [V3.dot_smul, hpl _ (hmem i (by simpa using hi))]
    · rw [← Finset.sum_mul, hw, one_mul]
  rw [list_sum_range, V3.cross_sum']
  have e1 : ∀ i ∈ range l.length, e.cross (((l.getD i 0).1 - z).cross (l.getD i 0).2)
      = N • (e.dot (l.getD i 0).2 / N) • (l.getD i 0).1 - e.dot (l.getD i 0).2 • z := fun i hi => by
    have hp := hpl _ (hmem i (by simpa using hi))
    rw [show ∀ (a : ℝ) (v : V3 ℝ), N • (a / N) • v = a • v from fun a v => by
      ext <;> simp only [V3.smul_x, V3.smul_y, V3.smul_z] <;> rw [← mul_assoc, mul_div_cancel₀ _ hpos.ne']]
    rw [show ∀ a b c : V3 ℝ, a.cross (b.cross c) = a.dot c • b - a.dot b • c from fun a b c => by
      ext <;> simp [V3.dot] <;> ring]
    rw [show e.dot ((l.getD i 0).1 - z) = e.dot (l.getD i 0).1 - e.dot z by simp [V3.dot]; ring, hp, hez]
    ext <;> simp <;> ring
  rw [Finset.sum_congr rfl e1, Finset.sum_sub_distrib, ← V3.sum_smul', ← hN]
  have : ∑ i ∈ range l.length, N • (e.dot (l.getD i 0).2 / N) • (l.getD i 0).1 = N • z := by
    rw [hz]
    exact (V3.smul_sum _ _ _).symm
  rw [this]
  ext <;> simp

/-- **C98 (ZMP).**  Moreover, if the contact points are in a plane orthogonal to `e` and the ground pushes at all, there
is a convex combination `z` of the contact points about which the rate of change of the momentum plus the weight has no
horizontal moment: the robot is dynamically balanced, it does not tip over the edge of its support polygon. -/
theorem C98_zmp (S : SolvedMotion backend mbs uni bi rk r P env d d1 inp s' x)
    (F : Floats bs rk.mb (st t) P) (D : Dynamics bs rk.mb (st t) g env)
    (C : ContactsOn bs rk (st t) env (sides r d1))
    (h : ∀ τ, BodiesEvolve (bs.map BodyI.b) rk.mb st al (ad τ) τ)
    (ha : ∀ c < rk.mb.nrDof, ad t c = x.get (aBegin mbs r + c))
    (hp : MadeOf bs n μ p) (hM : overParticles bs n μ ≠ 0) (hv : Velocities bs st n p v)
    (hc : ∀ τ, overParticles bs n μ • c τ = overParticles bs n fun i k => μ i k • particleAt (st τ) i (p i k))
    {q q1 : PositiveLambda ℝ} (hq : q.updateNrVars d1 = .ok q1) (hb : q1.bound ∈ inp.bound)
    {e : V3 ℝ} {ht : ℝ}
    (hcone : ∀ s ∈ sides r d1, ∀ j < s.points.length, ∀ gen ∈ (s.cones.getD j ⟨[]⟩).generators,
      0 ≤ e.dot ((kPose (st t) (Side.at rk s)).E.transpose.mulVec gen))
    (hplane : ∀ s ∈ sides r d1, ∀ j < s.points.length, e.dot (Side.pointW rk (st t) s j) = ht) :
    ∃ P' L', HasD3 (fun τ => overParticles bs n fun i k => μ i k • v τ i k) P' t ∧
      HasD3 (fun τ => overParticles bs n fun i k => μ i k • (particleAt (st τ) i (p i k) - c τ).cross (v τ i k)) L' t ∧
      (0 < e.dot (P' + overParticles bs n μ • g) →
        ∃ z : V3 ℝ, ∃ w : ℕ → ℝ, (∀ i < (contactPairs rk (st t) x.get (sides r d1)).length, 0 ≤ w i) ∧
          ∑ i ∈ range (contactPairs rk (st t) x.get (sides r d1)).length, w i = 1 ∧
          z = ∑ i ∈ range (contactPairs rk (st t) x.get (sides r d1)).length,
            w i • ((contactPairs rk (st t) x.get (sides r d1)).getD i 0).1 ∧
          e.cross (L' + (c t - z).cross (P' + overParticles bs n μ • g)) = 0) := by
  obtain ⟨k1, k2⟩ := C97_newton_euler S F D C h ha hp hM hv hc
  refine ⟨_, _, k1, k2, ?_⟩
  rw [show ∀ a b : V3 ℝ, a - b + b = a from fun a b => by ext <;> simp]
  intro hpos
  have hmem : ∀ f ∈ contactPairs rk (st t) x.get (sides r d1), e.dot f.1 = ht ∧ 0 ≤ e.dot f.2 := fun f hf => by
    unfold contactPairs at hf
    obtain ⟨s, hs, hf⟩ := List.mem_flatMap.1 hf
    obtain ⟨j, hj, rfl⟩ := List.mem_map.1 hf
    have hj := List.mem_range.1 hj
    refine ⟨hplane s hs j hj, ?_⟩
    dsimp only
    unfold Side.forceW Side.force
    rw [mulVec_combo]
    unfold combo
    rw [dot_sum3]
    refine Finset.sum_nonneg fun k hk => ?_
    have hk := Finset.mem_range.1 hk
    rw [V3.dot_smul]
    refine mul_nonneg (side_weights S hq hb hs hj (by simpa using hk)) ?_
    rw [List.getD_eq_getElem _ _ hk, List.getElem_map]
    exact hcone s hs j hj _ (List.getElem_mem _)
  obtain ⟨z, w, w1, w2, w3, w4⟩ := zmp_list e ht _ (fun f hf => (hmem f hf).1) (fun f hf => (hmem f hf).2) hpos
  refine ⟨z, w, w1, w2, w3, ?_⟩
  rw [← w4]
  congr 1
  generalize contactPairs rk (st t) x.get (sides r d1) = l
  induction l with
  | nil => ext <;> simp
  | cons a t ih =>
    simp only [List.map_cons, List.sum_cons]
    rw [← ih]
    ext <;> simp <;> ring


/-! ## C99 -/

theorem body_first {B : BodyI ℝ} {m : ℕ} {ν : ℕ → ℝ} {w : ℕ → V3 ℝ} (hp : Particles B m ν w) (X : PT ℝ) :
    B.b.mass • X.r + X.E.transpose.mulVec B.b.h = ∑ k ∈ range m, ν k • (X.r + X.E.transpose.mulVec (w k)) := by
  rw [hp.mass, hp.first, M3.mulVec_sum', V3.sum_smul', ← Finset.sum_add_distrib]
  exact Finset.sum_congr rfl fun k _ => by rw [M3.mulVec_smul, V3.smul_add']

/-- Twice the kinetic energy of a body. -/
theorem body_energy {B : BodyI ℝ} {m : ℕ} {ν : ℕ → ℝ} {w : ℕ → V3 ℝ} (hp : Particles B m ν w) (V : MV ℝ) :
    pair V (B.mul V) = ∑ k ∈ range m, ν k * (V.lin - (w k).cross V.ang).dot (V.lin - (w k).cross V.ang) := by
  obtain ⟨a1, a2, a3⟩ := hp
  unfold pair BodyI.mul
  dsimp only
  rw [a1, a2, a3, V3.sum_smul', V3.sum_cross', V3.sum_cross', ← Finset.sum_sub_distrib, ← Finset.sum_add_distrib, dot_sum3,
    dot_sum3, ← Finset.sum_add_distrib]
  refine Finset.sum_congr rfl fun k _ => ?_
  simp [V3.dot]
  ring

theorem inertia_symm {B : BodyI ℝ} {m : ℕ} {ν : ℕ → ℝ} {w : ℕ → V3 ℝ} (hp : Particles B m ν w) (a b : V3 ℝ) :
    a.dot (B.I.mulVec b) = b.dot (B.I.mulVec a) := by
  rw [hp.second, hp.second, dot_sum3, dot_sum3]
  refine Finset.sum_congr rfl fun k _ => ?_
  simp [V3.dot]
  ring

/-- The velocity of a body changes with the accelerations and the normal acceleration. -/
theorem bodyVel_rate (h : BodiesEvolve (bs.map BodyI.b) rk.mb st al (ad t) t) {i : ℕ} (hi : i < bs.length) :
    HasDM (fun τ => kVel (st τ) i) ((kPose (st t) i).mulM (wSum rk.mb (st t) (inertiaAt bs i).b.path (ad t))
      + kAcc (st t) i) t := by
  obtain ⟨hl, hm⟩ := inertiaAt_evolves h hi
  have hone : ∀ m : MV ℝ, (PT.ofTrans (0 : V3 ℝ)).mulM m = m := by
    intro m
    ext <;> simp [PT.ofTrans, PT.mulM, M3.one, M3.mulVec, V3.dot]
  have hX : (PT.ofTrans (0 : V3 ℝ)).mul (kPose (st t) i) = kPose (st t) i := by
    ext <;> simp [PT.mul, PT.ofTrans, M3.one, M3.mul, M3.mulVec, M3.transpose, V3.dot]
  have hV := body_acc hm hl (PT.rigid_ofTrans (0 : V3 ℝ))
  simp only [hone, hX] at hV
  exact hV

theorem HasD3.dot {f f2 : ℝ → V3 ℝ} {a b : V3 ℝ} (h1 : HasD3 f a t) (h2 : HasD3 f2 b t) :
    HasDerivAt (fun τ => (f τ).dot (f2 τ)) (a.dot (f2 t) + (f t).dot b) t := by
  refine (((h1.1.mul h2.1).add (h1.2.1.mul h2.2.1)).add (h1.2.2.mul h2.2.2)).congr_deriv ?_
  simp [V3.dot]
  ring

/-- **C99.**  After a successful solve with the motion constraint of a robot (with a floating base or not), if the robot
moves with the reported accelerations, the kinetic energy of its particles plus their potential energy changes with the
power of the reported torques and of the reported contact forces: nothing else gives energy to the robot. -/
theorem C99_energy (S : SolvedMotion backend mbs uni bi rk r P env d d1 inp s' x)
    (D : Dynamics bs rk.mb (st t) g env) (C : ContactsOn bs rk (st t) env (sides r d1))
    (h : ∀ τ, BodiesEvolve (bs.map BodyI.b) rk.mb st al (ad τ) τ)
    (ha : ∀ c < rk.mb.nrDof, ad t c = x.get (aBegin mbs r + c))
    (hp : MadeOf bs n μ p) (hv : Velocities bs st n p v) :
    ∃ aD lam τq, alphaDVec d x = .ok aD ∧ lambdaVec d x = .ok lam ∧ s'.common.computeTorque aD lam = .ok τq ∧
      HasDerivAt (fun τ => (overParticles bs n fun i k => μ i k * ((v τ i k).dot (v τ i k) / 2))
          + overParticles bs n fun i k => μ i k * g.dot (particleAt (st τ) i (p i k)))
        (∑ a ∈ range rk.mb.nrDof, τq.curTorque.get a * al t a
          + ((sides r d1).map fun s => ∑ j ∈ range s.points.length,
            (Side.velW rk (st t) s j).dot (Side.forceW rk (st t) s x.get j)).sum) t ∧
      ∀ s ∈ sides r d1, ∀ j < s.points.length,
        HasD3 (fun τ => Side.pointW rk (st τ) s j) (Side.velW rk (st t) s j) t := by
  obtain ⟨old, deps, hd⟩ := S.data
  obtain ⟨k, last, s, R, hs⟩ := S.constr
  obtain ⟨aD, lam, τq, q1, q2, q3, hq⟩ :=
    C76_torques S.solved hd S.full S.step R S.setting S.noSelf S.envOK hs S.mem
  refine ⟨aD, lam, τq, q1, q2, q3, ?_, ?_⟩
  · have hB := (h t).moves t
    have hC := contactsOn_at hB C
    -- the power of the right-hand side
    have hrhs : ∑ a ∈ range rk.mb.nrDof, τq.curTorque.get a * al t a
          + ((sides r d1).map fun s => ∑ j ∈ range s.points.length,
            (Side.velW rk (st t) s j).dot (Side.forceW rk (st t) s x.get j)).sum
        = ∑ i ∈ range bs.length, pair (kVel (st t) i) (bodyForce bs rk.mb (st t) g (ad t) i) := by
      rw [← power_rows D hB (ad t)]
      have hcon : ((sides r d1).map fun s => ∑ j ∈ range s.points.length,
            (Side.velW rk (st t) s j).dot (Side.forceW rk (st t) s x.get j)).sum
          = ∑ a ∈ range rk.mb.nrDof, ((sides r d1).map fun s => contactTorque rk env s x.get a).sum * al t a := by
        rw [List.map_congr_left fun s hs => (power_contact hC x.get hs).symm]
        generalize sides r d1 = l
        induction l with
        | nil => simp
        | cons a l ih => simp only [List.map_cons, List.sum_cons, ih, add_mul, Finset.sum_add_distrib]
      rw [hcon, ← Finset.sum_add_distrib]
      refine Finset.sum_congr rfl fun a ha' => ?_
      have ha' := Finset.mem_range.1 ha'
      rw [(hq a ha').1, ← add_mul]
      congr 1
      unfold invDyn
      rw [sub_add_cancel]
      congr 1
      exact Finset.sum_congr rfl fun j hj => by rw [ha j (by simpa using hj)]
    rw [hrhs]
    -- energy of the bodies
    have hvel : ∀ τ, ∀ i < bs.length, ∀ k < n i, v τ i k = (kPose (st τ) i).E.transpose.mulVec
        ((kVel (st τ) i).lin - (p i k).cross (kVel (st τ) i).ang) := fun τ i hi k hk =>
      HasD3.unique (hv τ i hi k hk) (particle_deriv (h τ) hi _)
    have hE : ∀ τ, (overParticles bs n fun i k => μ i k * ((v τ i k).dot (v τ i k) / 2))
          + (overParticles bs n fun i k => μ i k * g.dot (particleAt (st τ) i (p i k)))
        = ∑ i ∈ range bs.length, (pair (kVel (st τ) i) ((inertiaAt bs i).mul (kVel (st τ) i)) / 2
          + g.dot ((inertiaAt bs i).b.mass • (kPose (st τ) i).r
            + (kPose (st τ) i).E.transpose.mulVec (inertiaAt bs i).b.h)) := fun τ => by
      unfold overParticles
      rw [← Finset.sum_add_distrib]
      refine Finset.sum_congr rfl fun i hi => ?_
      have hi := Finset.mem_range.1 hi
      obtain ⟨hl, hm⟩ := inertiaAt_evolves (h τ) hi
      have hrig := (hm.moves τ).rigid _ (List.mem_of_getLast? hl)
      rw [body_energy (hp i hi), body_first (hp i hi), dot_sum3, Finset.sum_div]
      congr 1
      · refine Finset.sum_congr rfl fun k hk => ?_
        dsimp only
        rw [hvel τ i hi k (by simpa using hk), (M3.IsRot.transpose hrig).1.dot_mulVec]
        ring
      · refine Finset.sum_congr rfl fun k hk => ?_
        rw [V3.dot_smul]
        rfl
    refine HasDerivAt.congr_of_eventuallyEq ?_ (Filter.Eventually.of_forall hE)
    refine HasDerivAt.fun_sum fun i hi => ?_
    have hi := Finset.mem_range.1 hi
    obtain ⟨hl, hm⟩ := inertiaAt_evolves (h t) hi
    have hf := hm.frame i (List.mem_of_getLast? hl)
    have hrig := (hm.moves t).rigid _ (List.mem_of_getLast? hl)
    have hV := bodyVel_rate (rk := rk) (h t) hi
    obtain ⟨dn, df⟩ := inertia_deriv (inertiaAt bs i) hV
    have hsym := inertia_symm (hp i hi)
    have dT := ((HasD3.dot hV.1 dn).add (HasD3.dot hV.2 df)).div_const 2
    have dU := HasD3.dot (HasD3.const g t) ((HasD3.smul_const (inertiaAt bs i).b.mass hf.2).add
      (hf.transpose_mulVec (HasD3.const (inertiaAt bs i).b.h t)))
    refine (dT.add dU).congr_deriv ?_
    have e1 := pair_inertia_comm hsym (kVel (st t) i) ((kPose (st t) i).mulM (wSum rk.mb (st t) (inertiaAt bs i).b.path
      (ad t)) + kAcc (st t) i)
    have e2 : pair (kVel (st t) i) ((inertiaAt bs i).mul ((kPose (st t) i).mulM ⟨0, g⟩))
        = g.dot ((kPose (st t) i).E.transpose.mulVec ((inertiaAt bs i).mul (kVel (st t) i)).force) := by
      rw [pair_inertia_comm hsym, pair_mulM]
      simp [pair, PT.transMul, V3.dot]
    have e3 := pair_crossDual (kVel (st t) i) ((inertiaAt bs i).mul (kVel (st t) i))
    have e4 : (inertiaAt bs i).b.mass • (kPose (st t) i).E.transpose.mulVec (kVel (st t) i).lin
        + (kPose (st t) i).E.transpose.mulVec (0 + (kVel (st t) i).ang.cross (inertiaAt bs i).b.h)
        = (kPose (st t) i).E.transpose.mulVec ((inertiaAt bs i).mul (kVel (st t) i)).force := by
      rw [← M3.mulVec_smul, ← M3.mulVec_add]
      congr 1
      unfold BodyI.mul
      ext <;> simp <;> ring
    have e5 : pair (kVel (st t) i) (bodyForce bs rk.mb (st t) g (ad t) i)
        = pair (kVel (st t) i) ((inertiaAt bs i).mul ((kPose (st t) i).mulM (wSum rk.mb (st t) (inertiaAt bs i).b.path
          (ad t)) + kAcc (st t) i)) + g.dot ((inertiaAt bs i).b.mass • (kPose (st t) i).E.transpose.mulVec (kVel (st t) i).lin
        + (kPose (st t) i).E.transpose.mulVec (0 + (kVel (st t) i).ang.cross (inertiaAt bs i).b.h)) := by
      unfold bodyForce
      rw [pair_add, e3, ← add_assoc ((kPose (st t) i).mulM _), inertia_add _ (_ + _), pair_add, e2, e4, add_zero]
    rw [e5]
    dsimp only
    unfold pair at e1 ⊢
    simp only [show ∀ a : V3 ℝ, (0 : V3 ℝ).dot a = 0 from fun a => by simp [V3.dot]]
    linarith
  · intro s hs j hj
    obtain ⟨i, hi, e, -⟩ := C s hs
    obtain ⟨hl, hm⟩ := inertiaAt_evolves (h t) hi
    have hA : Side.at rk s = i := by simp [Side.at, e, hl]
    have := particle_deriv (h t) hi (s.points.getD j 0)
    unfold Side.pointW Side.velW
    rw [hA]
    refine (this.congr_fun fun τ => ?_).congr_deriv ?_
    · rfl
    · congr 1
      ext <;> simp <;> ring

/-- **C99, conservation.**  When every dof that moves is unactuated (torque limits zero) and no contact point with a force
slips along it, the energy does not change. -/
theorem C99_conserved (S : SolvedMotion backend mbs uni bi rk r P env d d1 inp s' x)
    (D : Dynamics bs rk.mb (st t) g env) (C : ContactsOn bs rk (st t) env (sides r d1))
    (h : ∀ τ, BodiesEvolve (bs.map BodyI.b) rk.mb st al (ad τ) τ)
    (ha : ∀ c < rk.mb.nrDof, ad t c = x.get (aBegin mbs r + c))
    (hp : MadeOf bs n μ p) (hv : Velocities bs st n p v)
    (hact : ∀ a < rk.mb.nrDof, al t a = 0 ∨ (P.lower a = .fin 0 ∧ P.upper a = .fin 0))
    (hslip : ∀ s ∈ sides r d1, ∀ j < s.points.length, ∀ w, HasD3 (fun τ => Side.pointW rk (st τ) s j) w t →
      w.dot (Side.forceW rk (st t) s x.get j) = 0) :
    HasDerivAt (fun τ => (overParticles bs n fun i k => μ i k * ((v τ i k).dot (v τ i k) / 2))
        + overParticles bs n fun i k => μ i k * g.dot (particleAt (st τ) i (p i k))) 0 t := by
  obtain ⟨old, deps, hd⟩ := S.data
  obtain ⟨k, last, s, R, hs⟩ := S.constr
  obtain ⟨aD, lam, τq, q1, q2, q3, hq⟩ :=
    C76_torques S.solved hd S.full S.step R S.setting S.noSelf S.envOK hs S.mem
  obtain ⟨aD', lam', τq', q1', q2', q3', hE, hpt⟩ := C99_energy S D C h ha hp hv
  obtain rfl := Out.ok.inj (q1.symm.trans q1')
  obtain rfl := Out.ok.inj (q2.symm.trans q2')
  obtain rfl := Out.ok.inj (q3.symm.trans q3')
  refine hE.congr_deriv ?_
  rw [Finset.sum_eq_zero, List.sum_eq_zero, zero_add]
  · intro y hy
    obtain ⟨sd, hsd, rfl⟩ := List.mem_map.1 hy
    exact Finset.sum_eq_zero fun j hj => hslip sd hsd j (Finset.mem_range.1 hj) _ (hpt sd hsd j (Finset.mem_range.1 hj))
  · intro a ha'
    rcases hact a (Finset.mem_range.1 ha') with h0 | ⟨z1, z2⟩
    · rw [h0, mul_zero]
    · have hl := (hq a (Finset.mem_range.1 ha')).2.1
      simp only [TorqueParams.InLimits, z1, z2, Ext.lowerOK_fin, Ext.upperOK_fin] at hl
      rw [le_antisymm hl.2 hl.1, zero_mul]

end

end Verif
