import Verif.Props.Separate
import Verif.Props.Limits
import Verif.Props.Motion
import Verif.Props.Collision
import Verif.Props.ComPlane
import Verif.Props.BoundedSpeed
import Verif.Props.Image
import Verif.Props.ContactConstr
import Verif.Props.Gripper
import Verif.Props.Torque
import Verif.Props.Multi
import Verif.Props.Posture
import Verif.Props.ForceTask

/-!
# C103: a task or constraint of some robots looks at these robots only
-/

set_option autoImplicit false
set_option linter.unusedSectionVars false

namespace Verif

open Finset Spec

namespace Spec
variable {K : Type} [Field K] [LinearOrder K] [IsStrictOrderedRing K]

/-- A function of the decision variables that looks at the variables `V` only. -/
def LooksAt {β : Type} (V : ℕ → Prop) (f : (ℕ → K) → β) : Prop :=
  ∀ x x' : ℕ → K, (∀ v, V v → x v = x' v) → f x = f x'

/-- The acceleration of dof `a` is the same number in the two problems, in which the accelerations of the robot
start at `b` and `b'`. -/
def SameAcc (n b b' : ℕ) (x x' : ℕ → K) : Prop := ∀ a < n, x (b + a) = x' (b' + a)

/-- The same contacts act on the robot in the two problems, with the same weights. -/
def SameSides (x x' : ℕ → K) (l l' : List (Side K)) : Prop :=
  List.Forall₂ (fun s s' => s'.body = s.body ∧ s'.points = s.points ∧ s'.cones = s.cones ∧
    ∀ i < s.width, x (s.begin' + i) = x' (s'.begin' + i)) l l'

/-- The variables of robot `r`: its accelerations. -/
def AccOf (mbs : List (MultiBody K)) (r v : ℕ) : Prop :=
  ∃ mb, mbs[r]? = some mb ∧ aBegin mbs r ≤ v ∧ v < aBegin mbs r + mb.nrDof

/-- The variables of robot `r`, according to the solver. -/
def AccIn (mbs : List (MultiBody K)) (d : SolverData K) (r v : ℕ) : Prop :=
  ∃ mb a, mbs[r]? = some mb ∧ d.alphaDBegin[r]? = some a ∧ a ≤ v ∧ v < a + mb.nrDof

end Spec

variable {K : Type} [Field K] [LinearOrder K] [IsStrictOrderedRing K]

/-- What does not look at a part of the problem. -/
theorem LooksAt.ignores {β : Type} {V : ℕ → Prop} {f : (ℕ → K) → β} (h : LooksAt V f) {e : ℕ → ℕ} {n' : ℕ}
    (he : ∀ u < n', ¬ V (e u)) : Ignores e n' f :=
  fun z z' hz => h z z' fun v hv => hz v fun u hu huv => he u hu (huv ▸ hv)

/-! ## Joint limits -/

/-- **C103** (joint limits): `JointLimitsConstr` of the same robot in two solvers (robot number `r` of one, `r'`
of the other), whatever the other robots and the contacts: the bounds hold for the same accelerations. -/
theorem C103_joint_limits {mb : MultiBody K} {r r' : ℕ} {p : LimitParams K} (hdt : 0 < p.dt)
    {j0 : Joint K} (hj0 : mb.joints[0]? = some j0) (hdof : j0.dof ≤ 1)
    (hlQ : p.lQ.flatten.length = mb.nrDof) (huQ : p.uQ.flatten.length = mb.nrDof)
    {d d' : SolverData K} {s t : JointLimits K} (R : LimitRun mb mb.nrDof r p (some d) s)
    (R' : LimitRun mb mb.nrDof r' p (some d') t)
    {b b' : ℕ} (hb : vecAt d.alphaDBegin r = .ok b) (hb' : vecAt d'.alphaDBegin r' = .ok b')
    {q alpha alphaD : List (List K)} (hq : q.flatten.length = mb.nrDof) (ha : alpha.flatten.length = mb.nrDof)
    (haD : alphaD.flatten.length = mb.nrDof) :
    ∃ s' t', s.update q alpha alphaD = .ok s' ∧ t.update q alpha alphaD = .ok t' ∧
      ∀ x x', SameAcc mb.nrDof b b' x x' → (SatBound s'.bound x ↔ SatBound t'.bound x') := by
  obtain ⟨s', h1, h2⟩ := C29_limits hdt hj0 hdof hlQ huQ R hb hq ha haD
  obtain ⟨t', h3, h4⟩ := C29_limits hdt hj0 hdof hlQ huQ R' hb' hq ha haD
  refine ⟨s', t', h1, h3, fun x x' hx => ?_⟩
  rw [h2, h4]
  refine forall_congr' fun a => forall_congr' fun l => forall_congr' fun u => forall_congr' fun qa =>
    forall_congr' fun va => forall_congr' fun ac => forall_congr' fun hl => ?_
  rw [hx a (hlQ ▸ (List.getElem?_eq_some_iff.1 hl).1)]

theorem Out.assoc {α β γ : Type} (m : Out α) (f : α → Out β) (g : β → Out γ) :
    (m >>= f) >>= g = m >>= fun a => f a >>= g := by
  cases m <;> rfl

/-- The same damped limits, for a robot that has another place in the solver. -/
def DamperLimits.at' (r b : ℕ) (s : DamperLimits K) : DamperLimits K := { s with robotIndex := r, alphaDBegin := b }

theorem damper_joint_at (r b : ℕ) (q alpha : List (List K)) (i : ℕ) (s : DamperLimits K) :
    DamperLimits.jointStep q alpha i (s.at' r b)
      = (DamperLimits.jointStep q alpha i s >>= fun s' => pure (s'.at' r b)) := by
  unfold DamperLimits.jointStep
  simp only [Out.assoc, Out.pure_eq, Out.ok_bind]
  rfl

theorem damper_loop_at (r b : ℕ) (q alpha : List (List K)) (n : ℕ) (s : DamperLimits K) :
    forRange n (DamperLimits.jointStep q alpha) (s.at' r b)
      = (forRange n (DamperLimits.jointStep q alpha) s >>= fun s' => pure (s'.at' r b)) := by
  induction n with
  | zero => rfl
  | succ n ih =>
    unfold forRange
    rw [ih, Out.assoc, Out.assoc]
    congr 1
    funext s'
    rw [Out.pure_eq, Out.ok_bind, damper_joint_at]

/-- `update` does not look at the place of the robot in the solver. -/
theorem damper_update_at (r b : ℕ) (q alpha alphaD : List (List K)) (s : DamperLimits K) :
    (s.at' r b).update q alpha alphaD = (s.update q alpha alphaD >>= fun s' => pure (s'.at' r b)) := by
  unfold DamperLimits.update
  simp only [Out.assoc, Out.pure_eq, Out.ok_bind]
  congr 1
  funext prev
  have : ({ s.at' r b with prev := prev } : DamperLimits K) = ({ s with prev := prev } : DamperLimits K).at' r b := rfl
  rw [this, show (s.at' r b).data = s.data from rfl, damper_loop_at, Out.assoc]
  congr 1

/-- The same updates, in another solver, lead to the same damped limits at the new place. -/
theorem damper_run_at {mb : MultiBody K} {r r' : ℕ} {p : LimitParams K} {od : Option (SolverData K)}
    {s : DamperLimits K} (R : DampRun mb r p od s) {d' : SolverData K} {b' : ℕ}
    (hb' : vecAt d'.alphaDBegin r' = .ok b') : DampRun mb r' p (some d') (s.at' r' b') := by
  have place : ∀ (t : DamperLimits K), t.robotIndex = r' → t.updateNrVars d' = .ok (t.at' r' b') := by
    intro t ht
    unfold DamperLimits.updateNrVars
    rw [ht, hb']
    subst ht
    rfl
  induction R with
  | make junk s h =>
    have h' : DamperLimits.make mb r' junk p.lQ p.uQ p.lA p.uA p.lAD p.uAD p.lADD p.uADD p.inter p.sec p.off
        p.dt = .ok (s.at' r' 0) := by
      unfold DamperLimits.make at h ⊢
      simp only [Out.bind_eq_ok, Out.pure_eq, Out.ok.injEq] at h ⊢
      obtain ⟨l, hl, lo, hlo, up, hup, aL, haL, aU, haU, dL, hdL, dU, hdU, rfl⟩ := h
      exact ⟨l, hl, lo, hlo, up, hup, aL, haL, aU, haU, dL, hdL, dU, hdU, rfl⟩
    exact .nrVars d' _ (.make junk _ h') (place _ rfl)
  | nrVars d s' _ h ih =>
    unfold DamperLimits.updateNrVars at h
    obtain ⟨b, -, h⟩ := Out.bind_eq_ok.1 h
    cases h
    exact ih
  | update q alpha alphaD s' _ h ih =>
    refine .update q alpha alphaD _ ih ?_
    rw [damper_update_at, h]
    rfl

/-- **C103** (damped joint limits): after any execution in one solver, the same updates made in another one, where
the robot has another number and other variables, lead to limits that succeed or fail alike and hold for the same
accelerations. -/
theorem C103_damper_limits {mb : MultiBody K} {r r' : ℕ} {p : LimitParams K} {d d' : SolverData K}
    {s : DamperLimits K} (R : DampRun mb r p (some d) s) {b b' : ℕ} (hb : vecAt d.alphaDBegin r = .ok b)
    (hb' : vecAt d'.alphaDBegin r' = .ok b') :
    ∃ t, DampRun mb r' p (some d') t ∧ ∀ q alpha alphaD,
      (∀ s', s.update q alpha alphaD = .ok s' → ∃ t', t.update q alpha alphaD = .ok t' ∧
        ∀ x x', SameAcc mb.nrDof b b' x x' → (SatBound s'.bound x ↔ SatBound t'.bound x')) ∧
      ∀ t', t.update q alpha alphaD = .ok t' → ∃ s', s.update q alpha alphaD = .ok s' := by
  refine ⟨s.at' r' b', damper_run_at R hb', fun q alpha alphaD => ⟨fun s' h => ⟨s'.at' r' b', ?_, ?_⟩, ?_⟩⟩
  · rw [damper_update_at, h]
    rfl
  · intro x x' hx
    have I := dampInv (DampRun.update q alpha alphaD s' R h)
    have hbeg : s'.alphaDBegin = b := by
      have := I.begin' d rfl
      rw [hb] at this
      exact (Out.ok.inj this).symm
    unfold SatBound DamperLimits.bound DamperLimits.at'
    dsimp only
    rw [hbeg]
    refine and_congr (forall_congr' fun i => forall_congr' fun hi => ?_)
      (forall_congr' fun i => forall_congr' fun hi => ?_)
    · rw [hx i (I.sL ▸ hi)]
    · rw [hx i (I.sU ▸ hi)]
  · intro t' h
    rw [damper_update_at] at h
    obtain ⟨s', h, -⟩ := Out.bind_eq_ok.1 h
    exact ⟨s', h⟩

/-! ## Torque limits -/

theorem contactTorque_same {rk : RobotKin K} {env : MotionEnv K} {s s' : Side K} {x x' : ℕ → K}
    (hb : s'.body = s.body) (hp : s'.points = s.points) (hc : s'.cones = s.cones)
    (hx : ∀ i < s.width, x (s.begin' + i) = x' (s'.begin' + i)) (a : ℕ) :
    contactTorque rk env s x a = contactTorque rk env s' x' a := by
  unfold contactTorque
  rw [hb, hp]
  refine Finset.sum_congr rfl fun j hj => ?_
  congr 1
  unfold Side.force
  rw [hc]
  unfold combo
  refine Finset.sum_congr rfl fun k hk => ?_
  have h1 := before_mono s.cones (show j + 1 ≤ s.points.length from mem_range.1 hj)
  rw [before_succ] at h1
  have := hx (before s.cones j + k) (by unfold Side.width; have := mem_range.1 hk; omega)
  dsimp only
  rw [Nat.add_assoc, this, Nat.add_assoc]

theorem invDyn_same {rk : RobotKin K} {env : MotionEnv K} {b b' : ℕ} {l l' : List (Side K)} {x x' : ℕ → K}
    (hx : SameAcc rk.mb.nrDof b b' x x') (hl : SameSides x x' l l') (a : ℕ) :
    invDyn rk env b l x a = invDyn rk env b' l' x' a := by
  unfold invDyn
  congr 1
  · congr 1
    exact Finset.sum_congr rfl fun j hj => by rw [hx j (mem_range.1 hj)]
  · unfold SameSides at hl
    induction hl with
    | nil => rfl
    | cons h _ ih =>
      obtain ⟨h1, h2, h3, h4⟩ := h
      simp only [List.map_cons, List.sum_cons, ih]
      rw [contactTorque_same h1 h2 h3 h4]

/-- **C103** (torque limits): `MotionConstr` of the same robot in two solvers: with the same contact forces on the
robot, its lines hold for the same accelerations and weights. -/
theorem C103_torque_limits {rk : RobotKin K} {r r' : ℕ} {p : TorqueParams K} (hp : p.Full rk.mb.nrDof)
    (hdt : 0 < p.dt) {d d' : SolverData K} {k : ℕ} {last : ℕ → K} {s t : MotionConstr K}
    (R : MotionRun rk r p [] (some d) k last s) (R' : MotionRun rk r' p [] (some d') k last t)
    {mbs mbs' : List (MultiBody K)} (S : Setting rk r mbs d) (S' : Setting rk r' mbs' d')
    (N : NoSelf r d) (N' : NoSelf r' d') (env : MotionEnv K) (E : EnvOK rk env) :
    ∃ s' t', s.update rk.mb env = .ok s' ∧ t.update rk.mb env = .ok t' ∧
      ∀ x x', SameAcc rk.mb.nrDof (aBegin mbs r) (aBegin mbs' r') x x' →
        SameSides x x' (sides r d) (sides r' d') →
        (SatGen d.nrVars s'.common.gen x ↔ SatGen d'.nrVars t'.common.gen x') := by
  obtain ⟨s', h1, h2⟩ := C26_rate_lines hp hdt R S N env E
  obtain ⟨t', h3, h4⟩ := C26_rate_lines hp hdt R' S' N' env E
  refine ⟨s', t', h1, h3, fun x x' hx hl => ?_⟩
  rw [h2, h4]
  simp only [invDyn_same hx hl]

/-- **C103** (torque limits with springs). -/
theorem C103_springs {rk : RobotKin K} {r r' : ℕ} {p : TorqueParams K} (hp : p.Full rk.mb.nrDof)
    (hdt : 0 < p.dt) {l : List (SpringJoint K)} {sp : List (SpringData K)}
    (hsp : springsMake rk.mb l = .ok sp) (hn : (l.map SpringJoint.jointName).Nodup)
    {d d' : SolverData K} {k : ℕ} {last : ℕ → K} {s t : MotionConstr K}
    (R : MotionRun rk r p sp (some d) k last s) (R' : MotionRun rk r' p sp (some d') k last t)
    {mbs mbs' : List (MultiBody K)} (S : Setting rk r mbs d) (S' : Setting rk r' mbs' d')
    (N : NoSelf r d) (N' : NoSelf r' d') (env : MotionEnv K) (E : EnvOK rk env)
    (hd : ∀ sj ∈ l, ∀ i, rk.mb.jointIndexByName sj.jointName = .ok i → 0 < jdof rk.mb i ∧
      (∃ q, nested env.q i 0 = .ok q) ∧ ∃ a, nested env.alpha i 0 = .ok a) :
    ∃ s' t', s.updateSpring rk.mb env sp = .ok s' ∧ t.updateSpring rk.mb env sp = .ok t' ∧
      ∀ x x', SameAcc rk.mb.nrDof (aBegin mbs r) (aBegin mbs' r') x x' →
        SameSides x x' (sides r d) (sides r' d') →
        (SatGen d.nrVars s'.common.gen x ↔ SatGen d'.nrVars t'.common.gen x') := by
  obtain ⟨s', h1, h2⟩ := C27_springs hp hdt hsp hn R S N env E hd
  obtain ⟨t', h3, h4⟩ := C27_springs hp hdt hsp hn R' S' N' env E hd
  refine ⟨s', t', h1, h3, fun x x' hx hl => ?_⟩
  rw [h2, h4]
  simp only [invDyn_same hx hl]

/-- **C103** (polynomial torque limits). -/
theorem C103_poly {rk : RobotKin K} {r r' : ℕ} {lP uP : List (List (List K))} {d d' : SolverData K}
    {s t : MotionPoly K} (R : PolyRun rk r lP uP (some d) s) (R' : PolyRun rk r' lP uP (some d') t)
    {mbs mbs' : List (MultiBody K)} (S : Setting rk r mbs d) (S' : Setting rk r' mbs' d')
    (N : NoSelf r d) (N' : NoSelf r' d') (env : MotionEnv K) (E : EnvOK rk env)
    (hq : ∀ i < rk.mb.joints.length, jdof rk.mb i = 1 → ∃ q l u, nested env.q i 0 = .ok q ∧
      nested lP i 0 = .ok l ∧ l ≠ [] ∧ nested uP i 0 = .ok u ∧ u ≠ []) :
    ∃ s' t', s.update rk.mb env = .ok s' ∧ t.update rk.mb env = .ok t' ∧
      ∀ x x', SameAcc rk.mb.nrDof (aBegin mbs r) (aBegin mbs' r') x x' →
        SameSides x x' (sides r d) (sides r' d') →
        (SatGen d.nrVars s'.common.gen x ↔ SatGen d'.nrVars t'.common.gen x') := by
  obtain ⟨s', h1, -, -, h2⟩ := C27_poly R S N env E hq
  obtain ⟨t', h3, -, -, h4⟩ := C27_poly R' S' N' env E hq
  refine ⟨s', t', h1, h3, fun x x' hx hl => ?_⟩
  rw [h2, h4]
  simp only [invDyn_same hx hl]

/-- **C103** (torque task): the objectives are equal. -/
theorem C103_torque_task {rk : RobotKin K} {r r' : ℕ} {p : TorqueParams K} {k : TorqueSel K} {w : K}
    (hk : ∀ v, k = .vec v → v.size = rk.mb.nrDof) {d d' : SolverData K} {s t : TorqueT K}
    (R : TorqueRun rk r p k w (some d) s) (R' : TorqueRun rk r' p k w (some d') t)
    {mbs mbs' : List (MultiBody K)} (S : Setting rk r mbs d) (S' : Setting rk r' mbs' d')
    (N : NoSelf r d) (N' : NoSelf r' d') (env : MotionEnv K) (E : EnvOK rk env) :
    ∃ s' t', s.update rk.mb env = .ok s' ∧ t.update rk.mb env = .ok t' ∧
      ∀ x x', SameAcc rk.mb.nrDof (aBegin mbs r) (aBegin mbs' r') x x' →
        SameSides x x' (sides r d) (sides r' d') → s'.task.obj x = t'.task.obj x' := by
  obtain ⟨s', h1, -, ⟨W, hW, c, h2⟩, -⟩ := C48_torque_objective hk R S N env E
  obtain ⟨t', h3, -, ⟨W', hW', c', h4⟩, -⟩ := C48_torque_objective hk R' S' N' env E
  have hWW : ∀ i < rk.mb.nrDof, W i = W' i := by
    intro i hi
    unfold TorqueWeights at hW hW'
    cases k with
    | all => exact (hW i hi).trans (hW' i hi).symm
    | vec v => exact (hW i hi).trans (hW' i hi).symm
    | body name =>
      obtain ⟨path, e, hw⟩ := hW
      obtain ⟨path', e', hw'⟩ := hW'
      cases e.symm.trans e'
      by_cases hp : ∃ j ∈ path, j ≠ 0 ∧ jpos rk.mb j ≤ i ∧ i < jpos rk.mb j + jdof rk.mb j
      · exact ((hw i hi).1 hp).trans ((hw' i hi).1 hp).symm
      · exact ((hw i hi).2 hp).trans ((hw' i hi).2 hp).symm
  refine ⟨s', t', h1, h3, ?_⟩
  have key : ∀ x x', SameAcc rk.mb.nrDof (aBegin mbs r) (aBegin mbs' r') x x' →
      SameSides x x' (sides r d) (sides r' d') → s'.task.obj x + c = t'.task.obj x' + c' := by
    intro x x' hx hl
    rw [h2, h4]
    have : ∑ i ∈ range rk.mb.nrDof, W i * invDyn rk env (aBegin mbs r) (sides r d) x i ^ 2
        = ∑ i ∈ range rk.mb.nrDof, W' i * invDyn rk env (aBegin mbs' r') (sides r' d') x' i ^ 2 :=
      Finset.sum_congr rfl fun i hi => by rw [hWW i (mem_range.1 hi), invDyn_same hx hl]
    rw [this]
    ring
  intro x x' hx hl
  have z : SameSides (fun _ => (0 : K)) (fun _ => 0) (sides r d) (sides r' d') :=
    hl.imp fun _ _ h => ⟨h.1, h.2.1, h.2.2.1, fun _ _ => rfl⟩
  have hc := key (fun _ => 0) (fun _ => 0) (fun _ _ => rfl) z
  rw [obj_zero, obj_zero, zero_add, zero_add] at hc
  have := key x x' hx hl
  rw [hc] at this
  exact add_right_cancel this

/-! ## Constraints on bodies -/

/-- **C103** (bounded speeds): for the same registered bodies. -/
theorem C103_bounded_speed {mbs mbs' : List (MultiBody K)} {rk : RobotKin K} {r r' : ℕ} {dt : K} {mb : MultiBody K}
    (hmb : mbs[r]? = some mb) (hmb' : mbs'[r']? = some mb) (hdt : 0 < dt) {d d' : SolverData K}
    {s t : BoundedSpeed K} (R : SpeedRun mbs rk r dt true (some d) s) (R' : SpeedRun mbs' rk r' dt true (some d') t)
    (hst : t.cont = s.cont) (kin : String → V3 K → BodyKin6 K) (hc : ∀ c ∈ s.cont, SpeedShaped mb c)
    (hk : ∀ c ∈ s.cont, KinShaped mb kin c) :
    ∃ s' t' b b', s.update mbs kin = .ok s' ∧ t.update mbs' kin = .ok t' ∧ d.alphaDBegin[r]? = some b ∧
      d'.alphaDBegin[r']? = some b' ∧ ∀ x x', SameAcc mb.nrDof b b' x x' →
        (SatGen d.nrVars s'.gen x ↔ SatGen d'.nrVars t'.gen x') := by
  obtain ⟨s', b, h1, -, h2, -, -, -, -, -, -, h3⟩ := C38_rows mbs rk r dt mb hmb hdt d s R kin hc hk
  obtain ⟨t', b', h4, -, h5, -, -, -, -, -, -, h6⟩ := C38_rows mbs' rk r' dt mb hmb' hdt d' t R' kin
    (hst ▸ hc) (hst ▸ hk)
  refine ⟨s', t', b, b', h1, h4, h2, h5, fun x x' hx => ?_⟩
  rw [h3, h6, hst]
  have : ∀ (c : SpeedData K) (k : ℕ), speedAfter mb kin dt b x c k = speedAfter mb kin dt b' x' c k := by
    intro c k
    unfold speedAfter
    congr 2
    congr 1
    exact Finset.sum_congr rfl fun q hq => by rw [hx q (mem_range.1 hq)]
  unfold SpeedOK
  simp only [this]

theorem planeUpdated_unique {env : ComEnv K} {d₀ d d' : PlaneData K} (h : PlaneUpdated env d₀ d)
    (h' : PlaneUpdated env d₀ d') : d = d' := by
  obtain ⟨a1, a2, a3, a4, a5, a6, a7, a8, a9, a10⟩ := h
  obtain ⟨b1, b2, b3, b4, b5, b6, b7, b8, b9, b10⟩ := h'
  cases d
  cases d'
  dsimp only at *
  subst a1 a2 a3 a4 a5 a6 a7 a8 a9
  subst b1 b2 b3 b4 b5 b6 b7 b8 b9
  split_ifs at a10 b10 <;> simp_all

/-- **C103** (planes of the centre of mass): for the same registered planes in the same state. -/
theorem C103_com_plane {mbs mbs' : List (MultiBody K)} {mb : MultiBody K} {r r' : ℕ} {dt : K}
    (hmb : mbs[r]? = some mb) (hmb' : mbs'[r']? = some mb) {s t : ComPlane K} (R : PlaneReach mbs mb r dt s)
    (R' : PlaneReach mbs' mb r' dt t) (hst : t.data = s.data) (hsel : t.selector = s.selector) {env : ComEnv K}
    (he : ComEnvOK mb env) {b b' : ℕ} (hb : s.alphaDBegin = some b) (hb' : t.alphaDBegin = some b')
    (hd : ∀ d ∈ s.data, d.ds ≠ d.di) (hr : s.data.length ≤ s.A.rows) (hr' : t.data.length ≤ t.A.rows) :
    ∃ s' t', s.update mbs env = .ok s' ∧ t.update mbs' env = .ok t' ∧ t'.data = s'.data ∧
      ∀ x x', SameAcc mb.nrDof b b' x x' → (SatInEq s.A.cols s'.inEq x ↔ SatInEq t.A.cols t'.inEq x') := by
  obtain ⟨s', h1, h2, h3, -, -, h4⟩ := C36_update hmb R he hb hd hr
  obtain ⟨t', g1, g2, g3, -, -, g4⟩ := C36_update hmb' R' he hb' (hst ▸ hd) hr'
  have hdata : t'.data = s'.data := by
    apply List.ext_getElem?
    intro j
    by_cases hj : j < s.data.length
    · obtain ⟨p, p1, p2⟩ := h2 j _ (List.getElem?_eq_getElem hj)
      obtain ⟨q, q1, q2⟩ := g2 j _ (by rw [hst]; exact List.getElem?_eq_getElem hj)
      rw [p1, q1, planeUpdated_unique q2 p2]
    · rw [List.getElem?_eq_none (by rw [g3, hst]; omega), List.getElem?_eq_none (by rw [h3]; omega)]
  refine ⟨s', t', h1, g1, hdata, fun x x' hx => ?_⟩
  rw [h4, g4, hdata, hsel]
  have : comAcc mb.nrDof s.selector env.jac b x = comAcc mb.nrDof s.selector env.jac b' x' := by
    unfold comAcc
    have : ∀ i, ∑ c ∈ range mb.nrDof, env.jac.get i c * (s.selector.get c * x (b + c))
        = ∑ c ∈ range mb.nrDof, env.jac.get i c * (s.selector.get c * x' (b' + c)) :=
      fun i => Finset.sum_congr rfl fun c hc => by rw [hx c (mem_range.1 hc)]
    simp only [this]
  unfold planeRate
  rw [this]

/-- **C103** (image constraints): the lines look at the accelerations of the robot that carries the camera. -/
theorem C103_image {rks : List (RobotKin K)} {mbs : List (MultiBody K)} {mb : MultiBody K} {r : ℕ}
    {body : String} {path : List ℕ} (H : ImgRobot rks mbs mb r body path) {dt : K} {d : SolverData K}
    {s : Image K} (R : ImageRun rks mbs mb r body dt 1 true (some d) s) {env : ImageEnv K}
    (he : ImgEnvOK mb path env) (hi : ∀ i < 2, s.iMin i ≤ s.iMax i) (hmb : mbs[r]? = some mb) :
    ∃ s', s.update mbs env = .ok s' ∧ LooksAt (AccIn mbs d r) (SatInEq d.nrVars s'.inEq) := by
  obtain ⟨s', a, h1, h2, -, -, -, -, h3⟩ := C39_fov_partial rks mbs mb r body path H dt d s R env he hi
  refine ⟨s', h1, fun x x' hx => propext ?_⟩
  rw [h3, h3]
  have : ∀ (pt : ImgPoint K) (i : ℕ), imgShift mb path env dt a x pt i = imgShift mb path env dt a x' pt i := by
    intro pt i
    unfold imgShift imgAcc
    congr 3
    refine Finset.sum_congr rfl fun k _ => ?_
    congr 1
    refine Finset.sum_congr rfl fun q hq => ?_
    rw [hx (a + q) ⟨mb, a, hmb, h2, by omega, by have := mem_range.1 hq; omega⟩]
  simp only [this]

/-- **C103** (collision avoidance): the lines look at the accelerations of the robots of the registered pairs. -/
theorem C103_collision {rbs : List (RobotBodies K)} (hR : RobotsOK rbs) {dt : K} (hdt : dt ≠ 0)
    {s : Coll K} (hs : CollReach rbs dt s) {data : SolverData K} {env : CollEnv K}
    (hd : Spec.DataOK rbs data) (he : CollEnvOK rbs env) (ht : s.totalAlphaD = some data.totalAlphaD)
    (hf : s.data.length ≤ s.A.rows) (poses : ℕ → SchPose K) :
    ∃ s' poses', s.update (bodiesOf rbs) data env poses = .ok (s', poses') ∧
      LooksAt (fun v => ∃ d ∈ s'.data, ∃ b ∈ d.bodies, AccIn (bodiesOf rbs) data b.rIndex v)
        (SatInEq s.A.cols s'.inEq) := by
  obtain ⟨s', poses', h1, -, h2⟩ := C33_update hR hdt hs hd he ht hf poses
  refine ⟨s', poses', h1, fun x x' hx => propext ?_⟩
  rw [h2, h2]
  refine forall_congr' fun j => forall_congr' fun d₀ => forall_congr' fun d => forall_congr' fun _ =>
    forall_congr' fun hj => forall_congr' fun _ => ?_
  unfold DamperOK pairRate
  have : d.bodies.map (bodyRate (bodiesOf rbs) data env dt d.normal d₀.normal x)
      = d.bodies.map (bodyRate (bodiesOf rbs) data env dt d.normal d₀.normal x') := by
    refine List.map_congr_left fun b hb => ?_
    unfold bodyRate
    split
    · rename_i mb rb a e1 e2 e3
      have : ∀ i, ∑ c ∈ range mb.nrDof, onDofs mb b.path (fun k => (rb.jac b.body b.point).get i k) c
            * (selected b.selector c * x (a + c))
          = ∑ c ∈ range mb.nrDof, onDofs mb b.path (fun k => (rb.jac b.body b.point).get i k) c
            * (selected b.selector c * x' (a + c)) := by
        intro i
        refine Finset.sum_congr rfl fun c hc => ?_
        rw [hx (a + c) ⟨d, List.mem_of_getElem? hj, b, hb, mb, a, e1, e3, by omega,
          by have := mem_range.1 hc; omega⟩]
      unfold pointAcc
      simp only [this]
    · rfl
  rw [this]

/-- **C103** (contacts): the lines look at the accelerations of the two robots of each contact in the problem. -/
theorem C103_contact {rks : List (RobotKin K)} {bidx : ℕ → String → Out ℕ} (hr : ContactRobotsOK rks bidx)
    {kind : ContactKind K} (hk : KindOK kind) {d : SolverData K} {v g : ContactReg K} {s : ContactC K}
    (R : ContactRun rks bidx kind (some (d, v, g)) s) {env : ContactEnv K} (he : ContactEnvOK rks env)
    (hdof : ∀ id, Active d v id → (g.dofOf id).rows ≤ 6 ∧ (g.dofOf id).cols = 6)
    (hmob : ∀ id, Active d v id → Mobile rks id.r1Index ∨ Mobile rks id.r2Index) :
    ∃ s', s.update (rks.map fun rk => rk.mb) env kind = .ok s' ∧
      LooksAt (fun u => ∃ id, Active d v id ∧ (AccIn (rks.map fun rk => rk.mb) d id.r1Index.toNat u ∨
        AccIn (rks.map fun rk => rk.mb) d id.r2Index.toNat u)) (SatEq d.nrVars s'.eq) := by
  obtain ⟨s', h1, -, h2, -, -, -, -, -, -, h3⟩ := C40_rows rks bidx hr kind hk d v g s R env he hdof hmob
  refine ⟨s', h1, fun x x' hx => propext ?_⟩
  rw [h3, h3]
  refine forall_congr' fun c => forall_congr' fun hc => forall_congr' fun q => forall_congr' fun _ => ?_
  have hact := (h2 c.id).1 (List.mem_map.2 ⟨c, hc, rfl⟩)
  have key : ∀ (r : ℤ) (body : String) (X : PT K) (k : ℕ),
      (∀ u, AccIn (rks.map fun rk => rk.mb) d r.toNat u → x u = x' u) →
      frameAcc rks bidx d env x r body X k = frameAcc rks bidx d env x' r body X k := by
    intro r body X k hu
    unfold frameAcc
    congr 1
    cases h : rks[r.toNat]? with
    | none => rfl
    | some rk =>
      simp only [Option.bind_some]
      split
      · rfl
      · cases ha : d.alphaDBegin[r.toNat]? with
        | none => rfl
        | some a =>
          simp only [Option.bind_some]
          congr 1
          funext path
          congr 1
          funext X0
          congr 1
          refine Finset.sum_congr rfl fun p hp => ?_
          rw [hu (a + p) ⟨rk.mb, a, by simp [h], ha, by omega, by have := mem_range.1 hp; omega⟩]
  have k1 := fun X k => key c.id.r1Index c.id.r1BodyName X k fun u hu => hx u ⟨c.id, hact, .inl hu⟩
  have k2 := fun X k => key c.id.r2Index c.id.r2BodyName X k fun u hu => hx u ⟨c.id, hact, .inr hu⟩
  unfold RowMeans
  simp only [k1, k2]

/-- **C103** (gripper torque constraint): the lines look at the weights of the contacts of the registered
grippers. -/
theorem C103_gripper (s : Gripper K) (old : SolverData K) (mbs : List (MultiBody K))
    (uni : List (UniContact K)) (bi : List (BiContact K)) (h : GoodInput mbs bi) (hm : ConesMatch bi)
    (d : SolverData K) (deps : List (Dep K)) (hd : layout old mbs uni bi = .ok (d, deps)) :
    ∃ s', s.updateNrVars d = .ok s' ∧
      LooksAt (fun v => ∃ g ∈ s.data, ∃ k c a, FirstContact bi g.id k c ∧
        d.lambdaBegin[uni.length + k]? = some a ∧ a ≤ v ∧ v < a + lamBefore c c.r1Points.length)
        (SatInEq d.nrVars s'.update.inEq) := by
  obtain ⟨s', h1, -, h2, -, -, -, -, -, h3⟩ := C37_rows s old mbs uni bi h hm d deps hd
  refine ⟨s', h1, fun x x' hx => propext ?_⟩
  rw [h2, h3, h3]
  refine forall_congr' fun g => forall_congr' fun hg => forall_congr' fun k => forall_congr' fun c =>
    forall_congr' fun a => forall_congr' fun hf => forall_congr' fun ha => ?_
  have : absTorque g c a x = absTorque g c a x' := by
    unfold absTorque
    refine Finset.sum_congr rfl fun i hi => Finset.sum_congr rfl fun m hm => ?_
    have h1 := lamBefore_mono c (show i + 1 ≤ c.r1Points.length from mem_range.1 hi)
    have h2 : lamBefore c (i + 1) = lamBefore c i + (c.r1Cones.getD i ⟨[]⟩).generators.length := by
      unfold lamBefore
      rw [Finset.sum_range_succ]
    rw [hx (a + lamBefore c i + m) ⟨g, hg, k, c, a, hf, ha, by omega, by have := mem_range.1 hm; omega⟩]
  rw [this]

/-! ## Tasks -/

/-- A task looks at the variables of its block. -/
theorem obj_looksAt (t : TaskQC K) :
    LooksAt (fun v => (t.begin'.1 ≤ v ∧ v < t.begin'.1 + t.Q.rows) ∨
      (t.begin'.2 ≤ v ∧ v < t.begin'.2 + t.Q.cols)) t.obj := by
  intro x x' hx
  unfold TaskQC.obj
  congr 2
  · congr 1
    refine Finset.sum_congr rfl fun a ha => Finset.sum_congr rfl fun b hb => ?_
    rw [hx _ (.inl ⟨by omega, by have := mem_range.1 ha; omega⟩),
      hx _ (.inr ⟨by omega, by have := mem_range.1 hb; omega⟩)]
  · refine Finset.sum_congr rfl fun a ha => ?_
    rw [hx _ (.inl ⟨by omega, by have := mem_range.1 ha; omega⟩)]

/-- **C103** (tasks on several robots): the objective looks at the accelerations of the robots of the list only,
not at those of the robots whose variables lie between theirs. -/
theorem C103_multi_task {kind : MultiKind} {sqrt : K → Out K} (hs : SqrtOK sqrt)
    {mbs : List (MultiBody K)} {robots : List ℕ} (hn : kind = .com → robots.Nodup) {w : K}
    {d : SolverData K} {k : K} {W : Vec K} {s s' : MultiT K}
    (R : MultiRun kind sqrt mbs robots w (some d) k W s) {hl : MultiHL K}
    (h : kind.update d hl s = .ok s') :
    LooksAt (fun v => ∃ r ∈ robots, AccOf mbs r v) s'.task.obj := by
  obtain ⟨c, -, h1, h2⟩ := C49_decoupled_partial hs hn R h
  intro x x' hx
  rw [h2, h2]
  refine Finset.sum_congr rfl fun i hi => ?_
  obtain ⟨-, mb, hmb, hcols⟩ := h1 i (mem_range.1 hi)
  have : ∀ a, rowAt (hl.J i) (robotBegin mbs robots i) x a = rowAt (hl.J i) (robotBegin mbs robots i) x' a := by
    intro a
    unfold rowAt
    refine Finset.sum_congr rfl fun j hj => ?_
    rw [hx _ ⟨robots.getD i 0, ?_, mb, hmb, by unfold robotBegin; omega, by
      unfold robotBegin; have := mem_range.1 hj; omega⟩]
    rw [List.getD_eq_getElem _ _ (mem_range.1 hi)]
    exact List.getElem_mem _
  unfold lsq
  simp only [this]

/-- **C103** (posture task): the objective looks at the accelerations of its robot, after the first joint. -/
theorem C103_posture {sqrt : K → Out K} (hs : SqrtOK sqrt) {mb : MultiBody K}
    (hdof : PostureDofs mb) {free : Bool} (hbase : jdof mb 0 = if free = true then 6 else 0)
    {w k : K} {rI : ℕ} {q : List (List K)}
    {junk : ℕ → ℕ → K} {s0 s s' : Posture K} {ops : List (PostureOp K)} {env : PostureEnv K}
    (halpha : mb.nrDof ≤ env.alpha.flatten.length)
    (h0 : Posture.make sqrt mb free rI q k w junk = .ok s0)
    (h1 : forEach ops (Posture.step sqrt mb) s0 = .ok s) (h2 : s.update mb env = .ok s')
    (v : PostureSet K) (hv : v = ops.foldl (·.apply rI) (initPosture mb q k))
    (hroot : ∀ e ∈ v.js, ∀ c < jpos mb 1, ¬ ColOf mb e.1 c) :
    LooksAt (fun u => v.b + jpos mb 1 ≤ u ∧ u < v.b + mb.nrDof) s'.task.obj := by
  obtain ⟨_, tgt, -, -, const, h⟩ := C47_objective hs hdof hbase halpha h0 h1 h2 v hv hroot
  intro x x' hx
  rw [h, h]
  congr 3
  refine Finset.sum_congr rfl fun c hc => ?_
  split
  · rw [hx (v.b + c) ⟨by omega, by have := mem_range.1 hc; omega⟩]
  · rfl

theorem firstContact_exists {l : List (BiContact K)} {id : ContactId} (h : ∃ c ∈ l, c.id = id) :
    ∃ k c, FirstContact l id k c := by
  classical
  have hex : ∃ k : ℕ, ∃ c : BiContact K, l[k]? = some c ∧ c.id = id := by
    obtain ⟨c, hc, hid⟩ := h
    obtain ⟨k, hk⟩ := List.mem_iff_getElem?.1 hc
    exact ⟨k, c, hk, hid⟩
  obtain ⟨c, h1, h2⟩ := Nat.find_spec hex
  exact ⟨Nat.find hex, c, h1, h2, fun j c' hj hc' hid => Nat.find_min hex hj ⟨c', hc', hid⟩⟩

/-- **C103** (contact task): the objective looks at the weights of its contact; at nothing if the contact is not
in the problem. -/
theorem C103_contact_task {mbs : List (MultiBody K)} {id : ContactId} {w : K}
    {d : SolverData K} {e : V3 K} {s : ContactT K} (R : ContactTRun mbs id w (some d) e s)
    (hc : ∀ k c, FirstContact d.allCont id k c → c.r1Cones.length = c.r1Points.length) :
    ∃ s', s.update = .ok s' ∧ LooksAt (fun v => ∃ k c a, FirstContact d.allCont id k c ∧
      d.lambdaBegin[k]? = some a ∧ a ≤ v ∧ v < a + c.nL) s'.task.obj := by
  obtain ⟨s', h1, h2, h3⟩ := C50_contact_task R hc
  refine ⟨s', h1, fun x x' hx => ?_⟩
  by_cases h : ∃ c ∈ d.allCont, c.id = id
  · obtain ⟨k, c, F⟩ := firstContact_exists h
    obtain ⟨a, b1, b2, b3, b4, -⟩ := h2 k c F
    refine obj_looksAt s'.task x x' fun v hv => hx v ⟨k, c, a, F, b1, ?_⟩
    rw [b2, b3, b4] at hv
    rcases hv with hv | hv <;> exact hv
  · have E := h3 fun c hc' hid => h ⟨c, hc', hid⟩
    rw [E.2.2.2, E.2.2.2]

/-- **C103** (gripper torque task): the objective looks at the weights of its contact. -/
theorem C103_gripper_task {mbs : List (MultiBody K)} {d : SolverData K} (hd : IsLayout mbs d)
    (s : GripperT K) (junk : ℕ → K)
    (hm : ∀ k c, FirstContact d.biCont s.id k c → c.r1Cones.length = c.r1Points.length) :
    ∃ s', s.updateNrVars d junk = .ok s' ∧ s'.update = s' ∧
      LooksAt (fun v => ∃ k c a, FirstContact d.biCont s.id k c ∧
        d.lambdaBegin[d.uniCont.length + k]? = some a ∧ a ≤ v ∧ v < a + c.nL) s'.task.obj := by
  obtain ⟨s', h0, h1, -, h2, h3⟩ := C50_gripper_task hd s junk hm
  refine ⟨s', h0, h1, fun x x' hx => ?_⟩
  by_cases h : ∃ c ∈ d.biCont, c.id = s.id
  · obtain ⟨k, c, F⟩ := firstContact_exists h
    obtain ⟨a, b1, b2, b3, b4, -⟩ := h2 k c F
    refine obj_looksAt s'.task x x' fun v hv => hx v ⟨k, c, a, F, b1, ?_⟩
    rw [b2, b3, b4] at hv
    rcases hv with hv | hv <;> exact hv
  · have E := h3 fun c hc' hid => h ⟨c, hc', hid⟩
    rw [E.2.2.2, E.2.2.2]

/-! ## Example -/

namespace FootprintEx

/-- Two arms; the accelerations of the second begin at variable 2. -/
def two : SolverData ℚ := { (SolverData.init : SolverData ℚ) with
  alphaD := [2, 2], alphaDBegin := [0, 2], totalAlphaD := 4, nrVars := 4 }

/-- The limits of the second arm, and the same limits of this arm alone: `C103_joint_limits` applies. -/
example : ∃ s' t' : JointLimits ℚ, ∀ x : ℕ → ℚ, SatBound s'.bound x ↔ SatBound t'.bound fun i => x (2 + i) := by
  obtain ⟨t, R'⟩ := exLimitRun
  have R : ∃ s, LimitRun exLimArm exLimArm.nrDof 1 exLimits (some two) s :=
    ⟨_, .nrVars _ _ (.make (fun _ => .negInf) _ rfl) rfl⟩
  obtain ⟨s, R⟩ := R
  obtain ⟨s', t', -, -, h⟩ := C103_joint_limits (by norm_num [exLimits]) (j0 := ⟨"j1", 1, none⟩) rfl le_rfl rfl rfl
    R R' (b := 2) (b' := 0) rfl rfl (q := [[1/2], [0]]) (alpha := [[1/10], [0]]) (alphaD := [[0], [0]]) rfl rfl rfl
  exact ⟨s', t', fun x => h x _ fun a _ => by simp⟩

/-- The damped limits of an arm in its interaction zone, moved to the second place. -/
example : ∃ s t s' t' : DamperLimits ℚ, s.update [[1/5], [0]] [[-1/10], [0]] [[0], [0]] = .ok s' ∧
    t.update [[1/5], [0]] [[-1/10], [0]] [[0], [0]] = .ok t' ∧
    ∀ x : ℕ → ℚ, SatBound s'.bound (fun i => x (2 + i)) ↔ SatBound t'.bound x := by
  obtain ⟨s, R⟩ := exDampRun
  obtain ⟨t, -, h⟩ := C103_damper_limits R (r' := 1) (d' := two) (b := 0) (b' := 2) rfl rfl
  obtain ⟨s', hs'⟩ := C30_update_ok (q := [[1/5], [0]]) (alpha := [[-1/10], [0]])
    (alphaD := [[0], [0]]) (by norm_num [exLimits]) R rfl (by
      intro i hi _
      have : i = 0 ∨ i = 1 := by simp [exLimArm] at hi; omega
      rcases this with rfl | rfl
      · exact ⟨1/5, -1/10, .fin 0, .fin 1, rfl, rfl, rfl, rfl, .inr ⟨0, 1, rfl, rfl, by norm_num [exLimits],
          by norm_num [exLimits], by norm_num [exLimits]⟩⟩
      · exact ⟨0, 0, .fin (-1), .fin 1, rfl, rfl, rfl, rfl, .inr ⟨-1, 1, rfl, rfl, by norm_num [exLimits],
          by norm_num [exLimits], by norm_num [exLimits]⟩⟩)
  obtain ⟨t', ht', hx⟩ := (h [[1/5], [0]] [[-1/10], [0]] [[0], [0]]).1 s' hs'
  exact ⟨s, t, s', t', hs', ht', fun x => hx _ x fun a _ => by simp⟩

end FootprintEx

end Verif
