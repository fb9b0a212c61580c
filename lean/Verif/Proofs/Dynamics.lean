import Verif.Proofs.Momentum
import Verif.Proofs.MotionRun

/-!
# Lemmas on the equation of motion of a whole robot
-/

set_option autoImplicit false
set_option linter.unusedSectionVars false

namespace Verif

open Finset Spec

section
variable {K : Type} [CommRing K]

namespace Spec

/-- Power of the force `f` on the motion `m` (Plücker pairing). -/
def pair (m : MV K) (f : FV K) : K := m.ang.dot f.couple + m.lin.dot f.force

/-- Rates of the dofs of a robot of which only dof `c` moves, with rate 1. -/
def unitRate (c : ℕ) : ℕ → K := fun k => if k = c then 1 else 0

/-- Column of dof `c` in the Jacobian of body `i`, in the frame of the body. -/
def bodyCol (bs : List (BodyI K)) (mb : MultiBody K) (st : KState K) (i c : ℕ) : MV K :=
  (kPose st i).mulM (wSum mb st (inertiaAt bs i).b.path (unitRate c))

/-- What `rbd::ForwardDynamics::computeH` and `computeC` compute (RBDyn, trusted base): the joint space inertia
matrix `H = Σ Jᵀ I J`, and the bias `C = Σ Jᵀ (I a + v ×* I v)` where `a` is the normal acceleration of the body on top of
the acceleration `g` of the base (`mbc.gravity`, upwards) that stands for gravity. -/
structure Dynamics (bs : List (BodyI K)) (mb : MultiBody K) (st : KState K) (g : V3 K) (env : MotionEnv K) :
    Prop where
  H : ∀ a < mb.nrDof, ∀ c < mb.nrDof, env.H.get a c
    = ∑ i ∈ range bs.length, pair (bodyCol bs mb st i a) ((inertiaAt bs i).mul (bodyCol bs mb st i c))
  C : ∀ a < mb.nrDof, env.C.get a
    = ∑ i ∈ range bs.length, pair (bodyCol bs mb st i a)
      ((inertiaAt bs i).mul (kAcc st i + (kPose st i).mulM ⟨0, g⟩)
        + (kVel st i).crossDual ((inertiaAt bs i).mul (kVel st i)))

/-- The contacts of the robot are on its bodies, and their Jacobians are those of RBDyn at the contact points. -/
def ContactsOn (bs : List (BodyI K)) (rk : RobotKin K) (st : KState K) (env : MotionEnv K) (l : List (Side K)) :
    Prop :=
  ∀ s ∈ l, ∃ i < bs.length, pathOf rk s.body = (inertiaAt bs i).b.path ∧
    ∀ j < s.points.length, Jac.bodyJacobian rk.mb st ⟨pathOf rk s.body, s.points.getD j 0⟩
      = .ok (env.jac s.body (s.points.getD j 0))

/-- Body of a contact. -/
def Side.at (rk : RobotKin K) (s : Side K) : ℕ := ((pathOf rk s.body).getLast?).getD 0

/-- World position of the contact point `j`. -/
def Side.pointW (rk : RobotKin K) (st : KState K) (s : Side K) (j : ℕ) : V3 K :=
  ((PT.ofTrans (s.points.getD j 0)).mul (kPose st (Side.at rk s))).r

/-- Contact force at point `j`, in world axes. -/
def Side.forceW (rk : RobotKin K) (st : KState K) (s : Side K) (x : ℕ → K) (j : ℕ) : V3 K :=
  (kPose st (Side.at rk s)).E.transpose.mulVec (s.force x j)

/-- Position and force of all contact points, in the world. -/
def contactPairs (rk : RobotKin K) (st : KState K) (x : ℕ → K) (l : List (Side K)) : List (V3 K × V3 K) :=
  l.flatMap fun s => (List.range s.points.length).map fun j => (Side.pointW rk st s j, Side.forceW rk st s x j)

/-- World velocity of the contact point `j`. -/
def Side.velW (rk : RobotKin K) (st : KState K) (s : Side K) (j : ℕ) : V3 K :=
  (kPose st (Side.at rk s)).E.transpose.mulVec ((kVel st (Side.at rk s)).lin
    + (kVel st (Side.at rk s)).ang.cross (s.points.getD j 0))

end Spec

/-- See `Spec.ContactsOn`. -/
def ContactsAt (rk : RobotKin K) (st : KState K) (v : ℕ → K) (env : MotionEnv K) (l : List (Side K)) : Prop :=
  ∀ s ∈ l, (∃ N, (pathOf rk s.body).getLast? = some N) ∧ Moves rk.mb st (pathOf rk s.body) v ∧
    ∀ j < s.points.length, Jac.bodyJacobian rk.mb st ⟨pathOf rk s.body, s.points.getD j 0⟩
      = .ok (env.jac s.body (s.points.getD j 0))

/-! ## Pairing -/

theorem pair_mulM (X : PT K) (m : MV K) (f : FV K) : pair (X.mulM m) f = pair m (X.transMul f) := by
  simp only [pair, PT.mulM, PT.transMul, M3.mulVec, M3.transpose, V3.dot, V3.sub_x, V3.sub_y, V3.sub_z,
    V3.add_x, V3.add_y, V3.add_z, V3.cross_x, V3.cross_y, V3.cross_z]
  ring

theorem pair_lin (f : FV K) : MV.Lin (K := K) fun m => pair m f :=
  ⟨by simp [pair, V3.dot], fun a b => by simp [pair, V3.dot]; ring, fun c a => by simp [pair, V3.dot]; ring⟩

theorem pair_add (m : MV K) (f g : FV K) : pair m (f + g) = pair m f + pair m g := by
  simp [pair, V3.dot]; ring

theorem pair_zero (m : MV K) : pair m (0 : FV K) = 0 := by simp [pair, V3.dot]

theorem pair_sum (m : MV K) (n : ℕ) (f : ℕ → FV K) :
    pair m (∑ i ∈ range n, f i) = ∑ i ∈ range n, pair m (f i) := by
  induction n with
  | zero => exact pair_zero m
  | succ n ih => rw [Finset.sum_range_succ, Finset.sum_range_succ, ← ih, pair_add]

theorem pair_list_sum {α : Type} (m : MV K) (l : List α) (f : α → FV K) :
    pair m (l.map f).sum = (l.map fun a => pair m (f a)).sum := by
  induction l with
  | nil => exact pair_zero m
  | cons a t ih => simp only [List.map_cons, List.sum_cons, pair_add, ih]

/-- A force is known from its power on the six motions `X⁻¹ eₐ`. -/
theorem pair_inj {X : PT K} (hX : X.Rigid) {f g : FV K}
    (h : ∀ u : MV K, pair (X.inv.mulM u) f = pair (X.inv.mulM u) g) : f = g := by
  have h' : ∀ m : MV K, pair m f = pair m g := fun m => by
    have := h (X.mulM m)
    rwa [PT.inv_mulM X hX] at this
  ext
  · simpa [pair, V3.dot] using h' ⟨⟨1, 0, 0⟩, 0⟩
  · simpa [pair, V3.dot] using h' ⟨⟨0, 1, 0⟩, 0⟩
  · simpa [pair, V3.dot] using h' ⟨⟨0, 0, 1⟩, 0⟩
  · simpa [pair, V3.dot] using h' ⟨0, ⟨1, 0, 0⟩⟩
  · simpa [pair, V3.dot] using h' ⟨0, ⟨0, 1, 0⟩⟩
  · simpa [pair, V3.dot] using h' ⟨0, ⟨0, 0, 1⟩⟩

theorem pair_crossDual (v : MV K) (f : FV K) : pair v (v.crossDual f) = 0 := by
  simp only [pair, MV.crossDual, V3.dot, V3.add_x, V3.add_y, V3.add_z, V3.cross_x, V3.cross_y, V3.cross_z]
  ring

/-! ## Dofs one at a time -/

theorem lin_unit {mb : MultiBody K} {st : KState K} {path : List ℕ} (hm : ∀ i ∈ path, i < mb.joints.length)
    {φ : MV K → K} (hφ : MV.Lin (K := K) φ) {c : ℕ} (hc : c < mb.nrDof) :
    φ (wSum mb st path (unitRate c)) = onDofs mb path (fun k => φ ((pathCols mb
      (fun i d => (kPose st i).inv.mulM (kSub st i d)) path).getD k 0)) c := by
  unfold wSum
  rw [← onDofs_pathSum mb _ _ hφ path hm]
  simp [unitRate, hc]

/-- Linear functions of the motion of a body, dof by dof. -/
theorem lin_dofs {mb : MultiBody K} {st : KState K} {path : List ℕ} (hm : ∀ i ∈ path, i < mb.joints.length)
    {φ : MV K → K} (hφ : MV.Lin (K := K) φ) (z : ℕ → K) :
    ∑ c ∈ range mb.nrDof, φ (wSum mb st path (unitRate c)) * z c = φ (wSum mb st path z) := by
  rw [wSum, ← onDofs_pathSum mb _ z hφ path hm]
  exact Finset.sum_congr rfl fun c hc => by rw [lin_unit hm hφ (by simpa using hc)]

/-- Column of a contact point. -/
theorem pointCol_eq {mb : MultiBody K} {st : KState K} {path : List ℕ} {v : ℕ → K} (h : Moves mb st path v)
    {N : ℕ} (hN : path.getLast? = some N) (p : V3 K) {J : Mat K}
    (hJ : Jac.bodyJacobian mb st ⟨path, p⟩ = .ok J) {c : ℕ} (hc : c < mb.nrDof) :
    pointCol mb path J c = (((PT.ofTrans p).mul (kPose st N)).mulM (wSum mb st path (unitRate c))).lin := by
  have e := (jac_bodyJac (J := ⟨path, p⟩) h.sized hN).symm.trans hJ
  have e := Out.ok.inj e
  subst e
  set X := (PT.ofTrans p).mul (kPose st N) with hX
  have key : ∀ a, 3 ≤ a → a < 6 → onDofs mb path (fun k => ((pathCols mb (kCol st X) path).getD k 0).get a) c
      = (X.mulM (wSum mb st path (unitRate c))).get a := fun a _ ha => by
    have := full_gen h.sized.mem h.rigid X ⟨6, mb.nrDof, fun a c => onDofs mb path
      (fun k => ((pathCols mb (kCol st X) path).getD k 0).get a) c⟩ 6 (fun a m => m.get a)
      lin_get rfl (fun a _ c _ => rfl) (unitRate c) a ha
    rw [← this]
    simp [Mat.rowMul, unitRate, hc]
  unfold pointCol
  dsimp only
  rw [key 3 le_rfl (by norm_num), key 4 (by norm_num) (by norm_num), key 5 (by norm_num) (by norm_num)]
  ext <;> simp [MV.get, V3.get]

/-! ## The rows of the equation of motion -/

/-- Force (at the origin of the body, in its axes) that makes body `i` move with the joint accelerations `z`
under gravity. -/
def bodyForce (bs : List (BodyI K)) (mb : MultiBody K) (st : KState K) (g : V3 K) (z : ℕ → K) (i : ℕ) : FV K :=
  (inertiaAt bs i).mul ((kPose st i).mulM (wSum mb st (inertiaAt bs i).b.path z) + (kAcc st i + (kPose st i).mulM ⟨0, g⟩))
    + (kVel st i).crossDual ((inertiaAt bs i).mul (kVel st i))

theorem inertia_lin {B : BodyI K} {m : MV K} : MV.Lin (K := K) fun u => pair m (B.mul u) := by
  have hz : B.mul (0 : MV K) = 0 := by ext <;> simp [BodyI.mul, M3.mulVec, V3.dot]
  refine ⟨by rw [hz, pair_zero], fun a b => by rw [inertia_add, pair_add], fun c a => ?_⟩
  simp only [pair, BodyI.mul, M3.mulVec, V3.dot, MV.smul_ang, MV.smul_lin, V3.smul_x, V3.smul_y, V3.smul_z, V3.add_x,
    V3.add_y, V3.add_z, V3.sub_x, V3.sub_y, V3.sub_z, V3.cross_x, V3.cross_y, V3.cross_z]
  ring

theorem mv_comp_lin {φ : MV K → K} (hφ : MV.Lin (K := K) φ) (X : PT K) : MV.Lin (K := K) fun u => φ (X.mulM u) :=
  ⟨by rw [(PT.mulM_lin X).zero, hφ.zero], fun a b => by rw [PT.mulM_add, hφ.add], fun c a => by
    rw [PT.mulM_smul, hφ.smul]⟩

/-- Row `a` of `H z + C`: the power of the forces that move the bodies, per unit rate of dof `a`. -/
theorem dynRow_eq {bs : List (BodyI K)} {mb : MultiBody K} {st : KState K} {g : V3 K} {env : MotionEnv K}
    (D : Dynamics bs mb st g env) (hm : ∀ i < bs.length, ∀ j ∈ (inertiaAt bs i).b.path, j < mb.joints.length)
    (z : ℕ → K) {a : ℕ} (ha : a < mb.nrDof) :
    ∑ c ∈ range mb.nrDof, env.H.get a c * z c + env.C.get a
      = ∑ i ∈ range bs.length, pair (bodyCol bs mb st i a) (bodyForce bs mb st g z i) := by
  rw [D.C a ha]
  have e : ∀ c ∈ range mb.nrDof, env.H.get a c * z c
      = ∑ i ∈ range bs.length, pair (bodyCol bs mb st i a) ((inertiaAt bs i).mul (bodyCol bs mb st i c)) * z c :=
    fun c hc => by rw [D.H a ha c (by simpa using hc), Finset.sum_mul]
  rw [Finset.sum_congr rfl e, Finset.sum_comm, ← Finset.sum_add_distrib]
  refine Finset.sum_congr rfl fun i hi => ?_
  have := lin_dofs (st := st) (hm i (by simpa using hi)) (mv_comp_lin (inertia_lin (B := inertiaAt bs i)
    (m := bodyCol bs mb st i a)) (kPose st i)) z
  rw [show (∑ c ∈ range mb.nrDof, pair (bodyCol bs mb st i a) ((inertiaAt bs i).mul (bodyCol bs mb st i c)) * z c)
    = _ from this, ← pair_add]
  congr 1
  unfold bodyForce
  simp only [inertia_add]
  ext <;> simp <;> ring

/-- Row `a` of the contact forces. -/
theorem contactRow_eq {rk : RobotKin K} {st : KState K} {v : ℕ → K} {env : MotionEnv K} {l : List (Side K)}
    (hc : ContactsAt rk st v env l) {s : Side K} (hs : s ∈ l) (x : ℕ → K) {a : ℕ} (ha : a < rk.mb.nrDof) :
    contactTorque rk env s x a = ∑ j ∈ range s.points.length,
      pair (wSum rk.mb st (pathOf rk s.body) (unitRate a))
        (((PT.ofTrans (s.points.getD j 0)).mul (kPose st (Side.at rk s))).transMul ⟨0, s.force x j⟩) := by
  obtain ⟨⟨N, hN⟩, hm, hJ⟩ := hc s hs
  unfold contactTorque
  refine Finset.sum_congr rfl fun j hj => ?_
  rw [pointCol_eq hm hN _ (hJ j (by simpa using hj)) ha, ← pair_mulM]
  simp [pair, Side.at, hN, V3.dot]


/-! ## The rows of a floating base -/

namespace Spec

/-- The unit motions of a free joint. -/
def unit6 (d : ℕ) : MV K := units.getD d 0
where units : List (MV K) := [⟨⟨1, 0, 0⟩, 0⟩, ⟨⟨0, 1, 0⟩, 0⟩, ⟨⟨0, 0, 1⟩, 0⟩,
  ⟨0, ⟨1, 0, 0⟩⟩, ⟨0, ⟨0, 1, 0⟩⟩, ⟨0, ⟨0, 0, 1⟩⟩]

/-- Joint 0 is a free joint. -/
structure FloatingBase (mb : MultiBody K) (st : KState K) : Prop where
  dof : jdof mb 0 = 6
  sub : ∀ d < 6, kSub st 0 d = unit6 d

end Spec

theorem lin_unit6 {φ ψ : MV K → K} (hφ : MV.Lin (K := K) φ) (hψ : MV.Lin (K := K) ψ)
    (h : ∀ d < 6, φ (unit6 d) = ψ (unit6 d)) (u : MV K) : φ u = ψ u := by
  have e : u = u.ang.x • unit6 0 + (u.ang.y • unit6 1 + (u.ang.z • unit6 2 + (u.lin.x • unit6 3
      + (u.lin.y • unit6 4 + u.lin.z • unit6 5)))) := by
    ext <;> simp [unit6, unit6.units]
  rw [e]
  simp only [hφ.add, hψ.add, hφ.smul, hψ.smul, h 0 (by norm_num), h 1 (by norm_num), h 2 (by norm_num),
    h 3 (by norm_num), h 4 (by norm_num), h 5 (by norm_num)]

theorem jpos_ge {mb : MultiBody K} {i : ℕ} (h1 : 1 ≤ i) (hi : i < mb.joints.length) :
    jdof mb 0 ≤ jpos mb i := by
  induction i with
  | zero => omega
  | succ n ih =>
    rw [jpos_succ mb n (by omega)]
    rcases Nat.eq_zero_or_pos n with rfl | hn
    · omega
    · have := ih hn (by omega)
      omega

/-- The base moves the whole robot. -/
theorem base_col {mb : MultiBody K} {st : KState K} (F : FloatingBase mb st) {path : List ℕ}
    (h0 : path.head? = some 0) (hn : path.Nodup) (hm : ∀ i ∈ path, i < mb.joints.length) {d : ℕ} (hd : d < 6) :
    wSum mb st path (unitRate d) = (kPose st 0).inv.mulM (unit6 d) := by
  cases path with
  | nil => simp at h0
  | cons i t =>
    simp only [List.head?_cons, Option.some.injEq] at h0
    subst h0
    have ht : ∀ l : List ℕ, (∀ i ∈ l, i ≠ 0 ∧ i < mb.joints.length) →
        pathSum mb (fun i d => (kPose st i).inv.mulM (kSub st i d)) (unitRate d) l = 0 := by
      intro l hl
      induction l with
      | nil => rfl
      | cons i t ih =>
        rw [pathSum, ih fun j hj => hl j (by simp [hj]), add_zero]
        refine Finset.sum_eq_zero fun e _ => ?_
        obtain ⟨h1, h2⟩ := hl i (by simp)
        have := jpos_ge (mb := mb) (i := i) (by omega) h2
        rw [F.dof] at this
        rw [unitRate, if_neg (by omega)]
        ext <;> simp
    unfold wSum
    rw [pathSum, ht t fun j hj => ⟨fun e => (List.nodup_cons.1 hn).1 (e ▸ hj), hm j (by simp [hj])⟩, add_zero, F.dof,
      Finset.sum_eq_single d]
    · rw [unitRate, if_pos (by simp [jpos]), F.sub d hd]
      ext <;> simp
    · intro e _ he
      rw [unitRate, if_neg (by simpa [jpos] using he)]
      ext <;> simp
    · intro h
      exact absurd (Finset.mem_range.2 hd) h

/-- Wrench of the contact forces of a side about the world origin. -/
def sideWrench (rk : RobotKin K) (st : KState K) (x : ℕ → K) (s : Side K) : FV K :=
  ∑ j ∈ range s.points.length,
    ((PT.ofTrans (s.points.getD j 0)).mul (kPose st (Side.at rk s))).transMul ⟨0, s.force x j⟩

/-- If the rows of the base hold without torque, the forces that move the bodies are the contact forces. -/
theorem wrench_balance {bs : List (BodyI K)} {rk : RobotKin K} {st : KState K} {v : ℕ → K} {g : V3 K}
    {env : MotionEnv K} (D : Dynamics bs rk.mb st g env) (F : FloatingBase rk.mb st)
    (h0 : (kPose st 0).Rigid) (hN : 6 ≤ rk.mb.nrDof)
    (hb : ∀ i < bs.length, (inertiaAt bs i).b.path.head? = some 0 ∧ (inertiaAt bs i).b.path.Nodup ∧
      ∀ j ∈ (inertiaAt bs i).b.path, j < rk.mb.joints.length)
    {l : List (Side K)} (hc : ContactsAt rk st v env l) (hl : ∀ s ∈ l, (pathOf rk s.body).head? = some 0)
    (x z : ℕ → K) (hrow : ∀ a < 6, ∑ c ∈ range rk.mb.nrDof, env.H.get a c * z c + env.C.get a
      = (l.map fun s => contactTorque rk env s x a).sum) :
    ∑ i ∈ range bs.length, (kPose st i).transMul (bodyForce bs rk.mb st g z i)
      = (l.map (sideWrench rk st x)).sum := by
  refine pair_inj h0 fun u => ?_
  refine lin_unit6 (mv_comp_lin (pair_lin _) _) (mv_comp_lin (pair_lin _) _) (fun d hd => ?_) u
  have hr := hrow d hd
  rw [dynRow_eq D (fun i hi => (hb i hi).2.2) z (by omega)] at hr
  rw [pair_sum, pair_list_sum]
  refine Eq.trans (Finset.sum_congr rfl fun i hi => ?_) (hr.trans (congrArg List.sum (List.map_congr_left fun s hs => ?_)))
  · obtain ⟨b1, b2, b3⟩ := hb i (by simpa using hi)
    rw [← pair_mulM, bodyCol, base_col F b1 b2 b3 hd]
  · obtain ⟨-, hm, -⟩ := hc s hs
    rw [contactRow_eq hc hs x (by omega), sideWrench, pair_sum, base_col F (hl s hs) hm.sized.nodup hm.sized.mem hd]

/-! ## About the centre of mass -/

theorem atCom_transMul (X : PT K) (c : V3 K) (f : FV K) :
    (atCom X c).transMul f = ⟨(X.transMul f).couple - c.cross (X.transMul f).force, (X.transMul f).force⟩ := by
  unfold PT.transMul
  rw [atCom_E, atCom_r]
  ext <;> simp <;> ring

theorem side_com (rk : RobotKin K) (st : KState K) (x : ℕ → K) (c : V3 K) (s : Side K) :
    (⟨(sideWrench rk st x s).couple - c.cross (sideWrench rk st x s).force, (sideWrench rk st x s).force⟩ : FV K)
      = ∑ j ∈ range s.points.length, ⟨(Side.pointW rk st s j - c).cross (Side.forceW rk st s x j), Side.forceW rk st s x j⟩ := by
  have hz : ∀ v : V3 K, M3.mulVec (M3.one.mul (kPose st (Side.at rk s)).E).transpose v
      = (kPose st (Side.at rk s)).E.transpose.mulVec v := fun v => by
    ext <;> simp [M3.mul, M3.one, M3.mulVec, M3.transpose, V3.dot]
  have e : ∀ j, ((PT.ofTrans (s.points.getD j 0)).mul (kPose st (Side.at rk s))).transMul ⟨0, s.force x j⟩
      = ⟨(Side.pointW rk st s j).cross (Side.forceW rk st s x j), Side.forceW rk st s x j⟩ := fun j => by
    unfold PT.transMul Side.pointW Side.forceW
    unfold PT.mul PT.ofTrans
    dsimp only
    simp only [hz, M3.mulVec_zero]
    simp
  unfold sideWrench
  simp only [e]
  have hc : (∑ j ∈ range s.points.length, (⟨(Side.pointW rk st s j).cross (Side.forceW rk st s x j),
      Side.forceW rk st s x j⟩ : FV K)).couple - c.cross (∑ j ∈ range s.points.length,
      (⟨(Side.pointW rk st s j).cross (Side.forceW rk st s x j), Side.forceW rk st s x j⟩ : FV K)).force
      = (∑ j ∈ range s.points.length, (⟨(Side.pointW rk st s j - c).cross (Side.forceW rk st s x j),
        Side.forceW rk st s x j⟩ : FV K)).couple := by
    rw [FV.sum_couple, FV.sum_couple, FV.sum_force, V3.cross_sum', ← Finset.sum_sub_distrib]
    exact Finset.sum_congr rfl fun j _ => by ext <;> simp <;> ring
  rw [FV.ext_iff]
  refine ⟨hc, ?_⟩
  dsimp only
  rw [FV.sum_force, FV.sum_force]

end

section
variable {K : Type} [Field K] [LinearOrder K] [IsStrictOrderedRing K]

/-- Gravity on body `i`. -/
theorem weight_body (bs : List (BodyI K)) (st : KState K) (g : V3 K) (i : ℕ) (h : (kPose st i).Rigid) :
    (kPose st i).transMul ((inertiaAt bs i).mul ((kPose st i).mulM ⟨0, g⟩))
      = ⟨((inertiaAt bs i).b.mass • (kPose st i).r
          + (kPose st i).E.transpose.mulVec (inertiaAt bs i).b.h).cross g, (inertiaAt bs i).b.mass • g⟩ := by
  have h1 := M3.RowsOrtho.transpose_mulVec (m := (kPose st i).E) h.1 g
  have h2 := M3.IsRot.cross_mulVec (M3.IsRot.transpose h) (inertiaAt bs i).b.h ((kPose st i).E.mulVec g)
  rw [h1] at h2
  unfold PT.mulM
  dsimp only
  rw [M3.mulVec_zero]
  unfold BodyI.mul PT.transMul
  dsimp only
  rw [M3.mulVec_zero, show (0 : V3 K) + (inertiaAt bs i).b.h.cross ((kPose st i).E.mulVec (g - (kPose st i).r.cross 0))
    = (inertiaAt bs i).b.h.cross ((kPose st i).E.mulVec g) by ext <;> simp [M3.mulVec, V3.dot], ← h2,
    show (inertiaAt bs i).b.mass • (kPose st i).E.mulVec (g - (kPose st i).r.cross 0) - (inertiaAt bs i).b.h.cross 0
    = (inertiaAt bs i).b.mass • (kPose st i).E.mulVec g by ext <;> simp [M3.mulVec, V3.dot], M3.mulVec_smul, h1]
  ext <;> simp <;> ring

/-- Moving a wrench to the centre of mass. -/
def shift (c : V3 K) (W : FV K) : FV K := ⟨W.couple - c.cross W.force, W.force⟩

theorem shift_add (c : V3 K) (W U : FV K) : shift c (W + U) = shift c W + shift c U := by
  ext <;> simp [shift] <;> ring

theorem shift_sum (c : V3 K) (n : ℕ) (f : ℕ → FV K) : shift c (∑ i ∈ range n, f i) = ∑ i ∈ range n, shift c (f i) := by
  induction n with
  | zero => ext <;> simp [shift]
  | succ n ih => rw [Finset.sum_range_succ, Finset.sum_range_succ, shift_add, ih]

theorem v3_mul_inv {m : K} (h : m ≠ 0) (v : V3 K) : m • (1 / m) • v = v := by
  ext <;> simp [h]

theorem mom_force (bs : List (BodyI K)) (st : KState K) (hM : massSum (bs.map BodyI.b) ≠ 0) (c : V3 K) :
    (∑ i ∈ range bs.length, bodyMom bs st c i (kVel st i)).force = massSum (bs.map BodyI.b) • momComDot bs st := by
  rw [FV.sum_force]
  unfold momComDot
  rw [v3_mul_inv hM]
  refine Finset.sum_congr rfl fun i _ => ?_
  unfold bodyMom PT.transMul
  rw [atCom_E]
  rfl

theorem massSum_eq (bs : List (BodyI K)) : massSum (bs.map BodyI.b) = ∑ i ∈ range bs.length, (inertiaAt bs i).b.mass := by
  unfold massSum
  rw [List.length_map]
  exact Finset.sum_congr rfl fun i _ => by rw [bodyAt_map]

theorem drift_zero (bs : List (BodyI K)) (st : KState K) (hM : massSum (bs.map BodyI.b) ≠ 0) (c : V3 K) :
    ∑ i ∈ range bs.length, MV.crossDual ⟨0, momComDot bs st⟩ (bodyMom bs st c i (kVel st i)) = 0 := by
  have e : ∀ i, MV.crossDual ⟨0, momComDot bs st⟩ (bodyMom bs st c i (kVel st i))
      = ⟨(momComDot bs st).cross (bodyMom bs st c i (kVel st i)).force, 0⟩ := fun i => by
    ext <;> simp [MV.crossDual]
  simp only [e]
  have hf := mom_force bs st hM c
  rw [FV.sum_force] at hf
  have h1 : (∑ i ∈ range bs.length, (⟨(momComDot bs st).cross (bodyMom bs st c i (kVel st i)).force, 0⟩ : FV K)).couple = 0 := by
    rw [FV.sum_couple, ← V3.cross_sum', hf]
    ext <;> simp <;> ring
  have h2 : (∑ i ∈ range bs.length, (⟨(momComDot bs st).cross (bodyMom bs st c i (kVel st i)).force, 0⟩ : FV K)).force = 0 := by
    rw [FV.sum_force]
    simp
  rw [FV.ext_iff]
  exact ⟨h1, h2⟩

/-- The weight has no moment about the centre of mass. -/
theorem weight_sum (bs : List (BodyI K)) (st : KState K) (g : V3 K) (hr : ∀ i < bs.length, (kPose st i).Rigid)
    (hM : massSum (bs.map BodyI.b) ≠ 0) :
    shift (momCom bs st) (∑ i ∈ range bs.length, (kPose st i).transMul ((inertiaAt bs i).mul ((kPose st i).mulM ⟨0, g⟩)))
      = ⟨0, massSum (bs.map BodyI.b) • g⟩ := by
  rw [Finset.sum_congr rfl fun i hi => weight_body bs st g i (hr i (by simpa using hi))]
  have hc : massSum (bs.map BodyI.b) • momCom bs st = ∑ i ∈ range bs.length, ((inertiaAt bs i).b.mass • (kPose st i).r
      + (kPose st i).E.transpose.mulVec (inertiaAt bs i).b.h) := by
    unfold momCom
    rw [v3_mul_inv hM]
  have hf : ∑ i ∈ range bs.length, (inertiaAt bs i).b.mass • g = massSum (bs.map BodyI.b) • g := by
    rw [massSum_eq]
    exact (V3.sum_smul' _ _ _).symm
  unfold shift
  rw [FV.sum_couple, FV.sum_force]
  dsimp only
  rw [hf, ← V3.sum_cross', ← hc]
  ext <;> simp <;> ring

/-- The rate of change of the momentum about the centre of mass. -/
theorem momentum_rate {bs : List (BodyI K)} {mb : MultiBody K} {st : KState K} (g : V3 K)
    (hr : ∀ i < bs.length, (kPose st i).Rigid) (hM : massSum (bs.map BodyI.b) ≠ 0) (z : ℕ → K) {W : FV K}
    (hW : ∑ i ∈ range bs.length, (kPose st i).transMul (bodyForce bs mb st g z i) = W) :
    (∑ i ∈ range bs.length, bodyMom bs st (momCom bs st) i ((kPose st i).mulM (wSum mb st (inertiaAt bs i).b.path z)))
      + (∑ i ∈ range bs.length, bodyMomDot bs st (momCom bs st) (momComDot bs st) i) + ⟨0, massSum (bs.map BodyI.b) • g⟩
      = shift (momCom bs st) W := by
  have hd := drift_zero bs st hM (momCom bs st)
  have e : ∑ i ∈ range bs.length, bodyMomDot bs st (momCom bs st) (momComDot bs st) i
      = ∑ i ∈ range bs.length, (atCom (kPose st i) (momCom bs st)).transMul ((inertiaAt bs i).mul (kAcc st i)
      + (kVel st i).crossDual ((inertiaAt bs i).mul (kVel st i))) := by
    have : (∑ i ∈ range bs.length, bodyMomDot bs st (momCom bs st) (momComDot bs st) i)
        + ∑ i ∈ range bs.length, MV.crossDual ⟨0, momComDot bs st⟩ (bodyMom bs st (momCom bs st) i (kVel st i))
        = ∑ i ∈ range bs.length, (atCom (kPose st i) (momCom bs st)).transMul ((inertiaAt bs i).mul (kAcc st i)
          + (kVel st i).crossDual ((inertiaAt bs i).mul (kVel st i))) :=
      (Finset.sum_add_distrib).symm.trans (Finset.sum_congr rfl fun i _ => by
        unfold bodyMomDot
        ext <;> simp)
    rw [← this, hd, add_zero]
  rw [e, ← weight_sum bs st g hr hM, ← hW, shift_sum, shift_sum, ← Finset.sum_add_distrib, ← Finset.sum_add_distrib]
  refine Finset.sum_congr rfl fun i _ => ?_
  unfold bodyForce bodyMom
  simp only [atCom_transMul, inertia_add, transMul_add]
  ext <;> simp [shift] <;> ring


/-! ## All contacts together -/

theorem list_range_sum {M : Type} [AddCommMonoid M] (n : ℕ) (f : ℕ → M) :
    ((List.range n).map f).sum = ∑ j ∈ range n, f j := by
  induction n with
  | zero => rfl
  | succ n ih => rw [List.range_succ, List.map_append, List.sum_append, ih, Finset.sum_range_succ]; simp

theorem side_pairs (rk : RobotKin K) (st : KState K) (x : ℕ → K) (c : V3 K) (l : List (Side K)) :
    shift c (l.map (sideWrench rk st x)).sum
      = ⟨((contactPairs rk st x l).map fun q => (q.1 - c).cross q.2).sum, ((contactPairs rk st x l).map Prod.snd).sum⟩ := by
  induction l with
  | nil => ext <;> simp [shift, contactPairs]
  | cons s t ih =>
    have e : shift c (sideWrench rk st x s) = _ := side_com rk st x c s
    rw [List.map_cons, List.sum_cons, shift_add, ih, e]
    unfold contactPairs
    rw [List.flatMap_cons, List.map_append, List.sum_append, List.map_append, List.sum_append, List.map_map, List.map_map,
      list_range_sum, list_range_sum, FV.ext_iff]
    refine ⟨?_, ?_⟩
    · rw [FV.add_couple, FV.sum_couple]; rfl
    · rw [FV.add_force, FV.sum_force]; rfl

theorem contactsOn_at {bs : List (BodyI K)} {rk : RobotKin K} {st : KState K} {v : ℕ → K} {env : MotionEnv K}
    {l : List (Side K)} (hB : BodiesMove (bs.map BodyI.b) rk.mb st v) (h : ContactsOn bs rk st env l) :
    ContactsAt rk st v env l := by
  intro s hs
  obtain ⟨i, hi, e, hJ⟩ := h s hs
  obtain ⟨h1, h2⟩ := hB i (by simpa using hi)
  rw [bodyAt_map] at h1 h2
  exact ⟨⟨i, e ▸ h1⟩, e ▸ h2, hJ⟩

theorem nrDof_ge {mb : MultiBody K} (h : 0 < mb.joints.length) : jdof mb 0 ≤ mb.nrDof := by
  have := jpos_fit mb h
  omega

/-- Newton and Euler, from the six rows of the base. -/
theorem momentum_balance {bs : List (BodyI K)} {rk : RobotKin K} {st : KState K} {v : ℕ → K} {g : V3 K}
    {env : MotionEnv K} (D : Dynamics bs rk.mb st g env) (F : FloatingBase rk.mb st)
    (hB : BodiesMove (bs.map BodyI.b) rk.mb st v) (hM : massSum (bs.map BodyI.b) ≠ 0)
    (hb : ∀ i < bs.length, (inertiaAt bs i).b.path.head? = some 0)
    {l : List (Side K)} (hc : ContactsOn bs rk st env l)
    (x z : ℕ → K) (hrow : ∀ a < 6, ∑ c ∈ range rk.mb.nrDof, env.H.get a c * z c + env.C.get a
      = (l.map fun s => contactTorque rk env s x a).sum) :
    (∑ i ∈ range bs.length, bodyMom bs st (momCom bs st) i ((kPose st i).mulM (wSum rk.mb st (inertiaAt bs i).b.path z)))
      + (∑ i ∈ range bs.length, bodyMomDot bs st (momCom bs st) (momComDot bs st) i) + ⟨0, massSum (bs.map BodyI.b) • g⟩
      = ⟨((contactPairs rk st x l).map fun q => (q.1 - momCom bs st).cross q.2).sum,
        ((contactPairs rk st x l).map Prod.snd).sum⟩ := by
  have hm : ∀ i < bs.length, Moves rk.mb st (inertiaAt bs i).b.path v := fun i hi => by
    have := (hB i (by simpa using hi)).2
    rwa [bodyAt_map] at this
  have hne : 0 < bs.length := by
    rcases Nat.eq_zero_or_pos bs.length with h | h
    · exact absurd (by rw [massSum_eq, h]; rfl) hM
    · exact h
  have h0 : (0 : ℕ) ∈ (inertiaAt bs 0).b.path := List.mem_of_head? (hb 0 hne)
  have hN : 6 ≤ rk.mb.nrDof := F.dof ▸ nrDof_ge ((hm 0 hne).sized.mem 0 h0)
  have hr : ∀ i < bs.length, (kPose st i).Rigid := fun i hi => by
    have := (hB i (by simpa using hi)).1
    rw [bodyAt_map] at this
    exact (hm i hi).rigid i (List.mem_of_getLast? this)
  have hc' : ContactsAt rk st v env l := contactsOn_at hB hc
  rw [← side_pairs]
  refine momentum_rate g hr hM z (wrench_balance D F ((hm 0 hne).rigid 0 h0) hN (fun i hi => ⟨hb i hi,
    (hm i hi).sized.nodup, (hm i hi).sized.mem⟩) hc' (fun s hs => ?_) x z hrow)
  obtain ⟨i, hi, e, -⟩ := hc s hs
  rw [e]
  exact hb i hi

/-! ## Power -/

theorem power_rows {bs : List (BodyI K)} {rk : RobotKin K} {st : KState K} {v : ℕ → K} {g : V3 K}
    {env : MotionEnv K} (D : Dynamics bs rk.mb st g env) (hB : BodiesMove (bs.map BodyI.b) rk.mb st v) (z : ℕ → K) :
    ∑ a ∈ range rk.mb.nrDof, (∑ c ∈ range rk.mb.nrDof, env.H.get a c * z c + env.C.get a) * v a
      = ∑ i ∈ range bs.length, pair (kVel st i) (bodyForce bs rk.mb st g z i) := by
  have hm : ∀ i < bs.length, (inertiaAt bs i).b.path.getLast? = some i ∧ Moves rk.mb st (inertiaAt bs i).b.path v :=
    fun i hi => by
      have := hB i (by simpa using hi)
      rwa [bodyAt_map] at this
  have e : ∀ a ∈ range rk.mb.nrDof, (∑ c ∈ range rk.mb.nrDof, env.H.get a c * z c + env.C.get a) * v a
      = ∑ i ∈ range bs.length, pair (bodyCol bs rk.mb st i a) (bodyForce bs rk.mb st g z i) * v a := fun a ha => by
    rw [dynRow_eq D (fun i hi => (hm i hi).2.sized.mem) z (by simpa using ha), Finset.sum_mul]
  rw [Finset.sum_congr rfl e, Finset.sum_comm]
  refine Finset.sum_congr rfl fun i hi => ?_
  obtain ⟨hl, hmv⟩ := hm i (by simpa using hi)
  have := lin_dofs (st := st) hmv.sized.mem (mv_comp_lin (pair_lin (bodyForce bs rk.mb st g z i)) (kPose st i)) v
  refine Eq.trans this ?_
  have hv := moves_vel hmv hl
  unfold wSum
  rw [← hv, PT.mulM_inv _ (hmv.rigid _ (List.mem_of_getLast? hl))]

theorem power_contact {rk : RobotKin K} {st : KState K} {v : ℕ → K} {env : MotionEnv K} {l : List (Side K)}
    (hc : ContactsAt rk st v env l) (x : ℕ → K) {s : Side K} (hs : s ∈ l) :
    ∑ a ∈ range rk.mb.nrDof, contactTorque rk env s x a * v a
      = ∑ j ∈ range s.points.length, (Side.velW rk st s j).dot (Side.forceW rk st s x j) := by
  rw [Finset.sum_congr rfl fun a ha => by rw [contactRow_eq hc hs x (by simpa using ha), Finset.sum_mul],
    Finset.sum_comm]
  refine Finset.sum_congr rfl fun j _ => ?_
  obtain ⟨⟨N, hN⟩, hm, -⟩ := hc s hs
  refine (lin_dofs hm.sized.mem (pair_lin _) v).trans ?_
  have hv := moves_vel hm hN
  have hr : (kPose st N).Rigid := hm.rigid _ (List.mem_of_getLast? hN)
  unfold wSum
  have hA : Side.at rk s = N := by simp [Side.at, hN]
  rw [← hv, ← pair_mulM, hA, PT.mul_mulM _ _ hr, PT.mulM_inv _ hr]
  unfold Side.velW Side.forceW
  rw [hA, (M3.IsRot.transpose hr).1.dot_mulVec]
  simp only [pair, PT.mulM, PT.ofTrans, M3.one, M3.mulVec, V3.dot]
  simp
  ring

theorem pair_inertia_comm {B : BodyI K} (hI : ∀ u w : V3 K, u.dot (B.I.mulVec w) = w.dot (B.I.mulVec u)) (m n : MV K) :
    pair m (B.mul n) = pair n (B.mul m) := by
  have := hI m.ang n.ang
  simp only [pair, BodyI.mul, V3.dot, V3.add_x, V3.add_y, V3.add_z, V3.sub_x, V3.sub_y, V3.sub_z, V3.cross_x, V3.cross_y,
    V3.cross_z, V3.smul_x, V3.smul_y, V3.smul_z] at this ⊢
  linear_combination this

end

end Verif
