import Verif.Model.CoM
import Verif.Props.Drift
import Verif.Props.Multi
import Verif.Props.RelDist

/-!
# C61: centre of mass tasks

The speed of the CoM task is its Jacobian applied to the joint velocities, its normal acceleration is the
drift, and without body weights the error decreases at the reported speed.
-/

set_option autoImplicit false
set_option linter.unusedSectionVars false

namespace Verif

open Finset Spec

section
variable {K : Type} [Field K] [LinearOrder K] [IsStrictOrderedRing K]

namespace Spec

/-- Body number `i`. -/
def bodyAt (bs : List (BodyM K)) (i : ℕ) : BodyM K := bs.getD i ⟨0, 0, []⟩

/-- Total mass. -/
def massSum (bs : List (BodyM K)) : K := ∑ i ∈ range bs.length, (bodyAt bs i).mass

/-- The bodies of a robot in the state `st` with joint velocities `x`: body `i` is carried by joint `i`, the
last one of its path, and the state is the result of forward kinematics and velocity. -/
def BodiesMove (bs : List (BodyM K)) (mb : MultiBody K) (st : KState K) (x : ℕ → K) : Prop :=
  ∀ i < bs.length, (bodyAt bs i).path.getLast? = some i ∧ Moves mb st (bodyAt bs i).path x

/-- Masses are positive, or zero with a zero first moment. -/
def MassOK (bs : List (BodyM K)) : Prop :=
  ∀ i < bs.length, 0 ≤ (bodyAt bs i).mass ∧ ((bodyAt bs i).mass = 0 → (bodyAt bs i).h = 0)

/-- The centre of mass: total mass times its position is the sum of the masses times the positions of the
bodies' centres of mass. -/
def IsCoM (bs : List (BodyM K)) (st : KState K) (c : V3 K) : Prop :=
  ∃ p : ℕ → V3 K, (∀ i < bs.length, (bodyAt bs i).mass • p i = (bodyAt bs i).h) ∧
    massSum bs • c = ∑ i ∈ range bs.length,
      (bodyAt bs i).mass • ((PT.ofTrans (p i)).mul (kPose st i)).r

/-- The executions of a CoM task: the inertial parameters last used, the weights and the target. -/
inductive CoMRun (w : List K) : List (BodyM K) → V3 K → CoMT K → Prop
  | make {bs : List (BodyM K)} {com : V3 K} (jA : V3 K) (j : Out3 K) {s : CoMT K} :
      CoMT.makeW bs com w jA j = .ok s → CoMRun w bs com s
  | com {bs : List (BodyM K)} {com : V3 K} {s : CoMT K} (c : V3 K) :
      CoMRun w bs com s → CoMRun w bs c (s.setCom c)
  | inertial {bs : List (BodyM K)} {com : V3 K} {s s' : CoMT K} (bs' : List (BodyM K)) :
      CoMRun w bs com s → s.updateInertial bs' = .ok s' → CoMRun w bs' com s'
  | update {bs : List (BodyM K)} {com : V3 K} {s s' : CoMT K} (mb : MultiBody K) (st : KState K) :
      CoMRun w bs com s → s.update bs mb st = .ok s' → CoMRun w bs com s'

end Spec

/-! ## What RBDyn computes -/

/-- Coefficient of a body. -/
def comCoef (bs : List (BodyM K)) (w : List K) (i : ℕ) : K :=
  if 0 < (bodyAt bs i).mass then (bodyAt bs i).mass * w.getD i 0 / massSum bs else 0

/-- Centre of mass of a body, in its frame. -/
def comPt (bs : List (BodyM K)) (i : ℕ) : V3 K :=
  if 0 < (bodyAt bs i).mass then (1 / (bodyAt bs i).mass) • (bodyAt bs i).h else 0

/-- The members of an up to date `CoMJacobian`. -/
def comJacOf (bs : List (BodyM K)) (w : List K) : ComJac K :=
  ⟨(List.range bs.length).map (comCoef bs w),
    (List.range bs.length).map fun i => ⟨(bodyAt bs i).path, comPt bs i⟩, w⟩

theorem vecAt_bodyAt {bs : List (BodyM K)} {i : ℕ} (h : i < bs.length) : vecAt bs i = .ok (bodyAt bs i) :=
  vecAt_getD _ h

/-- One step of the loop of `updateInertial`. -/
theorem inertial_step (bs : List (BodyM K)) (w : List K) {n : ℕ} (hn : n < bs.length) (hw : n < w.length)
    (hM : massSum bs ≠ 0) (l : List K × List (Jac K)) :
    (do
      let b ← vecAt bs n
      let w ← vecAt w n
      if 0 < b.mass then do
        let c ← fdiv (b.mass * w) (massSum bs)
        pure (l.1 ++ [c], l.2 ++ [⟨b.path, (1 / b.mass) • b.h⟩])
      else pure (l.1 ++ [0], l.2 ++ [⟨b.path, 0⟩]) : Out (List K × List (Jac K)))
      = .ok (l.1 ++ [comCoef bs w n], l.2 ++ [⟨(bodyAt bs n).path, comPt bs n⟩]) := by
  rw [vecAt_bodyAt hn, Out.ok_bind, vecAt_getD 0 hw, Out.ok_bind]
  unfold comCoef comPt
  by_cases hm : 0 < (bodyAt bs n).mass
  · simp only [if_pos hm]
    have e : fdiv ((bodyAt bs n).mass * w.getD n 0) (massSum bs)
        = .ok ((bodyAt bs n).mass * w.getD n 0 / massSum bs) := if_neg hM
    rw [e]
    rfl
  · simp only [if_neg hm]
    rfl

theorem updateInertial_ok {bs : List (BodyM K)} {J : ComJac K} (hM : massSum bs ≠ 0)
    (hw : bs.length ≤ J.weight.length) : J.updateInertial bs = .ok (comJacOf bs J.weight) := by
  unfold ComJac.updateInertial
  dsimp only
  obtain ⟨s', h1, h2⟩ := forRange_inv (n := bs.length) (s := (([], []) : List K × List (Jac K)))
    (f := fun i (l : List K × List (Jac K)) => do
      let b ← vecAt bs i
      let w ← vecAt J.weight i
      if 0 < b.mass then do
        let c ← fdiv (b.mass * w) (massSum bs)
        pure (l.1 ++ [c], l.2 ++ [⟨b.path, (1 / b.mass) • b.h⟩])
      else pure (l.1 ++ [0], l.2 ++ [⟨b.path, 0⟩]))
    (fun n l => l = ((List.range n).map (comCoef bs J.weight),
      (List.range n).map fun i => ⟨(bodyAt bs i).path, comPt bs i⟩)) rfl (by
      intro i hi l hl
      refine ⟨_, inertial_step bs J.weight hi (by omega) hM l, ?_⟩
      rw [hl, List.range_succ, List.map_append, List.map_append]
      rfl)
  unfold massSum bodyAt at h1
  rw [h1, Out.ok_bind, h2]
  rfl

/-- Whatever succeeded left an up to date Jacobian, or there is no mass at all. -/
theorem updateInertial_inv {bs : List (BodyM K)} {J J' : ComJac K} (h : J.updateInertial bs = .ok J')
    (hM : massSum bs ≠ 0) : bs.length ≤ J.weight.length ∧ J' = comJacOf bs J.weight := by
  by_cases hw : bs.length ≤ J.weight.length
  · rw [updateInertial_ok hM hw] at h
    exact ⟨hw, (Out.ok.inj h).symm⟩
  · exfalso
    unfold ComJac.updateInertial at h
    dsimp only at h
    obtain ⟨l, h, -⟩ := Out.bind_eq_ok.1 h
    have key : ∀ n, J.weight.length < n → n ≤ bs.length → ∀ l s, forRange n (fun i (l : List K × List (Jac K)) => do
      let b ← vecAt bs i
      let w ← vecAt J.weight i
      if 0 < b.mass then do
        let c ← fdiv (b.mass * w) (∑ i ∈ Finset.range bs.length, (bs.getD i ⟨0, 0, []⟩).mass)
        pure (l.1 ++ [c], l.2 ++ [⟨b.path, (1 / b.mass) • b.h⟩])
      else pure (l.1 ++ [0], l.2 ++ [⟨b.path, 0⟩])) l ≠ .ok s := by
      intro n
      induction n with
      | zero => intro h; omega
      | succ n ih =>
        intro h1 h2 l s h
        simp only [forRange] at h
        obtain ⟨a, ha, h⟩ := Out.bind_eq_ok.1 h
        by_cases hn : J.weight.length < n
        · exact ih hn (by omega) _ _ ha
        · obtain ⟨b, hb, h⟩ := Out.bind_eq_ok.1 h
          obtain ⟨w, hw', h⟩ := Out.bind_eq_ok.1 h
          rw [vecAt_eq_ok] at hw'
          have := List.getElem?_eq_some_iff.1 hw'
          obtain ⟨k, -⟩ := this
          omega
    exact key _ (by omega) le_rfl _ _ h

theorem comJacOf_at {bs : List (BodyM K)} {w : List K} {i : ℕ} (h : i < bs.length) :
    vecAt (comJacOf bs w).jac i = .ok ⟨(bodyAt bs i).path, comPt bs i⟩ ∧
      vecAt (comJacOf bs w).coeff i = .ok (comCoef bs w i) := by
  constructor <;> rw [vecAt_eq_ok] <;> simp [comJacOf, h]

theorem comJacOf_len (bs : List (BodyM K)) (w : List K) : (comJacOf bs w).jac.length = bs.length := by
  simp [comJacOf]

theorem coMRun_inv {w : List K} {bs : List (BodyM K)} {com : V3 K} {s : CoMT K} (R : CoMRun w bs com s) :
    s.com = com ∧ s.jac.weight = w ∧ (massSum bs ≠ 0 → bs.length ≤ w.length ∧ s.jac = comJacOf bs w) := by
  induction R with
  | make jA j h =>
    unfold CoMT.makeW at h
    obtain ⟨J, hJ, h⟩ := Out.bind_eq_ok.1 h
    simp only [Out.pure_eq, Out.ok.injEq] at h
    subst h
    unfold ComJac.make at hJ
    split at hJ
    · cases hJ
    · rename_i hl
      push Not at hl
      refine ⟨rfl, ?_, fun hM => ?_⟩
      · unfold ComJac.updateInertial at hJ
        obtain ⟨l, -, hJ⟩ := Out.bind_eq_ok.1 hJ
        simp only [Out.pure_eq, Out.ok.injEq] at hJ
        subst hJ
        rfl
      · exact updateInertial_inv hJ hM
  | com c R ih => exact ⟨rfl, ih.2⟩
  | inertial bs' R h ih =>
    unfold CoMT.updateInertial at h
    obtain ⟨J, hJ, h⟩ := Out.bind_eq_ok.1 h
    simp only [Out.pure_eq, Out.ok.injEq] at h
    subst h
    refine ⟨ih.1, ?_, fun hM => ?_⟩
    · unfold ComJac.updateInertial at hJ
      obtain ⟨l, -, hJ⟩ := Out.bind_eq_ok.1 hJ
      simp only [Out.pure_eq, Out.ok.injEq] at hJ
      subst hJ
      exact ih.2.1
    · have := updateInertial_inv hJ hM
      rw [ih.2.1] at this
      exact this
  | update mb st R h ih =>
    unfold CoMT.update at h
    obtain ⟨c, -, h⟩ := Out.bind_eq_ok.1 h
    unfold CoMT.updateAt at h
    obtain ⟨v, -, h⟩ := Out.bind_eq_ok.1 h
    obtain ⟨n, -, h⟩ := Out.bind_eq_ok.1 h
    obtain ⟨M, -, h⟩ := Out.bind_eq_ok.1 h
    simp only [Out.pure_eq, Out.ok.injEq] at h
    subst h
    exact ih

/-- Position of the centre of mass of body `i`. -/
def comPos (bs : List (BodyM K)) (st : KState K) (i : ℕ) : V3 K :=
  ((PT.ofTrans (comPt bs i)).mul (kPose st i)).r

/-- Its velocity. -/
def comVel (bs : List (BodyM K)) (st : KState K) (i : ℕ) : MV K :=
  ((PT.ofRot (kPose st i).E.transpose).mul (PT.ofTrans (comPt bs i))).mulM (kVel st i)

/-- Its normal acceleration. -/
def comNacc (bs : List (BodyM K)) (st : KState K) (i : ℕ) : MV K :=
  ((PT.ofRot (kPose st i).E.transpose).mul (PT.ofTrans (comPt bs i))).mulM (kAcc st i)
    + MV.cross ⟨(kPose st i).E.transpose.mulVec (kVel st i).ang, 0⟩ (comVel bs st i)

/-- Its acceleration due to the rates `z`. -/
def comJacc (bs : List (BodyM K)) (mb : MultiBody K) (st : KState K) (z : ℕ → K) (i : ℕ) : MV K :=
  (PT.ofTrans (comPos bs st i)).mulM (wSum mb st (bodyAt bs i).path z)

theorem forRange_sum {M : Type} [AddCommMonoid M] {n : ℕ} {f : ℕ → M → Out M} {g : ℕ → M}
    (h : ∀ i < n, ∀ a, f i a = .ok (a + g i)) : forRange n f 0 = .ok (∑ i ∈ range n, g i) := by
  obtain ⟨s', h1, h2⟩ := forRange_inv (n := n) (f := f) (s := (0 : M))
    (fun n a => a = ∑ i ∈ range n, g i) (by simp) (fun i hi a ha => ⟨_, h i hi a, by
      rw [ha, Finset.sum_range_succ]⟩)
  rw [h1, h2]

theorem com_velocity {bs : List (BodyM K)} {mb : MultiBody K} {st : KState K} {x : ℕ → K}
    (hB : BodiesMove bs mb st x) (w : List K) : (comJacOf bs w).velocity st
      = .ok (∑ i ∈ range bs.length, comCoef bs w i • (comVel bs st i).lin) := by
  unfold ComJac.velocity
  rw [comJacOf_len]
  refine forRange_sum fun i hi a => ?_
  rw [(comJacOf_at hi).1, Out.ok_bind, (comJacOf_at hi).2, Out.ok_bind,
    jac_vel (hB i hi).2.sized (hB i hi).1, Out.ok_bind]
  rfl

theorem com_normalAcc {bs : List (BodyM K)} {mb : MultiBody K} {st : KState K} {x : ℕ → K}
    (hB : BodiesMove bs mb st x) (w : List K) : (comJacOf bs w).normalAcc st
      = .ok (∑ i ∈ range bs.length, comCoef bs w i • (comNacc bs st i).lin) := by
  unfold ComJac.normalAcc
  rw [comJacOf_len]
  refine forRange_sum fun i hi a => ?_
  rw [(comJacOf_at hi).1, Out.ok_bind, (comJacOf_at hi).2, Out.ok_bind,
    jac_acc (hB i hi).2.sized (hB i hi).1, Out.ok_bind]
  rfl

theorem V3.sum_get (n : ℕ) (f : ℕ → V3 K) (a : ℕ) :
    (∑ i ∈ range n, f i).get a = ∑ i ∈ range n, (f i).get a := by
  induction n with
  | zero =>
    match a with
    | 0 => rfl
    | 1 => rfl
    | k + 2 => rfl
  | succ n ih =>
    rw [Finset.sum_range_succ, Finset.sum_range_succ, ← ih]
    match a with
    | 0 => rfl
    | 1 => rfl
    | k + 2 => rfl

theorem V3.smul_get (c : K) (v : V3 K) (a : ℕ) : (c • v).get a = c * v.get a := by
  match a with
  | 0 => rfl
  | 1 => rfl
  | k + 2 => rfl

theorem V3.smul_sum (c : K) (n : ℕ) (f : ℕ → V3 K) :
    c • ∑ i ∈ range n, f i = ∑ i ∈ range n, c • f i := by
  induction n with
  | zero => ext <;> simp
  | succ n ih => rw [Finset.sum_range_succ, Finset.sum_range_succ, V3.smul_add', ih]

theorem com_jacobian {bs : List (BodyM K)} {mb : MultiBody K} {st : KState K} {x : ℕ → K}
    (hB : BodiesMove bs mb st x) (w : List K) :
    ∃ M : Mat K, (comJacOf bs w).jacobian mb st = .ok M ∧ M.rows = 3 ∧ M.cols = mb.nrDof ∧
      ∀ z, ∀ a < 3, M.rowMul a z
        = (∑ i ∈ range bs.length, comCoef bs w i • (comJacc bs mb st z i).lin).get a := by
  unfold ComJac.jacobian
  rw [comJacOf_len]
  obtain ⟨M, h1, h2, h3, h4⟩ := forRange_inv (n := bs.length) (s := (Mat.zero 3 mb.nrDof : Mat K))
    (f := fun i (M : Mat K) => do
      let j ← vecAt (comJacOf bs w).jac i
      let c ← vecAt (comJacOf bs w).coeff i
      let s ← j.jacobian mb st
      let sh ← s.block 3 0 3 (pathDof mb j.path)
      let F ← fullJacobian mb j.path sh (Mat.zero 3 mb.nrDof)
      pure ⟨3, mb.nrDof, fun a k => M.get a k + c * F.get a k⟩)
    (fun n M => M.rows = 3 ∧ M.cols = mb.nrDof ∧ ∀ z, ∀ a < 3, M.rowMul a z
        = ∑ i ∈ range n, comCoef bs w i * (comJacc bs mb st z i).lin.get a)
    ⟨rfl, rfl, fun z a _ => by simp [Mat.rowMul, Mat.zero]⟩ (by
      rintro i hi M ⟨i1, i2, i3⟩
      obtain ⟨hl, hm⟩ := hB i hi
      have hrig := hm.rigid _ (List.mem_of_getLast? hl)
      obtain ⟨sh, F, b1, b2, b3, b4, b6, b5⟩ := linear_full hm hl _ _
        (world_frame (kPose st i) hrig (comPt bs i)) (Mat.zero 3 mb.nrDof) rfl rfl
      have g := full_gen hm.sized.mem hm.rigid _ F 3 (fun a v => v.get (3 + a)) (fun a => lin_get (3 + a)) b4 b6
      refine ⟨⟨3, mb.nrDof, fun a k => M.get a k + comCoef bs w i * F.get a k⟩, ?_, rfl, rfl,
        fun z a ha => ?_⟩
      · rw [(comJacOf_at hi).1, Out.ok_bind, (comJacOf_at hi).2, Out.ok_bind,
          jac_world (J := ⟨(bodyAt bs i).path, comPt bs i⟩) hm.sized hl, Out.ok_bind, b1, Out.ok_bind, b2,
          Out.ok_bind]
        rfl
      · have e := g z a ha
        rw [MV.get_lin _ ha] at e
        rw [Finset.sum_range_succ, ← i3 z a ha]
        unfold comJacc comPos
        rw [← e]
        unfold Mat.rowMul
        dsimp only
        rw [i2, b4]
        simp only [add_mul, Finset.sum_add_distrib, Finset.mul_sum, mul_assoc])
  refine ⟨M, h1, h2, h3, fun z a ha => ?_⟩
  rw [h4 z a ha, V3.sum_get]
  exact Finset.sum_congr rfl fun i _ => (V3.smul_get _ _ _).symm

theorem comPos_eq (bs : List (BodyM K)) (st : KState K) (i : ℕ) :
    comPos bs st i = (kPose st i).r + (kPose st i).E.transpose.mulVec (comPt bs i) := rfl

theorem mass_comPt {bs : List (BodyM K)} (hm : MassOK bs) {i : ℕ} (hi : i < bs.length) :
    (bodyAt bs i).mass • comPt bs i = (bodyAt bs i).h := by
  unfold comPt
  obtain ⟨h0, h1⟩ := hm i hi
  split
  · rename_i hp
    have := hp.ne'
    ext <;> simp [this]
  · rename_i hp
    have e : (bodyAt bs i).mass = 0 := le_antisymm (not_lt.mp hp) h0
    rw [h1 e]
    ext <;> simp

/-- The position RBDyn computes. -/
theorem com_position {bs : List (BodyM K)} {st : KState K} (hp : ∀ i < bs.length, i < st.bodyPosW.length)
    (hm : MassOK bs) (hM : massSum bs ≠ 0) :
    computeCoM bs st = .ok ((1 / massSum bs) •
      ∑ i ∈ range bs.length, (bodyAt bs i).mass • comPos bs st i) := by
  unfold computeCoM
  obtain ⟨a, h1, h2⟩ := forRange_inv (n := bs.length) (s := ((0, 0) : V3 K × K))
    (f := fun i (a : V3 K × K) => do
      let b ← vecAt bs i
      let X ← vecAt st.bodyPosW i
      pure (a.1 + (b.mass • X.r + X.E.transpose.mulVec b.h), a.2 + b.mass))
    (fun n a => a = (∑ i ∈ range n, (bodyAt bs i).mass • comPos bs st i,
      ∑ i ∈ range n, (bodyAt bs i).mass)) (by simp) (by
      intro i hi a ha
      refine ⟨_, by rw [vecAt_bodyAt hi, Out.ok_bind, vecAt_getD PT.one (hp i hi), Out.ok_bind]; rfl, ?_⟩
      rw [ha, Finset.sum_range_succ, Finset.sum_range_succ]
      refine Prod.ext ?_ rfl
      dsimp only
      rw [comPos_eq, ← mass_comPt hm hi, M3.mulVec_smul]
      unfold kPose
      ext <;> simp <;> ring)
  rw [h1, Out.ok_bind, h2]
  exact fdivV_ok hM

theorem comJacc_vel {bs : List (BodyM K)} {mb : MultiBody K} {st : KState K} {x : ℕ → K}
    (hB : BodiesMove bs mb st x) {i : ℕ} (hi : i < bs.length) : comJacc bs mb st x i = comVel bs st i := by
  obtain ⟨hl, hm⟩ := hB i hi
  have hrig := hm.rigid _ (List.mem_of_getLast? hl)
  unfold comJacc comVel comPos wSum
  rw [← moves_vel hm hl, world_frame _ hrig, PT.mul_mulM _ _ hrig, PT.mulM_inv _ hrig]

theorem isCoM_computed {bs : List (BodyM K)} (st : KState K) (hm : MassOK bs) (hM : massSum bs ≠ 0) :
    IsCoM bs st ((1 / massSum bs) • ∑ i ∈ range bs.length, (bodyAt bs i).mass • comPos bs st i) := by
  refine ⟨comPt bs, fun i hi => mass_comPt hm hi, ?_⟩
  ext <;> simp [hM] <;> rfl

/-- The update, after every history of calls. -/
theorem com_exact {w : List K} {bs : List (BodyM K)} {com : V3 K} {s : CoMT K} (R : CoMRun w bs com s)
    {mb : MultiBody K} {st : KState K} {x : ℕ → K} (hB : BodiesMove bs mb st x) (hm : MassOK bs)
    (hM : massSum bs ≠ 0) :
    ∃ M : Mat K, s.update bs mb st = .ok { s with
        actual := (1 / massSum bs) • ∑ i ∈ range bs.length, (bodyAt bs i).mass • comPos bs st i
        out := ⟨com - (1 / massSum bs) • ∑ i ∈ range bs.length, (bodyAt bs i).mass • comPos bs st i,
          ∑ i ∈ range bs.length, comCoef bs w i • (comVel bs st i).lin,
          ∑ i ∈ range bs.length, comCoef bs w i • (comNacc bs st i).lin, M⟩ } ∧
      M.rows = 3 ∧ M.cols = mb.nrDof ∧
      ∀ z, ∀ a < 3, M.rowMul a z
        = (∑ i ∈ range bs.length, comCoef bs w i • (comJacc bs mb st z i).lin).get a := by
  obtain ⟨r1, -, r3⟩ := coMRun_inv R
  obtain ⟨-, r4⟩ := r3 hM
  obtain ⟨M, m1, m2, m3, m4⟩ := com_jacobian hB w
  refine ⟨M, ?_, m2, m3, m4⟩
  unfold CoMT.update CoMT.updateAt
  rw [com_position (fun i hi => (hB i hi).2.sized.pos i (List.mem_of_getLast? (hB i hi).1)) hm hM,
    Out.ok_bind, r4, com_velocity hB, Out.ok_bind, com_normalAcc hB, Out.ok_bind, m1, Out.ok_bind, r1]
  rfl

/-- After every history of calls the update succeeds, reports the centre of mass and the error to the
target, and the speed is the Jacobian applied to the joint velocities (with or without weights). -/
theorem C61_speed_is_jac {w : List K} {bs : List (BodyM K)} {com : V3 K} {s : CoMT K}
    (R : CoMRun w bs com s) {mb : MultiBody K} {st : KState K} {x : ℕ → K} (hB : BodiesMove bs mb st x)
    (hm : MassOK bs) (hM : massSum bs ≠ 0) :
    ∃ s', s.update bs mb st = .ok s' ∧ IsCoM bs st s'.actual ∧ s'.out.eval = com - s'.actual ∧
      s'.out.jacMat.rows = 3 ∧ s'.out.jacMat.cols = mb.nrDof ∧
      ∀ a < 3, s'.out.jacMat.rowMul a x = s'.out.speed.get a := by
  obtain ⟨M, m1, m2, m3, m4⟩ := com_exact R hB hm hM
  refine ⟨_, m1, isCoM_computed st hm hM, rfl, m2, m3, fun a ha => ?_⟩
  dsimp only
  rw [m4 x a ha]
  congr 1
  exact Finset.sum_congr rfl fun i hi => by rw [comJacc_vel hB (by simpa using hi)]

/-- The rejected and undefined cases: a weight vector of the wrong size throws; without mass the position
of the centre of mass is a division by zero. -/
theorem C61_rejected {bs : List (BodyM K)} (com : V3 K) (w : List K) (jA : V3 K) (j : Out3 K) :
    (w.length ≠ bs.length → CoMT.makeW bs com w jA j = .throws .domainError) ∧
    (w.length = bs.length → massSum bs ≠ 0 → ∃ s, CoMT.makeW bs com w jA j = .ok s) ∧
    ∀ (mb : MultiBody K) (st : KState K) (s : CoMT K), (∀ i < bs.length, i < st.bodyPosW.length) →
      massSum bs = 0 → s.update bs mb st = .ub := by
  refine ⟨fun h => ?_, fun h hM => ?_, fun mb st s hp hM => ?_⟩
  · unfold CoMT.makeW ComJac.make
    rw [if_pos h]
    rfl
  · unfold CoMT.makeW ComJac.make
    rw [if_neg (by simpa using h), updateInertial_ok hM (by simp [h])]
    exact ⟨_, rfl⟩
  · unfold CoMT.update computeCoM
    obtain ⟨a, h1, h2⟩ := forRange_inv (n := bs.length) (s := ((0, 0) : V3 K × K))
      (f := fun i (a : V3 K × K) => do
        let b ← vecAt bs i
        let X ← vecAt st.bodyPosW i
        pure (a.1 + (b.mass • X.r + X.E.transpose.mulVec b.h), a.2 + b.mass))
      (fun n a => a.2 = ∑ i ∈ range n, (bodyAt bs i).mass) (by simp) (by
        intro i hi a ha
        refine ⟨_, by rw [vecAt_bodyAt hi, Out.ok_bind, vecAt_getD PT.one (hp i hi), Out.ok_bind]; rfl, ?_⟩
        rw [Finset.sum_range_succ, ← ha])
    rw [h1, Out.ok_bind]
    have : a.2 = 0 := h2.trans hM
    unfold fdivV
    rw [if_pos this]
    rfl

/-- After new inertial parameters the task behaves as one built with them (same target and weights). -/
theorem C61_inertia {w : List K} {bs bs' : List (BodyM K)} {com : V3 K} {s : CoMT K}
    (R : CoMRun w bs com s) (hl : bs'.length = w.length) (hM : massSum bs' ≠ 0) (jA : V3 K) (j : Out3 K) :
    ∃ s1 s2, s.updateInertial bs' = .ok s1 ∧ CoMT.makeW bs' com w jA j = .ok s2 ∧
      ∀ mb st, s1.update bs' mb st = s2.update bs' mb st := by
  obtain ⟨r1, r2, -⟩ := coMRun_inv R
  refine ⟨{ s with jac := comJacOf bs' w }, ⟨com, jA, comJacOf bs' w, j⟩, ?_, ?_, fun mb st => ?_⟩
  · unfold CoMT.updateInertial
    rw [updateInertial_ok hM (by rw [r2, hl]), r2]
    rfl
  · unfold CoMT.makeW ComJac.make
    rw [if_neg (by simp [hl]), updateInertial_ok hM (by simp [hl])]
    rfl
  · unfold CoMT.update CoMT.updateAt
    dsimp only
    rw [r1]

theorem comCoef_one {bs : List (BodyM K)} (hm : MassOK bs) {i : ℕ} (hi : i < bs.length) {w : List K} {c : K}
    (hw : w.getD i 0 = c) : comCoef bs w i = c * ((1 / massSum bs) * (bodyAt bs i).mass) := by
  unfold comCoef
  obtain ⟨h0, -⟩ := hm i hi
  split
  · rw [hw]; ring
  · rename_i hp
    rw [le_antisymm (not_lt.mp hp) h0, mul_zero, mul_zero]

/-- The same weight `c` for all bodies multiplies velocity, normal acceleration and Jacobian of the centre
of mass by `c`: the assumption of the multi-robot CoM task (Model/Multi). -/
theorem C61_uniform_weight {bs : List (BodyM K)} {mb : MultiBody K} {st : KState K} {x : ℕ → K}
    (hB : BodiesMove bs mb st x) (hm : MassOK bs) (hM : massSum bs ≠ 0) (c : K) :
    ∃ J J1 : ComJac K, ∃ v n M M1, ComJac.make bs (List.replicate bs.length c) = .ok J ∧
      ComJac.make bs (List.replicate bs.length 1) = .ok J1 ∧
      J1.velocity st = .ok v ∧ J.velocity st = .ok (c • v) ∧
      J1.normalAcc st = .ok n ∧ J.normalAcc st = .ok (c • n) ∧
      J1.jacobian mb st = .ok M1 ∧ J.jacobian mb st = .ok M ∧ M.cols = M1.cols ∧
      ∀ a < 3, ∀ k < M.cols, M.get a k = c * M1.get a k := by
  obtain ⟨M, m1, m2, m3, m4⟩ := com_jacobian hB (List.replicate bs.length c)
  obtain ⟨M1, k1, k2, k3, k4⟩ := com_jacobian hB (List.replicate bs.length (1 : K))
  have hc : ∀ i ∈ range bs.length, comCoef bs (List.replicate bs.length c) i
      = c * comCoef bs (List.replicate bs.length 1) i := by
    intro i hi
    simp only [Finset.mem_range] at hi
    rw [comCoef_one hm hi (c := c) (by simp [List.getD, hi]),
      comCoef_one hm hi (c := 1) (by simp [List.getD, hi]), one_mul]
  have hsum : ∀ f : ℕ → V3 K, ∑ i ∈ range bs.length, comCoef bs (List.replicate bs.length c) i • f i
      = c • ∑ i ∈ range bs.length, comCoef bs (List.replicate bs.length 1) i • f i := by
    intro f
    have e : ∀ i ∈ range bs.length, comCoef bs (List.replicate bs.length c) i • f i
        = c • comCoef bs (List.replicate bs.length 1) i • f i := by
      intro i hi
      rw [hc i hi]
      ext <;> simp <;> ring
    rw [Finset.sum_congr rfl e, V3.smul_sum]
  refine ⟨comJacOf bs (List.replicate bs.length c), comJacOf bs (List.replicate bs.length 1), _, _, M, M1,
    ?_, ?_, com_velocity hB _, ?_, com_normalAcc hB _, ?_, k1, m1, m3.trans k3.symm, fun a ha k hk => ?_⟩
  · unfold ComJac.make
    rw [if_neg (by simp), updateInertial_ok hM (by simp)]
  · unfold ComJac.make
    rw [if_neg (by simp), updateInertial_ok hM (by simp)]
  · rw [com_velocity hB, hsum]
  · rw [com_normalAcc hB, hsum]
  · have e : ∀ N : Mat K, k < N.cols → N.get a k = N.rowMul a (fun q => if q = k then 1 else 0) := by
      intro N hN
      unfold Mat.rowMul
      simp [hN]
    rw [e M hk, e M1 (by omega), m4 _ a ha, k4 _ a ha, hsum, V3.smul_get]

end

/-! ## Rates -/

section
variable {t : ℝ}

namespace Spec

/-- The bodies of a robot evolving in time. -/
def BodiesEvolve (bs : List (BodyM ℝ)) (mb : MultiBody ℝ) (st : ℝ → KState ℝ) (x : ℝ → ℕ → ℝ) (xd : ℕ → ℝ)
    (t : ℝ) : Prop :=
  ∀ i < bs.length, (bodyAt bs i).path.getLast? = some i ∧ Evolves mb st (bodyAt bs i).path x xd t

end Spec

theorem Spec.BodiesEvolve.moves {bs : List (BodyM ℝ)} {mb : MultiBody ℝ} {st : ℝ → KState ℝ}
    {x : ℝ → ℕ → ℝ} {xd : ℕ → ℝ} (h : BodiesEvolve bs mb st x xd t) (τ : ℝ) :
    BodiesMove bs mb (st τ) (x τ) := fun i hi => ⟨(h i hi).1, (h i hi).2.moves τ⟩

theorem HasD3.smul_const {f : ℝ → V3 ℝ} {f' : V3 ℝ} (c : ℝ) (hf : HasD3 f f' t) :
    HasD3 (fun τ => c • f τ) (c • f') t := by
  refine (HasD3.smul (hasDerivAt_const t c) hf).congr_deriv ?_
  ext <;> simp

theorem HasD3.weighted {n : ℕ} {c : ℕ → ℝ} {f : ℕ → ℝ → V3 ℝ} {f' : ℕ → V3 ℝ}
    (h : ∀ i < n, HasD3 (f i) (f' i) t) :
    HasD3 (fun τ => ∑ i ∈ range n, c i • f i τ) (∑ i ∈ range n, c i • f' i) t :=
  HasD3.sum fun i hi => HasD3.smul_const (c i) (h i hi)

theorem getD_replicate_one {n j : ℕ} (h : j < n) : (List.replicate n (1 : ℝ)).getD j 0 = 1 := by
  simp [List.getD, h]

theorem com_vel_deriv {bs : List (BodyM ℝ)} {mb : MultiBody ℝ} {st : ℝ → KState ℝ}
    {x : ℝ → ℕ → ℝ} {xd : ℕ → ℝ} (h : BodiesEvolve bs mb st x xd t) (c : ℕ → ℝ) :
    HasD3 (fun τ => ∑ i ∈ range bs.length, c i • (comVel bs (st τ) i).lin)
      (∑ i ∈ range bs.length, c i • (comJacc bs mb (st t) xd i).lin
        + ∑ i ∈ range bs.length, c i • (comNacc bs (st t) i).lin) t := by
  refine (HasD3.weighted fun i hi => (world_point_acc (h i hi).2 (h i hi).1 (comPt bs i)).2).congr_deriv ?_
  rw [← Finset.sum_add_distrib]
  exact Finset.sum_congr rfl fun i _ => by rw [MV.add_lin, V3.smul_add']; rfl

theorem com_pos_deriv {bs : List (BodyM ℝ)} {mb : MultiBody ℝ} {st : ℝ → KState ℝ}
    {x : ℝ → ℕ → ℝ} {xd : ℕ → ℝ} (h : BodiesEvolve bs mb st x xd t) (hm : MassOK bs) {w : List ℝ}
    (hw : ∀ i < bs.length, w.getD i 0 = 1) :
    HasD3 (fun τ => (1 / massSum bs) • ∑ i ∈ range bs.length, (bodyAt bs i).mass • comPos bs (st τ) i)
      (∑ i ∈ range bs.length, comCoef bs w i • (comVel bs (st t) i).lin) t := by
  refine (HasD3.smul_const _ (HasD3.weighted fun i hi =>
    world_point (h i hi).2 (h i hi).1 (comPt bs i))).congr_deriv ?_
  rw [V3.smul_sum]
  refine Finset.sum_congr rfl fun i hi => ?_
  simp only [Finset.mem_range] at hi
  rw [comCoef_one hm hi (hw i hi), one_mul]
  unfold comVel
  ext <;> simp <;> ring

/-- Along every differentiable motion the derivative of the speed is the Jacobian times the joint
accelerations plus the normal acceleration, for every weights and after every history of calls. -/
theorem C61_drift {w : List ℝ} {bs : List (BodyM ℝ)} {com : V3 ℝ} {s : CoMT ℝ}
    (R : CoMRun w bs com s) {mb : MultiBody ℝ} {st : ℝ → KState ℝ} {x : ℝ → ℕ → ℝ} {xd : ℕ → ℝ}
    (h : BodiesEvolve bs mb st x xd t) (hm : MassOK bs) (hM : massSum bs ≠ 0) :
    ∃ s' : ℝ → CoMT ℝ, (∀ τ, s.update bs mb (st τ) = .ok (s' τ)) ∧
      SpeedDrift3 (fun τ => (s' τ).out) xd t := by
  choose M m1 m2 m3 m4 using fun τ => com_exact R (h.moves τ) hm hM
  refine ⟨_, m1, fun a ha => ?_⟩
  refine ((com_vel_deriv h (comCoef bs w)).get a).congr_deriv ?_
  dsimp only
  rw [m4 t xd a ha]
  match a with
  | 0 => rfl
  | 1 => rfl
  | k + 2 => rfl

/-- **C61**: without body weights (all equal to one) the error decreases at the reported speed.  With
other weights it does not, see `ComEx.C61_weights_counterexample`. -/
theorem C61_error_rate {w : List ℝ} {bs : List (BodyM ℝ)} {com : V3 ℝ} {s : CoMT ℝ}
    (R : CoMRun w bs com s) {mb : MultiBody ℝ} {st : ℝ → KState ℝ} {x : ℝ → ℕ → ℝ} {xd : ℕ → ℝ}
    (h : BodiesEvolve bs mb st x xd t) (hm : MassOK bs) (hM : massSum bs ≠ 0)
    (hw : ∀ i < bs.length, w.getD i 0 = 1) :
    ∃ s' : ℝ → CoMT ℝ, (∀ τ, s.update bs mb (st τ) = .ok (s' τ)) ∧
      HasD3 (fun τ => (s' τ).out.eval) (-(s' t).out.speed) t := by
  choose M m1 m2 m3 m4 using fun τ => com_exact R (h.moves τ) hm hM
  refine ⟨_, m1, ?_⟩
  refine ((HasD3.const com t).sub (com_pos_deriv h hm hw)).congr_deriv ?_
  ext <;> simp

/-! ## Several robots -/

/-- What the multi-robot task gets for one robot. -/
theorem comEnv_ok {K : Type} [Field K] [LinearOrder K] [IsStrictOrderedRing K] {bs : List (BodyM K)}
    {mb : MultiBody K} {st : KState K} {x : ℕ → K} (hB : BodiesMove bs mb st x) (hm : MassOK bs)
    (hM : massSum bs ≠ 0) :
    ∃ M : Mat K, comEnv bs mb st = .ok
        ⟨(1 / massSum bs) • ∑ i ∈ range bs.length, (bodyAt bs i).mass • comPos bs st i,
          ∑ i ∈ range bs.length, comCoef bs (List.replicate bs.length 1) i • (comVel bs st i).lin,
          ∑ i ∈ range bs.length, comCoef bs (List.replicate bs.length 1) i • (comNacc bs st i).lin, M⟩ ∧
      M.rows = 3 ∧ M.cols = mb.nrDof ∧
      ∀ z, ∀ a < 3, M.rowMul a z = (∑ i ∈ range bs.length,
        comCoef bs (List.replicate bs.length 1) i • (comJacc bs mb st z i).lin).get a := by
  obtain ⟨M, m1, m2, m3, m4⟩ := com_jacobian hB (List.replicate bs.length (1 : K))
  refine ⟨M, ?_, m2, m3, m4⟩
  unfold comEnv ComJac.make
  rw [com_position (fun i hi => (hB i hi).2.sized.pos i (List.mem_of_getLast? (hB i hi).1)) hm hM,
    Out.ok_bind, if_neg (by simp), updateInertial_ok hM (by simp), Out.ok_bind, com_velocity hB, Out.ok_bind,
    com_normalAcc hB, Out.ok_bind, m1, Out.ok_bind]
  rfl

/-- Multi-robot CoM task, after every history of calls and along every differentiable motion of the
robots: the error decreases at the reported speed, and the derivative of the speed is the sum of the
robots' Jacobians times their joint accelerations plus the normal acceleration. -/
theorem C61_multi {masses : List (List ℝ)} {robots : List ℕ} {target : V3 ℝ} {s : MultiCoMHL ℝ}
    (hr : ∀ r ∈ robots, r < masses.length) (hM : totalMass masses robots ≠ 0)
    (R : MCoMRun robots masses target s) {bs : ℕ → List (BodyM ℝ)} {mb : ℕ → MultiBody ℝ}
    {st : ℕ → ℝ → KState ℝ} {x : ℕ → ℝ → ℕ → ℝ} {xd : ℕ → ℕ → ℝ}
    (h : ∀ r ∈ robots, BodiesEvolve (bs r) (mb r) (st r) (x r) (xd r) t) (hm : ∀ r ∈ robots, MassOK (bs r))
    (hMr : ∀ r ∈ robots, massSum (bs r) ≠ 0) {env : ℝ → List (CoMEnv ℝ)}
    (he : ∀ τ, ∀ r ∈ robots, ∃ e, (env τ)[r]? = some e ∧ comEnv (bs r) (mb r) (st r τ) = .ok e) :
    ∃ s' : ℝ → MultiCoMHL ℝ, (∀ τ, s.update (env τ) = .ok (s' τ)) ∧
      (∀ τ, (s' τ).jac.length = robots.length) ∧
      HasD3 (fun τ => (s' τ).eval) (-(s' t).speed) t ∧
      ∀ a < 3, HasDerivAt (fun τ => (s' τ).speed.get a)
        (∑ i ∈ range robots.length,
            ((s' t).jac.getD i (Mat.zero 0 0)).rowMul a (xd (robots.getD i 0))
          + (s' t).normalAcc.get a) t := by
  have hlen : ∀ τ, ∀ r ∈ robots, r < (env τ).length := by
    intro τ r hr'
    obtain ⟨e, h1, -⟩ := he τ r hr'
    exact (List.getElem?_eq_some_iff.1 h1).1
  choose s' g1 g2 g3 g4 g5 using fun τ => C49_error hr hM (hlen τ) R
  have hmem : ∀ i < robots.length, robots.getD i 0 ∈ robots := by
    intro i hi
    rw [List.getD_eq_getElem _ _ hi]
    exact List.getElem_mem _
  have hcom : ∀ i < robots.length, ∀ τ, ∃ M : Mat ℝ, comEnvOf (env τ) robots i =
      (⟨(1 / massSum (bs (robots.getD i 0))) • ∑ j ∈ range (bs (robots.getD i 0)).length,
          (bodyAt (bs (robots.getD i 0)) j).mass • comPos (bs (robots.getD i 0)) (st (robots.getD i 0) τ) j,
        ∑ j ∈ range (bs (robots.getD i 0)).length,
          comCoef (bs (robots.getD i 0)) (List.replicate (bs (robots.getD i 0)).length 1) j
            • (comVel (bs (robots.getD i 0)) (st (robots.getD i 0) τ) j).lin,
        ∑ j ∈ range (bs (robots.getD i 0)).length,
          comCoef (bs (robots.getD i 0)) (List.replicate (bs (robots.getD i 0)).length 1) j
            • (comNacc (bs (robots.getD i 0)) (st (robots.getD i 0) τ) j).lin, M⟩ : CoMEnv ℝ) ∧
      ∀ z, ∀ a < 3, M.rowMul a z = (∑ j ∈ range (bs (robots.getD i 0)).length,
        comCoef (bs (robots.getD i 0)) (List.replicate (bs (robots.getD i 0)).length 1) j
          • (comJacc (bs (robots.getD i 0)) (mb (robots.getD i 0)) (st (robots.getD i 0) τ) z j).lin).get a := by
    intro i hi τ
    have hi' := hmem i hi
    obtain ⟨e, e1, e2⟩ := he τ _ hi'
    obtain ⟨M, m1, m2, m3, m4⟩ := comEnv_ok ((h _ hi').moves τ) (hm _ hi') (hMr _ hi')
    rw [m1] at e2
    refine ⟨M, ?_, m4⟩
    unfold comEnvOf
    rw [List.getD_eq_getElem?_getD, e1]
    exact (Out.ok.inj e2).symm
  refine ⟨s', g1, fun τ => by rw [g5]; simp, ?_, fun a ha => ?_⟩
  · have d : HasD3 (fun τ => ∑ i ∈ range robots.length,
        massShare masses robots i • (comEnvOf (env τ) robots i).com)
        (∑ i ∈ range robots.length, massShare masses robots i • (comEnvOf (env t) robots i).vel) t := by
      refine HasD3.weighted fun i hi => ?_
      have hi' := hmem i hi
      have k := com_pos_deriv (h _ hi') (hm _ hi')
        (w := List.replicate (bs (robots.getD i 0)).length 1) (fun j hj => getD_replicate_one hj)
      obtain ⟨M, q, -⟩ := hcom i hi t
      rw [q]
      refine k.congr_fun fun τ => ?_
      obtain ⟨M, q, -⟩ := hcom i hi τ
      rw [q]
    refine (((HasD3.const target t).sub d).congr_fun g2).congr_deriv ?_
    rw [g3 t]
    ext <;> simp
  · have d : HasD3 (fun τ => ∑ i ∈ range robots.length,
        massShare masses robots i • (comEnvOf (env τ) robots i).vel)
        (∑ i ∈ range robots.length, massShare masses robots i
          • ((∑ j ∈ range (bs (robots.getD i 0)).length,
        comCoef (bs (robots.getD i 0)) (List.replicate (bs (robots.getD i 0)).length 1) j
          • (comJacc (bs (robots.getD i 0)) (mb (robots.getD i 0)) (st (robots.getD i 0) t)
            (xd (robots.getD i 0)) j).lin)
            + (comEnvOf (env t) robots i).nacc)) t := by
      refine HasD3.weighted fun i hi => ?_
      have hi' := hmem i hi
      have k := com_vel_deriv (h _ hi')
        (comCoef (bs (robots.getD i 0)) (List.replicate (bs (robots.getD i 0)).length 1))
      obtain ⟨M, q, -⟩ := hcom i hi t
      rw [q]
      refine k.congr_fun fun τ => ?_
      obtain ⟨M, q, -⟩ := hcom i hi τ
      rw [q]
    refine ((d.congr_fun g3).get a).congr_deriv ?_
    rw [g4 t, V3.sum_get, V3.sum_get, ← Finset.sum_add_distrib]
    refine Finset.sum_congr rfl fun i hi => ?_
    simp only [Finset.mem_range] at hi
    obtain ⟨M, q, qz⟩ := hcom i hi t
    have e : ((s' t).jac.getD i (Mat.zero 0 0)).rowMul a (xd (robots.getD i 0))
        = massShare masses robots i * M.rowMul a (xd (robots.getD i 0)) := by
      rw [g5 t, List.getD_eq_getElem _ _ (by simpa using hi), List.getElem_map, List.getElem_range, q]
      unfold Mat.rowMul
      simp only [Finset.mul_sum, mul_assoc]
    rw [e, qz _ a ha, V3.smul_add', ← V3.smul_get]
    match a with
    | 0 => rfl
    | 1 => rfl
    | k + 2 => rfl

end

/-! ## Examples -/

namespace ComEx

open RelEx (mb st evolves)

/-- One body of mass 2 on the slider, its centre of mass one unit above the axis. -/
def bs : List (BodyM ℝ) := [⟨2, ⟨0, 0, 2⟩, [0]⟩]

theorem mass : massSum bs = 2 := by simp [massSum, bs, bodyAt]

theorem massOK : MassOK bs := by
  intro i hi
  have : i = 0 := by simp [bs] at hi; exact hi
  subst this
  simp [bs, bodyAt]

theorem ev (t : ℝ) : BodiesEvolve bs mb st (fun _ _ => 1) (fun _ => 0) t := by
  intro i hi
  have : i = 0 := by simp [bs] at hi; exact hi
  subst this
  exact ⟨rfl, evolves t⟩

def junk : Out3 ℝ := ⟨0, 0, 0, Mat.zero 3 1⟩

theorem run (w : ℝ) : ∃ s, CoMRun [w] bs ⟨5, 0, 0⟩ s := by
  obtain ⟨s, hs⟩ := (C61_rejected (bs := bs) ⟨5, 0, 0⟩ [w] 0 junk).2.1 rfl (by rw [mass]; norm_num)
  exact ⟨s, .make _ _ hs⟩

theorem massNe : massSum bs ≠ 0 := by rw [mass]; norm_num

example := fun s (R : CoMRun [3] bs ⟨5, 0, 0⟩ s) => C61_speed_is_jac R ((ev 0).moves 4) massOK massNe
example := fun s (R : CoMRun [3] bs ⟨5, 0, 0⟩ s) => C61_drift R (ev 4) massOK massNe
example := fun s (R : CoMRun [1] bs ⟨5, 0, 0⟩ s) => C61_error_rate R (ev 4) massOK massNe
  (fun i hi => by
    have : i = 0 := by simp [bs] at hi; exact hi
    subst this
    rfl)
example := fun s (R : CoMRun [3] bs ⟨5, 0, 0⟩ s) => C61_inertia R (bs' := bs) rfl massNe 0 junk
example := C61_uniform_weight ((ev 0).moves 4) massOK massNe (1 / 2)

/-- Two such robots. -/
example : ∃ s, MultiCoMHL.make [[(2 : ℝ)], [2]] [0, 1] ⟨5, 0, 0⟩ = .ok s := by
  obtain ⟨w, hw, -⟩ := (C49_weights [[(2 : ℝ)], [2]] [0, 1] (by simp)).1 (by
    simp [totalMass, robotMass])
  exact ⟨_, by unfold MultiCoMHL.make; rw [hw]; rfl⟩
noncomputable def envAt (τ : ℝ) : CoMEnv ℝ :=
  match comEnv bs mb (st τ) with
  | .ok e => e
  | _ => ⟨0, 0, 0, Mat.zero 0 0⟩

theorem envAt_ok (τ : ℝ) : comEnv bs mb (st τ) = .ok (envAt τ) := by
  have h := (comEnv_ok ((ev 0).moves τ) massOK massNe).choose_spec.1
  unfold envAt
  rw [h]

example := fun s (R : MCoMRun [0, 1] [[2], [2]] (⟨5, 0, 0⟩ : V3 ℝ) s) =>
  C61_multi (t := 4) (by simp) (by simp [totalMass, robotMass]) R (bs := fun _ => bs)
    (mb := fun _ => mb) (st := fun _ => st) (fun _ _ => ev 4) (fun _ _ => massOK) (fun _ _ => massNe)
    (env := fun τ => [envAt τ, envAt τ]) (fun τ r hr => ⟨envAt τ, by
      simp only [List.mem_cons, List.not_mem_nil, or_false] at hr
      rcases hr with rfl | rfl <;> rfl, envAt_ok τ⟩)

/-- With a weight different from one the speed is not the rate of the error: the error changes at rate `-1`
and the task reports the speed `3`. -/
theorem C61_weights_counterexample (s : CoMT ℝ) (R : CoMRun [3] bs ⟨5, 0, 0⟩ s) :
    ∃ s' : ℝ → CoMT ℝ, (∀ τ, s.update bs mb (st τ) = .ok (s' τ)) ∧
      HasD3 (fun τ => (s' τ).out.eval) ⟨-1, 0, 0⟩ 0 ∧ (s' 0).out.speed = ⟨3, 0, 0⟩ := by
  choose M m1 m2 m3 m4 using fun τ => com_exact R ((ev 0).moves τ) massOK massNe
  have hv : (comVel bs (st 0) 0).lin = ⟨1, 0, 0⟩ := by
    ext <;> simp [comVel, comPt, bs, bodyAt, kPose, kVel, st, PT.mul, PT.mulM, PT.ofTrans, PT.ofRot,
      M3.transpose, M3.one, M3.mul, M3.mulVec, V3.dot]
  refine ⟨_, m1, ?_, ?_⟩
  · refine ((HasD3.const _ 0).sub (com_pos_deriv (ev 0) massOK (w := [1]) (fun i hi => by
      have : i = 0 := by simp [bs] at hi; exact hi
      subst this
      rfl))).congr_deriv ?_
    have hl : bs.length = 1 := rfl
    rw [hl, Finset.sum_range_one, hv]
    have hc : comCoef bs [1] 0 = 1 := by simp [comCoef, mass]; simp [bodyAt, bs]
    rw [hc]
    ext <;> simp
  · dsimp only
    have hl : bs.length = 1 := rfl
    rw [hl, Finset.sum_range_one, hv]
    have hc : comCoef bs [3] 0 = 3 := by simp [comCoef, mass]; simp [bodyAt, bs]
    rw [hc]
    ext <;> simp

end ComEx

end Verif
