import Verif.Model.Momentum
import Verif.Props.CoM

/-!
# Lemmas on the momentum task
-/

set_option autoImplicit false
set_option linter.unusedSectionVars false

namespace Verif

open Finset Spec

section
variable {K : Type} [CommRing K]

namespace FV

@[simp] theorem sub_couple (a b : FV K) : (a - b).couple = a.couple - b.couple := rfl
@[simp] theorem sub_force (a b : FV K) : (a - b).force = a.force - b.force := rfl

instance : AddCommMonoid (FV K) where
  add_assoc a b c := by ext <;> simp <;> ring
  zero_add a := by ext <;> simp
  add_zero a := by ext <;> simp
  add_comm a b := by ext <;> simp <;> ring
  nsmul := nsmulRec

theorem sum_couple (n : ℕ) (f : ℕ → FV K) :
    (∑ i ∈ range n, f i).couple = ∑ i ∈ range n, (f i).couple := by
  induction n with
  | zero => rfl
  | succ n ih => rw [Finset.sum_range_succ, Finset.sum_range_succ, ← ih]; rfl

theorem sum_force (n : ℕ) (f : ℕ → FV K) :
    (∑ i ∈ range n, f i).force = ∑ i ∈ range n, (f i).force := by
  induction n with
  | zero => rfl
  | succ n ih => rw [Finset.sum_range_succ, Finset.sum_range_succ, ← ih]; rfl

theorem get_add (f g : FV K) (a : ℕ) : (f + g).get a = f.get a + g.get a := by
  have e : ∀ (u v : V3 K) (b : ℕ), (u + v).get b = u.get b + v.get b := by
    intro u v b
    match b with
    | 0 => rfl
    | 1 => rfl
    | k + 2 => rfl
  unfold get
  split
  · exact e _ _ _
  · exact e _ _ _

theorem get_zero (a : ℕ) : (0 : FV K).get a = 0 := by
  have e : ∀ b : ℕ, (0 : V3 K).get b = 0 := by
    intro b
    match b with
    | 0 => rfl
    | 1 => rfl
    | k + 2 => rfl
  unfold get
  split
  · exact e _
  · exact e _

theorem get_sub (f g : FV K) (a : ℕ) : (f - g).get a = f.get a - g.get a := by
  have e : ∀ (u v : V3 K) (b : ℕ), (u - v).get b = u.get b - v.get b := by
    intro u v b
    match b with
    | 0 => rfl
    | 1 => rfl
    | k + 2 => rfl
  unfold get
  split
  · exact e _ _ _
  · exact e _ _ _

theorem get_sum (n : ℕ) (f : ℕ → FV K) (a : ℕ) :
    (∑ i ∈ range n, f i).get a = ∑ i ∈ range n, (f i).get a := by
  induction n with
  | zero => exact get_zero a
  | succ n ih => rw [Finset.sum_range_succ, Finset.sum_range_succ, ← ih, get_add]

end FV

theorem M3.mulVec_sum' (m : M3 K) (n : ℕ) (f : ℕ → V3 K) :
    m.mulVec (∑ i ∈ range n, f i) = ∑ i ∈ range n, m.mulVec (f i) := by
  induction n with
  | zero => exact M3.mulVec_zero m
  | succ n ih => rw [Finset.sum_range_succ, Finset.sum_range_succ, ← ih, M3.mulVec_add]

theorem V3.cross_sum' (v : V3 K) (n : ℕ) (f : ℕ → V3 K) :
    v.cross (∑ i ∈ range n, f i) = ∑ i ∈ range n, v.cross (f i) := by
  induction n with
  | zero => ext <;> simp
  | succ n ih =>
    rw [Finset.sum_range_succ, Finset.sum_range_succ, ← ih]
    ext <;> simp <;> ring

theorem V3.sum_cross' (v : V3 K) (n : ℕ) (f : ℕ → V3 K) :
    (∑ i ∈ range n, f i).cross v = ∑ i ∈ range n, (f i).cross v := by
  induction n with
  | zero => ext <;> simp
  | succ n ih =>
    rw [Finset.sum_range_succ, Finset.sum_range_succ, ← ih]
    ext <;> simp <;> ring

theorem V3.sum_smul' (v : V3 K) (n : ℕ) (f : ℕ → K) :
    (∑ i ∈ range n, f i) • v = ∑ i ∈ range n, f i • v := by
  induction n with
  | zero => ext <;> simp
  | succ n ih =>
    rw [Finset.sum_range_succ, Finset.sum_range_succ, ← ih]
    ext <;> simp <;> ring

/-- Body number `i` with its inertia. -/
def inertiaAt (bs : List (BodyI K)) (i : ℕ) : BodyI K := bs.getD i ⟨⟨0, 0, []⟩, ⟨0, 0, 0⟩⟩

theorem vecAt_inertiaAt {bs : List (BodyI K)} {i : ℕ} (h : i < bs.length) :
    vecAt bs i = .ok (inertiaAt bs i) := vecAt_getD _ h

/-- What body `i` moving with velocity `V` contributes to the momentum about `com`. -/
def bodyMom (bs : List (BodyI K)) (st : KState K) (com : V3 K) (i : ℕ) (V : MV K) : FV K :=
  (atCom (kPose st i) com).transMul ((inertiaAt bs i).mul V)

theorem atCom_E (X : PT K) (c : V3 K) : (atCom X c).E = X.E := by
  unfold atCom PT.mul PT.ofTrans
  exact M3.mul_one' _

theorem atCom_r (X : PT K) (c : V3 K) : (atCom X c).r = X.r - c := by
  unfold atCom PT.mul PT.ofTrans
  dsimp only
  rw [M3.transpose_one, M3.one_mulVec]
  abel

theorem bodyMom_force (bs : List (BodyI K)) (st : KState K) (com : V3 K) (i : ℕ) (V : MV K) :
    (bodyMom bs st com i V).force
      = (kPose st i).E.transpose.mulVec ((inertiaAt bs i).mul V).force := by
  unfold bodyMom PT.transMul
  dsimp only
  rw [atCom_E]

theorem bodyMom_couple (bs : List (BodyI K)) (st : KState K) (com : V3 K) (i : ℕ) (V : MV K) :
    (bodyMom bs st com i V).couple
      = (kPose st i).E.transpose.mulVec ((inertiaAt bs i).mul V).couple
        + ((kPose st i).r - com).cross
          ((kPose st i).E.transpose.mulVec ((inertiaAt bs i).mul V).force) := by
  unfold bodyMom PT.transMul
  dsimp only
  rw [atCom_E, atCom_r]

theorem inertia_add (B : BodyI K) (u v : MV K) : B.mul (u + v) = B.mul u + B.mul v := by
  ext <;> simp [BodyI.mul, M3.mulVec, V3.dot] <;> ring

theorem transMul_add (X : PT K) (f g : FV K) : X.transMul (f + g) = X.transMul f + X.transMul g := by
  ext <;> simp [PT.transMul, M3.mulVec, V3.dot] <;> ring

theorem bodyMom_get_lin (bs : List (BodyI K)) (st : KState K) (com : V3 K) (i a : ℕ) :
    MV.Lin (K := K) fun V => (bodyMom bs st com i V).get a := by
  have hz : (inertiaAt bs i).mul (0 : MV K) = 0 := by
    ext <;> simp [BodyI.mul, M3.mulVec, V3.dot]
  have hz' : (atCom (kPose st i) com).transMul (0 : FV K) = 0 := by
    ext <;> simp [PT.transMul, M3.mulVec, V3.dot]
  refine ⟨?_, fun u v => ?_, fun c u => ?_⟩
  · unfold bodyMom
    rw [hz, hz', FV.get_zero]
  · unfold bodyMom
    rw [inertia_add, transMul_add, FV.get_add]
  · have e : bodyMom bs st com i (c • u)
        = ⟨c • (bodyMom bs st com i u).couple, c • (bodyMom bs st com i u).force⟩ := by
      unfold bodyMom
      ext <;> simp [BodyI.mul, PT.transMul, M3.mulVec, V3.dot] <;> ring
    have s3 : ∀ (v : V3 K) (b : ℕ), (c • v).get b = c * v.get b := by
      intro v b
      match b with
      | 0 => rfl
      | 1 => rfl
      | k + 2 => rfl
    rw [e]
    unfold FV.get
    split
    · exact s3 _ _
    · exact s3 _ _

theorem mv_of_get (v : MV K) : (⟨⟨v.get 0, v.get 1, v.get 2⟩, ⟨v.get 3, v.get 4, v.get 5⟩⟩ : MV K) = v := by
  ext <;> simp [MV.get, V3.get]

/-- The bodies are those of a state computed by forward kinematics. -/
theorem momentum_matrix {bs : List (BodyI K)} {mb : MultiBody K} {st : KState K} {x : ℕ → K}
    (hl : ∀ i < bs.length, (inertiaAt bs i).b.path.getLast? = some i ∧
      Moves mb st (inertiaAt bs i).b.path x) (com : V3 K) :
    ∃ M : Mat K, momentumMatrix bs mb st com = .ok M ∧ M.rows = 6 ∧ M.cols = mb.nrDof ∧
      ∀ z, ∀ a < 6, M.rowMul a z = (∑ i ∈ range bs.length, bodyMom bs st com i
        ((kPose st i).mulM (wSum mb st (inertiaAt bs i).b.path z))).get a := by
  unfold momentumMatrix
  obtain ⟨M, h1, h2, h3, h4⟩ := forRange_inv (n := bs.length) (s := (Mat.zero 6 mb.nrDof : Mat K))
    (f := fun i (M : Mat K) => do
      let B ← vecAt bs i
      let X ← vecAt st.bodyPosW i
      let J ← Jac.bodyJacobian mb st ⟨B.b.path, 0⟩
      let F ← fullJacobian mb B.b.path
        ⟨6, J.cols, fun a k => ((atCom X com).transMul (B.mul (J.colMV k))).get a⟩ (Mat.zero 6 mb.nrDof)
      pure ⟨6, mb.nrDof, fun a k => M.get a k + F.get a k⟩)
    (fun n M => M.rows = 6 ∧ M.cols = mb.nrDof ∧ ∀ z, ∀ a < 6, M.rowMul a z
        = ∑ i ∈ range n, (bodyMom bs st com i
          ((kPose st i).mulM (wSum mb st (inertiaAt bs i).b.path z))).get a)
    ⟨rfl, rfl, fun z a _ => by simp [Mat.rowMul, Mat.zero]⟩ (by
      rintro i hi M ⟨i1, i2, i3⟩
      obtain ⟨hN, hm⟩ := hl i hi
      have hmem := List.mem_of_getLast? hN
      have hX : (PT.ofTrans (0 : V3 K)).mul (kPose st i) = kPose st i := by
        ext <;> simp [PT.mul, PT.ofTrans, M3.one, M3.mul, M3.mulVec, M3.transpose, V3.dot]
      obtain ⟨F, b1, b2, b3, b4⟩ := full_of_cols hm.sized (kPose st i)
        ⟨6, pathDof mb (inertiaAt bs i).b.path, fun a k => (bodyMom bs st com i
          ((pathCols mb (kCol st (kPose st i)) (inertiaAt bs i).b.path).getD k 0)).get a⟩
        (Mat.zero 6 mb.nrDof) 6 (fun a v => (bodyMom bs st com i v).get a) rfl rfl
        (fun a _ k _ => rfl) le_rfl rfl
      have g := full_gen hm.sized.mem hm.rigid _ F 6 (fun a v => (bodyMom bs st com i v).get a)
        (fun a => bodyMom_get_lin bs st com i a) b3 b4
      refine ⟨⟨6, mb.nrDof, fun a k => M.get a k + F.get a k⟩, ?_, rfl, rfl, fun z a ha => ?_⟩
      · rw [vecAt_inertiaAt hi, Out.ok_bind, vecAt_getD PT.one (hm.sized.pos i hmem), Out.ok_bind,
          jac_bodyJac (J := ⟨(inertiaAt bs i).b.path, 0⟩) hm.sized hN, Out.ok_bind]
        dsimp only
        rw [hX]
        have e : (fun a k => ((atCom (st.bodyPosW.getD i PT.one) com).transMul ((inertiaAt bs i).mul
            (Mat.colMV (⟨6, pathDof mb (inertiaAt bs i).b.path, fun a k =>
              ((pathCols mb (kCol st (kPose st i)) (inertiaAt bs i).b.path).getD k 0).get a⟩ : Mat K)
              k))).get a) = fun a k => (bodyMom bs st com i
                ((pathCols mb (kCol st (kPose st i)) (inertiaAt bs i).b.path).getD k 0)).get a := by
          funext a k
          unfold Mat.colMV
          dsimp only
          rw [mv_of_get]
          rfl
        rw [e, b1, Out.ok_bind]
        rfl
      · have e := g z a ha
        rw [Finset.sum_range_succ, ← i3 z a ha, ← e]
        unfold Mat.rowMul
        dsimp only
        rw [i2, b3]
        simp only [Mat.zero, add_mul, Finset.sum_add_distrib])
  exact ⟨M, h1, h2, h3, fun z a ha => by rw [h4 z a ha, FV.get_sum]⟩

theorem centroidal_sum {bs : List (BodyI K)} {st : KState K} (hp : ∀ i < bs.length, i < st.bodyPosW.length)
    (hv : ∀ i < bs.length, i < st.bodyVelB.length) (com : V3 K) :
    centroidalMomentum bs st com
      = .ok (∑ i ∈ range bs.length, bodyMom bs st com i (kVel st i)) := by
  unfold centroidalMomentum
  refine forRange_sum fun i hi a => ?_
  rw [vecAt_inertiaAt hi, Out.ok_bind, vecAt_getD PT.one (hp i hi), Out.ok_bind,
    vecAt_getD 0 (hv i hi), Out.ok_bind]
  rfl

/-- What body `i` contributes to the normal part. -/
def bodyMomDot (bs : List (BodyI K)) (st : KState K) (com comDot : V3 K) (i : ℕ) : FV K :=
  (atCom (kPose st i) com).transMul ((inertiaAt bs i).mul (kAcc st i)
      + (kVel st i).crossDual ((inertiaAt bs i).mul (kVel st i)))
    - MV.crossDual ⟨0, comDot⟩ (bodyMom bs st com i (kVel st i))

theorem momentumDot_sum {bs : List (BodyI K)} {st : KState K} (hp : ∀ i < bs.length, i < st.bodyPosW.length)
    (hv : ∀ i < bs.length, i < st.bodyVelB.length) (ha : ∀ i < bs.length, i < st.normalAccB.length)
    (com comDot : V3 K) :
    normalMomentumDot bs st com comDot
      = .ok (∑ i ∈ range bs.length, bodyMomDot bs st com comDot i) := by
  unfold normalMomentumDot
  refine forRange_sum fun i hi a => ?_
  rw [vecAt_inertiaAt hi, Out.ok_bind, vecAt_getD PT.one (hp i hi), Out.ok_bind,
    vecAt_getD 0 (hv i hi), Out.ok_bind, vecAt_getD 0 (ha i hi), Out.ok_bind]
  rfl

end

section
variable {K : Type} [Field K] [LinearOrder K] [IsStrictOrderedRing K]

theorem bodyAt_map (bs : List (BodyI K)) (i : ℕ) : bodyAt (bs.map BodyI.b) i = (inertiaAt bs i).b := by
  unfold bodyAt inertiaAt
  rw [List.getD_eq_getElem?_getD, List.getD_eq_getElem?_getD, List.getElem?_map]
  cases bs[i]? <;> rfl

/-- The position of the centre of mass RBDyn computes, without assumption on the masses. -/
theorem com_raw {bs : List (BodyM K)} {st : KState K} (hp : ∀ i < bs.length, i < st.bodyPosW.length)
    (hM : massSum bs ≠ 0) :
    computeCoM bs st = .ok ((1 / massSum bs) • ∑ i ∈ range bs.length,
      ((bodyAt bs i).mass • (kPose st i).r + (kPose st i).E.transpose.mulVec (bodyAt bs i).h)) := by
  unfold computeCoM
  obtain ⟨a, h1, h2⟩ := forRange_inv (n := bs.length) (s := ((0, 0) : V3 K × K))
    (f := fun i (a : V3 K × K) => do
      let b ← vecAt bs i
      let X ← vecAt st.bodyPosW i
      pure (a.1 + (b.mass • X.r + X.E.transpose.mulVec b.h), a.2 + b.mass))
    (fun n a => a = (∑ i ∈ range n,
        ((bodyAt bs i).mass • (kPose st i).r + (kPose st i).E.transpose.mulVec (bodyAt bs i).h),
      ∑ i ∈ range n, (bodyAt bs i).mass)) (by simp) (by
      intro i hi a ha
      refine ⟨_, by rw [vecAt_bodyAt hi, Out.ok_bind, vecAt_getD PT.one (hp i hi), Out.ok_bind]; rfl, ?_⟩
      rw [ha, Finset.sum_range_succ, Finset.sum_range_succ]
      rfl)
  rw [h1, Out.ok_bind, h2]
  exact fdivV_ok hM

theorem comVel_raw {bs : List (BodyM K)} {st : KState K} (hp : ∀ i < bs.length, i < st.bodyPosW.length)
    (hv : ∀ i < bs.length, i < st.bodyVelB.length) (hM : massSum bs ≠ 0) :
    computeCoMVelocity bs st = .ok ((1 / massSum bs) • ∑ i ∈ range bs.length,
      (kPose st i).E.transpose.mulVec
        ((bodyAt bs i).mass • (kVel st i).lin - (bodyAt bs i).h.cross (kVel st i).ang)) := by
  unfold computeCoMVelocity
  obtain ⟨a, h1, h2⟩ := forRange_inv (n := bs.length) (s := ((0, 0) : V3 K × K))
    (f := fun i (a : V3 K × K) => do
      let b ← vecAt bs i
      let X ← vecAt st.bodyPosW i
      let V ← vecAt st.bodyVelB i
      pure (a.1 + X.E.transpose.mulVec (b.mass • V.lin - b.h.cross V.ang), a.2 + b.mass))
    (fun n a => a = (∑ i ∈ range n, (kPose st i).E.transpose.mulVec
        ((bodyAt bs i).mass • (kVel st i).lin - (bodyAt bs i).h.cross (kVel st i).ang),
      ∑ i ∈ range n, (bodyAt bs i).mass)) (by simp) (by
      intro i hi a ha
      refine ⟨_, by rw [vecAt_bodyAt hi, Out.ok_bind, vecAt_getD PT.one (hp i hi), Out.ok_bind,
        vecAt_getD 0 (hv i hi), Out.ok_bind]; rfl, ?_⟩
      rw [ha, Finset.sum_range_succ, Finset.sum_range_succ]
      rfl)
  rw [h1, Out.ok_bind, h2]
  exact fdivV_ok hM

/-- The centre of mass and its velocity, as the task uses them. -/
def momCom (bs : List (BodyI K)) (st : KState K) : V3 K :=
  (1 / massSum (bs.map BodyI.b)) • ∑ i ∈ range bs.length,
    ((inertiaAt bs i).b.mass • (kPose st i).r + (kPose st i).E.transpose.mulVec (inertiaAt bs i).b.h)
def momComDot (bs : List (BodyI K)) (st : KState K) : V3 K :=
  (1 / massSum (bs.map BodyI.b)) • ∑ i ∈ range bs.length,
    (kPose st i).E.transpose.mulVec
      ((inertiaAt bs i).b.mass • (kVel st i).lin - (inertiaAt bs i).b.h.cross (kVel st i).ang)

theorem momentum_exact {bs : List (BodyI K)} {mb : MultiBody K} {st : KState K} {x : ℕ → K}
    (hB : BodiesMove (bs.map BodyI.b) mb st x) (hM : massSum (bs.map BodyI.b) ≠ 0) (s : MomentumT K) :
    ∃ M : Mat K, s.update bs mb st = .ok { s with
        eval := s.momentum - ∑ i ∈ range bs.length, bodyMom bs st (momCom bs st) i (kVel st i)
        normalAcc := ∑ i ∈ range bs.length, bodyMomDot bs st (momCom bs st) (momComDot bs st) i
        jacMat := M } ∧
      M.rows = 6 ∧ M.cols = mb.nrDof ∧
      ∀ z, ∀ a < 6, M.rowMul a z = (∑ i ∈ range bs.length, bodyMom bs st (momCom bs st) i
        ((kPose st i).mulM (wSum mb st (inertiaAt bs i).b.path z))).get a := by
  have hB' : ∀ i < bs.length, (inertiaAt bs i).b.path.getLast? = some i ∧
      Moves mb st (inertiaAt bs i).b.path x := by
    intro i hi
    have := hB i (by simpa using hi)
    rwa [bodyAt_map] at this
  have hp : ∀ i < bs.length, i < st.bodyPosW.length := fun i hi =>
    (hB' i hi).2.sized.pos i (List.mem_of_getLast? (hB' i hi).1)
  have hv : ∀ i < bs.length, i < st.bodyVelB.length := fun i hi =>
    (hB' i hi).2.sized.vel i (List.mem_of_getLast? (hB' i hi).1)
  have ha : ∀ i < bs.length, i < st.normalAccB.length := fun i hi =>
    (hB' i hi).2.sized.acc i (List.mem_of_getLast? (hB' i hi).1)
  obtain ⟨M, m1, m2, m3, m4⟩ := momentum_matrix hB' (momCom bs st)
  refine ⟨M, ?_, m2, m3, m4⟩
  have e1 : computeCoM (bs.map BodyI.b) st = .ok (momCom bs st) := by
    rw [com_raw (by simpa using hp) hM]
    simp only [bodyAt_map, List.length_map]
    rfl
  have e2 : computeCoMVelocity (bs.map BodyI.b) st = .ok (momComDot bs st) := by
    rw [comVel_raw (by simpa using hp) (by simpa using hv) hM]
    simp only [bodyAt_map, List.length_map]
    rfl
  unfold MomentumT.update
  rw [e1, Out.ok_bind, centroidal_sum hp hv, Out.ok_bind, e2, Out.ok_bind, momentumDot_sum hp hv ha,
    Out.ok_bind, m1, Out.ok_bind]
  rfl

end

end Verif
