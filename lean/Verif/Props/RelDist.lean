import Verif.Model.RelDist
import Verif.Proofs.Collision
import Verif.Proofs.Limits
import Verif.Props.Drift
import Verif.Props.SetPoint
import Mathlib.Analysis.SpecialFunctions.Sqrt

/-!
# C60: the relative distance task

The error is the difference of two distances, the speed is the Jacobian applied to the joint
velocities and, when the distances are Euclidean or the fixed vectors point away from the environment,
minus the derivative of the error.
-/

set_option autoImplicit false
set_option linter.unusedSectionVars false

namespace Verif

open Finset Spec

/-! ## One entry -/

section
variable {K : Type} [Field K] [LinearOrder K] [IsStrictOrderedRing K]

/-- Position of the point of an entry. -/
def RelBody.pt (st : KState K) (b : RelBody K) : V3 K :=
  ((PT.ofTrans b.r_b1_p).mul (kPose st b.b1Index)).r

/-- Its velocity in the world. -/
def RelBody.vel (st : KState K) (b : RelBody K) : MV K :=
  ((PT.ofRot (kPose st b.b1Index).E.transpose).mul (PT.ofTrans b.r_b1_p)).mulM (kVel st b.b1Index)

/-- Its normal acceleration. -/
def RelBody.nacc (st : KState K) (b : RelBody K) : MV K :=
  ((PT.ofRot (kPose st b.b1Index).E.transpose).mul (PT.ofTrans b.r_b1_p)).mulM (kAcc st b.b1Index)
    + MV.cross ⟨(kPose st b.b1Index).E.transpose.mulVec (kVel st b.b1Index).ang, 0⟩ (b.vel st)

/-- Its acceleration due to the joint accelerations `z`. -/
def RelBody.jacc (mb : MultiBody K) (st : KState K) (b : RelBody K) (z : ℕ → K) : MV K :=
  (PT.ofTrans (b.pt st)).mulM (wSum mb st b.jac.path z)

namespace Spec

/-- An entry as the constructor and `robotPoint` leave it: the Jacobian leads to the point. -/
structure RelBodyOK (b : RelBody K) : Prop where
  path : b.jac.path.getLast? = some b.b1Index
  point : b.jac.point = b.r_b1_p

/-- The joint velocities of the state are `x`. -/
structure AlphaIs (mb : MultiBody K) (st : KState K) (x : ℕ → K) : Prop where
  len : st.alpha.flatten.length = mb.nrDof
  get : ∀ c < mb.nrDof, st.alpha.flatten[c]? = some (x c)

end Spec

theorem mulVec_dot_rows (n : V3 K) (M : Mat K) (z : ℕ → K) (m : ℕ) :
    ∑ c ∈ range m, n.dot ⟨M.get 0 c, M.get 1 c, M.get 2 c⟩ * z c
      = n.dot ⟨∑ c ∈ range m, M.get 0 c * z c, ∑ c ∈ range m, M.get 1 c * z c,
        ∑ c ∈ range m, M.get 2 c * z c⟩ := by
  simp only [V3.dot, Finset.mul_sum, ← Finset.sum_add_distrib]
  exact Finset.sum_congr rfl fun c _ => by ring

theorem relBody_exact {sqrt : K → Out K} {mb : MultiBody K} {st : KState K} {x : ℕ → K} {b : RelBody K}
    (hb : RelBodyOK b) (h : Moves mb st b.jac.path x) (hα : AlphaIs mb st x) {dt : K} {fixed : Bool}
    {d : K} {n dn : V3 K} (hd : RelDistT.direction sqrt dt fixed (kPose st b.b1Index) b = .ok (d, n, dn))
    (junk : ℕ → ℕ → K) (junkA : ℕ → K) (sign : K) (a : RelDistT.Acc K) (hr : a.jacMat.rows = 1)
    (hc : a.jacMat.cols = mb.nrDof) :
    ∃ R : Mat K, RelDistT.bodyStep sqrt mb st dt fixed junk junkA sign b a
        = .ok ({ b with offn := n }, ⟨a.eval + sign * d, a.speed + sign * (b.vel st).lin.dot n,
          a.normalAcc + (sign * (b.vel st).lin.dot dn + sign * (b.nacc st).lin.dot n), R⟩) ∧
      R.rows = 1 ∧ R.cols = mb.nrDof ∧
      ∀ z, R.rowMul 0 z = a.jacMat.rowMul 0 z + sign * n.dot (b.jacc mb st z).lin := by
  have hrig := h.rigid _ (List.mem_of_getLast? hb.path)
  obtain ⟨sh, F, b1, b2, b3, b4, b6, b5⟩ := linear_full h hb.path _ _
    (world_frame (kPose st b.b1Index) hrig b.jac.point) ⟨3, mb.nrDof, junk⟩ rfl rfl
  have g := full_gen h.sized.mem h.rigid _ F 3 (fun a v => v.get (3 + a)) (fun a => lin_get (3 + a)) b4 b6
  have hx : ∀ i < 3, F.rowMul i (fun c => (st.alpha.flatten[c]?).getD (junkA c)) = F.rowMul i x := by
    intro i _
    unfold Mat.rowMul
    refine Finset.sum_congr rfl fun c hc => ?_
    dsimp only
    rw [hα.get c (by rw [← b4]; simpa using hc)]
    rfl
  have hw : (⟨F.rowMul 0 x, F.rowMul 1 x, F.rowMul 2 x⟩ : V3 K) = (b.vel st).lin := by
    have e0 := b5 0 (by omega)
    have e1 := b5 1 (by omega)
    have e2 := b5 2 (by omega)
    unfold RelBody.vel
    rw [e0, e1, e2, hb.point]
    rfl
  refine ⟨⟨1, a.jacMat.cols, fun i c => a.jacMat.get i c
          + sign * n.dot ⟨F.get 0 c, F.get 1 c, F.get 2 c⟩⟩, ?_, rfl, hc, fun z => ?_⟩
  · unfold RelDistT.bodyStep
    rw [vecAt_getD PT.one (h.sized.pos _ (List.mem_of_getLast? hb.path)), Out.ok_bind]
    unfold kPose at hd
    rw [hd, Out.ok_bind]
    dsimp only
    rw [jac_world h.sized hb.path, Out.ok_bind, b1, Out.ok_bind, b2, Out.ok_bind,
      if_neg (by rw [b4]; simp [hr, hc]), jac_vel h.sized hb.path, Out.ok_bind,
      paramToVector_ok _ _ (by rw [hα.len]), Out.ok_bind, jac_acc h.sized hb.path, Out.ok_bind]
    dsimp only
    rw [hx 0 (by omega), hx 1 (by omega), hx 2 (by omega), hw, hb.point]
    rfl
  · have e0 := g z 0 (by omega)
    have e1 := g z 1 (by omega)
    have e2 := g z 2 (by omega)
    rw [MV.get_lin _ (by omega)] at e0 e1 e2
    unfold Mat.rowMul at e0 e1 e2 ⊢
    dsimp only
    rw [b4] at e0 e1 e2
    simp only [add_mul, Finset.sum_add_distrib, mul_assoc, ← Finset.mul_sum]
    congr 2
    rw [hc, mulVec_dot_rows, e0, e1, e2]
    unfold RelBody.jacc RelBody.pt
    rw [hb.point]
    rfl

/-- The update with two entries. -/
theorem rel_exact {sqrt : K → Out K} {mb : MultiBody K} {st : KState K} {x : ℕ → K} {s : RelDistT K}
    {b1 b2 : RelBody K} (hi : s.infos = [b1, b2]) (hb1 : RelBodyOK b1) (hb2 : RelBodyOK b2)
    (h1 : Moves mb st b1.jac.path x) (h2 : Moves mb st b2.jac.path x) (hα : AlphaIs mb st x)
    {d1 d2 : K} {n1 dn1 n2 dn2 : V3 K}
    (e1 : RelDistT.direction sqrt s.timestep s.isVectorFixed (kPose st b1.b1Index) b1
      = .ok (d1, n1, dn1))
    (e2 : RelDistT.direction sqrt s.timestep s.isVectorFixed (kPose st b2.b1Index) b2
      = .ok (d2, n2, dn2))
    (hr : s.jacMat.rows = 1) (hc : s.jacMat.cols = mb.nrDof) (junk : ℕ → ℕ → K) (junkA : ℕ → K) :
    ∃ R : Mat K, s.update sqrt mb st junk junkA = .ok { s with
        eval := d1 - d2
        speed := (b1.vel st).lin.dot n1 - (b2.vel st).lin.dot n2
        normalAcc := ((b1.vel st).lin.dot dn1 + (b1.nacc st).lin.dot n1)
          - ((b2.vel st).lin.dot dn2 + (b2.nacc st).lin.dot n2)
        jacMat := R
        infos := [{ b1 with offn := n1 }, { b2 with offn := n2 }] } ∧
      R.rows = 1 ∧ R.cols = mb.nrDof ∧
      ∀ z, R.rowMul 0 z = n1.dot (b1.jacc mb st z).lin - n2.dot (b2.jacc mb st z).lin := by
  obtain ⟨R1, g1, g2, g3, g4⟩ := relBody_exact hb1 h1 hα e1 junk junkA 1
    ⟨0, 0, 0, ⟨s.jacMat.rows, s.jacMat.cols, fun _ _ => 0⟩⟩ hr hc
  obtain ⟨R2, k1, k2, k3, k4⟩ := relBody_exact hb2 h2 hα e2 junk junkA (-1)
    ⟨0 + 1 * d1, 0 + 1 * (b1.vel st).lin.dot n1,
      0 + (1 * (b1.vel st).lin.dot dn1 + 1 * (b1.nacc st).lin.dot n1), R1⟩ g2 g3
  refine ⟨R2, ?_, k2, k3, fun z => ?_⟩
  · unfold RelDistT.update
    rw [hi]
    simp only [RelDistT.loop]
    rw [g1]
    simp only [Out.ok_bind]
    rw [k1]
    simp only [Out.ok_bind, Out.pure_eq]
    congr 2 <;> ring
  · rw [k4, g4]
    dsimp only
    unfold Mat.rowMul
    simp only [zero_mul, Finset.sum_const_zero]
    ring

/-- The acceleration due to the velocities themselves: the velocity of the point. -/
theorem RelBody.jacc_vel {mb : MultiBody K} {st : KState K} {x : ℕ → K} {b : RelBody K}
    (hb : RelBodyOK b) (h : Moves mb st b.jac.path x) : b.jacc mb st x = b.vel st := by
  have hrig := h.rigid _ (List.mem_of_getLast? hb.path)
  unfold RelBody.jacc RelBody.vel RelBody.pt wSum
  rw [← moves_vel h hb.path, world_frame _ hrig, PT.mul_mulM _ _ hrig, PT.mulM_inv _ hrig]

namespace Spec

/-- `d` is the Euclidean distance of two points. -/
def IsDist (p q : V3 K) (d : K) : Prop := 0 ≤ d ∧ d * d = (p - q).dot (p - q)

/-- The conditions under which the distances have a direction: fixed vectors, or points apart from
their environment points and a time step different from zero. -/
def RelReady (s : RelDistT K) (st : KState K) (b1 b2 : RelBody K) : Prop :=
  s.isVectorFixed = true ∨ (s.timestep ≠ 0 ∧ b1.pt st ≠ b1.r_0_b2p ∧ b2.pt st ≠ b2.r_0_b2p)

end Spec

theorem V3.dot_self_eq_zero {v : V3 K} (h : v.dot v = 0) : v = 0 := by
  unfold V3.dot at h
  have hx := mul_self_nonneg v.x
  have hy := mul_self_nonneg v.y
  have hz := mul_self_nonneg v.z
  ext
  · exact mul_self_eq_zero.mp (by linarith)
  · exact mul_self_eq_zero.mp (by linarith)
  · exact mul_self_eq_zero.mp (by linarith)

theorem V3.dot_self_nonneg (v : V3 K) : 0 ≤ v.dot v := by
  unfold V3.dot
  have hx := mul_self_nonneg v.x
  have hy := mul_self_nonneg v.y
  have hz := mul_self_nonneg v.z
  linarith

theorem direction_norm {sqrt : K → Out K} (hs : SqrtOK sqrt) {dt : K} (hdt : dt ≠ 0) {st : KState K}
    {b : RelBody K} (hne : b.pt st ≠ b.r_0_b2p) :
    ∃ d, 0 < d ∧ IsDist (b.pt st) b.r_0_b2p d ∧
      RelDistT.direction sqrt dt false (kPose st b.b1Index) b
        = .ok (d, (1 / d) • (b.r_0_b2p - b.pt st),
          (1 / dt) • ((1 / d) • (b.r_0_b2p - b.pt st) - b.offn)) := by
  obtain ⟨d, hd⟩ := hs.1 _ (V3.dot_self_nonneg (b.pt st - b.r_0_b2p))
  obtain ⟨h0, h1⟩ := hs.2 _ _ hd
  have hpos : 0 < d := by
    rcases lt_or_eq_of_le h0 with h | h
    · exact h
    · exfalso
      rw [← h, mul_zero] at h1
      exact hne (sub_eq_zero.mp (V3.dot_self_eq_zero h1.symm))
  refine ⟨d, hpos, ⟨h0, h1⟩, ?_⟩
  unfold RelDistT.direction
  simp only [Bool.false_eq_true, if_false]
  unfold RelBody.pt at hd ⊢
  rw [hd, Out.ok_bind, fdivV_ok hpos.ne', Out.ok_bind, fdivV_ok hdt, Out.ok_bind]
  rfl

theorem direction_fixed (sqrt : K → Out K) (dt : K) (st : KState K) (b : RelBody K) :
    RelDistT.direction sqrt dt true (kPose st b.b1Index) b
      = .ok (|(b.pt st - b.r_0_b2p).dot b.u|, -b.u, 0) := rfl

theorem V3.dot_comm' (a b : V3 K) : a.dot b = b.dot a := by unfold V3.dot; ring

/-- The update succeeds, the error is the difference of the two distances (Euclidean, or along the
fixed vectors) and the speed is the Jacobian applied to the joint velocities. -/
theorem C60_speed_is_jac {sqrt : K → Out K} (hs : SqrtOK sqrt) {mb : MultiBody K} {st : KState K}
    {x : ℕ → K} {s : RelDistT K} {b1 b2 : RelBody K} (hi : s.infos = [b1, b2])
    (hb1 : RelBodyOK b1) (hb2 : RelBodyOK b2) (h1 : Moves mb st b1.jac.path x)
    (h2 : Moves mb st b2.jac.path x) (hα : AlphaIs mb st x) (hready : RelReady s st b1 b2)
    (hr : s.jacMat.rows = 1) (hc : s.jacMat.cols = mb.nrDof) (junk : ℕ → ℕ → K) (junkA : ℕ → K) :
    ∃ s', s.update sqrt mb st junk junkA = .ok s' ∧
      s'.jacMat.rows = 1 ∧ s'.jacMat.cols = mb.nrDof ∧ s'.jacMat.rowMul 0 x = s'.speed ∧
      (s.isVectorFixed = true → s'.eval = |(b1.pt st - b1.r_0_b2p).dot b1.u|
        - |(b2.pt st - b2.r_0_b2p).dot b2.u|) ∧
      (s.isVectorFixed = false → ∃ d1 d2, IsDist (b1.pt st) b1.r_0_b2p d1 ∧
        IsDist (b2.pt st) b2.r_0_b2p d2 ∧ s'.eval = d1 - d2) := by
  cases hf : s.isVectorFixed with
  | true =>
    obtain ⟨R, g1, g2, g3, g4⟩ := rel_exact hi hb1 hb2 h1 h2 hα
      (hf ▸ direction_fixed sqrt s.timestep st b1) (hf ▸ direction_fixed sqrt s.timestep st b2)
      hr hc junk junkA
    refine ⟨_, g1, g2, g3, ?_, fun _ => rfl, fun h => by simp at h⟩
    dsimp only
    rw [g4, RelBody.jacc_vel hb1 h1, RelBody.jacc_vel hb2 h2, V3.dot_comm', V3.dot_comm' (-b2.u)]
  | false =>
    rcases hready with hready | ⟨hdt, n1, n2⟩
    · rw [hf] at hready; cases hready
    · obtain ⟨d1, -, k1, e1⟩ := direction_norm hs hdt n1
      obtain ⟨d2, -, k2, e2⟩ := direction_norm hs hdt n2
      rw [← hf] at e1 e2
      obtain ⟨R, g1, g2, g3, g4⟩ := rel_exact hi hb1 hb2 h1 h2 hα e1 e2 hr hc junk junkA
      refine ⟨_, g1, g2, g3, ?_, fun h => by simp at h, fun _ => ⟨d1, d2, k1, k2, rfl⟩⟩
      dsimp only
      rw [g4, RelBody.jacc_vel hb1 h1, RelBody.jacc_vel hb2 h2, V3.dot_comm' _ (b1.vel st).lin,
        V3.dot_comm' _ (b2.vel st).lin]

/-- A point that meets its environment point is undefined behaviour (division by the distance zero). -/
theorem C60_contact_ub {sqrt : K → Out K} (hs : SqrtOK sqrt) {mb : MultiBody K} {st : KState K}
    {s : RelDistT K} {b1 : RelBody K} {l : List (RelBody K)} (hi : s.infos = b1 :: l)
    (hf : s.isVectorFixed = false) (hb : b1.b1Index < st.bodyPosW.length)
    (h : b1.pt st = b1.r_0_b2p) (junk : ℕ → ℕ → K) (junkA : ℕ → K) :
    s.update sqrt mb st junk junkA = .ub := by
  unfold RelDistT.update
  rw [hi]
  simp only [RelDistT.loop, RelDistT.bodyStep]
  rw [vecAt_getD PT.one hb]
  simp only [Out.ok_bind]
  have e : RelDistT.direction sqrt s.timestep s.isVectorFixed (st.bodyPosW.getD b1.b1Index PT.one) b1
      = .ub := by
    unfold RelDistT.direction
    rw [hf]
    simp only [Bool.false_eq_true, if_false]
    unfold RelBody.pt kPose at h
    rw [h]
    simp only [sub_self]
    have h0 : (0 : V3 K).dot 0 = 0 := by simp [V3.dot]
    rw [h0]
    obtain ⟨d, hd⟩ := hs.1 0 le_rfl
    rw [hd, Out.ok_bind]
    have := (hs.2 _ _ hd).2
    rw [mul_self_eq_zero.mp this]
    unfold fdivV
    rw [if_pos rfl]
    rfl
  rw [e]
  rfl

/-- `robotPoint`, `envPoint` and `vector` keep the entries consistent. -/
theorem C60_setters {s : RelDistT K} (h : ∀ b ∈ s.infos, RelBodyOK b) (i : ℕ) (p : V3 K) :
    (∀ b ∈ (s.robotPoint i p).infos, RelBodyOK b ∧ (b.b1Index = i → b.r_b1_p = p)) ∧
    (∀ b ∈ (s.envPoint i p).infos, RelBodyOK b ∧ (b.b1Index = i → b.r_0_b2p = p)) ∧
    (∀ b ∈ (s.vector i p).infos, RelBodyOK b ∧ (b.b1Index = i → b.u = p)) := by
  refine ⟨?_, ?_, ?_⟩ <;> intro b hb <;>
    simp only [RelDistT.robotPoint, RelDistT.envPoint, RelDistT.vector, List.mem_map] at hb <;>
    obtain ⟨c, hc, rfl⟩ := hb <;> by_cases e : c.b1Index = i
  · rw [if_pos e]; exact ⟨⟨(h c hc).path, rfl⟩, fun _ => rfl⟩
  · rw [if_neg e]; exact ⟨h c hc, fun k => absurd k e⟩
  · rw [if_pos e]; exact ⟨⟨(h c hc).path, (h c hc).point⟩, fun _ => rfl⟩
  · rw [if_neg e]; exact ⟨h c hc, fun k => absurd k e⟩
  · rw [if_pos e]; exact ⟨⟨(h c hc).path, (h c hc).point⟩, fun _ => rfl⟩
  · rw [if_neg e]; exact ⟨h c hc, fun k => absurd k e⟩

/-- The states of a task built on two entries: any calls of the setters and updates. -/
inductive Spec.RelRun (sqrt : K → Out K) (mb : MultiBody K) (dt : K) (i1 i2 : RelBody K) : RelDistT K → Prop
  | make (junk : K × K × K) (junkJ : ℕ → ℕ → K) : RelRun sqrt mb dt i1 i2 (RelDistT.make mb dt i1 i2 junk junkJ)
  | robotPoint {s : RelDistT K} (i : ℕ) (p : V3 K) (h : RelRun sqrt mb dt i1 i2 s) :
    RelRun sqrt mb dt i1 i2 (s.robotPoint i p)
  | envPoint {s : RelDistT K} (i : ℕ) (p : V3 K) (h : RelRun sqrt mb dt i1 i2 s) :
    RelRun sqrt mb dt i1 i2 (s.envPoint i p)
  | vector {s : RelDistT K} (i : ℕ) (u : V3 K) (h : RelRun sqrt mb dt i1 i2 s) :
    RelRun sqrt mb dt i1 i2 (s.vector i u)
  | update {s s' : RelDistT K} (st : KState K) (junk : ℕ → ℕ → K) (junkA : ℕ → K)
    (h : RelRun sqrt mb dt i1 i2 s) (e : s.update sqrt mb st junk junkA = .ok s') : RelRun sqrt mb dt i1 i2 s'

/-- Whether the distances are measured along fixed vectors is settled when the task is built: both
vectors given to the constructor must be non-zero. -/
theorem C60_mode {sqrt : K → Out K} {mb : MultiBody K} {dt : K} {i1 i2 : RelBody K} {s : RelDistT K}
    (h : RelRun sqrt mb dt i1 i2 s) : s.isVectorFixed = true ↔ i1.u ≠ 0 ∧ i2.u ≠ 0 := by
  induction h with
  | make => simp [RelDistT.make]
  | robotPoint _ _ _ ih => exact ih
  | envPoint _ _ _ ih => exact ih
  | vector _ _ _ ih => exact ih
  | update st junk junkA _ e ih =>
    unfold RelDistT.update at e
    obtain ⟨⟨l, a⟩, -, e⟩ := Out.bind_eq_ok.1 e
    cases e
    exact ih

/-- The loop with Euclidean distances does not read the vectors. -/
theorem bodyStep_vector (sqrt : K → Out K) (mb : MultiBody K) (st : KState K) (dt : K) (junk : ℕ → ℕ → K)
    (junkA : ℕ → K) (u : V3 K) (sign : K) (b : RelBody K) (a : RelDistT.Acc K) :
    RelDistT.bodyStep sqrt mb st dt false junk junkA sign { b with u := u } a
      = RelDistT.bodyStep sqrt mb st dt false junk junkA sign b a >>= fun r =>
        .ok ({ r.1 with u := u }, r.2) := by
  have assoc : ∀ {α β γ : Type} (x : Out α) (f : α → Out β) (g : β → Out γ),
      (x >>= f) >>= g = x >>= fun a => f a >>= g := by
    intro α β γ x f g
    cases x <;> rfl
  have congr : ∀ {α β : Type} (x : Out α) {f g : α → Out β}, (∀ a, f a = g a) → x >>= f = x >>= g := by
    intro α β x f g h
    cases x with
    | ok a => exact h a
    | ub => rfl
    | throws _ => rfl
  unfold RelDistT.bodyStep RelDistT.direction
  simp only [assoc, Bool.false_eq_true, if_false]
  refine congr _ fun X => congr _ fun d => congr _ fun n => congr _ fun dn => ?_
  simp only [Out.pure_eq, Out.ok_bind]
  refine congr _ fun sh => congr _ fun bl => congr _ fun full => ?_
  split
  · rfl
  · simp only [assoc]
    exact congr _ fun v => congr _ fun al => congr _ fun na => rfl

theorem loop_vector (sqrt : K → Out K) (mb : MultiBody K) (st : KState K) (dt : K) (junk : ℕ → ℕ → K)
    (junkA : ℕ → K) (i : ℕ) (u : V3 K) {l l' : List (RelBody K)} {a a' : RelDistT.Acc K} {sign : K}
    (h : RelDistT.loop sqrt mb st dt false junk junkA sign l a = .ok (l', a')) :
    ∃ l'', RelDistT.loop sqrt mb st dt false junk junkA sign
      (l.map fun b => if b.b1Index = i then { b with u := u } else b) a = .ok (l'', a') := by
  induction l generalizing a sign l' a' with
  | nil => cases h; exact ⟨_, rfl⟩
  | cons b l ih =>
    rw [RelDistT.loop] at h
    obtain ⟨⟨b1, a1⟩, h1, h⟩ := Out.bind_eq_ok.1 h
    obtain ⟨⟨l1, a2⟩, h2, h⟩ := Out.bind_eq_ok.1 h
    cases h
    obtain ⟨l'', h3⟩ := ih h2
    rw [List.map_cons, RelDistT.loop]
    split
    · rw [bodyStep_vector, h1]
      simp only [Out.ok_bind, h3]
      exact ⟨_, rfl⟩
    · rw [h1]
      simp only [Out.ok_bind, h3]
      exact ⟨_, rfl⟩

/-- A task built with a zero vector measures Euclidean distances; giving it vectors afterwards has no
effect on the results. -/
theorem C60_vector_ignored {sqrt : K → Out K} {mb : MultiBody K} {dt : K} {i1 i2 : RelBody K}
    {s s' : RelDistT K} (h : RelRun sqrt mb dt i1 i2 s) (h0 : i1.u = 0 ∨ i2.u = 0) (i : ℕ) (u : V3 K)
    (st : KState K) (junk : ℕ → ℕ → K) (junkA : ℕ → K) (hu : s.update sqrt mb st junk junkA = .ok s') :
    ∃ s'', (s.vector i u).update sqrt mb st junk junkA = .ok s'' ∧ s''.eval = s'.eval ∧
      s''.speed = s'.speed ∧ s''.normalAcc = s'.normalAcc ∧ s''.jacMat = s'.jacMat := by
  have hf : s.isVectorFixed = false := by
    rw [Bool.eq_false_iff, Ne, C60_mode h, not_and_or, not_not, not_not]
    exact h0
  unfold RelDistT.update at hu
  obtain ⟨⟨l, a⟩, h1, h2⟩ := Out.bind_eq_ok.1 hu
  cases h2
  rw [hf] at h1
  obtain ⟨l'', h3⟩ := loop_vector sqrt mb st s.timestep junk junkA i u h1
  unfold RelDistT.update RelDistT.vector
  dsimp only
  rw [hf, h3]
  exact ⟨_, rfl, rfl, rfl, rfl, rfl⟩

end

/-! ## Rates -/

section
variable {mb : MultiBody ℝ} {st : ℝ → KState ℝ} {x : ℝ → ℕ → ℝ} {xd : ℕ → ℝ} {t : ℝ}

theorem RelBody.pt_deriv {b : RelBody ℝ} (hb : RelBodyOK b) (h : Evolves mb st b.jac.path x xd t) :
    HasD3 (fun τ => b.pt (st τ)) (b.vel (st t)).lin t :=
  world_point h hb.path b.r_b1_p

theorem RelBody.vel_deriv {b : RelBody ℝ} (hb : RelBodyOK b) (h : Evolves mb st b.jac.path x xd t) :
    HasDM (fun τ => b.vel (st τ)) (b.jacc mb (st t) xd + b.nacc (st t)) t :=
  world_point_acc h hb.path b.r_b1_p

/-- Rate of the Euclidean distance. -/
theorem dist_deriv {p : ℝ → V3 ℝ} {p' q : V3 ℝ} {d : ℝ → ℝ} (hp : HasD3 p p' t)
    (hd : ∀ τ, IsDist (p τ) q (d τ)) (h0 : 0 < d t) :
    HasDerivAt d (-p'.dot ((1 / d t) • (q - p t))) t := by
  have e : d = fun τ => Real.sqrt ((p τ - q).dot (p τ - q)) := by
    funext τ
    rw [← (hd τ).2, Real.sqrt_mul_self (hd τ).1]
  have hr := hp.sub (HasD3.const q t)
  have hne : (p t - q).dot (p t - q) ≠ 0 := by
    rw [← (hd t).2]; exact (mul_pos h0 h0).ne'
  have hs := (hr.dot hr).sqrt hne
  have ed : d t = Real.sqrt ((p t - q).dot (p t - q)) := congrFun e t
  rw [← ed] at hs
  refine (hs.congr_deriv ?_).congr_of_eventuallyEq
    (Filter.Eventually.of_forall fun τ => congrFun e τ)
  simp only [V3.dot, V3.sub_x, V3.sub_y, V3.sub_z, V3.zero_x, V3.zero_y, V3.zero_z, V3.smul_x, V3.smul_y,
    V3.smul_z]
  field_simp
  ring

/-- Euclidean distances: the error decreases at the reported speed. -/
theorem C60_error_rate {sqrt : ℝ → Out ℝ} (hs : SqrtOK sqrt) {s : RelDistT ℝ} {b1 b2 : RelBody ℝ}
    (hi : s.infos = [b1, b2]) (hb1 : RelBodyOK b1) (hb2 : RelBodyOK b2)
    (h1 : Evolves mb st b1.jac.path x xd t) (h2 : Evolves mb st b2.jac.path x xd t)
    (hα : ∀ τ, AlphaIs mb (st τ) (x τ)) (hf : s.isVectorFixed = false) (hdt : s.timestep ≠ 0)
    (hn : ∀ τ, b1.pt (st τ) ≠ b1.r_0_b2p ∧ b2.pt (st τ) ≠ b2.r_0_b2p)
    (hr : s.jacMat.rows = 1) (hc : s.jacMat.cols = mb.nrDof) (junk : ℕ → ℕ → ℝ) (junkA : ℕ → ℝ) :
    ∃ s' : ℝ → RelDistT ℝ, (∀ τ, s.update sqrt mb (st τ) junk junkA = .ok (s' τ)) ∧
      HasDerivAt (fun τ => (s' τ).eval) (-(s' t).speed) t := by
  choose d1 p1 k1 e1 using fun τ => direction_norm hs hdt (hn τ).1
  choose d2 p2 k2 e2 using fun τ => direction_norm hs hdt (hn τ).2
  simp only [← hf] at e1 e2
  choose R g1 g2 g3 g4 using fun τ => rel_exact hi hb1 hb2 (h1.moves τ) (h2.moves τ) (hα τ) (e1 τ) (e2 τ)
    hr hc junk junkA
  refine ⟨_, g1, ?_⟩
  dsimp only
  refine ((dist_deriv (RelBody.pt_deriv hb1 h1) k1 (p1 t)).sub
    (dist_deriv (RelBody.pt_deriv hb2 h2) k2 (p2 t))).congr_deriv ?_
  ring

/-- Fixed vectors: the error decreases at the reported speed while both points are on the side their
vector points to. -/
theorem C60_error_rate_fixed {sqrt : ℝ → Out ℝ} {s : RelDistT ℝ} {b1 b2 : RelBody ℝ}
    (hi : s.infos = [b1, b2]) (hb1 : RelBodyOK b1) (hb2 : RelBodyOK b2)
    (h1 : Evolves mb st b1.jac.path x xd t) (h2 : Evolves mb st b2.jac.path x xd t)
    (hα : ∀ τ, AlphaIs mb (st τ) (x τ)) (hf : s.isVectorFixed = true)
    (hp1 : 0 < (b1.pt (st t) - b1.r_0_b2p).dot b1.u)
    (hp2 : 0 < (b2.pt (st t) - b2.r_0_b2p).dot b2.u)
    (hr : s.jacMat.rows = 1) (hc : s.jacMat.cols = mb.nrDof) (junk : ℕ → ℕ → ℝ) (junkA : ℕ → ℝ) :
    ∃ s' : ℝ → RelDistT ℝ, (∀ τ, s.update sqrt mb (st τ) junk junkA = .ok (s' τ)) ∧
      HasDerivAt (fun τ => (s' τ).eval) (-(s' t).speed) t := by
  choose R g1 g2 g3 g4 using fun τ => rel_exact hi hb1 hb2 (h1.moves τ) (h2.moves τ) (hα τ)
    (hf ▸ direction_fixed sqrt s.timestep (st τ) b1) (hf ▸ direction_fixed sqrt s.timestep (st τ) b2)
    hr hc junk junkA
  refine ⟨_, g1, ?_⟩
  have key : ∀ {b : RelBody ℝ}, RelBodyOK b → Evolves mb st b.jac.path x xd t →
      0 < (b.pt (st t) - b.r_0_b2p).dot b.u →
      HasDerivAt (fun τ => |(b.pt (st τ) - b.r_0_b2p).dot b.u|) ((b.vel (st t)).lin.dot b.u) t := by
    intro b hb h hp
    have d := ((RelBody.pt_deriv hb h).sub (HasD3.const b.r_0_b2p t)).dot (HasD3.const b.u t)
    have := d.continuousAt.eventually (lt_mem_nhds hp)
    refine (d.congr_of_eventuallyEq (this.mono fun τ hτ => abs_of_pos hτ)).congr_deriv ?_
    simp [V3.dot]
  dsimp only
  refine ((key hb1 h1 hp1).sub (key hb2 h2 hp2)).congr_deriv ?_
  simp only [V3.dot, V3.neg_x, V3.neg_y, V3.neg_z]
  ring

/-- The normal acceleration is the drift of the speed, exactly for fixed vectors; for Euclidean
distances when the finite difference of the directions is their derivative. -/
theorem C60_drift {sqrt : ℝ → Out ℝ} {s : RelDistT ℝ} {b1 b2 : RelBody ℝ}
    (hi : s.infos = [b1, b2]) (hb1 : RelBodyOK b1) (hb2 : RelBodyOK b2)
    (h1 : Evolves mb st b1.jac.path x xd t) (h2 : Evolves mb st b2.jac.path x xd t)
    (hα : ∀ τ, AlphaIs mb (st τ) (x τ)) {d1 d2 : ℝ → ℝ} {n1 dn1 n2 dn2 : ℝ → V3 ℝ}
    (e1 : ∀ τ, RelDistT.direction sqrt s.timestep s.isVectorFixed (kPose (st τ) b1.b1Index) b1
      = .ok (d1 τ, n1 τ, dn1 τ))
    (e2 : ∀ τ, RelDistT.direction sqrt s.timestep s.isVectorFixed (kPose (st τ) b2.b1Index) b2
      = .ok (d2 τ, n2 τ, dn2 τ))
    (hn : s.isVectorFixed = true ∨ (HasD3 n1 (dn1 t) t ∧ HasD3 n2 (dn2 t) t))
    (hr : s.jacMat.rows = 1) (hc : s.jacMat.cols = mb.nrDof) (junk : ℕ → ℕ → ℝ) (junkA : ℕ → ℝ) :
    ∃ s' : ℝ → RelDistT ℝ, (∀ τ, s.update sqrt mb (st τ) junk junkA = .ok (s' τ)) ∧
      HasDerivAt (fun τ => (s' τ).speed) ((s' t).jacMat.rowMul 0 xd + (s' t).normalAcc) t := by
  choose R g1 g2 g3 g4 using fun τ => rel_exact hi hb1 hb2 (h1.moves τ) (h2.moves τ) (hα τ) (e1 τ) (e2 τ)
    hr hc junk junkA
  refine ⟨_, g1, ?_⟩
  have hd : HasD3 n1 (dn1 t) t ∧ HasD3 n2 (dn2 t) t := by
    rcases hn with hf | hn
    · have a1 : ∀ τ, n1 τ = -b1.u ∧ dn1 τ = 0 := by
        intro τ
        have k := e1 τ
        rw [hf, direction_fixed] at k
        simp only [Out.ok.injEq, Prod.mk.injEq] at k
        exact ⟨k.2.1.symm, k.2.2.symm⟩
      have a2 : ∀ τ, n2 τ = -b2.u ∧ dn2 τ = 0 := by
        intro τ
        have k := e2 τ
        rw [hf, direction_fixed] at k
        simp only [Out.ok.injEq, Prod.mk.injEq] at k
        exact ⟨k.2.1.symm, k.2.2.symm⟩
      rw [(a1 t).2, (a2 t).2]
      exact ⟨(HasD3.const (-b1.u) t).congr_fun fun τ => (a1 τ).1,
        (HasD3.const (-b2.u) t).congr_fun fun τ => (a2 τ).1⟩
    · exact hn
  have v1 := (RelBody.vel_deriv hb1 h1).2.dot hd.1
  have v2 := (RelBody.vel_deriv hb2 h2).2.dot hd.2
  dsimp only
  refine (v1.sub v2).congr_deriv ?_
  rw [g4]
  simp only [V3.dot, MV.add_lin, V3.add_x, V3.add_y, V3.add_z]
  ring

end

/-! ## Examples -/

namespace RelEx

/-- A slider along `x` moving at speed 1. -/
def mb : MultiBody ℝ := { joints := [⟨"a", 1, none⟩], nrBodies := 1, pred := [-1], succ := [0] }
def st (τ : ℝ) : KState ℝ :=
  ⟨[PT.ofTrans ⟨τ, 0, 0⟩], [⟨0, ⟨1, 0, 0⟩⟩], [[⟨0, ⟨1, 0, 0⟩⟩]], [[1]], [0]⟩

theorem evolves (t : ℝ) : Evolves mb st [0] (fun _ _ => 1) (fun _ => 0) t := by
  refine ⟨fun τ => ⟨⟨by simp, by simp, by simp [mb], by simp [st], by simp [st], by simp [st], ?_⟩,
    ?_, ?_⟩, fun τ i _ d => rfl, fun c => hasDerivAt_const _ _, ?_, ?_⟩
  · simp [st, mb, jdof]
  · intro i hi
    simp at hi
    subst hi
    exact PT.rigid_ofTrans _
  · refine ⟨?_, trivial⟩
    ext <;> simp [kVel, kSub, st, mb, jdof, jpos]
  · intro i hi
    simp at hi
    subst hi
    refine ⟨fun v => ((HasD3.const v t).congr_fun fun τ => M3.one_mulVec v).congr_deriv ?_,
      ⟨?_, ?_, ?_⟩⟩
    · ext <;> simp [kVel, st]
    · refine (hasDerivAt_id t).congr_deriv ?_
      simp [kVel, kPose, st, PT.ofTrans, M3.transpose, M3.one, M3.mulVec, V3.dot]
    · refine (hasDerivAt_const t (0 : ℝ)).congr_deriv ?_
      simp [kVel, kPose, st, PT.ofTrans, M3.transpose, M3.one, M3.mulVec, V3.dot]
    · refine (hasDerivAt_const t (0 : ℝ)).congr_deriv ?_
      simp [kVel, kPose, st, PT.ofTrans, M3.transpose, M3.one, M3.mulVec, V3.dot]
  · refine ⟨?_, trivial⟩
    ext <;> simp [kVel, kSub, kAcc, st, mb, jdof, jpos, MV.cross]

theorem alpha (τ : ℝ) : AlphaIs mb (st τ) (fun _ => 1) := by
  refine ⟨rfl, fun c hc => ?_⟩
  have : c = 0 := by simp [mb, MultiBody.nrDof] at hc; omega
  subst this
  rfl

noncomputable def sqrtR (k : ℝ) : Out ℝ := if 0 ≤ k then .ok (Real.sqrt k) else .ub

theorem sqrtR_ok : SqrtOK sqrtR := by
  refine ⟨fun k hk => ⟨_, if_pos hk⟩, fun k r h => ?_⟩
  unfold sqrtR at h
  split at h
  · rename_i hk
    simp only [Out.ok.injEq] at h
    subst h
    exact ⟨Real.sqrt_nonneg k, Real.mul_self_sqrt hk⟩
  · cases h

theorem pt_eq (τ : ℝ) (q u p : V3 ℝ) : (RelBody.make 0 [0] p q u).pt (st τ) = ⟨τ + p.x, p.y, p.z⟩ := by
  ext <;> simp [RelBody.pt, RelBody.make, kPose, st, PT.mul, PT.ofTrans, M3.transpose, M3.one, M3.mulVec,
    V3.dot]

theorem vel_eq (τ : ℝ) (q u p : V3 ℝ) : (RelBody.make 0 [0] p q u).vel (st τ) = ⟨0, ⟨1, 0, 0⟩⟩ := by
  ext <;> simp [RelBody.vel, RelBody.make, kPose, kVel, st, PT.mul, PT.mulM, PT.ofTrans, PT.ofRot,
    M3.transpose, M3.one, M3.mul, M3.mulVec, V3.dot]

theorem nacc_eq (τ : ℝ) (q u p : V3 ℝ) : (RelBody.make 0 [0] p q u).nacc (st τ) = 0 := by
  unfold RelBody.nacc
  rw [vel_eq]
  ext <;> simp [RelBody.make, kPose, kVel, kAcc, st, PT.mul, PT.mulM, PT.ofTrans, PT.ofRot,
    M3.transpose, M3.one, M3.mul, M3.mulVec, V3.dot, MV.cross]

theorem bodyOK (q u p : V3 ℝ) : RelBodyOK (RelBody.make 0 [0] p q u) := ⟨rfl, rfl⟩

/-- Distances to the points `(0, 1, 0)` and `(0, 2, 2)` (never met): the theorems apply. -/
noncomputable def task : RelDistT ℝ := RelDistT.make mb (1 / 200) (RelBody.make 0 [0] 0 ⟨0, 1, 0⟩ 0)
  (RelBody.make 0 [0] 0 ⟨0, 2, 2⟩ 0) (7, 7, 7) (fun _ _ => 7)

theorem task_notFixed : task.isVectorFixed = false := by
  simp [task, RelDistT.make, RelBody.make]

theorem task_apart (τ : ℝ) :
    (RelBody.make 0 [0] (0 : V3 ℝ) ⟨0, 1, 0⟩ 0).pt (st τ) ≠ ⟨0, 1, 0⟩ ∧
      (RelBody.make 0 [0] (0 : V3 ℝ) ⟨0, 2, 2⟩ 0).pt (st τ) ≠ ⟨0, 2, 2⟩ := by
  rw [pt_eq, pt_eq]
  simp [V3.ext_iff]

example := C60_speed_is_jac sqrtR_ok (s := task) rfl (bodyOK _ _ _) (bodyOK _ _ _) ((evolves 0).moves 3)
  ((evolves 0).moves 3) (alpha 3) (Or.inr ⟨by simp [task, RelDistT.make], task_apart 3⟩) rfl rfl
  (fun _ _ => 7) (fun _ => 7)
example := C60_error_rate sqrtR_ok (s := task) rfl (bodyOK _ _ _) (bodyOK _ _ _) (evolves 3) (evolves 3)
  alpha task_notFixed (by simp [task, RelDistT.make]) task_apart rfl rfl (fun _ _ => 7) (fun _ => 7)

/-- Distances along the vectors `(1, 0, 0)` and `(0, 0, 1)`; the slider is before the first point. -/
noncomputable def taskF : RelDistT ℝ :=
  RelDistT.make mb (1 / 200) (RelBody.make 0 [0] 0 ⟨5, 0, 0⟩ ⟨1, 0, 0⟩)
    (RelBody.make 0 [0] ⟨0, 0, 1⟩ 0 ⟨0, 0, 1⟩) (7, 7, 7) (fun _ _ => 7)

theorem taskF_fixed : taskF.isVectorFixed = true := by
  simp [taskF, RelDistT.make, RelBody.make, V3.ext_iff]

example := C60_error_rate_fixed (sqrt := sqrtR) (s := taskF) rfl (bodyOK _ _ _) (bodyOK _ _ _)
  (evolves 6) (evolves 6) alpha taskF_fixed
  (by rw [pt_eq]; simp [V3.dot, RelBody.make]; norm_num) (by rw [pt_eq]; simp [V3.dot, RelBody.make])
  rfl rfl (fun _ _ => 7) (fun _ => 7)

example := C60_drift (sqrt := sqrtR) (s := taskF) rfl (bodyOK _ _ _) (bodyOK _ _ _)
  (evolves 6) (evolves 6) alpha
  (fun τ => taskF_fixed ▸ direction_fixed sqrtR (1 / 200) (st τ) (RelBody.make 0 [0] 0 ⟨5, 0, 0⟩ ⟨1, 0, 0⟩))
  (fun τ => taskF_fixed ▸ direction_fixed sqrtR (1 / 200) (st τ) (RelBody.make 0 [0] ⟨0, 0, 1⟩ 0 ⟨0, 0, 1⟩))
  (Or.inl taskF_fixed) rfl rfl (fun _ _ => 7) (fun _ => 7)

/-- On the other side of the point the error changes at `+speed`: the slider approaches the point, the
distance decreases (rate `-1`) and the reported speed says it increases. -/
theorem C60_fixed_side_counterexample :
    ∃ s' : ℝ → RelDistT ℝ, (∀ τ, taskF.update sqrtR mb (st τ) (fun _ _ => 7) (fun _ => 7) = .ok (s' τ)) ∧
      HasDerivAt (fun τ => (s' τ).eval) (s' 0).speed 0 ∧ (s' 0).speed = -1 := by
  choose R g1 g2 g3 g4 using fun τ => rel_exact (s := taskF) (sqrt := sqrtR) rfl (bodyOK _ _ _)
    (bodyOK _ _ _) ((evolves 0).moves τ) ((evolves 0).moves τ) (alpha τ)
    (taskF_fixed ▸ direction_fixed sqrtR (1 / 200) (st τ) (RelBody.make 0 [0] 0 ⟨5, 0, 0⟩ ⟨1, 0, 0⟩))
    (taskF_fixed ▸ direction_fixed sqrtR (1 / 200) (st τ) (RelBody.make 0 [0] ⟨0, 0, 1⟩ 0 ⟨0, 0, 1⟩))
    rfl rfl (fun _ _ => 7) (fun _ => 7)
  have hv : ((RelBody.make 0 [0] 0 ⟨5, 0, 0⟩ ⟨1, 0, 0⟩ : RelBody ℝ).vel (st 0)).lin.dot
      (-(RelBody.make 0 [0] 0 ⟨5, 0, 0⟩ ⟨1, 0, 0⟩ : RelBody ℝ).u)
      - ((RelBody.make 0 [0] ⟨0, 0, 1⟩ 0 ⟨0, 0, 1⟩ : RelBody ℝ).vel (st 0)).lin.dot
        (-(RelBody.make 0 [0] ⟨0, 0, 1⟩ 0 ⟨0, 0, 1⟩ : RelBody ℝ).u) = -1 := by
    rw [vel_eq, vel_eq]
    simp [V3.dot, RelBody.make]
  refine ⟨_, g1, ?_, hv⟩
  dsimp only
  rw [hv]
  have d : HasDerivAt (fun τ : ℝ => 4 - τ) (-1) 0 :=
    ((hasDerivAt_const (0 : ℝ) (4 : ℝ)).sub (hasDerivAt_id 0)).congr_deriv (by simp)
  refine d.congr_of_eventuallyEq ?_
  filter_upwards [gt_mem_nhds (show (0 : ℝ) < 5 by norm_num)] with τ hτ
  rw [pt_eq, pt_eq]
  simp only [V3.dot, RelBody.make, V3.sub_x, V3.sub_y, V3.sub_z, V3.zero_x, V3.zero_y, V3.zero_z]
  have e : (τ + 0 - 5) * 1 + (0 - 0) * 0 + (0 - 0) * 0 = τ - 5 := by ring
  rw [e, abs_of_neg (by linarith)]
  norm_num
  ring

/-- The first update takes the direction before it as zero: with the slider between the points
`(-1, 0, 0)` and `(3, 0, 0)` at constant speed and directions, the first update reports a normal
acceleration of `-400`, the next one on the same state reports `0`. -/
theorem C60_first_update_counterexample :
    ∃ s1 s2, (RelDistT.make mb (1 / 200) (RelBody.make 0 [0] 0 ⟨-1, 0, 0⟩ 0)
        (RelBody.make 0 [0] 0 ⟨3, 0, 0⟩ 0) (7, 7, 7) (fun _ _ => 7)).update sqrtR mb (st 0)
          (fun _ _ => 7) (fun _ => 7) = .ok s1 ∧
      s1.update sqrtR mb (st 0) (fun _ _ => 7) (fun _ => 7) = .ok s2 ∧
      s1.normalAcc = -400 ∧ s2.normalAcc = 0 ∧ s2.speed = s1.speed := by
  have q1 : sqrtR 1 = .ok 1 := by simp [sqrtR]
  have q9 : sqrtR 9 = .ok 3 := by
    have : Real.sqrt 9 = 3 := by
      rw [show (9 : ℝ) = 3 * 3 by norm_num, Real.sqrt_mul_self (by norm_num)]
    simp [sqrtR, this]
  have hf : (RelDistT.make mb (1 / 200) (RelBody.make 0 [0] 0 ⟨-1, 0, 0⟩ 0)
        (RelBody.make 0 [0] 0 ⟨3, 0, 0⟩ 0) (7, 7, 7) (fun _ _ => (7 : ℝ))).isVectorFixed = false := by
    simp [RelDistT.make, RelBody.make]
  have hp : ∀ q : V3 ℝ, ((PT.ofTrans (0 : V3 ℝ)).mul (kPose (st 0) 0)).r - q = -q := by
    intro q
    ext <;> simp [kPose, st, PT.mul, PT.ofTrans, M3.transpose, M3.one, M3.mulVec, V3.dot]
  have hp' : ∀ q : V3 ℝ, q - ((PT.ofTrans (0 : V3 ℝ)).mul (kPose (st 0) 0)).r = q := by
    intro q
    ext <;> simp [kPose, st, PT.mul, PT.ofTrans, M3.transpose, M3.one, M3.mulVec, V3.dot]
  have a1 : ∀ o : V3 ℝ, RelDistT.direction sqrtR (1 / 200) false (kPose (st 0) 0)
      { RelBody.make 0 [0] 0 ⟨-1, 0, 0⟩ 0 with offn := o }
      = .ok (1, ⟨-1, 0, 0⟩, (1 / (1 / 200) : ℝ) • (⟨-1, 0, 0⟩ - o)) := by
    intro o
    simp only [RelDistT.direction, RelBody.make, hp, hp', Bool.false_eq_true, if_false]
    have : (-(⟨-1, 0, 0⟩ : V3 ℝ)).dot (-⟨-1, 0, 0⟩) = 1 := by simp [V3.dot]
    rw [this, q1, Out.ok_bind, fdivV_ok one_ne_zero, Out.ok_bind, fdivV_ok (by norm_num), Out.ok_bind]
    have e : ((1 : ℝ) / 1) • (⟨-1, 0, 0⟩ : V3 ℝ) = ⟨-1, 0, 0⟩ := by ext <;> simp
    rw [e]
    rfl
  have a2 : ∀ o : V3 ℝ, RelDistT.direction sqrtR (1 / 200) false (kPose (st 0) 0)
      { RelBody.make 0 [0] 0 ⟨3, 0, 0⟩ 0 with offn := o }
      = .ok (3, ⟨1, 0, 0⟩, (1 / (1 / 200) : ℝ) • (⟨1, 0, 0⟩ - o)) := by
    intro o
    simp only [RelDistT.direction, RelBody.make, hp, hp', Bool.false_eq_true, if_false]
    have : (-(⟨3, 0, 0⟩ : V3 ℝ)).dot (-⟨3, 0, 0⟩) = 9 := by simp [V3.dot]; norm_num
    rw [this, q9, Out.ok_bind, fdivV_ok (by norm_num), Out.ok_bind, fdivV_ok (by norm_num), Out.ok_bind]
    have e : ((1 : ℝ) / 3) • (⟨3, 0, 0⟩ : V3 ℝ) = ⟨1, 0, 0⟩ := by ext <;> simp
    rw [e]
    rfl
  have m0 : Moves mb (st 0) [0] (fun _ => 1) := (evolves 0).moves 0
  obtain ⟨R, g1, g2, g3, -⟩ := rel_exact (sqrt := sqrtR) (s := RelDistT.make mb (1 / 200)
    (RelBody.make 0 [0] 0 ⟨-1, 0, 0⟩ 0) (RelBody.make 0 [0] 0 ⟨3, 0, 0⟩ 0) (7, 7, 7) (fun _ _ => 7))
    rfl (bodyOK _ _ _) (bodyOK _ _ _) m0 m0 (alpha 0) (hf ▸ a1 0) (hf ▸ a2 0) rfl rfl (fun _ _ => 7)
    (fun _ => 7)
  refine ⟨_, _, g1, (rel_exact (sqrt := sqrtR) rfl (⟨rfl, rfl⟩ : RelBodyOK
      { RelBody.make 0 [0] (0 : V3 ℝ) ⟨-1, 0, 0⟩ 0 with offn := ⟨-1, 0, 0⟩ })
    (⟨rfl, rfl⟩ : RelBodyOK { RelBody.make 0 [0] (0 : V3 ℝ) ⟨3, 0, 0⟩ 0 with offn := ⟨1, 0, 0⟩ })
    m0 m0 (alpha 0) (hf ▸ a1 ⟨-1, 0, 0⟩) (hf ▸ a2 ⟨1, 0, 0⟩) g2 g3 (fun _ _ => 7)
    (fun _ => 7)).choose_spec.1, ?_, ?_, rfl⟩
  · dsimp only
    rw [vel_eq, vel_eq, nacc_eq, nacc_eq]
    simp [V3.dot]
    norm_num
  · dsimp only
    have v1 : ∀ q o, ({ RelBody.make 0 [0] (0 : V3 ℝ) q 0 with offn := o } : RelBody ℝ).vel (st 0)
        = ⟨0, ⟨1, 0, 0⟩⟩ := fun q o => vel_eq 0 q 0 0
    have v2 : ∀ q o, ({ RelBody.make 0 [0] (0 : V3 ℝ) q 0 with offn := o } : RelBody ℝ).nacc (st 0)
        = 0 := fun q o => nacc_eq 0 q 0 0
    rw [v1, v1, v2, v2]
    simp [V3.dot]

/-- A task built without vectors and given one later. -/
example : RelRun sqrtR mb (1 / 100) (RelBody.make 0 [0] 0 ⟨-1, 0, 0⟩ 0) (RelBody.make 0 [0] 0 ⟨0, -1, 0⟩ ⟨1, 0, 0⟩)
    ((RelDistT.make mb (1 / 100) (RelBody.make 0 [0] 0 ⟨-1, 0, 0⟩ 0) (RelBody.make 0 [0] 0 ⟨0, -1, 0⟩ ⟨1, 0, 0⟩)
      (7, 7, 7) (fun _ _ => 7)).vector 0 ⟨1, 0, 0⟩) ∧
    ((RelDistT.make mb (1 / 100) (RelBody.make 0 [0] 0 ⟨-1, 0, 0⟩ 0) (RelBody.make 0 [0] 0 ⟨0, -1, 0⟩ ⟨1, 0, 0⟩)
      (7, 7, 7) (fun _ _ => 7)).vector 0 ⟨1, 0, 0⟩).isVectorFixed = false := by
  have h : RelRun sqrtR mb (1 / 100) _ _ _ := .vector 0 ⟨1, 0, 0⟩ (.make (i1 := RelBody.make 0 [0] 0 ⟨-1, 0, 0⟩ 0)
    (i2 := RelBody.make 0 [0] 0 ⟨0, -1, 0⟩ ⟨1, 0, 0⟩) (7, 7, 7) (fun _ _ => 7))
  refine ⟨h, ?_⟩
  rw [Bool.eq_false_iff, Ne, C60_mode h]
  exact fun h => h.1 rfl

end RelEx

end Verif
