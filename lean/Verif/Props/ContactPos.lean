import Verif.Proofs.PosLoop
import Verif.Props.NoSlip
import Verif.Props.Rotation

/-!
# C81: contact position constraints bring the contact frames together

Along every motion whose accelerations satisfy the rows of a `ContactPosConstr` at every instant, the two frames of a
fully constrained contact meet: their difference in position, orientation and velocity vanishes exponentially, whether
one or both of the robots move.
-/

set_option autoImplicit false
set_option linter.unusedSectionVars false

namespace Verif

open Finset Spec

namespace Spec

/-- The angle between two orientations. -/
noncomputable def angle (A B : M3 ℝ) : ℝ := Real.arccos (((B.mul A.transpose).trace - 1) / 2)

/-- Two frames meet.  `V1`, `V2` are their velocities, each in its own frame.  The angle between them stays below half
a turn; the squared angle plus `dt` times the squared relative angular velocity never grows; the differences in
orientation, position and velocity vanish exponentially. -/
structure FramesMeet (X1 X2 : ℝ → PT ℝ) (V1 V2 : ℝ → MV ℝ) (dt : ℝ) : Prop where
  below : ∀ t, 0 ≤ t → LessThanHalfTurn (X2 t).E (X1 t).E
  energy : ∀ t1 t2, 0 ≤ t1 → t1 ≤ t2 →
    angle (X1 t2).E (X2 t2).E ^ 2 + dt * normSq ((V1 t2).ang - (V2 t2).ang)
      ≤ angle (X1 t1).E (X2 t1).E ^ 2 + dt * normSq ((V1 t1).ang - (V2 t1).ang)
  meet : ∃ C r : ℝ, 0 < r ∧ ∀ t, 0 ≤ t →
    gap (X1 t).E (X2 t).E + normSq ((X2 t).r - (X1 t).r) + normSq ((V1 t).ang - (V2 t).ang)
      + normSq ((V1 t).lin - (V2 t).lin) ≤ C * Real.exp (-(r * t))

end Spec

/-! ## Two frames -/

section
variable {X1 X2 : ℝ → PT ℝ} {V1 V2 : ℝ → MV ℝ} {rotVel : ℝ → M3 ℝ → V3 ℝ} {dt B : ℝ}

theorem trans_sub_le {R : M3 ℝ} (hR : R.IsRot) (v : V3 ℝ) :
    (R.transpose.mulVec v - v).dot (R.transpose.mulVec v - v) ≤ 2 * Real.arccos R.cosAngle ^ 2 * v.dot v := by
  have hc := Real.one_sub_sq_div_two_le_cos (x := Real.arccos R.cosAngle)
  rw [Real.cos_arccos hR.le_cos hR.cos_le] at hc
  have f : (R.transpose.mulVec v - v).dot (R.transpose.mulVec v - v) ≤ 4 * (1 - R.cosAngle) * v.dot v := by
    have c0 := V3.dot_sq_le (⟨R.transpose.r0.x - 1, R.transpose.r0.y, R.transpose.r0.z⟩ : V3 ℝ) v
    have c1 := V3.dot_sq_le (⟨R.transpose.r1.x, R.transpose.r1.y - 1, R.transpose.r1.z⟩ : V3 ℝ) v
    have c2 := V3.dot_sq_le (⟨R.transpose.r2.x, R.transpose.r2.y, R.transpose.r2.z - 1⟩ : V3 ℝ) v
    obtain ⟨⟨n0, n1, n2, -, -, -⟩, -⟩ := hR
    have s1 : (R.transpose.mulVec v - v).dot (R.transpose.mulVec v - v)
        = V3.dot (⟨R.transpose.r0.x - 1, R.transpose.r0.y, R.transpose.r0.z⟩ : V3 ℝ) v ^ 2
        + V3.dot (⟨R.transpose.r1.x, R.transpose.r1.y - 1, R.transpose.r1.z⟩ : V3 ℝ) v ^ 2
        + V3.dot (⟨R.transpose.r2.x, R.transpose.r2.y, R.transpose.r2.z - 1⟩ : V3 ℝ) v ^ 2 := by
      simp only [M3.mulVec, V3.dot, V3.sub_x, V3.sub_y, V3.sub_z]
      ring
    have s2 : V3.dot (⟨R.transpose.r0.x - 1, R.transpose.r0.y, R.transpose.r0.z⟩ : V3 ℝ)
          ⟨R.transpose.r0.x - 1, R.transpose.r0.y, R.transpose.r0.z⟩
        + V3.dot (⟨R.transpose.r1.x, R.transpose.r1.y - 1, R.transpose.r1.z⟩ : V3 ℝ)
          ⟨R.transpose.r1.x, R.transpose.r1.y - 1, R.transpose.r1.z⟩
        + V3.dot (⟨R.transpose.r2.x, R.transpose.r2.y, R.transpose.r2.z - 1⟩ : V3 ℝ)
          ⟨R.transpose.r2.x, R.transpose.r2.y, R.transpose.r2.z - 1⟩ = 4 * (1 - R.cosAngle) := by
      simp only [V3.dot, M3.transpose, M3.cosAngle, M3.trace] at n0 n1 n2 ⊢
      linarith
    rw [s1, ← s2, add_mul, add_mul]
    linarith
  have := mul_le_mul_of_nonneg_right (show 4 * (1 - R.cosAngle) ≤ 2 * Real.arccos R.cosAngle ^ 2 by linarith)
    (V3.normSq_nonneg v)
  linarith

/-- Two frames whose relative velocity is driven by their difference. -/
theorem frames_meet (hdt : 0 < dt) (r1 : ∀ t, (X1 t).Rigid) (r2 : ∀ t, (X2 t).Rigid)
    (h1 : ∀ t, 0 ≤ t → FrameMoves X1 (V1 t) t) (h2 : ∀ t, 0 ≤ t → FrameMoves X2 (V2 t) t)
    (hv : ∀ t, 0 ≤ t → RotVelOK (rotVel t))
    (hA : ∀ t, 0 ≤ t → HasD3 (fun τ => (V1 τ).ang - (V2 τ).ang)
      ((1 / dt) • rotVel t ((X2 t).E.mul (X1 t).E.transpose) - (1 / dt) • ((V1 t).ang - (V2 t).ang)) t)
    (hL : ∀ t, 0 ≤ t → HasD3 (fun τ => (V1 τ).lin - (V2 τ).lin)
      ((1 / dt) • (X1 t).E.mulVec ((X2 t).r - (X1 t).r) - (1 / dt) • ((V1 t).lin - (V2 t).lin)) t)
    (hB : ∀ t, 0 ≤ t → normSq (V2 t).ang ≤ B ∧ normSq (V2 t).lin ≤ B)
    (h0 : LessThanHalfTurn (X2 0).E (X1 0).E)
    (hE : angle (X1 0).E (X2 0).E ^ 2 + dt * normSq ((V1 0).ang - (V2 0).ang) < Real.pi ^ 2) :
    FramesMeet X1 X2 V1 V2 dt := by
  simp only [normSq_eq] at hB hE
  have hk : 0 < 1 / dt := by positivity
  have hR : ∀ τ, ((X2 τ).E.mul (X1 τ).E.transpose).IsRot := fun τ => M3.IsRot.mul (r2 τ) (M3.IsRot.transpose (r1 τ))
  have ha : ∀ τ, angle (X1 τ).E (X2 τ).E = Real.arccos ((X2 τ).E.mul (X1 τ).E.transpose).cosAngle := fun _ => rfl
  have hB0 : 0 ≤ B := (V3.normSq_nonneg _).trans (hB 0 le_rfl).1
  -- the orientation
  have D : RotDamped (fun τ => ((X2 τ).E.mul (X1 τ).E.transpose).cosAngle)
      (fun τ => ((X2 τ).E.mul (X1 τ).E.transpose).sinAxis)
      (fun τ => rotVel τ ((X2 τ).E.mul (X1 τ).E.transpose))
      (fun τ => (V1 τ).ang - (V2 τ).ang) (1 / dt) (1 / dt) := by
    refine ⟨hk, hk, fun t => (hR t).cos_le, fun t => (hR t).le_cos, fun t ht => cosAngle_deriv (h2 t ht) (h1 t ht),
      ⟨B + 1, by linarith, fun t ht => ?_⟩, hA, fun t ht hc => ?_⟩
    · obtain ⟨D, D1, D2⟩ := sinAxis_deriv2 (h2 t ht) (h1 t ht) (r1 t) (r2 t)
      refine ⟨D, _, D1, ?_, D2⟩
      rw [V3.neg_dot, V3.dot_neg, neg_neg]
      linarith [(hB t ht).1]
    · have h := hv t ht _ (hR t) (by unfold M3.cosAngle at hc; linarith)
      exact ⟨by rw [h.parts.2, h.angle], h.norm⟩
  have scale : ∀ τ, angle (X1 τ).E (X2 τ).E ^ 2 + dt * ((V1 τ).ang - (V2 τ).ang).dot ((V1 τ).ang - (V2 τ).ang)
      = dt * RotDamped.energy (fun τ => ((X2 τ).E.mul (X1 τ).E.transpose).cosAngle)
        (fun τ => (V1 τ).ang - (V2 τ).ang) (1 / dt) τ := fun τ => by
    rw [ha]; unfold RotDamped.energy; field_simp
  have E0 : RotDamped.energy (fun τ => ((X2 τ).E.mul (X1 τ).E.transpose).cosAngle)
      (fun τ => (V1 τ).ang - (V2 τ).ang) (1 / dt) 0 < 1 / dt * Real.pi ^ 2 := by
    rw [scale] at hE
    rw [div_mul_eq_mul_div, one_mul, lt_div_iff₀ hdt]
    linarith
  obtain ⟨C, r, hr, hdec⟩ := D.decay E0
  have hC : ∀ t, 0 ≤ t → C * Real.exp (-(r * t)) ≤ C := fun t ht => by
    have c0 := hdec 0 le_rfl
    simp only [mul_zero, neg_zero, Real.exp_zero, mul_one] at c0
    have c1 : 0 ≤ C := le_trans (add_nonneg (sq_nonneg _) (V3.normSq_nonneg _)) c0
    have : Real.exp (-(r * t)) ≤ 1 := Real.exp_le_one_iff.2 (by have := mul_nonneg hr.le ht; linarith)
    nlinarith
  have hC0 : 0 ≤ C := by
    have c0 := hdec 0 le_rfl
    simp only [mul_zero, neg_zero, Real.exp_zero, mul_one] at c0
    exact le_trans (add_nonneg (sq_nonneg _) (V3.normSq_nonneg _)) c0
  -- the position
  have M : LinDamped (fun τ => (X1 τ).E.mulVec ((X2 τ).r - (X1 τ).r)) (fun τ => (V1 τ).lin - (V2 τ).lin)
      (fun τ => (V1 τ).ang)
      (fun τ => ((X2 τ).E.mul (X1 τ).E.transpose).transpose.mulVec (V2 τ).lin - (V2 τ).lin) (1 / dt) (1 / dt)
      (2 * C + 2 * B) (2 * C * B) r := by
    refine ⟨hk, hk, by positivity, by positivity, hr, fun t ht => ?_, hL, fun t ht => ?_, fun t ht => ?_⟩
    · refine ((h1 t ht).mulVec ((h2 t ht).2.sub (h1 t ht).2)).congr_deriv ?_
      rw [M3.mulVec_sub, (r1 t).1.mulVec_transpose, M3.transpose_mul, M3.transpose_transpose, M3.mul_mulVec]
      abel
    · have a := hdec t ht
      have b := (hB t ht).1
      have c := hC t ht
      have e := V3.normSq_nonneg ((V1 t).ang - (2 : ℝ) • (V2 t).ang)
      have e1 : ((V1 t).ang - (2 : ℝ) • (V2 t).ang).dot ((V1 t).ang - (2 : ℝ) • (V2 t).ang)
          = 2 * ((V1 t).ang - (V2 t).ang).dot ((V1 t).ang - (V2 t).ang) + 2 * (V2 t).ang.dot (V2 t).ang
            - (V1 t).ang.dot (V1 t).ang := by
        simp only [V3.dot, V3.sub_x, V3.sub_y, V3.sub_z, V3.smul_x, V3.smul_y, V3.smul_z]; ring
      have := sq_nonneg (Real.arccos ((X2 t).E.mul (X1 t).E.transpose).cosAngle)
      linarith
    · have a := trans_sub_le (hR t) (V2 t).lin
      have b := hdec t ht
      have c := V3.normSq_nonneg ((V1 t).ang - (V2 t).ang)
      have e1 := mul_le_mul_of_nonneg_right (show 2 * Real.arccos ((X2 t).E.mul (X1 t).E.transpose).cosAngle ^ 2
        ≤ 2 * (C * Real.exp (-(r * t))) by linarith) (V3.normSq_nonneg (V2 t).lin)
      have e2 := mul_le_mul_of_nonneg_left (hB t ht).2
        (show 0 ≤ 2 * (C * Real.exp (-(r * t))) by have := Real.exp_pos (-(r * t)); positivity)
      linarith
  obtain ⟨C', q, q0, q1, q2⟩ := M.decay
  refine ⟨fun t ht => ?_, fun t1 t2 t0 t12 => ?_, 2 * C + C', q, q0, fun t ht => ?_⟩
  · have := D.stays E0 ht
    unfold M3.cosAngle at this
    unfold LessThanHalfTurn
    linarith
  · rw [normSq_eq, normSq_eq, scale, scale]
    exact mul_le_mul_of_nonneg_left (D.energy_le E0 t0 t12) hdt.le
  · have a := hdec t ht
    have b := q2 t ht
    have c := gap_le (r1 t) (r2 t)
    have e : ((X1 t).E.mulVec ((X2 t).r - (X1 t).r)).dot ((X1 t).E.mulVec ((X2 t).r - (X1 t).r))
        = ((X2 t).r - (X1 t).r).dot ((X2 t).r - (X1 t).r) := rot_dot (r1 t) _ _
    have f : Real.exp (-(r * t)) ≤ Real.exp (-(q * t)) :=
      Real.exp_le_exp.2 (by have := mul_le_mul_of_nonneg_right q1 ht; linarith)
    have f' := mul_le_mul_of_nonneg_left f hC0
    rw [e] at b
    simp only [normSq_eq]
    have := V3.normSq_nonneg ((V1 t).ang - (V2 t).ang)
    linarith

end

/-! ## The constraint -/

section
variable {rks : List (RobotKin ℝ)} {bidx : ℕ → String → Out ℕ} {d : SolverData ℝ}
  {env : ℝ → ContactEnv ℝ} {st : ℕ → ℝ → KState ℝ} {x : ℕ → ℝ → ℕ → ℝ} {y : ℝ → ℕ → ℝ}

theorem forall₂_mem_left {α β : Type} {R : α → β → Prop} {l : List α} {m : List β} (h : List.Forall₂ R l m)
    {a : α} (ha : a ∈ l) : ∃ b ∈ m, R a b := by
  induction h with
  | nil => cases ha
  | cons hab _ ih =>
    rcases List.mem_cons.1 ha with rfl | ha
    · exact ⟨_, List.mem_cons_self, hab⟩
    · obtain ⟨b, h1, h2⟩ := ih ha
      exact ⟨b, List.mem_cons_of_mem _ h1, h2⟩

/-- The bodies of an active contact have poses. -/
theorem active_poses {kind : ContactKind ℝ} {v g : ContactReg ℝ} {s' : ℝ → ContactC ℝ}
    (L : ContactLoop rks bidx kind d v g env y s') {id : ContactId} (hid : Active d v id) {t : ℝ} (ht : 0 ≤ t) :
    ∃ P1 P2, bodyPose rks bidx (env t) id.r1Index id.r1BodyName = some P1 ∧
      bodyPose rks bidx (env t) id.r2Index id.r2BodyName = some P2 := by
  obtain ⟨s, hs, -⟩ := L.run t ht
  have I := contactInv L.robots hs d v g rfl
  obtain ⟨e, he, rfl⟩ := List.mem_map.1 ((common_active d v id).2 hid)
  obtain ⟨c, -, hc⟩ := forall₂_mem_left I.stored he
  obtain ⟨l1, l2, Y, -, s1, s2⟩ := hc.sides
  have key : ∀ (r : ℤ) (body : String) (sign : ℝ) (X : PT ℝ) (l : List (ContactSide ℝ)) (b : ℕ),
      SideOf rks bidx d r body sign X l b → ∃ P, bodyPose rks bidx (env t) r body = some P := by
    intro r body sign X l b h
    rw [sideOf_pose h]
    obtain ⟨-, rk, h1, h2⟩ := h
    obtain ⟨m, m1, m2⟩ := (L.envOK t ht).1.poses _ _ h1
    have hlt : b < m.length := by
      rw [m2]
      rcases h2 with ⟨-, a, path, -, h4, h5, -⟩ | ⟨-, h3, -⟩
      · exact L.robots.last rk (List.mem_of_getElem? h1) _ _ _ h4 h5
      · exact L.robots.body _ _ _ _ h1 h3
    exact ⟨m[b], by rw [m1, Option.bind_some, List.getElem?_eq_getElem hlt]⟩
  obtain ⟨P1, p1⟩ := key _ _ _ _ _ _ s1
  obtain ⟨P2, p2⟩ := key _ _ _ _ _ _ s2
  exact ⟨P1, P2, p1, p2⟩

/-- **C81**.  A `ContactPosConstr` with time step `dt`, updated at every time from 0 on after any calls, and accelerations
that satisfy its rows.  For a contact with no selection matrix whose frames start less than half a turn apart, with
(angle)² + dt (relative angular velocity)² < π², the two contact frames meet, whatever the tasks and the other
constraints, provided the velocity of the frame of the second body is bounded. -/
theorem C81_contact_position {dt : ℝ} {v g : ContactReg ℝ} {s' : ℝ → ContactC ℝ}
    (h : EnvMoves rks d env st x y) (L : ContactLoop rks bidx (.pos dt) d v g env y s') {id : ContactId}
    (hid : Active d v id) (hv : v.hasDof id = false) (hg : g.hasDof id = false) {c₀ : BiContact ℝ}
    (h₀ : (d.allCont.find? fun c' => decide (c'.id = id)) = some c₀)
    (hcf : c₀.X_b1_cf.Rigid) (hbb : c₀.X_b1_b2.Rigid) (hrot : ∀ t, 0 ≤ t → RotVelOK (env t).rotVel)
    {X1 X2 : ℝ → PT ℝ} {V1 V2 : ℝ → MV ℝ} {B : ℝ}
    (hX1 : ∀ t, X1 t = sidePose rks bidx (env t) id.r1Index id.r1BodyName c₀.X_b1_cf)
    (hX2 : ∀ t, X2 t = sidePose rks bidx (env t) id.r2Index id.r2BodyName (c₀.X_b1_cf.mul c₀.X_b1_b2.inv))
    (hV1 : ∀ t, V1 t = mvOf (frameVel rks (env t) id.r1Index id.r1BodyName c₀.X_b1_cf))
    (hV2 : ∀ t, V2 t = mvOf (frameVel rks (env t) id.r2Index id.r2BodyName (c₀.X_b1_cf.mul c₀.X_b1_b2.inv)))
    (hB : ∀ t, 0 ≤ t → normSq (V2 t).ang ≤ B ∧ normSq (V2 t).lin ≤ B)
    (h0 : LessThanHalfTurn (X2 0).E (X1 0).E)
    (hE : angle (X1 0).E (X2 0).E ^ 2 + dt * normSq ((V1 0).ang - (V2 0).ang) < Real.pi ^ 2) :
    FramesMeet X1 X2 V1 V2 dt := by
  have hdt : (0 : ℝ) < dt := L.step
  have hX := hcf.mul hbb.inv
  obtain rfl := funext hX1
  obtain rfl := funext hX2
  obtain rfl := funext hV1
  obtain rfl := funext hV2
  have hd := fun t (ht : 0 ≤ t) k (hk : k < 6) => slipVel_deriv h L.step hcf hX ht
    (locked_rows L hid hv hg h₀ hcf hbb ht hk)
  -- the error is the difference of the frames
  have herr : ∀ t, 0 ≤ t → ∀ k, poseErr rks bidx (env t) id c₀.X_b1_cf c₀.X_b1_b2 k
      = if k < 3 then ((env t).rotVel ((sidePose rks bidx (env t) id.r2Index id.r2BodyName
            (c₀.X_b1_cf.mul c₀.X_b1_b2.inv)).E.mul (sidePose rks bidx (env t) id.r1Index id.r1BodyName
              c₀.X_b1_cf).E.transpose)).get k
        else ((sidePose rks bidx (env t) id.r1Index id.r1BodyName c₀.X_b1_cf).E.mulVec
          ((sidePose rks bidx (env t) id.r2Index id.r2BodyName (c₀.X_b1_cf.mul c₀.X_b1_b2.inv)).r
            - (sidePose rks bidx (env t) id.r1Index id.r1BodyName c₀.X_b1_cf).r)).get (k - 3) := by
    intro t ht k
    obtain ⟨P1, P2, p1, p2⟩ := active_poses L hid ht
    unfold poseErr sidePose
    rw [p1, p2]
    simp only [Option.bind_some, Option.map_some, Option.getD_some]
    generalize (c₀.X_b1_cf.mul c₀.X_b1_b2.inv).mul P2 = Y2
    generalize c₀.X_b1_cf.mul P1 = Y1
    split
    · rfl
    · congr 1
      unfold PT.inv PT.mul
      dsimp only
      rw [M3.transpose_transpose, M3.mulVec_sub]
      abel
  have hd' : ∀ t, 0 ≤ t → ∀ k < 6, HasDerivAt
      (fun τ => frameVel rks (env τ) id.r1Index id.r1BodyName c₀.X_b1_cf k
        - frameVel rks (env τ) id.r2Index id.r2BodyName (c₀.X_b1_cf.mul c₀.X_b1_b2.inv) k)
      (1 / dt * poseErr rks bidx (env t) id c₀.X_b1_cf c₀.X_b1_b2 k
        - 1 / dt * (frameVel rks (env t) id.r1Index id.r1BodyName c₀.X_b1_cf k
          - frameVel rks (env t) id.r2Index id.r2BodyName (c₀.X_b1_cf.mul c₀.X_b1_b2.inv) k)) t := by
    intro t ht k hk
    have a := hd t ht k hk
    simp only [slipVel_identity _ _ _ _ hk] at a
    refine a.congr_deriv ?_
    have : ∑ j ∈ range 6, (identity6 : Mat ℝ).get k j * poseErr rks bidx (env t) id c₀.X_b1_cf c₀.X_b1_b2 j
        = poseErr rks bidx (env t) id c₀.X_b1_cf c₀.X_b1_b2 k := by
      unfold identity6; simp [hk]
    rw [this]
    dsimp only [slipRate]
    field_simp
  refine frames_meet (rotVel := fun t => (env t).rotVel) hdt (fun t => (side_moves h _ _ hcf le_rfl).1 t)
    (fun t => (side_moves h _ _ hX le_rfl).1 t) (fun t ht => (side_moves h _ _ hcf ht).2.1)
    (fun t ht => (side_moves h _ _ hX ht).2.1) hrot (fun t ht => ?_) (fun t ht => ?_) hB h0 hE
  · have a0 := hd' t ht 0 (by norm_num)
    have a1 := hd' t ht 1 (by norm_num)
    have a2 := hd' t ht 2 (by norm_num)
    simp only [herr t ht] at a0 a1 a2
    exact ⟨a0, a1, a2⟩
  · have a0 := hd' t ht 3 (by norm_num)
    have a1 := hd' t ht 4 (by norm_num)
    have a2 := hd' t ht 5 (by norm_num)
    simp only [herr t ht] at a0 a1 a2
    exact ⟨a0, a1, a2⟩

/-- **C81**, the body of the second robot does not move (the ground): its frame has no velocity, so that nothing has to
be assumed about it. -/
theorem C81_fixed_body {dt : ℝ} {v g : ContactReg ℝ} {s' : ℝ → ContactC ℝ}
    (h : EnvMoves rks d env st x y) (L : ContactLoop rks bidx (.pos dt) d v g env y s') {id : ContactId}
    (hid : Active d v id) (hv : v.hasDof id = false) (hg : g.hasDof id = false) {c₀ : BiContact ℝ}
    (h₀ : (d.allCont.find? fun c' => decide (c'.id = id)) = some c₀)
    (hcf : c₀.X_b1_cf.Rigid) (hbb : c₀.X_b1_b2.Rigid) (hrot : ∀ t, 0 ≤ t → RotVelOK (env t).rotVel)
    (hfix : ¬ Mobile rks id.r2Index) {X1 X2 : ℝ → PT ℝ} {V1 : ℝ → MV ℝ}
    (hX1 : ∀ t, X1 t = sidePose rks bidx (env t) id.r1Index id.r1BodyName c₀.X_b1_cf)
    (hX2 : ∀ t, X2 t = sidePose rks bidx (env t) id.r2Index id.r2BodyName (c₀.X_b1_cf.mul c₀.X_b1_b2.inv))
    (hV1 : ∀ t, V1 t = mvOf (frameVel rks (env t) id.r1Index id.r1BodyName c₀.X_b1_cf))
    (h0 : LessThanHalfTurn (X2 0).E (X1 0).E)
    (hE : angle (X1 0).E (X2 0).E ^ 2 + dt * normSq (V1 0).ang < Real.pi ^ 2) :
    FramesMeet X1 X2 V1 (fun _ => 0) dt := by
  have hV2 : ∀ t k, frameVel rks (env t) id.r2Index id.r2BodyName (c₀.X_b1_cf.mul c₀.X_b1_b2.inv) k = 0 := by
    intro t k
    unfold frameVel
    cases hr : rks[id.r2Index.toNat]? with
    | none => rfl
    | some rk =>
      rw [Option.bind_some, if_pos]
      · rfl
      · by_contra hne
        exact hfix ⟨rk, hr, Nat.pos_of_ne_zero hne⟩
  refine C81_contact_position (B := 0) h L hid hv hg h₀ hcf hbb hrot hX1 hX2 hV1 (fun t => ?_) (fun t _ => ?_) h0 ?_
  · unfold mvOf
    simp only [hV2]
    rfl
  · simp [normSq]
  · simpa using hE

end

/-! ## A joint that turns, in contact with a fixed body -/

namespace PosEx
open RotEx (rotZ rotZ_rot rotZ_transpose rotZ_trace rotZ_vec sva_rotZ)
open SlipEx (getOk bidx)
open ConvEx (mb)

/-- Angle, velocity and acceleration of the joint. -/
noncomputable def q (s τ : ℝ) : ℝ := Real.exp (-(s * τ))
noncomputable def v (s τ : ℝ) : ℝ := -s * Real.exp (-(s * τ))
noncomputable def acc (s τ : ℝ) : ℝ := s ^ 2 * Real.exp (-(s * τ))

theorem q_deriv (s t : ℝ) : HasDerivAt (q s) (v s t) t := by
  have := ((hasDerivAt_id t).const_mul s).neg.exp
  refine this.congr_deriv ?_
  simp [v]; ring

theorem v_deriv (s t : ℝ) : HasDerivAt (v s) (acc s t) t := by
  refine ((q_deriv s t).const_mul (-s)).congr_deriv ?_
  simp [v, acc]; ring

theorem q_lt {s t : ℝ} (hs : 0 < s) (ht : 0 ≤ t) : |q s t| < Real.pi := by
  have : q s t ≤ 1 := Real.exp_le_one_iff.2 (by have := mul_nonneg hs.le ht; linarith)
  rw [abs_of_pos (show 0 < q s t from Real.exp_pos _)]
  linarith [Real.two_le_pi]

noncomputable def st (s τ : ℝ) : KState ℝ :=
  ⟨[⟨rotZ (q s τ), 0⟩], [⟨⟨0, 0, v s τ⟩, 0⟩], [[⟨⟨0, 0, 1⟩, 0⟩]], [[v s τ]], [0]⟩

theorem evolves (s t : ℝ) : Evolves mb (st s) [0] (fun τ _ => v s τ) (fun _ => acc s t) t := by
  have hc := (Real.hasDerivAt_cos (q s t)).comp t (q_deriv s t)
  have hs := (Real.hasDerivAt_sin (q s t)).comp t (q_deriv s t)
  refine ⟨fun τ => ⟨⟨by simp, by simp, by simp [mb], by simp [st], by simp [st], by simp [st], ?_⟩,
    ?_, ?_⟩, fun τ i _ d => rfl, fun c => v_deriv s t, ?_, ?_⟩
  · simp [st, mb, jdof]
  · intro i hi
    simp at hi
    subst hi
    exact rotZ_rot _
  · refine ⟨?_, trivial⟩
    ext <;> simp [kVel, kSub, st, mb, jdof, jpos]
  · intro i hi
    simp at hi
    subst hi
    refine ⟨fun w => ⟨?_, ?_, ?_⟩, ?_⟩
    · refine (((hc.mul_const w.x).add (hs.mul_const w.y)).congr_deriv ?_).congr_of_eventuallyEq ?_
      · simp [kVel, kPose, st, rotZ, M3.mulVec, V3.dot]; ring
      · exact Filter.Eventually.of_forall fun τ => by simp [kPose, st, rotZ, M3.mulVec, V3.dot]
    · refine ((((hs.neg).mul_const w.x).add (hc.mul_const w.y)).congr_deriv ?_).congr_of_eventuallyEq ?_
      · simp [kVel, kPose, st, rotZ, M3.mulVec, V3.dot]; ring
      · exact Filter.Eventually.of_forall fun τ => by simp [kPose, st, rotZ, M3.mulVec, V3.dot]
    · refine ((hasDerivAt_const t w.z).congr_deriv ?_).congr_of_eventuallyEq ?_
      · simp [kVel, kPose, st, rotZ, M3.mulVec, V3.dot]
      · exact Filter.Eventually.of_forall fun τ => by simp [kPose, st, rotZ, M3.mulVec, V3.dot]
    · refine ((HasD3.const 0 t).congr_fun fun τ => rfl).congr_deriv ?_
      ext <;> simp [kVel, kPose, st, rotZ, M3.mulVec, V3.dot]
  · refine ⟨?_, trivial⟩
    ext <;> simp [kVel, kSub, kAcc, st, mb, jdof, jpos, MV.cross]

/-- A body that does not move. -/
def ground : MultiBody ℝ := { joints := [⟨"g", 0, none⟩], nrBodies := 1, pred := [-1], succ := [0] }

/-- The joint and the ground. -/
noncomputable def rks : List (RobotKin ℝ) := [⟨mb, fun _ => .ok [0]⟩, ⟨ground, fun _ => .ok [0]⟩]

/-- What the constraint reads at time `t`. -/
noncomputable def env (s t : ℝ) : ContactEnv ℝ :=
  ⟨[(st s t).bodyPosW, [PT.one]],
   fun r p X => if r = 0 ∧ p = [0] then getOk (Jac.jacobianAt mb (st s t) ⟨[0], 0⟩ X) ⟨6, 1, fun _ _ => 0⟩
     else ⟨6, pathDof (if r = 0 then mb else ground) p, fun _ _ => 0⟩,
   fun _ _ X k => (getOk (Jac.normalAccAt (st s t) ⟨[0], 0⟩ X 0) 0).get k,
   fun _ _ X k => (getOk (Jac.velocityAt (st s t) ⟨[0], 0⟩ X) 0).get k,
   fun _ _ _ => 1, fun _ _ _ => M3.one, svaRotVel⟩

/-- The contact frame is that of both bodies. -/
noncomputable def c₀ : BiContact ℝ := ⟨⟨0, 1, "hand", "ground", 0⟩, [], [], [], [], PT.one, PT.one⟩

theorem moves (s : ℝ) (d : SolverData ℝ) (hd : d.alphaDBegin = [0, 1]) :
    EnvMoves rks d (env s) (fun _ => st s) (fun _ τ _ => v s τ) (fun t _ => acc s t) := by
  refine ⟨fun r rk hrk hdof => ?_, fun r rk hrk hdof => ?_⟩
  · match r, hrk with
    | 0, hrk =>
      cases hrk
      refine ⟨0, by rw [hd]; rfl, fun t => rfl, fun body path h => ?_⟩
      cases h
      refine ⟨fun t _ => evolves s t, fun t X => ?_⟩
      have hs := ((evolves s t).moves t).sized
      have e1 := jac_at (J := ⟨[0], 0⟩) hs X
      have e2 := jac_velAt (J := ⟨[0], 0⟩) hs rfl X
      have e3 := jac_accAt (J := ⟨[0], 0⟩) hs rfl X 0
      refine ⟨?_, ⟨_, e2, fun k _ => ?_⟩, _, e3, fun k _ => ?_⟩
      · dsimp only [env]
        rw [if_pos ⟨rfl, rfl⟩, e1]
        rfl
      · dsimp only [env]
        rw [e2]
        rfl
      · dsimp only [env]
        rw [e3]
        rfl
    | 1, hrk => cases hrk; simp [ground, MultiBody.nrDof] at hdof
  · match r, hrk with
    | 0, hrk => cases hrk; simp [mb, MultiBody.nrDof] at hdof
    | 1, hrk =>
      refine ⟨[PT.one], fun t => rfl, fun X hX => ?_⟩
      simp only [List.mem_cons, List.not_mem_nil, or_false] at hX
      subst hX
      exact M3.isRot_one

theorem rk_eq {rk : RobotKin ℝ} (h : rk ∈ rks) :
    rk = ⟨mb, fun _ => .ok [0]⟩ ∨ rk = ⟨ground, fun _ => .ok [0]⟩ := by
  simpa [rks] using h

theorem robots : ContactRobotsOK rks bidx := by
  refine ⟨?_, ?_, ?_, ?_⟩
  · intro rk hrk name p hp i hi
    rcases rk_eq hrk with rfl | rfl <;> cases hp <;> simp at hi <;> subst hi <;> simp [mb, ground]
  · intro rk hrk name p hp
    rcases rk_eq hrk with rfl | rfl <;> cases hp <;> simp
  · intro rk hrk name p b hp hb
    rcases rk_eq hrk with rfl | rfl <;> cases hp <;> cases hb <;> simp [mb, ground]
  · intro r rk name b hrk hb
    cases hb
    rcases rk_eq (List.mem_of_getElem? hrk) with rfl | rfl <;> simp [mb, ground]

theorem envOK (s t : ℝ) : ContactEnvOK rks (env s t) := by
  refine ⟨?_, ?_⟩
  · intro r rk hrk
    match r, hrk with
    | 0, hrk => cases hrk; exact ⟨_, rfl, rfl⟩
    | 1, hrk => cases hrk; exact ⟨_, rfl, rfl⟩
  · intro r rk path X hrk
    match r, hrk with
    | 0, hrk =>
      cases hrk
      dsimp only [env]
      split
      · rename_i e
        obtain ⟨-, rfl⟩ := e
        rw [jac_at (J := ⟨[0], 0⟩) ((evolves s t).moves t).sized X]
        exact ⟨rfl, rfl⟩
      · exact ⟨rfl, rfl⟩
    | 1, hrk =>
      cases hrk
      dsimp only [env]
      rw [if_neg (by simp)]
      exact ⟨rfl, rfl⟩

theorem hand_vel (s t : ℝ) (k : ℕ) :
    frameVel rks (env s t) 0 "hand" PT.one k = (⟨⟨0, 0, v s t⟩, 0⟩ : MV ℝ).get k := by
  have e2 := jac_velAt (J := ⟨[0], 0⟩) ((evolves s t).moves t).sized rfl PT.one
  show (getOk (Jac.velocityAt (st s t) ⟨[0], 0⟩ PT.one) 0).get k = _
  rw [e2]
  show (PT.one.mulM (⟨⟨0, 0, v s t⟩, 0⟩ : MV ℝ)).get k = _
  congr 1
  ext <;> simp [PT.mulM, PT.one, M3.one, M3.mulVec, V3.dot]

theorem hand_acc {s t : ℝ} (ht : 0 ≤ t) (d : SolverData ℝ) (hd : d.alphaDBegin = [0, 1]) {k : ℕ} (hk : k < 6) :
    frameAcc rks bidx d (env s t) (fun _ => acc s t) 0 "hand" PT.one k = (⟨⟨0, 0, acc s t⟩, 0⟩ : MV ℝ).get k := by
  have a := (side_moves (bidx := bidx) (moves s d hd) 0 "hand" (X := PT.one) M3.isRot_one ht).2.2 k hk
  simp only [hand_vel] at a
  have b : HasDM (fun τ => (⟨⟨0, 0, v s τ⟩, 0⟩ : MV ℝ)) ⟨⟨0, 0, acc s t⟩, 0⟩ t :=
    ⟨⟨hasDerivAt_const _ _, hasDerivAt_const _ _, v_deriv s t⟩, HasD3.const 0 t⟩
  exact a.unique (b.get k)

theorem frame_one : (PT.one : PT ℝ).mul (PT.one : PT ℝ).inv = PT.one := by
  ext <;> simp [PT.mul, PT.inv, PT.one, M3.mul, M3.one, M3.transpose, M3.mulVec, V3.dot]

theorem one_mul (X : PT ℝ) : (PT.one : PT ℝ).mul X = X := by
  ext <;> simp [PT.mul, PT.one, M3.mul, M3.one, M3.transpose, M3.mulVec, V3.dot]

theorem hand_pose (s t : ℝ) : sidePose rks bidx (env s t) 0 "hand" PT.one = ⟨rotZ (q s t), 0⟩ := by
  show PT.one.mul (⟨rotZ (q s t), 0⟩ : PT ℝ) = _
  exact one_mul _

theorem ground_pose (s t : ℝ) : sidePose rks bidx (env s t) 1 "ground" PT.one = PT.one := by
  show PT.one.mul (PT.one : PT ℝ) = _
  exact one_mul _

theorem ground_vel (s t : ℝ) (X : PT ℝ) (k : ℕ) : frameVel rks (env s t) 1 "ground" X k = 0 := rfl

theorem ground_acc (s t : ℝ) (d : SolverData ℝ) (y : ℕ → ℝ) (X : PT ℝ) (k : ℕ) :
    frameAcc rks bidx d (env s t) y 1 "ground" X k = 0 := rfl

theorem err {s t : ℝ} (hs : 0 < s) (ht : 0 ≤ t) (k : ℕ) :
    poseErr rks bidx (env s t) ⟨0, 1, "hand", "ground", 0⟩ PT.one PT.one k
      = (⟨⟨0, 0, -q s t⟩, 0⟩ : MV ℝ).get k := by
  have e : ((((PT.one : PT ℝ).mul (PT.one : PT ℝ).inv).mul PT.one).mul
      ((PT.one : PT ℝ).mul ⟨rotZ (q s t), 0⟩).inv) = ⟨rotZ (-q s t), 0⟩ := by
    rw [frame_one, one_mul, one_mul, one_mul]
    unfold PT.inv
    rw [rotZ_transpose, M3.mulVec_zero, neg_zero]
  have p1 : bodyPose rks bidx (env s t) 0 "hand" = some ⟨rotZ (q s t), 0⟩ := rfl
  have p2 : bodyPose rks bidx (env s t) 1 "ground" = some PT.one := rfl
  unfold poseErr
  dsimp only
  rw [p1, p2]
  simp only [Option.bind_some, Option.map_some, Option.getD_some]
  rw [e]
  unfold MV.get
  split
  · rw [← sva_rotZ (θ := -q s t) (by rw [abs_neg]; exact q_lt hs ht)]
    rfl
  · rfl

/-- The angle at each time. -/
theorem angle_eq {s t : ℝ} (hs : 0 < s) (ht : 0 ≤ t) :
    angle (rotZ (q s t)) (PT.one : PT ℝ).E = Real.exp (-(s * t)) := by
  have h : (((PT.one : PT ℝ).E.mul (rotZ (q s t)).transpose).trace - 1) / 2 = Real.cos (q s t) := by
    show ((M3.one.mul (rotZ (q s t)).transpose).trace - 1) / 2 = _
    rw [M3.one_mul', rotZ_transpose]
    simp [rotZ, M3.trace]
  unfold angle
  rw [h, Real.arccos_cos (show 0 ≤ q s t from (Real.exp_pos _).le)]
  · rfl
  · exact (le_abs_self _).trans (q_lt hs ht).le

/-- The hypotheses of C81 are met by the joint turning back to the ground from one radian, and the error decreases as
`exp (-s t)` with the time step `(s - 1) / s²`: however small the time step, the frames take about a second to meet
(`s` is between 1 and 2). -/
theorem C81_slow {s : ℝ} (hs1 : 1 < s) (hs2 : s ≤ 2) :
    ∃ d s', EnvMoves rks d (env s) (fun _ => st s) (fun _ τ _ => v s τ) (fun t _ => acc s t) ∧
    ContactLoop rks bidx (.pos ((s - 1) / s ^ 2)) d ContactReg.make ContactReg.make (env s) (fun t _ => acc s t) s' ∧
    Active d ContactReg.make c₀.id ∧ (d.allCont.find? fun c' => decide (c'.id = c₀.id)) = some c₀ ∧
    (let X1 := fun t => sidePose rks bidx (env s t) 0 "hand" c₀.X_b1_cf
     let X2 := fun t => sidePose rks bidx (env s t) 1 "ground" (c₀.X_b1_cf.mul c₀.X_b1_b2.inv)
     FramesMeet X1 X2 (fun t => mvOf (frameVel rks (env s t) 0 "hand" c₀.X_b1_cf))
       (fun t => mvOf (frameVel rks (env s t) 1 "ground" (c₀.X_b1_cf.mul c₀.X_b1_b2.inv))) ((s - 1) / s ^ 2) ∧
     ∀ t, 0 ≤ t → angle (X1 t).E (X2 t).E = Real.exp (-(s * t))) := by
  have hs : 0 < s := by linarith
  have hgood : GoodInput (rks.map fun rk => rk.mb) [c₀] := by
    refine ⟨?_, ?_⟩
    · intro m hm j hj l q hl
      simp only [rks, List.map_cons, List.map_nil, List.mem_cons, List.not_mem_nil, or_false] at hm
      rcases hm with rfl | rfl <;> simp only [mb, ground, List.mem_cons, List.not_mem_nil, or_false] at hj <;>
        subst hj <;> cases hl
    · intro c hc
      simp only [List.mem_cons, List.not_mem_nil, or_false] at hc
      subst hc
      simp [c₀]
  obtain ⟨d, deps, e, L⟩ := layout_ok SolverData.init (rks.map fun rk => rk.mb) [] [c₀] hgood.1 hgood.2
  have hall : d.allCont = [c₀] := by rw [L.allCont]; rfl
  have hd : d.alphaDBegin = [0, 1] := by rw [L.alphaDBegin]; rfl
  have hact : ∀ id, Active d (ContactReg.make : ContactReg ℝ) id ↔ id = c₀.id := by
    intro id
    unfold Active
    rw [hall]
    simp only [List.mem_cons, List.not_mem_nil, or_false]
    constructor
    · rintro ⟨-, c, rfl, rfl⟩; rfl
    · rintro rfl; exact ⟨rfl, _, rfl, rfl⟩
  have hmob : ∀ id, Active d (ContactReg.make : ContactReg ℝ) id →
      Mobile rks id.r1Index ∨ Mobile rks id.r2Index := by
    intro id h
    cases (hact id).1 h
    exact .inl ⟨_, rfl, by norm_num [mb, MultiBody.nrDof]⟩
  have hkk : KindOK (.pos ((s - 1) / s ^ 2) : ContactKind ℝ) := by
    show 0 < (s - 1) / s ^ 2
    have : 0 < s - 1 := by linarith
    positivity
  obtain ⟨s₁, e₁⟩ := C42_nrVars_ok rks bidx d (fun _ _ => 5) ContactC.make (by simp [rks]) (by
    intro id h t ht
    cases (hact id).1 h
    simp only [c₀, List.mem_cons, List.not_mem_nil, or_false] at ht
    rcases ht with rfl | rfl
    · exact ⟨le_rfl, _, 0, rfl, by rw [hd]; rfl, ⟨_, rfl, by simp⟩, _, rfl⟩
    · exact ⟨by norm_num, _, 1, rfl, by rw [hd]; rfl, ⟨_, rfl, by simp⟩, _, rfl⟩)
    (fun id _ => .inr (le_of_eq rfl))
  have run : ContactRun rks bidx (.pos ((s - 1) / s ^ 2)) (some (d, ContactReg.make, ContactReg.make)) s₁ :=
    .nrVars _ _ _ _ _ [] [c₀] deps _ .make hgood e e₁
  have hu := fun t => C40_rows rks bidx robots _ hkk d _ _ s₁ run (env s t) (envOK s t)
    (fun id _ => ⟨le_rfl, rfl⟩) hmob
  choose s' h1 h2 h3 h4 h5 h6 h7 h8 h9 h10 using hu
  have hfind : (d.allCont.find? fun c' => decide (c'.id = c₀.id)) = some c₀ := by rw [hall]; simp
  have hR1 : c₀.X_b1_cf.Rigid := M3.isRot_one
  have hR2 : c₀.X_b1_b2.Rigid := M3.isRot_one
  have hL : ContactLoop rks bidx (.pos ((s - 1) / s ^ 2)) d ContactReg.make ContactReg.make (env s)
      (fun t _ => acc s t) s' := by
    refine ⟨robots, hkk, fun t _ => ⟨envOK s t, rfl⟩, fun id _ => ⟨le_rfl, rfl⟩, hmob, fun t _ => ⟨s₁, run, h1 t⟩,
      fun t ht => (h10 t _).2 fun c hc j hj => ?_⟩
    obtain ⟨k1, k2, k3⟩ := C40_frames_locked rks bidx robots _ d _ _ _
      (ContactRun.update _ _ _ (env s t) run rfl (h1 t)) c hc (C40_default_locks _ c.id rfl) c₀
      (by rw [(hact _).1 ((h3 t _).1 (List.mem_map_of_mem hc))]; exact hfind) hR1.1 hR2.1
    have hid : c.id = ⟨0, 1, "hand", "ground", 0⟩ := (hact _).1 ((h3 t _).1 (List.mem_map_of_mem hc))
    have hcf : c.X_b1_cf = PT.one := k1
    have hbb : c.X_b1_b2 = PT.one := k2
    unfold RowMeans
    dsimp only
    rw [hid, hcf, hbb]
    refine Finset.sum_congr rfl fun k hk => ?_
    dsimp only
    rw [ground_vel, ground_acc, hand_vel, hand_acc ht d hd (Finset.mem_range.1 hk), err hs ht, sub_zero, sub_zero]
    congr 1
    have hlin : ∀ (V A E : MV ℝ) (c : ℝ), V + c • A = E → ∀ k, V.get k + c * A.get k = E.get k := by
      intro V A E c h k
      rw [← h, (lin_get k).add, (lin_get k).smul]
      rfl
    refine hlin _ _ _ _ ?_ k
    ext <;> simp [v, acc, q]
    field_simp
    ring
  have hm := moves s d hd
  refine ⟨d, s', hm, hL, (hact _).2 rfl, hfind, ?_, fun t ht => ?_⟩
  · refine C81_contact_position (B := 0) hm hL ((hact _).2 rfl) rfl rfl hfind hR1 hR2
      (fun t _ => C77_formula) (fun t => rfl) (fun t => rfl) (fun t => rfl) (fun t => rfl) (fun t _ => ?_) ?_ ?_
    · have : mvOf (frameVel rks (env s t) 1 "ground" (c₀.X_b1_cf.mul c₀.X_b1_b2.inv)) = 0 := rfl
      show normSq (mvOf _).ang ≤ 0 ∧ normSq (mvOf _).lin ≤ 0
      erw [this]
      simp [normSq]
    · show LessThanHalfTurn (sidePose rks bidx (env s 0) 1 "ground" ((PT.one : PT ℝ).mul (PT.one : PT ℝ).inv)).E
        (sidePose rks bidx (env s 0) 0 "hand" PT.one).E
      rw [frame_one, ground_pose, hand_pose]
      show -1 < (M3.one.mul (rotZ (q s 0)).transpose).trace
      rw [M3.one_mul', rotZ_transpose]
      exact rotZ_trace (by rw [abs_neg]; exact q_lt hs le_rfl)
    · show angle (sidePose rks bidx (env s 0) 0 "hand" PT.one).E
          (sidePose rks bidx (env s 0) 1 "ground" ((PT.one : PT ℝ).mul (PT.one : PT ℝ).inv)).E ^ 2
        + (s - 1) / s ^ 2 * normSq (⟨frameVel rks (env s 0) 0 "hand" PT.one 0 - 0,
          frameVel rks (env s 0) 0 "hand" PT.one 1 - 0, frameVel rks (env s 0) 0 "hand" PT.one 2 - 0⟩ : V3 ℝ)
        < Real.pi ^ 2
      rw [frame_one, ground_pose, hand_pose, angle_eq hs le_rfl, hand_vel, hand_vel, hand_vel]
      have e3 : normSq (⟨(⟨⟨0, 0, v s 0⟩, 0⟩ : MV ℝ).get 0 - 0, (⟨⟨0, 0, v s 0⟩, 0⟩ : MV ℝ).get 1 - 0,
          (⟨⟨0, 0, v s 0⟩, 0⟩ : MV ℝ).get 2 - 0⟩ : V3 ℝ) = s ^ 2 := by
        simp [normSq, MV.get, V3.get, v]
      rw [e3, div_mul_cancel₀ _ (by positivity)]
      simp only [mul_zero, neg_zero, Real.exp_zero]
      have := Real.two_le_pi
      nlinarith
  · show angle (sidePose rks bidx (env s t) 0 "hand" PT.one).E
      (sidePose rks bidx (env s t) 1 "ground" ((PT.one : PT ℝ).mul (PT.one : PT ℝ).inv)).E = _
    rw [frame_one, ground_pose, hand_pose]
    exact angle_eq hs ht

end PosEx

end Verif
