import Verif.Props.SetPoint
import Verif.Props.Multi
import Verif.Props.CoM
import Verif.Props.Momentum

/-!
# C67: the target enters only the error

Changing the target of a task (position, orientation, transform, velocity, direction, centre of mass,
momentum) leaves speed, normal acceleration and Jacobian of the next update as they would have been, and
moves the error by the difference of the targets; results already computed stay until the next update.
In the quadratic program only the linear part of the objective moves.
-/

set_option autoImplicit false
set_option linter.unusedSectionVars false

namespace Verif

open Finset Spec

namespace Spec

/-- Both computations return and `R` relates the results, or both fail in the same way. -/
def Both {α β : Type} (R : α → β → Prop) : Out α → Out β → Prop
  | .ok a, .ok b => R a b
  | .ub, .ub => True
  | .throws e, .throws e' => e = e'
  | _, _ => False

section
variable {K : Type} [CommRing K]

/-- Results that differ in the error only, by `δ`. -/
def SameBut3 (δ : V3 K) (o o' : Out3 K) : Prop :=
  o'.speed = o.speed ∧ o'.normalAcc = o.normalAcc ∧ o'.jacMat = o.jacMat ∧ o'.eval = o.eval + δ

end

end Spec

theorem Spec.Both.bind {α β γ : Type} {R : β → γ → Prop} {x : Out α} {f : α → Out β} {g : α → Out γ}
    (h : ∀ a, Both R (f a) (g a)) : Both R (x >>= f) (x >>= g) := by
  cases x with
  | ok a => exact h a
  | ub => trivial
  | throws e => exact rfl

theorem Spec.Both.refl {α : Type} {R : α → α → Prop} (h : ∀ a, R a a) (x : Out α) : Both R x x := by
  cases x with
  | ok a => exact h a
  | ub => trivial
  | throws e => exact rfl

theorem Spec.Both.bind2 {α β γ δ : Type} {R : α → β → Prop} {S : γ → δ → Prop} {x : Out α} {y : Out β}
    {f : α → Out γ} {g : β → Out δ} (h : Both R x y) (hf : ∀ a b, R a b → Both S (f a) (g b)) :
    Both S (x >>= f) (y >>= g) := by
  cases x <;> cases y <;> simp only [Both] at h
  · exact hf _ _ h
  · trivial
  · exact h

section
variable {K : Type} [CommRing K]

/-- `PositionTask::position`. -/
theorem C67_position (s : PositionT K) (p : V3 K) (mb : MultiBody K) (st : KState K) :
    (s.setPosition p).out = s.out ∧
    Both (fun a b => SameBut3 (p - s.pos) a.out b.out ∧ b = { a with
        pos := p, out := b.out }) (s.update mb st) ((s.setPosition p).update mb st) := by
  refine ⟨rfl, ?_⟩
  unfold PositionT.update PositionT.setPosition
  dsimp only
  refine .bind fun X => .bind fun v => .bind fun n => .bind fun J => .bind fun sh => .bind fun M => ?_
  refine ⟨⟨rfl, rfl, rfl, ?_⟩, rfl⟩
  dsimp only
  abel

/-- `LinVelocityTask::velocity`. -/
theorem C67_velocity (s : LinVelT K) (v : V3 K) (mb : MultiBody K) (st : KState K) :
    (s.setVelocity v).out = s.out ∧
    Both (fun a b => SameBut3 (v - s.vel) a.out b.out ∧ b = { a with
        vel := v, out := b.out }) (s.update mb st) ((s.setVelocity v).update mb st) := by
  refine ⟨rfl, ?_⟩
  unfold LinVelT.update LinVelT.setVelocity
  dsimp only
  refine .bind fun X => .bind fun v => .bind fun n => .bind fun J => .bind fun sh => ?_
  refine ⟨⟨rfl, rfl, rfl, ?_⟩, rfl⟩
  dsimp only
  abel

/-- `OrientationTask::orientation`: the error is the rotation error to the target, the rest does not
depend on it. -/
theorem C67_orientation (rotErr : M3 K → M3 K → V3 K) (mb : MultiBody K) (st : KState K) (b : ℕ)
    (J : Jac K) (ori ori' : M3 K) (res : Mat K) :
    Both (fun o o' => o'.speed = o.speed ∧ o'.normalAcc = o.normalAcc ∧ o'.jacMat = o.jacMat ∧
      ∃ X, st.bodyPosW[b]? = some X ∧ o.eval = rotErr X.E ori ∧ o'.eval = rotErr X.E ori')
      (orientationUpdate rotErr mb st b J ori res) (orientationUpdate rotErr mb st b J ori' res) := by
  unfold orientationUpdate vecAt
  cases h : st.bodyPosW[b]? with
  | none => trivial
  | some X =>
    refine .bind2 (R := fun a b => a = X ∧ b = X) ⟨rfl, rfl⟩ ?_
    rintro _ _ ⟨rfl, rfl⟩
    refine .bind fun v => .bind fun n => .bind fun J => .bind fun sh => .bind fun M => ?_
    exact ⟨rfl, rfl, rfl, _, rfl, rfl, rfl⟩

/-- `SurfaceOrientationTask::orientation`. -/
theorem C67_surface_orientation (rotVel : M3 K → V3 K) (mb : MultiBody K) (st : KState K) (b : ℕ)
    (J : Jac K) (ori ori' : M3 K) (X_b_s : PT K) (res : Mat K) :
    Both (fun o o' => o'.speed = o.speed ∧ o'.normalAcc = o.normalAcc ∧ o'.jacMat = o.jacMat ∧
      ∃ X, st.bodyPosW[b]? = some X ∧
        o.eval = rotVel ((ori.mul X.E.transpose).mul X_b_s.E.transpose) ∧
        o'.eval = rotVel ((ori'.mul X.E.transpose).mul X_b_s.E.transpose))
      (surfaceOriUpdate rotVel mb st b J ori X_b_s res)
      (surfaceOriUpdate rotVel mb st b J ori' X_b_s res) := by
  unfold surfaceOriUpdate vecAt
  cases h : st.bodyPosW[b]? with
  | none => trivial
  | some X =>
    refine .bind2 (R := fun a b => a = X ∧ b = X) ⟨rfl, rfl⟩ ?_
    rintro _ _ ⟨rfl, rfl⟩
    refine .bind fun v => .bind fun n => .bind fun J => .bind fun sh => .bind fun M => ?_
    exact ⟨rfl, rfl, rfl, _, rfl, rfl, rfl⟩

/-- `TransformTask::target`. -/
theorem C67_transform (transErr : PT K → PT K → MV K) (mb : MultiBody K) (st : KState K) (b : ℕ)
    (J : Jac K) (T T' X_b_p : PT K) (E : M3 K) (res : Mat K) :
    Both (fun o o' => o'.speed = o.speed ∧ o'.normalAcc = o.normalAcc ∧ o'.jacMat = o.jacMat ∧
      ∃ X, st.bodyPosW[b]? = some X ∧ o.eval = (PT.ofRot E).mulM (transErr (X_b_p.mul X) T) ∧
        o'.eval = (PT.ofRot E).mulM (transErr (X_b_p.mul X) T'))
      (transformUpdate transErr mb st b J T X_b_p E res)
      (transformUpdate transErr mb st b J T' X_b_p E res) := by
  unfold transformUpdate vecAt
  cases h : st.bodyPosW[b]? with
  | none => trivial
  | some X =>
    refine .bind2 (R := fun a b => a = X ∧ b = X) ⟨rfl, rfl⟩ ?_
    rintro _ _ ⟨rfl, rfl⟩
    refine .bind fun v => .bind fun n => .bind fun J => .bind fun sh => ?_
    exact ⟨rfl, rfl, rfl, _, rfl, rfl, rfl⟩

/-- `VectorOrientationTask::target`. -/
theorem C67_vector (mb : MultiBody K) (st : KState K) (b : ℕ) (J : Jac K) (u v v' : V3 K)
    (junk : ℕ → ℕ → K) :
    Both (fun o o' => SameBut3 (v' - v) o.1 o'.1 ∧ o'.2 = o.2)
      (vectorOriUpdate mb st b J u v junk) (vectorOriUpdate mb st b J u v' junk) := by
  unfold vectorOriUpdate
  refine .bind fun X => .bind fun sm => .bind fun sh => .bind fun F => .bind fun V => .bind fun n => ?_
  refine ⟨⟨rfl, rfl, rfl, ?_⟩, rfl⟩
  dsimp only
  abel

end

section
variable {K : Type} [Field K] [LinearOrder K] [IsStrictOrderedRing K]

/-- `CoMTask::com`. -/
theorem C67_com (s : CoMT K) (c : V3 K) (bs : List (BodyM K)) (mb : MultiBody K) (st : KState K) :
    (s.setCom c).out = s.out ∧
    Both (fun a b => SameBut3 (c - s.com) a.out b.out ∧ b = { a with
        com := c, out := b.out }) (s.update bs mb st) ((s.setCom c).update bs mb st) := by
  refine ⟨rfl, ?_⟩
  unfold CoMT.update CoMT.updateAt CoMT.setCom
  dsimp only
  refine .bind fun X => .bind fun v => .bind fun n => .bind fun M => ?_
  refine ⟨⟨rfl, rfl, rfl, ?_⟩, rfl⟩
  dsimp only
  abel

/-- `MomentumTask::momentum`. -/
theorem C67_momentum (s : MomentumT K) (m : FV K) (bs : List (BodyI K)) (mb : MultiBody K)
    (st : KState K) :
    (s.setMomentum m).eval = s.eval ∧
    Both (fun a b => b.speed = a.speed ∧ b.normalAcc = a.normalAcc ∧ b.jacMat = a.jacMat ∧
        b.eval = a.eval + (m - s.momentum) ∧ b.momentum = m)
      (s.update bs mb st) ((s.setMomentum m).update bs mb st) := by
  refine ⟨rfl, ?_⟩
  unfold MomentumT.update MomentumT.setMomentum
  dsimp only
  refine .bind fun X => .bind fun v => .bind fun n => .bind fun w => .bind fun M => ?_
  refine ⟨rfl, rfl, rfl, ?_, rfl⟩
  dsimp only
  ext <;> simp

/-- `MultiCoMTask::com`. -/
theorem C67_multi_com (s : MultiCoMHL K) (c : V3 K) (env : List (CoMEnv K)) :
    (s.setCom c).eval = s.eval ∧
    Both (fun a b => b.speed = a.speed ∧ b.normalAcc = a.normalAcc ∧ b.jac = a.jac ∧
        b.eval = a.eval + (c - s.com)) (s.update env) ((s.setCom c).update env) := by
  refine ⟨rfl, ?_⟩
  have key : ∀ n, Both (fun (a b : V3 K × V3 K × V3 K × List (Mat K)) => b.1 = a.1 + (c - s.com) ∧ b.2 = a.2)
      (forRange n (MultiCoMHL.robotStep env s) (s.com, 0, 0, []))
      (forRange n (MultiCoMHL.robotStep env (s.setCom c)) (c, 0, 0, [])) := by
    intro n
    induction n with
    | zero => exact ⟨by dsimp only; abel, rfl⟩
    | succ n ih =>
      unfold forRange
      refine .bind2 ih ?_
      rintro ⟨a1, a2⟩ ⟨b1, b2⟩ ⟨h1, h2⟩
      dsimp only at h1 h2
      subst h1 h2
      unfold MultiCoMHL.robotStep MultiCoMHL.setCom
      refine .bind fun r => .bind fun e => .bind fun w => ⟨?_, rfl⟩
      dsimp only
      abel
  unfold MultiCoMHL.update
  refine .bind2 (key _) ?_
  rintro ⟨a1, a2⟩ ⟨b1, b2⟩ ⟨h1, h2⟩
  dsimp only at h1 h2
  subst h1 h2
  exact ⟨rfl, rfl, rfl, rfl⟩

/-- In the quadratic program: when only the error of the high-level task changes, the quadratic part of a
`SetPointTask` stays and its linear part moves by `- stiffness Jᵀ W Δ`. -/
theorem C67_objective (s : SetPoint K) (hl : HL K) (e : Vec K) (he : e.size = hl.eval.size) :
    Both (fun a b => b.c.Q = a.c.Q ∧ b.c.C.size = a.c.C.size ∧ ∀ j,
        b.c.C.get j = a.c.C.get j - s.stiffness * ∑ i ∈ range hl.jac.rows,
          hl.jac.get i j * (s.c.dimWeight.get i * (e.get i - hl.eval.get i)))
      (s.update hl) (s.update { hl with eval := e }) := by
  unfold SetPoint.update SPCommon.computeQC
  refine .bind2 (R := fun a b => b.size = a.size ∧
    ∀ i, b.get i = a.get i + s.stiffness * (e.get i - hl.eval.get i)) ?_ ?_
  · unfold Vec.subV Vec.scale
    dsimp only
    rw [he]
    split
    · exact ⟨rfl, fun i => by dsimp only; ring⟩
    · trivial
  · rintro a b ⟨h1, h2⟩
    refine .bind2 (R := fun (x y : Vec K × SPCommon K) => y.2.Q = x.2.Q ∧ y.2.C.size = x.2.C.size ∧ ∀ j,
        y.2.C.get j = x.2.C.get j - s.stiffness * ∑ i ∈ range hl.jac.rows,
          hl.jac.get i j * (s.c.dimWeight.get i * (e.get i - hl.eval.get i))) ?_ ?_
    · refine .bind2 (R := fun (x y : Vec K) => y.size = x.size ∧
        ∀ i, y.get i = x.get i + s.stiffness * (e.get i - hl.eval.get i)) ?_ ?_
      · unfold Vec.subV
        rw [h1]
        dsimp only
        split
        · exact ⟨rfl, fun i => by dsimp only; rw [h2]; ring⟩
        · trivial
      · rintro x y ⟨h3, h4⟩
        refine .bind2 (R := fun (x y : Vec K) => y.size = x.size ∧ ∀ i, y.get i = x.get i
          + s.c.dimWeight.get i * (s.stiffness * (e.get i - hl.eval.get i))) ?_ ?_
        · unfold Vec.diagMul
          rw [h3]
          split
          · exact ⟨rfl, fun i => by dsimp only; rw [h4]; ring⟩
          · trivial
        · rintro u w ⟨h5, h6⟩
          refine .bind2 (R := fun (x y : Vec K) => y.size = x.size ∧ ∀ j, y.get j = x.get j
            - s.stiffness * ∑ i ∈ range hl.jac.rows,
              hl.jac.get i j * (s.c.dimWeight.get i * (e.get i - hl.eval.get i))) ?_ ?_
          · unfold Mat.negTrMulVec
            rw [h5]
            dsimp only
            split
            · refine ⟨rfl, fun j => ?_⟩
              dsimp only
              rw [Finset.mul_sum, ← Finset.sum_sub_distrib]
              exact Finset.sum_congr rfl fun i _ => by rw [h6]; ring
            · trivial
          · rintro c c' ⟨h7, h8⟩
            exact .bind fun preQ => .bind fun Q => ⟨rfl, h7, h8⟩
    · rintro ⟨x, c⟩ ⟨y, c'⟩ h
      exact h

end

/-! ## A concrete case -/

/-- On the two-joint robot: moving the target from the origin to `(1, 2, 3)` moves the error by that and
nothing else; the hypotheses are met and the updates return. -/
example : ∃ s' s'', (PositionT.make 1 [0, 1] 0 ⟨1, 0, 0⟩ ⟨0, 0, 0, ⟨3, 2, fun _ _ => 7⟩⟩).update
      KineEx.mb KineEx.st = .ok s' ∧
    ((PositionT.make 1 [0, 1] 0 ⟨1, 0, 0⟩ ⟨0, 0, 0, ⟨3, 2, fun _ _ => 7⟩⟩).setPosition ⟨1, 2, 3⟩).update
      KineEx.mb KineEx.st = .ok s'' ∧ s''.out.eval = s'.out.eval + ⟨1, 2, 3⟩ ∧
      s''.out.speed = s'.out.speed := by
  obtain ⟨s', h1, -⟩ := C51_position
    (PositionT.make 1 [0, 1] 0 ⟨1, 0, 0⟩ ⟨0, 0, 0, ⟨3, 2, fun _ _ => 7⟩⟩) KineEx.moves rfl rfl rfl
  have h := (C67_position (PositionT.make 1 [0, 1] 0 ⟨1, 0, 0⟩ ⟨0, 0, 0, ⟨3, 2, fun _ _ => 7⟩⟩) ⟨1, 2, 3⟩
    KineEx.mb KineEx.st).2
  rw [h1] at h
  cases h2 : ((PositionT.make 1 [0, 1] 0 ⟨1, 0, 0⟩ ⟨0, 0, 0, ⟨3, 2, fun _ _ => 7⟩⟩).setPosition
    ⟨1, 2, 3⟩).update KineEx.mb KineEx.st with
  | ok s'' =>
    rw [h2] at h
    refine ⟨s', s'', h1, rfl, ?_, h.1.1⟩
    rw [h.1.2.2.2]
    congr 1
    ext <;> simp [PositionT.make]
  | ub => rw [h2] at h; exact h.elim
  | throws e => rw [h2] at h; exact h.elim

/-- A set-point task with stiffness 4 on a `1 × 2` Jacobian: the linear part moves by `-4 * 2 * 3` and
`-4 * 5 * 3` when the error grows by 3. -/
example : ∃ a b : SetPoint ℚ,
    (⟨⟨1, Vec.ofList [1], 0, 0, Mat.ofRows 2 [[0, 0], [0, 0]], Vec.ofList [0, 0], Vec.ofList [0]⟩, 4, 4⟩ :
      SetPoint ℚ).update ⟨Mat.ofRows 2 [[2, 5]], Vec.ofList [1], Vec.ofList [7], Vec.ofList [9]⟩ = .ok a ∧
    (⟨⟨1, Vec.ofList [1], 0, 0, Mat.ofRows 2 [[0, 0], [0, 0]], Vec.ofList [0, 0], Vec.ofList [0]⟩, 4, 4⟩ :
      SetPoint ℚ).update ⟨Mat.ofRows 2 [[2, 5]], Vec.ofList [4], Vec.ofList [7], Vec.ofList [9]⟩ = .ok b ∧
    b.c.C.get 0 = a.c.C.get 0 - 24 ∧ b.c.C.get 1 = a.c.C.get 1 - 60 := by
  refine ⟨_, _, rfl, rfl, ?_, ?_⟩ <;>
    norm_num [Mat.ofRows, Vec.ofList, Finset.sum_range_succ, Vec.scale]

end Verif
