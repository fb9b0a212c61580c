import Verif.Props.Wrappers
import Verif.Model.Rotation

/-!
# C118: the choice of the world frame

The poses of the bodies and the targets of the tasks are given in a world frame that the user chooses.  Seen
from another frame the same robot has other poses and the same target other coordinates, while the
velocities, the joint axes and the normal accelerations, which RBDyn gives in the frames of the bodies, stay.
What the tasks report then turns with the frame, or stays, and the objective stays when the weights do not
prefer an axis of the world.
-/

set_option autoImplicit false
set_option linter.unusedSectionVars false

namespace Verif

open Finset Spec

namespace Spec
section
variable {K : Type} [CommRing K]

/-- The coordinates of a point of the world in the new frame; `W` is the pose of the old world in the new
one. -/
def PT.point (W : PT K) (p : V3 K) : V3 K := W.r + W.E.transpose.mulVec p

/-- The rotation that takes coordinates of vectors to the new frame. -/
def PT.turning (W : PT K) : M3 K := W.E.transpose

/-- The state of a robot seen from the new frame. -/
def KState.inWorld (W : PT K) (st : KState K) : KState K :=
  { st with bodyPosW := st.bodyPosW.map fun X => X.mul W }

/-- Entry `a` of a vector whose blocks of three entries are turned. -/
def turnAt (R : M3 K) (g : ℕ → K) (a : ℕ) : K :=
  (R.mulVec ⟨g (3 * (a / 3)), g (3 * (a / 3) + 1), g (3 * (a / 3) + 2)⟩).get (a % 3)

/-- The first `nb` blocks of three rows turned. -/
def Mat.turn (R : M3 K) (nb : ℕ) (M : Mat K) : Mat K :=
  ⟨M.rows, M.cols, fun a k => if a < 3 * nb then turnAt R (fun i => M.get i k) a else M.get a k⟩

/-- The same for a vector. -/
def Vec.turn (R : M3 K) (nb : ℕ) (v : Vec K) : Vec K :=
  ⟨v.size, fun a => if a < 3 * nb then turnAt R v.get a else v.get a⟩

/-- Both parts turned. -/
def MV.turn (R : M3 K) (v : MV K) : MV K := ⟨R.mulVec v.ang, R.mulVec v.lin⟩
def FV.turn (R : M3 K) (v : FV K) : FV K := ⟨R.mulVec v.couple, R.mulVec v.force⟩

/-- Three results in the new frame. -/
def Out3.turn (R : M3 K) (o : Out3 K) : Out3 K :=
  ⟨R.mulVec o.eval, R.mulVec o.speed, R.mulVec o.normalAcc, Mat.turn R 1 o.jacMat⟩

end

section
variable {K : Type} [Field K] [LinearOrder K]

/-- What a task reports, with the first `nb` blocks turned. -/
def HL.turn (R : M3 K) (nb : ℕ) (h : HL K) : HL K :=
  ⟨Mat.turn R nb h.jac, Vec.turn R nb h.eval, Vec.turn R nb h.speed, Vec.turn R nb h.normalAcc⟩

/-- How many blocks of three results are coordinates of vectors in the world. -/
def worldBlocks : HLTask K → ℕ
  | .position _ | .orientation _ | .com _ | .linVelocity _ | .tracking _ | .vectorOrientation _ => 1
  | .momentum _ => 2
  | .surfaceOrientation _ | .surfaceTransform _ | .transform _ | .gaze _ | .pbvs _ | .relDist _ => 0

/-- The same task seen from the new frame: targets in the world get their new coordinates, everything given
in the frame of a body stays, and the results stored are turned. -/
def HLTask.inWorld (W : PT K) : HLTask K → HLTask K
  | .position t => .position { t with pos := PT.point W t.pos, out := Out3.turn (PT.turning W) t.out }
  | .orientation t => .orientation { t with ori := t.ori.mul W.E, out := Out3.turn (PT.turning W) t.out }
  | .surfaceOrientation t => .surfaceOrientation { t with ori := t.ori.mul W.E }
  | .surfaceTransform t => .surfaceTransform { t with X_0_t := t.X_0_t.mul W }
  | .transform t => .transform ⟨{ t.c with X_0_t := t.c.X_0_t.mul W }, t.E_0_c.mul W.E⟩
  | .gaze t => .gaze t
  | .pbvs t => .pbvs t
  | .com t => .com { t with
      com := PT.point W t.com, actual := PT.point W t.actual, out := Out3.turn (PT.turning W) t.out }
  | .momentum t => .momentum ⟨FV.turn (PT.turning W) t.momentum, FV.turn (PT.turning W) t.eval,
      FV.turn (PT.turning W) t.speed, FV.turn (PT.turning W) t.normalAcc, Mat.turn (PT.turning W) 2 t.jacMat⟩
  | .linVelocity t => .linVelocity { t with
      vel := (PT.turning W).mulVec t.vel, out := Out3.turn (PT.turning W) t.out }
  | .tracking t => .tracking { t with
      trackedPoint := PT.point W t.trackedPoint
      t := { t.t with
        eval := (PT.turning W).mulVec t.t.eval, jacMat := Mat.turn (PT.turning W) 1 t.t.jacMat,
        jacDotMat := Mat.turn (PT.turning W) 1 t.t.jacDotMat }
      speed := (PT.turning W).mulVec t.speed, normalAcc := (PT.turning W).mulVec t.normalAcc }
  | .relDist t => .relDist { t with
      infos := t.infos.map fun b => { b with
        r_0_b2p := PT.point W b.r_0_b2p, u := (PT.turning W).mulVec b.u,
        offn := (PT.turning W).mulVec b.offn } }
  | .vectorOrientation t => .vectorOrientation { t with
      actual := (PT.turning W).mulVec t.actual, target := (PT.turning W).mulVec t.target,
      out := Out3.turn (PT.turning W) t.out }

/-- The errors between two frames do not depend on the world both are given in. -/
structure FrameFree (f : Fns K) (W : PT K) : Prop where
  rotErr : ∀ A B, f.rotErr (A.mul W.E) (B.mul W.E) = (PT.turning W).mulVec (f.rotErr A B)
  transErr : ∀ X Y, f.transErr (X.mul W) (Y.mul W) = MV.turn (PT.turning W) (f.transErr X Y)

/-- The same for the error of the orientation tracking task.  The function of the library does not have this
property (`C119_frame_counterexample`). -/
def TrackFree (f : Fns K) (W : PT K) : Prop := ∀ p a q X, f.trackErr p a (PT.point W q) (X.mul W)
  = (PT.turning W).mulVec (f.trackErr p a q X)

/-- An orientation tracking task. -/
def IsTracking : HLTask K → Prop
  | .tracking _ => True
  | _ => False

/-- The weights do not prefer a direction: the same for the three entries of each of the first `nb`
blocks. -/
def NoAxis (nb : ℕ) (w : Vec K) : Prop := ∀ a < 3 * nb, w.get a = w.get (3 * (a / 3))

end
end Spec

/-! ## Related outcomes -/

theorem vecAt_map_rel {α β : Type} (φ : α → β) (l : List α) (i : ℕ) :
    Out.Rel (fun a b => b = φ a) (vecAt l i) (vecAt (l.map φ) i) := by
  unfold vecAt
  rw [List.getElem?_map]
  cases l[i]? <;> simp [Out.Rel]

theorem Out.Rel.bind' {α β α' β' : Type} {P : α → β → Prop} {Q : α' → β' → Prop} {x : Out α}
    {y : Out β} {f : α → Out α'} {g : β → Out β'} (h : Out.Rel P x y)
    (hk : ∀ a b, x = .ok a → P a b → Out.Rel Q (f a) (g b)) : Out.Rel Q (x >>= f) (y >>= g) := by
  cases x <;> cases y <;> first | exact h.elim | exact hk _ _ rfl h | exact h

theorem Out.Rel.mono {α β : Type} {P Q : α → β → Prop} {x : Out α} {y : Out β} (h : Out.Rel P x y)
    (hk : ∀ a b, P a b → Q a b) : Out.Rel Q x y := by
  cases x <;> cases y <;> first | exact h.elim | exact hk _ _ h | exact h

theorem forEach_rel2 {α σ τ : Type} {P : σ → τ → Prop} {f : α → σ → Out σ} {g : α → τ → Out τ} :
    ∀ (l : List α) {s : σ} {s' : τ}, P s s' → (∀ a ∈ l, ∀ s s', P s s' → Out.Rel P (f a s) (g a s')) →
      Out.Rel P (forEach l f s) (forEach l g s')
  | [], _, _, h, _ => h
  | a :: l, s, s', h, hf => by
    simp only [forEach]
    exact (hf a (List.mem_cons_self ..) s s' h).bind fun x y hxy =>
      forEach_rel2 l hxy fun b hb => hf b (List.mem_cons_of_mem _ hb)

theorem forRange_rel2 {σ τ : Type} {P : σ → τ → Prop} {f : ℕ → σ → Out σ} {g : ℕ → τ → Out τ} :
    ∀ (n : ℕ) {s : σ} {s' : τ}, P s s' → (∀ i, ∀ s s', P s s' → Out.Rel P (f i s) (g i s')) →
      Out.Rel P (forRange n f s) (forRange n g s')
  | 0, _, _, h, _ => h
  | n + 1, s, s', h, hf => by
    simp only [forRange]
    exact (forRange_rel2 n h hf).bind fun x y hxy => hf n x y hxy

section
variable {K : Type} [CommRing K]

/-! ## Turning -/

theorem turnAt_congr (R : M3 K) {g h : ℕ → K} {a : ℕ} (e : ∀ i, i / 3 = a / 3 → g i = h i) :
    turnAt R g a = turnAt R h a := by
  unfold turnAt
  rw [e _ (by omega), e _ (by omega), e _ (by omega)]

theorem turnAt_zero (R : M3 K) (a : ℕ) : turnAt R (fun _ => 0) a = 0 := by
  unfold turnAt
  have : (⟨0, 0, 0⟩ : V3 K) = 0 := rfl
  rw [this, M3.mulVec_zero]
  rcases h : a % 3 with _ | _ | n <;> rfl

theorem V3.get_addW (a b : V3 K) (i : ℕ) : (a + b).get i = a.get i + b.get i := by
  rcases i with _ | _ | i <;> rfl

theorem V3.get_smulW (c : K) (a : V3 K) (i : ℕ) : (c • a).get i = c * a.get i := by
  rcases i with _ | _ | i <;> rfl

theorem turnAt_lin (R : M3 K) (g h : ℕ → K) (c : K) (a : ℕ) :
    turnAt R (fun i => g i + c * h i) a = turnAt R g a + c * turnAt R h a := by
  unfold turnAt
  rw [← V3.get_smulW, ← V3.get_addW, ← M3.mulVec_smul, ← M3.mulVec_add]
  rfl

theorem turnAt_get (R : M3 K) (v : V3 K) {a : ℕ} (h : a < 3) : turnAt R v.get a = (R.mulVec v).get a := by
  unfold turnAt
  interval_cases a <;> rfl

theorem turnAt_mv (R : M3 K) (v : MV K) {a : ℕ} (h : a < 6) :
    turnAt R v.get a = (MV.turn R v).get a := by
  unfold turnAt MV.turn
  interval_cases a <;> rfl

theorem turnAt_fv (R : M3 K) (v : FV K) {a : ℕ} (h : a < 6) :
    turnAt R v.get a = (FV.turn R v).get a := by
  unfold turnAt FV.turn
  interval_cases a <;> rfl

/-- Three or six rows of `M'` are those of `M` turned; what is outside of the matrices does not matter. -/
def TurnedM (R : M3 K) (nb : ℕ) (M M' : Mat K) : Prop :=
  M.rows = 3 * nb ∧ M'.rows = M.rows ∧ M'.cols = M.cols ∧
    ∀ a < 3 * nb, ∀ k, M'.get a k = turnAt R (fun i => M.get i k) a

theorem turnedM_turn (R : M3 K) {nb : ℕ} {M : Mat K} (h : M.rows = 3 * nb) :
    TurnedM R nb M (Mat.turn R nb M) :=
  ⟨h, rfl, rfl, fun _ ha _ => if_pos ha⟩

theorem block_top {R : M3 K} {M M' : Mat K} (h : TurnedM R 2 M M') (c : ℕ) :
    Out.Rel (TurnedM R 1) (M.block 0 0 3 c) (M'.block 0 0 3 c) := by
  obtain ⟨h1, h2, h3, h4⟩ := h
  unfold Mat.block
  rw [h2, h3]
  split
  · refine ⟨rfl, rfl, rfl, fun a ha k => ?_⟩
    simp only [Nat.zero_add]
    exact h4 a (by omega) k
  · trivial

theorem block_bottom {R : M3 K} {M M' : Mat K} (h : TurnedM R 2 M M') (c : ℕ) :
    Out.Rel (TurnedM R 1) (M.block 3 0 3 c) (M'.block 3 0 3 c) := by
  obtain ⟨h1, h2, h3, h4⟩ := h
  unfold Mat.block
  rw [h2, h3]
  split
  · refine ⟨rfl, rfl, rfl, fun a ha k => ?_⟩
    simp only [Nat.zero_add]
    rw [h4 (3 + a) (by omega) k]
    have e1 : (3 + a) / 3 = 1 := by omega
    have e2 : a / 3 = 0 := by omega
    have e3 : (3 + a) % 3 = a % 3 := by omega
    unfold turnAt
    rw [e1, e2, e3]
  · trivial

theorem setBlock_turn {R : M3 K} {nb : ℕ} {A B B' : Mat K} (h : TurnedM R nb B B') (p : ℕ) :
    Out.Rel (fun M M' => M' = Mat.turn R nb M) (A.setBlock 0 p B) ((Mat.turn R nb A).setBlock 0 p B') := by
  obtain ⟨h1, h2, h3, h4⟩ := h
  unfold Mat.setBlock
  rw [h2, h3]
  by_cases hc : 0 + B.rows ≤ A.rows ∧ p + B.cols ≤ A.cols
  · rw [if_pos hc,
      if_pos (show 0 + B.rows ≤ (Mat.turn R nb A).rows ∧ p + B.cols ≤ (Mat.turn R nb A).cols from hc)]
    change Mat.mk _ _ _ = Mat.mk _ _ _
    rw [Mat.mk.injEq]
    refine ⟨rfl, rfl, ?_⟩
    funext a k
    dsimp only [Mat.turn]
    by_cases ha : a < 3 * nb
    · by_cases hk : p ≤ k ∧ k < p + B.cols
      · rw [if_pos ⟨⟨by omega, by omega⟩, hk⟩, if_pos ha, Nat.sub_zero, h4 a ha]
        exact turnAt_congr R fun i hi => by
          rw [if_pos ⟨⟨by omega, by omega⟩, hk⟩, Nat.sub_zero]
      · rw [if_neg (fun c => hk c.2), if_pos ha, if_pos ha]
        exact turnAt_congr R fun i hi => by
          rw [if_neg (fun c => hk c.2)]
    · rw [if_neg (by omega), if_neg ha, if_neg ha, if_neg (by omega)]
  · rw [if_neg hc,
      if_neg (show ¬(0 + B.rows ≤ (Mat.turn R nb A).rows ∧ p + B.cols ≤ (Mat.turn R nb A).cols) from hc)]
    trivial

/-- `fullJacobian` of turned rows. -/
theorem full_turn {R : M3 K} {nb : ℕ} {mb : MultiBody K} {path : List ℕ} {jac jac' res : Mat K}
    (h : TurnedM R nb jac jac') :
    Out.Rel (fun M M' => M' = Mat.turn R nb M) (fullJacobian mb path jac res)
      (fullJacobian mb path jac' (Mat.turn R nb res)) := by
  unfold fullJacobian
  have hz : TurnedM R nb (Mat.zero jac.rows mb.nrDof) (Mat.zero jac'.rows mb.nrDof : Mat K) := by
    refine ⟨h.1, h.2.1, rfl, fun a _ k => ?_⟩
    exact (turnAt_zero R a).symm
  refine (setBlock_turn hz 0).bind fun r r' hr => ?_
  refine Out.Rel.bind (P := fun s s' : Mat K × ℕ => s'.1 = Mat.turn R nb s.1 ∧ s'.2 = s.2) ?_ ?_
  · refine forEach_rel2 path ⟨hr, rfl⟩ fun i _ s s' hs => ?_
    obtain ⟨A, k⟩ := s
    obtain ⟨A', k'⟩ := s'
    obtain ⟨e1, e2⟩ := hs
    dsimp only at e1 e2
    subst e1 e2
    refine Out.Rel.same _ fun j _ => Out.Rel.same _ fun p _ => ?_
    refine Out.Rel.bind (P := TurnedM R nb) ?_ fun b b' hb => ?_
    · obtain ⟨h1, h2, h3, h4⟩ := h
      unfold Mat.block
      dsimp only
      rw [h2, h3]
      split
      · refine ⟨h1, rfl, rfl, fun a ha c => ?_⟩
        simp only [Nat.zero_add]
        exact h4 a ha _
      · trivial
    · exact (setBlock_turn hb p).bind fun x y hxy => ⟨hxy, rfl⟩
  · rintro ⟨A, k⟩ ⟨A', k'⟩ ⟨hA, -⟩
    exact hA

/-! ## The kinematics seen from the new frame -/

theorem turning_isRot {W : PT K} (hW : W.Rigid) : (PT.turning W).IsRot := M3.IsRot.transpose hW

theorem mul_mul_inv {W : PT K} (hW : W.Rigid) (X Y : PT K) :
    (X.mul W).mul (Y.mul W).inv = X.mul Y.inv := by
  have hE : ∀ v, W.E.mulVec (W.E.transpose.mulVec v) = v := hW.1.mulVec_transpose
  unfold PT.mul PT.inv
  refine PT.ext ?_ ?_
  · dsimp only
    rw [M3.transpose_mul, M3.mul_assoc', ← M3.mul_assoc' W.E, hW.1.mul_transpose, M3.one_mul']
  · dsimp only
    simp only [M3.transpose_mul, M3.transpose_transpose, M3.mul_mulVec, M3.mulVec_add, hE]
    abel

theorem ofRot_mul_mulM (R : M3 K) (X : PT K) (v : MV K) :
    ((PT.ofRot R).mul X).mulM v = MV.turn R (X.mulM v) := by
  unfold PT.ofRot PT.mul PT.mulM MV.turn
  simp only [M3.mul_mulVec, M3.mulVec_zero, add_zero]

theorem cols_inWorld {W : PT K} (hW : W.Rigid) (mb : MultiBody K) (st : KState K) (path : List ℕ)
    (X : PT K) : Jac.cols mb (KState.inWorld W st) path (X.mul W) = Jac.cols mb st path X := by
  have h : Out.Rel (fun a b : List (MV K) => b = a) (Jac.cols mb st path X)
      (Jac.cols mb (KState.inWorld W st) path (X.mul W)) := by
    unfold Jac.cols
    refine forEach_rel2 path rfl fun i _ s s' hs => ?_
    subst hs
    refine (vecAt_map_rel (fun X : PT K => X.mul W) st.bodyPosW i).bind fun Xi Xi' e => ?_
    subst e
    rw [mul_mul_inv hW]
    exact Out.Rel.refl _ fun _ _ => rfl
  revert h
  cases Jac.cols mb st path X <;> cases Jac.cols mb (KState.inWorld W st) path (X.mul W) <;>
    simp [Out.Rel] <;> (intro h; rw [h])

theorem cols_turn (R : M3 K) (mb : MultiBody K) (st : KState K) (path : List ℕ) (X : PT K) :
    Out.Rel (fun l l' => l' = l.map (MV.turn R)) (Jac.cols mb st path X)
      (Jac.cols mb st path ((PT.ofRot R).mul X)) := by
  unfold Jac.cols
  refine forEach_rel2 path rfl fun i _ s s' hs => ?_
  refine Out.Rel.same _ fun Xi _ => Out.Rel.same _ fun j _ => Out.Rel.same _ fun S _ => ?_
  refine forRange_rel2 j.dof hs fun d s s' hs => ?_
  refine Out.Rel.same _ fun v _ => ?_
  subst hs
  rw [PT.mul_assoc', ofRot_mul_mulM]
  simp [Out.Rel]

theorem jacobianAt_inWorld {W : PT K} (hW : W.Rigid) (mb : MultiBody K) (st : KState K) (J : Jac K)
    (X : PT K) : J.jacobianAt mb (KState.inWorld W st) (X.mul W) = J.jacobianAt mb st X := by
  unfold Jac.jacobianAt
  rw [cols_inWorld hW]

theorem jacobianAt_turn (R : M3 K) (mb : MultiBody K) (st : KState K) (J : Jac K) (X : PT K) :
    Out.Rel (TurnedM R 2) (J.jacobianAt mb st X) (J.jacobianAt mb st ((PT.ofRot R).mul X)) := by
  unfold Jac.jacobianAt
  refine (cols_turn R mb st J.path X).bind fun l l' e => ?_
  subst e
  refine ⟨rfl, rfl, by simp, fun a ha k => ?_⟩
  dsimp only
  rw [turnAt_mv R _ ha]
  congr 1
  have : (0 : MV K) = MV.turn R 0 := by
    unfold MV.turn
    refine MV.ext ?_ ?_ <;> simp [M3.mulVec_zero]
  conv_lhs => rw [this]
  exact List.getD_map ..

theorem inWorld_pos (W : PT K) (st : KState K) (i : ℕ) :
    Out.Rel (fun X X' => X' = X.mul W) (vecAt st.bodyPosW i) (vecAt (KState.inWorld W st).bodyPosW i) :=
  vecAt_map_rel (fun X : PT K => X.mul W) st.bodyPosW i

theorem point_r (W X : PT K) (p : V3 K) :
    ((PT.ofTrans p).mul (X.mul W)).r = PT.point W ((PT.ofTrans p).mul X).r := by
  unfold PT.ofTrans PT.mul PT.point
  simp only [M3.transpose_mul, M3.mul_mulVec, M3.mulVec_add]
  abel

theorem ofTrans_point {W : PT K} (hW : W.Rigid) (p : V3 K) :
    PT.ofTrans (PT.point W p) = (PT.ofRot (PT.turning W)).mul ((PT.ofTrans p).mul W) := by
  unfold PT.ofTrans PT.mul PT.point PT.ofRot PT.turning
  refine PT.ext ?_ ?_
  · dsimp only
    rw [M3.one_mul', hW.1.transpose_mul_self]
  · dsimp only
    rw [M3.mulVec_zero, add_zero]

theorem jacobian_turn {W : PT K} (hW : W.Rigid) (mb : MultiBody K) (st : KState K) (J : Jac K) :
    Out.Rel (TurnedM (PT.turning W) 2) (J.jacobian mb st) (J.jacobian mb (KState.inWorld W st)) := by
  unfold Jac.jacobian
  refine Out.Rel.same _ fun N _ => ?_
  refine (inWorld_pos W st N).bind fun X X' e => ?_
  subst e
  rw [point_r, ofTrans_point hW, ← PT.mul_assoc', jacobianAt_inWorld hW]
  exact jacobianAt_turn _ mb st J _

theorem bodyJacobian_inWorld {W : PT K} (hW : W.Rigid) (mb : MultiBody K) (st : KState K) (J : Jac K) :
    Out.Rel (fun M M' => M' = M) (J.bodyJacobian mb st) (J.bodyJacobian mb (KState.inWorld W st)) := by
  unfold Jac.bodyJacobian
  refine Out.Rel.same _ fun N _ => ?_
  refine (inWorld_pos W st N).bind fun X X' e => ?_
  subst e
  rw [← PT.mul_assoc', jacobianAt_inWorld hW]
  exact Out.Rel.refl _ fun _ _ => rfl

theorem world_turn (W X : PT K) (p : V3 K) (v : MV K) :
    ((PT.ofRot (X.mul W).E.transpose).mul (PT.ofTrans p)).mulM v
      = MV.turn (PT.turning W) (((PT.ofRot X.E.transpose).mul (PT.ofTrans p)).mulM v) := by
  rw [ofRot_mul_mulM, ofRot_mul_mulM]
  unfold PT.mul MV.turn PT.turning
  simp only [M3.transpose_mul, M3.mul_mulVec]

theorem velocity_turn (W : PT K) (st : KState K) (J : Jac K) :
    Out.Rel (fun v v' => v' = MV.turn (PT.turning W) v) (J.velocity st)
      (J.velocity (KState.inWorld W st)) := by
  unfold Jac.velocity Jac.velocityAt
  refine Out.Rel.same _ fun N _ => ?_
  refine (inWorld_pos W st N).bind fun X X' e => ?_
  subst e
  refine Out.Rel.same _ fun N _ => Out.Rel.same _ fun V _ => ?_
  exact world_turn W X J.point V

theorem MV.turn_cross {R : M3 K} (hR : R.IsRot) (a b : MV K) :
    (MV.turn R a).cross (MV.turn R b) = MV.turn R (a.cross b) := by
  unfold MV.turn MV.cross
  simp only [hR.cross_mulVec, M3.mulVec_add]

theorem MV.turn_add (R : M3 K) (a b : MV K) : MV.turn R (a + b) = MV.turn R a + MV.turn R b := by
  unfold MV.turn
  refine MV.ext ?_ ?_ <;> simp [M3.mulVec_add]

theorem normalAcc_turn {W : PT K} (hW : W.Rigid) (st : KState K) (J : Jac K) :
    Out.Rel (fun v v' => v' = MV.turn (PT.turning W) v) (J.normalAcc st)
      (J.normalAcc (KState.inWorld W st)) := by
  unfold Jac.normalAcc Jac.normalAccAt
  refine Out.Rel.same _ fun N _ => ?_
  refine (inWorld_pos W st N).bind fun X X' e => ?_
  subst e
  refine Out.Rel.same _ fun U _ => Out.Rel.same _ fun N _ => Out.Rel.same _ fun V _ =>
    Out.Rel.same _ fun A _ => ?_
  have e : (⟨(X.mul W).E.transpose.mulVec U.ang, 0⟩ : MV K)
      = MV.turn (PT.turning W) ⟨X.E.transpose.mulVec U.ang, 0⟩ := by
    unfold PT.mul MV.turn PT.turning
    simp only [M3.transpose_mul, M3.mul_mulVec, M3.mulVec_zero]
  rw [world_turn, world_turn, e, MV.turn_cross (turning_isRot hW), ← MV.turn_add]
  rfl

end


section
variable {K : Type} [Field K] [LinearOrder K] [IsStrictOrderedRing K]

/-! ## The tasks -/

theorem Out3.turn_mk (R : M3 K) (a b c : V3 K) (M : Mat K) :
    Out3.turn R ⟨a, b, c, M⟩ = ⟨R.mulVec a, R.mulVec b, R.mulVec c, Mat.turn R 1 M⟩ := rfl

theorem point_sub (W : PT K) (p q : V3 K) :
    PT.point W p - PT.point W q = (PT.turning W).mulVec (p - q) := by
  unfold PT.point PT.turning
  rw [M3.mulVec_sub]
  abel

theorem position_turn {W : PT K} (hW : W.Rigid) (mb : MultiBody K) (st : KState K) (t : PositionT K) :
    Out.Rel (fun u u' => HLTask.position u' = HLTask.inWorld W (.position u)) (t.update mb st)
      (PositionT.update mb (KState.inWorld W st)
        { t with pos := PT.point W t.pos, out := Out3.turn (PT.turning W) t.out }) := by
  unfold PositionT.update
  refine (inWorld_pos W st t.bodyIndex).bind fun X X' eX => ?_
  refine (velocity_turn W st t.jac).bind fun v v' ev => ?_
  refine (normalAcc_turn hW st t.jac).bind fun n n' en => ?_
  refine (jacobian_turn hW mb st t.jac).bind fun J J' hJ => ?_
  refine (block_bottom hJ _).bind fun sh sh' hsh => ?_
  refine (full_turn hsh).bind fun M M' eM => ?_
  subst eX ev en eM
  show HLTask.position _ = HLTask.position _
  rw [point_r]
  dsimp only
  rw [point_sub]
  rfl

theorem linVel_turn {W : PT K} (hW : W.Rigid) (mb : MultiBody K) (st : KState K) (t : LinVelT K) :
    Out.Rel (fun u u' => HLTask.linVelocity u' = HLTask.inWorld W (.linVelocity u)) (t.update mb st)
      (LinVelT.update mb (KState.inWorld W st)
        { t with vel := (PT.turning W).mulVec t.vel, out := Out3.turn (PT.turning W) t.out }) := by
  unfold LinVelT.update
  refine (velocity_turn W st t.jac).bind fun v v' ev => ?_
  refine (normalAcc_turn hW st t.jac).bind fun n n' en => ?_
  refine (jacobian_turn hW mb st t.jac).bind fun J J' hJ => ?_
  refine (block_bottom hJ _).bind fun sh sh' hsh => ?_
  refine (full_turn hsh).bind fun M M' eM => ?_
  subst ev en eM
  show HLTask.linVelocity _ = HLTask.linVelocity _
  dsimp only [MV.turn, Out3.turn]
  rw [← M3.mulVec_sub]

theorem orientation_turn {f : Fns K} {W : PT K} (hW : W.Rigid) (hf : FrameFree f W) (mb : MultiBody K)
    (st : KState K) (b : ℕ) (J : Jac K) (ori : M3 K) (res : Mat K) :
    Out.Rel (fun o o' => o' = Out3.turn (PT.turning W) o) (orientationUpdate f.rotErr mb st b J ori res)
      (orientationUpdate f.rotErr mb (KState.inWorld W st) b J (ori.mul W.E)
        (Mat.turn (PT.turning W) 1 res)) := by
  unfold orientationUpdate
  refine (inWorld_pos W st b).bind fun X X' eX => ?_
  refine (velocity_turn W st J).bind fun v v' ev => ?_
  refine (normalAcc_turn hW st J).bind fun n n' en => ?_
  refine (jacobian_turn hW mb st J).bind fun J J' hJ => ?_
  refine (block_top hJ _).bind fun sh sh' hsh => ?_
  refine (full_turn hsh).bind fun M M' eM => ?_
  subst eX ev en eM
  show Out3.mk _ _ _ _ = Out3.mk _ _ _ _
  dsimp only [MV.turn, PT.mul]
  rw [hf.rotErr]

theorem mul_inWorld_E {W : PT K} (hW : W.Rigid) (A B : M3 K) :
    (A.mul W.E).mul (B.mul W.E).transpose = A.mul B.transpose := by
  rw [M3.transpose_mul, M3.mul_assoc', ← M3.mul_assoc' W.E, hW.1.mul_transpose, M3.one_mul']

theorem surfaceOri_same {rotVel : M3 K → V3 K} {W : PT K} (hW : W.Rigid) (mb : MultiBody K)
    (st : KState K) (b : ℕ) (J : Jac K) (ori : M3 K) (X_b_s : PT K) (res : Mat K) :
    Out.Rel (fun o o' => o' = o) (surfaceOriUpdate rotVel mb st b J ori X_b_s res)
      (surfaceOriUpdate rotVel mb (KState.inWorld W st) b J (ori.mul W.E) X_b_s res) := by
  unfold surfaceOriUpdate
  refine (inWorld_pos W st b).bind fun X X' eX => ?_
  subst eX
  refine Out.Rel.same (J.velocityAt st X_b_s) fun v _ => ?_
  refine Out.Rel.same (J.normalAccAt st X_b_s 0) fun n _ => ?_
  rw [← PT.mul_assoc', jacobianAt_inWorld hW]
  refine Out.Rel.same _ fun M _ => Out.Rel.same _ fun sh _ => Out.Rel.same _ fun M _ => ?_
  show Out3.mk _ _ _ _ = Out3.mk _ _ _ _
  dsimp only [PT.mul]
  rw [mul_inWorld_E hW]

theorem surface_same {transVel : PT K → MV K} {W : PT K} (hW : W.Rigid) (mb : MultiBody K)
    (st : KState K) (b : ℕ) (J : Jac K) (X_0_t X_b_p : PT K) (res : Mat K) :
    Out.Rel (fun o o' => o' = o) (surfaceUpdate transVel mb st b J X_0_t X_b_p res)
      (surfaceUpdate transVel mb (KState.inWorld W st) b J (X_0_t.mul W) X_b_p res) := by
  unfold surfaceUpdate
  refine (inWorld_pos W st b).bind fun X X' eX => ?_
  subst eX
  dsimp only
  rw [← PT.mul_assoc', mul_mul_inv hW, jacobianAt_inWorld hW]
  exact Out.Rel.refl _ fun _ _ => rfl

theorem ofRot_turn (E : M3 K) {W : PT K} (hW : W.Rigid) (v : MV K) :
    (PT.ofRot (E.mul W.E)).mulM (MV.turn (PT.turning W) v) = (PT.ofRot E).mulM v := by
  unfold PT.ofRot PT.mulM MV.turn PT.turning
  simp only [V3.zero_cross, sub_zero, M3.mul_mulVec, hW.1.mulVec_transpose]

theorem transform_same {f : Fns K} {W : PT K} (hW : W.Rigid) (hf : FrameFree f W) (mb : MultiBody K)
    (st : KState K) (b : ℕ) (J : Jac K) (X_0_t X_b_p : PT K) (E_0_c : M3 K) (res : Mat K) :
    Out.Rel (fun o o' => o' = o) (transformUpdate f.transErr mb st b J X_0_t X_b_p E_0_c res)
      (transformUpdate f.transErr mb (KState.inWorld W st) b J (X_0_t.mul W) X_b_p (E_0_c.mul W.E) res) := by
  unfold transformUpdate
  refine (inWorld_pos W st b).bind fun X X' eX => ?_
  subst eX
  dsimp only
  have e : (E_0_c.mul W.E).mul (X_b_p.mul (X.mul W)).E.transpose
      = E_0_c.mul (X_b_p.mul X).E.transpose := by
    rw [← PT.mul_assoc']
    exact mul_inWorld_E hW _ _
  rw [e, ← PT.mul_assoc' X_b_p X W, ← PT.mul_assoc' (PT.ofRot _) (X_b_p.mul X) W, jacobianAt_inWorld hW, hf.transErr, ofRot_turn _ hW]
  exact Out.Rel.refl _ fun _ _ => rfl

theorem visual_same {W : PT K} (hW : W.Rigid) (r : ℕ) (L : ℕ → ℕ → K)
    (Ldot : (ℕ → K) → (ℕ → K) → ℕ → ℕ → K) (mb : MultiBody K) (st : KState K) (b : ℕ) (J : Jac K)
    (X_b_s : PT K) (res : Mat K) :
    Out.Rel (fun o o' => o' = o) (visualUpdate r L Ldot mb st b J X_b_s res)
      (visualUpdate r L Ldot mb (KState.inWorld W st) b J X_b_s res) := by
  unfold visualUpdate
  refine (inWorld_pos W st b).bind fun X X' eX => ?_
  subst eX
  dsimp only
  rw [← PT.mul_assoc', jacobianAt_inWorld hW]
  exact Out.Rel.refl _ fun _ _ => rfl

theorem vectorOri_turn {W : PT K} (hW : W.Rigid) (mb : MultiBody K) (st : KState K) (b : ℕ) (J : Jac K)
    (v target : V3 K) (junk : ℕ → ℕ → K) :
    Out.Rel (fun o o' => HL.Agree (HLTask.hl3 (Out3.turn (PT.turning W) o.1)) (HLTask.hl3 o'.1))
      (vectorOriUpdate mb st b J v target junk)
      (vectorOriUpdate mb (KState.inWorld W st) b J v ((PT.turning W).mulVec target) junk) := by
  unfold vectorOriUpdate
  refine (inWorld_pos W st b).bind fun X X' eX => ?_
  refine (bodyJacobian_inWorld hW mb st J).bind fun sm sm' es => ?_
  subst eX es
  refine Out.Rel.same _ fun sh _ => Out.Rel.same _ fun full _ => ?_
  refine Out.Rel.same (J.bodyVelocity st) fun vb _ => Out.Rel.same (J.bodyNormalAcc st) fun nb _ => ?_
  have e : ∀ u : V3 K, (X.mul W).E.transpose.mulVec u
      = (PT.turning W).mulVec (X.E.transpose.mulVec u) := by
    intro u
    unfold PT.mul PT.turning
    rw [M3.transpose_mul, M3.mul_mulVec]
  have e2 : ∀ u : V3 K, ((X.mul W).E.transpose.neg.mul (skewMatrix v)).mulVec u
      = (PT.turning W).mulVec ((X.E.transpose.neg.mul (skewMatrix v)).mulVec u) := by
    intro u
    rw [M3.mul_mulVec, M3.mul_mulVec, M3.neg_mulVec, M3.neg_mulVec, e, M3.mulVec_neg]
  refine agree3 ?_ (e _).symm (e _).symm ⟨rfl, rfl, fun a ha k _ => ?_⟩
  · dsimp only [Out3.turn]
    rw [e, M3.mulVec_sub]
  · have ha' : a < 3 := ha
    dsimp only [Out3.turn, Mat.turn, M3.mulMat]
    rw [if_pos (by omega), e2]
    exact turnAt_get _ _ ha'

/-- The centre of mass. -/
theorem computeCoM_point (W : PT K) (bs : List (BodyM K)) (st : KState K) :
    Out.Rel (fun c c' => c' = PT.point W c) (computeCoM bs st) (computeCoM bs (KState.inWorld W st)) := by
  unfold computeCoM
  refine Out.Rel.bind (P := fun a a' : V3 K × K =>
    a'.1 = a.2 • W.r + (PT.turning W).mulVec a.1 ∧ a'.2 = a.2) ?_ ?_
  · refine forRange_rel2 bs.length ⟨?_, rfl⟩ fun i a a' ha => ?_
    · show (0 : V3 K) = (0 : K) • W.r + (PT.turning W).mulVec 0
      rw [M3.mulVec_zero, V3.zero_smul', add_zero]
    · refine Out.Rel.same _ fun b _ => ?_
      refine (inWorld_pos W st i).bind fun X X' e => ?_
      subst e
      obtain ⟨h1, h2⟩ := ha
      refine ⟨?_, by show _ + _ = _ + _; rw [h2]⟩
      show a'.1 + _ = _
      rw [h1]
      dsimp only [PT.mul, PT.turning]
      simp only [M3.transpose_mul, M3.mul_mulVec, M3.mulVec_add, M3.mulVec_smul]
      ext <;> simp <;> ring
  · rintro a a' ⟨h1, h2⟩
    unfold fdivV
    rw [h2, h1]
    by_cases h : a.2 = 0
    · rw [if_pos h, if_pos h]
      trivial
    · rw [if_neg h, if_neg h]
      show _ = _
      unfold PT.point PT.turning
      rw [M3.mulVec_smul]
      ext <;> simp [mul_add] <;> rw [← mul_assoc, inv_mul_cancel₀ h, one_mul]

theorem comJac_velocity_turn (W : PT K) (st : KState K) (J : ComJac K) :
    Out.Rel (fun v v' => v' = (PT.turning W).mulVec v) (J.velocity st)
      (J.velocity (KState.inWorld W st)) := by
  unfold ComJac.velocity
  refine forRange_rel2 _ (M3.mulVec_zero _).symm fun i a a' ha => ?_
  refine Out.Rel.same _ fun j _ => Out.Rel.same _ fun c _ => ?_
  refine (velocity_turn W st j).bind fun v v' ev => ?_
  subst ha ev
  show _ = _
  dsimp only [MV.turn]
  rw [M3.mulVec_add, M3.mulVec_smul]

theorem comJac_normalAcc_turn {W : PT K} (hW : W.Rigid) (st : KState K) (J : ComJac K) :
    Out.Rel (fun v v' => v' = (PT.turning W).mulVec v) (J.normalAcc st)
      (J.normalAcc (KState.inWorld W st)) := by
  unfold ComJac.normalAcc
  refine forRange_rel2 _ (M3.mulVec_zero _).symm fun i a a' ha => ?_
  refine Out.Rel.same _ fun j _ => Out.Rel.same _ fun c _ => ?_
  refine (normalAcc_turn hW st j).bind fun v v' ev => ?_
  subst ha ev
  show _ = _
  dsimp only [MV.turn]
  rw [M3.mulVec_add, M3.mulVec_smul]

theorem turn_zero (R : M3 K) (nb r c : ℕ) : Mat.turn R nb (Mat.zero r c : Mat K) = Mat.zero r c := by
  unfold Mat.turn Mat.zero
  rw [Mat.mk.injEq]
  refine ⟨rfl, rfl, ?_⟩
  funext a k
  rw [turnAt_zero, ite_self]

theorem turn_add (R : M3 K) (nb r c : ℕ) (M F : Mat K) (x : K) :
    Mat.turn R nb (⟨r, c, fun a k => M.get a k + x * F.get a k⟩ : Mat K)
      = ⟨r, c, fun a k => (Mat.turn R nb M).get a k + x * (Mat.turn R nb F).get a k⟩ := by
  unfold Mat.turn
  rw [Mat.mk.injEq]
  refine ⟨rfl, rfl, ?_⟩
  funext a k
  dsimp only
  split
  · exact turnAt_lin R _ _ x a
  · rfl

theorem comJac_jacobian_turn {W : PT K} (hW : W.Rigid) (mb : MultiBody K) (st : KState K) (J : ComJac K) :
    Out.Rel (fun M M' => M' = Mat.turn (PT.turning W) 1 M) (J.jacobian mb st)
      (J.jacobian mb (KState.inWorld W st)) := by
  unfold ComJac.jacobian
  refine forRange_rel2 _ (turn_zero _ _ _ _).symm fun i A A' hA => ?_
  refine Out.Rel.same _ fun j _ => Out.Rel.same _ fun c _ => ?_
  refine (jacobian_turn hW mb st j).bind fun s s' hs => ?_
  refine (block_bottom hs _).bind fun sh sh' hsh => ?_
  have := full_turn (mb := mb) (path := j.path) (res := Mat.zero 3 mb.nrDof) hsh
  rw [turn_zero] at this
  refine this.bind fun F F' hF => ?_
  subst hA hF
  exact (turn_add _ _ _ _ _ _ _).symm

theorem com_turn {W : PT K} (hW : W.Rigid) (bs : List (BodyM K)) (mb : MultiBody K) (st : KState K)
    (t : CoMT K) :
    Out.Rel (fun u u' => HLTask.com u' = HLTask.inWorld W (.com u)) (t.update bs mb st)
      (CoMT.update bs mb (KState.inWorld W st) { t with
        com := PT.point W t.com, actual := PT.point W t.actual, out := Out3.turn (PT.turning W) t.out }) := by
  unfold CoMT.update CoMT.updateAt
  refine (computeCoM_point W bs st).bind fun c c' ec => ?_
  refine (comJac_velocity_turn W st t.jac).bind fun v v' ev => ?_
  refine (comJac_normalAcc_turn hW st t.jac).bind fun n n' en => ?_
  refine (comJac_jacobian_turn hW mb st t.jac).bind fun M M' eM => ?_
  subst ec ev en eM
  show HLTask.com _ = HLTask.com _
  dsimp only
  rw [point_sub]
  rfl

/-! ### The momentum -/

theorem FV.turn_add (R : M3 K) (a b : FV K) : FV.turn R (a + b) = FV.turn R a + FV.turn R b := by
  unfold FV.turn
  refine FV.ext ?_ ?_ <;> simp [M3.mulVec_add]

theorem FV.turn_sub (R : M3 K) (a b : FV K) : FV.turn R (a - b) = FV.turn R a - FV.turn R b := by
  unfold FV.turn
  refine FV.ext ?_ ?_ <;> exact M3.mulVec_sub _ _ _

theorem FV.turn_zero (R : M3 K) : FV.turn R 0 = 0 := by
  unfold FV.turn
  refine FV.ext ?_ ?_ <;> exact M3.mulVec_zero _

theorem atCom_turn {W : PT K} (hW : W.Rigid) (X : PT K) (com : V3 K) (f : FV K) :
    (atCom (X.mul W) (PT.point W com)).transMul f
      = FV.turn (PT.turning W) ((atCom X com).transMul f) := by
  have hR := turning_isRot hW
  unfold atCom PT.ofTrans PT.transMul FV.turn
  have e : ((X.mul W).mul ⟨M3.one, -PT.point W com⟩).r
      = (PT.turning W).mulVec (X.mul ⟨M3.one, -com⟩).r := by
    unfold PT.mul PT.point PT.turning
    simp only [M3.transpose_one, M3.one_mulVec, M3.mulVec_add, M3.mulVec_neg]
    abel
  have e2 : ∀ v, ((X.mul W).mul ⟨M3.one, -PT.point W com⟩).E.transpose.mulVec v
      = (PT.turning W).mulVec ((X.mul ⟨M3.one, -com⟩).E.transpose.mulVec v) := by
    intro v
    unfold PT.mul PT.turning
    simp only [M3.mul_one', M3.transpose_mul, M3.mul_mulVec]
  rw [e, e2, e2, hR.cross_mulVec, M3.mulVec_add]

theorem crossDual_turn {R : M3 K} (hR : R.IsRot) (v : MV K) (f : FV K) :
    (MV.turn R v).crossDual (FV.turn R f) = FV.turn R (v.crossDual f) := by
  unfold MV.crossDual MV.turn FV.turn
  simp only [hR.cross_mulVec, M3.mulVec_add]

theorem centroidal_turn {W : PT K} (hW : W.Rigid) (bs : List (BodyI K)) (st : KState K) (com : V3 K) :
    Out.Rel (fun h h' => h' = FV.turn (PT.turning W) h) (centroidalMomentum bs st com)
      (centroidalMomentum bs (KState.inWorld W st) (PT.point W com)) := by
  unfold centroidalMomentum
  refine forRange_rel2 _ (FV.turn_zero _).symm fun i a a' ha => ?_
  refine Out.Rel.same _ fun B _ => ?_
  refine (inWorld_pos W st i).bind fun X X' eX => ?_
  refine Out.Rel.same (vecAt st.bodyVelB i) fun V _ => ?_
  subst ha eX
  show _ = _
  rw [atCom_turn hW, FV.turn_add]

theorem comVelocity_turn (W : PT K) (bs : List (BodyM K)) (st : KState K) :
    Out.Rel (fun v v' => v' = (PT.turning W).mulVec v) (computeCoMVelocity bs st)
      (computeCoMVelocity bs (KState.inWorld W st)) := by
  unfold computeCoMVelocity
  refine Out.Rel.bind (P := fun a a' : V3 K × K => a'.1 = (PT.turning W).mulVec a.1 ∧ a'.2 = a.2) ?_ ?_
  · refine forRange_rel2 bs.length ⟨(M3.mulVec_zero _).symm, rfl⟩ fun i a a' ha => ?_
    refine Out.Rel.same _ fun b _ => ?_
    refine (inWorld_pos W st i).bind fun X X' e => ?_
    refine Out.Rel.same (vecAt st.bodyVelB i) fun V _ => ?_
    subst e
    obtain ⟨h1, h2⟩ := ha
    refine ⟨?_, by show _ + _ = _ + _; rw [h2]⟩
    show a'.1 + _ = _
    rw [h1]
    dsimp only [PT.mul, PT.turning]
    simp only [M3.transpose_mul, M3.mul_mulVec, M3.mulVec_add]
  · rintro a a' ⟨h1, h2⟩
    unfold fdivV
    rw [h2, h1]
    split
    · trivial
    · exact (M3.mulVec_smul _ _ _).symm

theorem normalMomentum_turn {W : PT K} (hW : W.Rigid) (bs : List (BodyI K)) (st : KState K)
    (com comDot : V3 K) :
    Out.Rel (fun h h' => h' = FV.turn (PT.turning W) h) (normalMomentumDot bs st com comDot)
      (normalMomentumDot bs (KState.inWorld W st) (PT.point W com) ((PT.turning W).mulVec comDot)) := by
  unfold normalMomentumDot
  refine forRange_rel2 _ (FV.turn_zero _).symm fun i a a' ha => ?_
  refine Out.Rel.same _ fun B _ => ?_
  refine (inWorld_pos W st i).bind fun X X' eX => ?_
  refine Out.Rel.same (vecAt st.bodyVelB i) fun V _ => ?_
  refine Out.Rel.same (vecAt st.normalAccB i) fun A _ => ?_
  subst ha eX
  have e : (⟨0, (PT.turning W).mulVec comDot⟩ : MV K) = MV.turn (PT.turning W) ⟨0, comDot⟩ := by
    unfold MV.turn
    rw [M3.mulVec_zero]
  show _ = _
  rw [atCom_turn hW, atCom_turn hW, e, crossDual_turn (turning_isRot hW), FV.turn_add, FV.turn_sub]

theorem momentumMatrix_turn {W : PT K} (hW : W.Rigid) (bs : List (BodyI K)) (mb : MultiBody K)
    (st : KState K) (com : V3 K) :
    Out.Rel (fun M M' => M' = Mat.turn (PT.turning W) 2 M) (momentumMatrix bs mb st com)
      (momentumMatrix bs mb (KState.inWorld W st) (PT.point W com)) := by
  unfold momentumMatrix
  refine forRange_rel2 _ (turn_zero _ _ _ _).symm fun i A A' hA => ?_
  refine Out.Rel.same _ fun B _ => ?_
  refine (inWorld_pos W st i).bind fun X X' eX => ?_
  refine (bodyJacobian_inWorld hW mb st _).bind fun J J' eJ => ?_
  subst eX eJ
  have ht : TurnedM (PT.turning W) 2
      (⟨6, J'.cols, fun a k => ((atCom X com).transMul (B.mul (J'.colMV k))).get a⟩ : Mat K)
      ⟨6, J'.cols, fun a k => ((atCom (X.mul W) (PT.point W com)).transMul (B.mul (J'.colMV k))).get a⟩ := by
    refine ⟨rfl, rfl, rfl, fun a ha k => ?_⟩
    dsimp only
    rw [atCom_turn hW]
    exact (turnAt_fv _ _ ha).symm
  have := full_turn (mb := mb) (path := B.b.path) (res := Mat.zero 6 mb.nrDof) ht
  rw [turn_zero] at this
  refine this.bind fun F F' hF => ?_
  subst hA hF
  have h1 := (turn_add (PT.turning W) 2 6 mb.nrDof A F 1).symm
  simp only [one_mul] at h1
  exact h1

theorem momentum_turn {W : PT K} (hW : W.Rigid) (bs : List (BodyI K)) (mb : MultiBody K) (st : KState K)
    (t : MomentumT K) :
    Out.Rel (fun u u' => HLTask.momentum u' = HLTask.inWorld W (.momentum u)) (t.update bs mb st)
      (MomentumT.update bs mb (KState.inWorld W st) ⟨FV.turn (PT.turning W) t.momentum,
        FV.turn (PT.turning W) t.eval, FV.turn (PT.turning W) t.speed, FV.turn (PT.turning W) t.normalAcc,
        Mat.turn (PT.turning W) 2 t.jacMat⟩) := by
  unfold MomentumT.update
  refine (computeCoM_point W _ st).bind fun c c' ec => ?_
  subst ec
  refine (centroidal_turn hW bs st c).bind fun h h' eh => ?_
  refine (comVelocity_turn W _ st).bind fun v v' ev => ?_
  subst ev
  refine (normalMomentum_turn hW bs st c v).bind fun n n' en => ?_
  refine (momentumMatrix_turn hW bs mb st c).bind fun M M' eM => ?_
  subst eh en eM
  show HLTask.momentum _ = HLTask.momentum _
  dsimp only
  rw [← FV.turn_sub]

/-! ### The tracking task -/

theorem zeroJacobian_turn {R : M3 K} (z : List ℕ) {M M' : Mat K} (h : TurnedM R 1 M M') :
    Out.Rel (TurnedM R 1) (zeroJacobian z M) (zeroJacobian z M') := by
  unfold zeroJacobian
  refine forEach_rel2 z h fun i _ A A' hA => ?_
  obtain ⟨h1, h2, h3, h4⟩ := hA
  rw [h3]
  split
  · refine ⟨h1, h2, rfl, fun a ha k => ?_⟩
    dsimp only
    split
    · exact (turnAt_zero R a).symm
    · exact h4 a ha k
  · trivial

theorem rowMul_turn (R : M3 K) (M : Mat K) (x : ℕ → K) :
    (⟨(Mat.turn R 1 M).rowMul 0 x, (Mat.turn R 1 M).rowMul 1 x, (Mat.turn R 1 M).rowMul 2 x⟩ : V3 K)
      = R.mulVec ⟨M.rowMul 0 x, M.rowMul 1 x, M.rowMul 2 x⟩ := by
  have h : ∀ v : V3 K, ∑ k ∈ range M.cols, v.dot ⟨M.get 0 k, M.get 1 k, M.get 2 k⟩ * x k
      = v.dot ⟨M.rowMul 0 x, M.rowMul 1 x, M.rowMul 2 x⟩ := by
    intro v
    unfold Mat.rowMul V3.dot
    dsimp only
    rw [Finset.mul_sum, Finset.mul_sum, Finset.mul_sum, ← Finset.sum_add_distrib,
      ← Finset.sum_add_distrib]
    exact Finset.sum_congr rfl fun k _ => by ring
  exact V3.ext (h R.r0) (h R.r1) (h R.r2)

/-- The inner task after an update, up to the contents of its scratch matrix. -/
def TrackTurned (W : PT K) (u u' : TrackT K) : Prop :=
  ∃ S : Mat K, S.rows = u.shortJac.rows ∧ S.cols = u.shortJac.cols ∧
    u' = { u with
      eval := (PT.turning W).mulVec u.eval, jacMat := Mat.turn (PT.turning W) 1 u.jacMat,
      jacDotMat := Mat.turn (PT.turning W) 1 u.jacDotMat, shortJac := S }

theorem trackT_turn {W : PT K} (hW : W.Rigid) (mb : MultiBody K) (st : KState K)
    {err err' : PT K → V3 K} (he : ∀ X, err' (X.mul W) = (PT.turning W).mulVec (err X)) (t : TrackT K) :
    Out.Rel (TrackTurned W) (t.update mb st err)
      (TrackT.update mb (KState.inWorld W st) err' { t with
        eval := (PT.turning W).mulVec t.eval, jacMat := Mat.turn (PT.turning W) 1 t.jacMat,
        jacDotMat := Mat.turn (PT.turning W) 1 t.jacDotMat }) := by
  unfold TrackT.update
  refine (inWorld_pos W st t.bodyIndex).bind fun X X' eX => ?_
  refine (jacobian_turn hW mb st t.jac).bind fun J J' hJ => ?_
  refine (block_top hJ _).bind fun sh sh' hsh => ?_
  refine (zeroJacobian_turn _ hsh).bind fun z z' hz => ?_
  refine (full_turn hz).bind fun M M' eM => ?_
  subst eX eM
  refine ⟨z', hz.2.1, hz.2.2.1, ?_⟩
  dsimp only
  rw [he]

theorem track_turn {f : Fns K} {W : PT K} (hW : W.Rigid) (hf : TrackFree f W) (mb : MultiBody K)
    (st : KState K) (t u : TrackQ K) (hu : HLTask.tracking u = HLTask.inWorld W (.tracking t)) :
    Out.Rel (fun v v' => SameTask (HLTask.inWorld W (.tracking v)) (.tracking v')) (t.update f mb st)
      (u.update f mb (KState.inWorld W st)) := by
  cases hu
  unfold TrackQ.update TrackT.qpUpdate
  refine Out.Rel.bind (P := fun a a' : TrackT K × V3 K × V3 K × Vec K => TrackTurned W a.1 a'.1 ∧
    a'.2.1 = (PT.turning W).mulVec a.2.1 ∧ a'.2.2.1 = (PT.turning W).mulVec a.2.2.1 ∧
    a'.2.2.2 = a.2.2.2) ?_ ?_
  · refine (trackT_turn hW mb st (fun X => hf _ _ _ X) t.t).bind fun s s' hs => ?_
    refine Out.Rel.same (paramToVector st.alpha t.alphaVec) fun av _ => ?_
    obtain ⟨S, hS1, hS2, rfl⟩ := hs
    dsimp only
    by_cases hc : s.jacMat.cols = av.size ∧ s.jacDotMat.cols = av.size
    · rw [if_pos hc, if_pos (show (Mat.turn (PT.turning W) 1 s.jacMat).cols = av.size ∧
        (Mat.turn (PT.turning W) 1 s.jacDotMat).cols = av.size from hc)]
      exact ⟨⟨S, hS1, hS2, rfl⟩, rowMul_turn _ _ _, rowMul_turn _ _ _, rfl⟩
    · rw [if_neg hc, if_neg (show ¬((Mat.turn (PT.turning W) 1 s.jacMat).cols = av.size ∧
        (Mat.turn (PT.turning W) 1 s.jacDotMat).cols = av.size) from hc)]
      trivial
  · rintro ⟨a, v, n, al⟩ ⟨a', v', n', al'⟩ ⟨⟨S, hS1, hS2, h1⟩, h2, h3, h4⟩
    dsimp only at h1 h2 h3 h4 hS1 hS2
    subst h1 h2 h3 h4
    refine ⟨?_, Mat.Agree.rfl' _, Vec.Agree.rfl' _, Vec.Agree.rfl' _, Vec.Agree.rfl' _⟩
    dsimp only [HLTask.inWorld, settings]
    rw [hS1, hS2]

/-! ### The distance task -/

/-- One of the two bodies of `RelativeDistTask` seen from the new frame. -/
def RelBody.moved (W : PT K) (b : RelBody K) : RelBody K :=
  { b with
    r_0_b2p := PT.point W b.r_0_b2p, u := (PT.turning W).mulVec b.u,
    offn := (PT.turning W).mulVec b.offn }

theorem fdivV_turn (R : M3 K) (v : V3 K) (c : K) :
    Out.Rel (fun a a' => a' = R.mulVec a) (fdivV v c) (fdivV (R.mulVec v) c) := by
  unfold fdivV
  split
  · trivial
  · exact (M3.mulVec_smul _ _ _).symm

theorem direction_turn {W : PT K} (hW : W.Rigid) (sqrt : K → Out K) (dt : K) (fixed : Bool) (X : PT K)
    (b : RelBody K) :
    Out.Rel (fun a a' => a' = (a.1, (PT.turning W).mulVec a.2.1, (PT.turning W).mulVec a.2.2))
      (RelDistT.direction sqrt dt fixed X b)
      (RelDistT.direction sqrt dt fixed (X.mul W) (RelBody.moved W b)) := by
  have hR := (turning_isRot hW).1
  unfold RelDistT.direction RelBody.moved
  dsimp only
  rw [point_r, point_sub, point_sub, hR.dot_mulVec, hR.dot_mulVec]
  cases fixed
  · refine Out.Rel.same _ fun d _ => ?_
    refine (fdivV_turn _ _ _).bind fun n n' en => ?_
    subst en
    rw [← M3.mulVec_sub]
    refine (fdivV_turn _ _ _).bind fun dn dn' ed => ?_
    subst ed
    rfl
  · show (_, _, _) = (_, _, _)
    rw [M3.mulVec_neg, M3.mulVec_zero]

theorem Out.Rel.trans' {α β γ : Type} {P : α → β → Prop} {Q : β → γ → Prop} {S : α → γ → Prop}
    {x : Out α} {y : Out β} {z : Out γ} (h : Out.Rel P x y) (h' : Out.Rel Q y z)
    (hk : ∀ a b c, P a b → Q b c → S a c) : Out.Rel S x z := by
  cases x <;> cases y <;> cases z <;>
    first | exact h.elim | exact h'.elim | exact hk _ _ _ h h' | exact h | exact h.trans h'

/-- The running results are the same. -/
def AccSame (a a' : RelDistT.Acc K) : Prop :=
  a'.eval = a.eval ∧ a'.speed = a.speed ∧ a'.normalAcc = a.normalAcc ∧ Mat.Agree a.jacMat a'.jacMat

theorem bodyStep_turn {W : PT K} (hW : W.Rigid) (sqrt : K → Out K) (mb : MultiBody K) (st : KState K)
    (dt : K) (fixed : Bool) (junk : ℕ → ℕ → K) (junkA : ℕ → K) (sign : K) (b : RelBody K)
    {a a' : RelDistT.Acc K} (ha : AccSame a a') :
    Out.Rel (fun r r' => r'.1 = RelBody.moved W r.1 ∧ AccSame r.2 r'.2)
      (RelDistT.bodyStep sqrt mb st dt fixed junk junkA sign b a)
      (RelDistT.bodyStep sqrt mb (KState.inWorld W st) dt fixed junk junkA sign (RelBody.moved W b) a') := by
  have hR := (turning_isRot hW).1
  unfold RelDistT.bodyStep
  refine (inWorld_pos W st b.b1Index).bind fun X X' eX => ?_
  subst eX
  refine (direction_turn hW sqrt dt fixed X b).bind fun d d' ed => ?_
  subst ed
  obtain ⟨d, n, dn⟩ := d
  refine (jacobian_turn hW mb st b.jac).bind fun J J' hJ => ?_
  refine (block_bottom hJ _).bind fun sh sh' hsh => ?_
  have h1 := full_turn (mb := mb) (path := b.jac.path) (res := ⟨3, mb.nrDof, junk⟩) hsh
  have h2 := fullJacobian_rel (mb := mb) (path := b.jac.path) (jac := sh')
    (res := Mat.turn (PT.turning W) 1 ⟨3, mb.nrDof, junk⟩) (res' := ⟨3, mb.nrDof, junk⟩)
    (by rw [hsh.2.1, hsh.1]; rfl) rfl (by rw [hsh.2.1, hsh.1]) rfl
  refine Out.Rel.bind' (h1.trans' (S := fun F F' => Mat.Agree (Mat.turn (PT.turning W) 1 F) F') h2
    (fun _ _ _ e h => e ▸ h)) fun F F' e1 hF => ?_
  have hrows : F.rows = 3 := (fullJacobian_shape e1).1
  obtain ⟨c1, c2, c3⟩ := hF
  have ecol : ∀ k < F.cols, (⟨F'.get 0 k, F'.get 1 k, F'.get 2 k⟩ : V3 K)
      = (PT.turning W).mulVec ⟨F.get 0 k, F.get 1 k, F.get 2 k⟩ := by
    intro k hk
    have hr : ∀ i < 3, F'.get i k = ((PT.turning W).mulVec ⟨F.get 0 k, F.get 1 k, F.get 2 k⟩).get i := by
      intro i hi
      rw [← c3 i (by show i < F.rows; omega) k hk]
      show (if _ then _ else _) = _
      rw [if_pos (by omega)]
      unfold turnAt
      interval_cases i <;> rfl
    exact V3.ext (hr 0 (by omega)) (hr 1 (by omega)) (hr 2 (by omega))
  obtain ⟨a1, a2, a3, a4, a5, a6⟩ := ha
  have ecols : F'.cols = F.cols := c2.symm
  rw [← a4, ← a5, ecols]
  split
  · trivial
  · rename_i hc
    refine (velocity_turn W st b.jac).bind fun v v' ev => ?_
    refine Out.Rel.same (paramToVector st.alpha ⟨mb.nrDof, junkA⟩) fun al _ => ?_
    refine (normalAcc_turn hW st b.jac).bind fun na na' en => ?_
    subst ev en
    have ew : (⟨F'.rowMul 0 al.get, F'.rowMul 1 al.get, F'.rowMul 2 al.get⟩ : V3 K)
        = (PT.turning W).mulVec ⟨F.rowMul 0 al.get, F.rowMul 1 al.get, F.rowMul 2 al.get⟩ := by
      rw [← rowMul_turn]
      have hr : ∀ i < 3, F'.rowMul i al.get = (Mat.turn (PT.turning W) 1 F).rowMul i al.get := by
        intro i hi
        unfold Mat.rowMul
        rw [ecols]
        exact Finset.sum_congr rfl fun k hk => by
          rw [c3 i (by show i < F.rows; omega) k (Finset.mem_range.1 hk)]
      rw [hr 0 (by omega), hr 1 (by omega), hr 2 (by omega)]
    refine ⟨rfl, ?_, ?_, ?_, rfl, rfl, fun i hi k hk => ?_⟩
    · dsimp only
      rw [a1]
    · dsimp only [MV.turn]
      rw [a2, hR.dot_mulVec]
    · dsimp only [MV.turn]
      rw [ew, a3, hR.dot_mulVec, hR.dot_mulVec]
    · have hcc : a.jacMat.rows = 1 ∧ a.jacMat.cols = F.cols := not_not.1 hc
      have hk' : k < a.jacMat.cols := hk
      dsimp only
      rw [ecol k (by omega), hR.dot_mulVec, a6 i (by have : i < 1 := hi; omega) k hk']

theorem loop_turn {W : PT K} (hW : W.Rigid) (sqrt : K → Out K) (mb : MultiBody K) (st : KState K)
    (dt : K) (fixed : Bool) (junk : ℕ → ℕ → K) (junkA : ℕ → K) :
    ∀ (l : List (RelBody K)) (sign : K) {a a' : RelDistT.Acc K}, AccSame a a' →
      Out.Rel (fun r r' => r'.1 = r.1.map (RelBody.moved W) ∧ AccSame r.2 r'.2)
        (RelDistT.loop sqrt mb st dt fixed junk junkA sign l a)
        (RelDistT.loop sqrt mb (KState.inWorld W st) dt fixed junk junkA sign
          (l.map (RelBody.moved W)) a')
  | [], _, _, _, h => ⟨rfl, h⟩
  | b :: l, sign, a, a', h => by
    simp only [RelDistT.loop, List.map_cons]
    refine (bodyStep_turn hW sqrt mb st dt fixed junk junkA sign b h).bind fun r r' hr => ?_
    obtain ⟨b1, a1⟩ := r
    obtain ⟨b1', a1'⟩ := r'
    obtain ⟨e, h1⟩ := hr
    dsimp only at e
    subst e
    refine (loop_turn hW sqrt mb st dt fixed junk junkA l (-sign) h1).bind fun q q' hq => ?_
    obtain ⟨l1, a2⟩ := q
    obtain ⟨l1', a2'⟩ := q'
    obtain ⟨e, h2⟩ := hq
    dsimp only at e
    subst e
    exact ⟨rfl, h2⟩

theorem relDist_same {W : PT K} (hW : W.Rigid) (sqrt : K → Out K) (mb : MultiBody K) (st : KState K)
    (junk : ℕ → ℕ → K) (junkA : ℕ → K) (t : RelDistT K) :
    Out.Rel (fun u u' => SameTask (HLTask.inWorld W (.relDist u)) (.relDist u'))
      (t.update sqrt mb st junk junkA)
      (RelDistT.update sqrt mb (KState.inWorld W st) junk junkA
        { t with infos := t.infos.map (RelBody.moved W) }) := by
  unfold RelDistT.update
  refine (loop_turn hW sqrt mb st t.timestep t.isVectorFixed junk junkA t.infos 1
    (a' := ⟨0, 0, 0, ⟨t.jacMat.rows, t.jacMat.cols, fun _ _ => 0⟩⟩)
    ⟨rfl, rfl, rfl, Mat.Agree.rfl' _⟩).bind fun r r' hr => ?_
  obtain ⟨l, a⟩ := r
  obtain ⟨l', a'⟩ := r'
  obtain ⟨e, h1, h2, h3, h4⟩ := hr
  dsimp only at e h1 h2 h3 h4
  subst e
  refine ⟨rfl, h4, ⟨rfl, fun _ _ => h1.symm⟩, ⟨rfl, fun _ _ => h2.symm⟩, ⟨rfl, fun _ _ => h3.symm⟩⟩

/-! ## The claim -/

theorem sameTask_rfl (t : HLTask K) : SameTask t t :=
  ⟨rfl, Mat.Agree.rfl' _, Vec.Agree.rfl' _, Vec.Agree.rfl' _, Vec.Agree.rfl' _⟩

/-- Updating a task in the new frame gives the updated task seen from the new frame, and fails when the update
in the old frame does. -/
theorem C118_update {f : Fns K} {W : PT K} (hW : W.Rigid) (hf : FrameFree f W) (R : RobotDesc K)
    (st : KState K) (junk : ℕ → ℕ → ℕ → K) (t : HLTask K) (hk : IsTracking t → TrackFree f W) :
    Out.Rel (fun u u' => SameTask (HLTask.inWorld W u) u') (t.updateOn f R st junk)
      ((HLTask.inWorld W t).updateOn f R (KState.inWorld W st) junk) := by
  cases t with
  | position t =>
    refine (position_turn hW R.mb st t).bind fun u u' h => ?_
    show SameTask _ (HLTask.position u')
    rw [h]
    exact sameTask_rfl _
  | orientation t =>
    refine Out.Rel.bind (P := fun u u' => HLTask.orientation u' = HLTask.inWorld W (.orientation u))
      ?_ fun u u' h => ?_
    · refine (orientation_turn hW hf R.mb st t.bodyIndex t.jac t.ori t.out.jacMat).bind fun o o' e => ?_
      subst e
      rfl
    · show SameTask _ (HLTask.orientation u')
      rw [h]
      exact sameTask_rfl _
  | surfaceOrientation t =>
    refine Out.Rel.bind (P := fun u u' =>
      HLTask.surfaceOrientation u' = HLTask.inWorld W (.surfaceOrientation u)) ?_ fun u u' h => ?_
    · refine (surfaceOri_same hW R.mb st t.bodyIndex t.jac t.ori t.X_b_s t.out.jacMat).bind
        fun o o' e => ?_
      subst e
      rfl
    · show SameTask _ (HLTask.surfaceOrientation u')
      rw [h]
      exact sameTask_rfl _
  | surfaceTransform t =>
    refine Out.Rel.bind (P := fun u u' =>
      HLTask.surfaceTransform u' = HLTask.inWorld W (.surfaceTransform u)) ?_ fun u u' h => ?_
    · refine (surface_same hW R.mb st t.bodyIndex t.jac t.X_0_t t.X_b_p t.out.jacMat).bind
        fun o o' e => ?_
      subst e
      rfl
    · show SameTask _ (HLTask.surfaceTransform u')
      rw [h]
      exact sameTask_rfl _
  | transform t =>
    refine Out.Rel.bind (P := fun u u' => HLTask.transform u' = HLTask.inWorld W (.transform u))
      ?_ fun u u' h => ?_
    · refine (transform_same hW hf R.mb st t.c.bodyIndex t.c.jac t.c.X_0_t t.c.X_b_p t.E_0_c
        t.c.out.jacMat).bind fun o o' e => ?_
      subst e
      rfl
    · show SameTask _ (HLTask.transform u')
      rw [h]
      exact sameTask_rfl _
  | gaze t =>
    refine Out.Rel.bind (P := fun u u' => u' = u) ?_ fun u u' h => ?_
    · refine Out.Rel.same (imagePointJacobian t.point2d t.depth) fun L _ => ?_
      refine (visual_same hW 2 L _ R.mb st t.bodyIndex t.jac t.X_b_gaze t.jacMat).bind fun r r' e => ?_
      subst e
      rfl
    · subst h
      exact sameTask_rfl _
  | pbvs t =>
    refine Out.Rel.bind (P := fun u u' => u' = u) ?_ fun u u' h => ?_
    · refine (visual_same hW 6 _ _ R.mb st t.bodyIndex t.jac t.X_b_s t.jacMat).bind fun r r' e => ?_
      subst e
      rfl
    · subst h
      exact sameTask_rfl _
  | com t =>
    refine (com_turn hW _ R.mb st t).bind fun u u' h => ?_
    show SameTask _ (HLTask.com u')
    rw [h]
    exact sameTask_rfl _
  | momentum t =>
    refine (momentum_turn hW R.bodies R.mb st t).bind fun u u' h => ?_
    show SameTask _ (HLTask.momentum u')
    rw [h]
    exact sameTask_rfl _
  | linVelocity t =>
    refine (linVel_turn hW R.mb st t).bind fun u u' h => ?_
    show SameTask _ (HLTask.linVelocity u')
    rw [h]
    exact sameTask_rfl _
  | tracking t => exact (track_turn hW (hk trivial) R.mb st t _ rfl).bind fun u u' h => h
  | relDist t => exact (relDist_same hW f.sqrt R.mb st (junk 0) (junk 1 0) t).bind fun u u' h => h
  | vectorOrientation t =>
    refine Out.Rel.bind (P := fun u u' => SameTask (HLTask.inWorld W (.vectorOrientation u))
      (.vectorOrientation u')) ?_ fun u u' h => h
    refine (vectorOri_turn hW R.mb st t.bodyIndex t.jac t.bodyVector t.target (junk 0)).bind
      fun o o' h => ?_
    exact ⟨rfl, h⟩

/-! ### What is reported -/

theorem matAgree_trans {A B C : Mat K} (h : Mat.Agree A B) (h' : Mat.Agree B C) : Mat.Agree A C :=
  ⟨h.1.trans h'.1, h.2.1.trans h'.2.1, fun i hi j hj =>
    (h.2.2 i hi j hj).trans (h'.2.2 i (h.1 ▸ hi) j (h.2.1 ▸ hj))⟩

theorem vecAgree_trans {A B C : Vec K} (h : Vec.Agree A B) (h' : Vec.Agree B C) : Vec.Agree A C :=
  ⟨h.1.trans h'.1, fun i hi => (h.2 i hi).trans (h'.2 i (h.1 ▸ hi))⟩

theorem hlAgree_trans {a b c : HL K} (h : HL.Agree a b) (h' : HL.Agree b c) : HL.Agree a c :=
  ⟨matAgree_trans h.1 h'.1, vecAgree_trans h.2.1 h'.2.1, vecAgree_trans h.2.2.1 h'.2.2.1,
    vecAgree_trans h.2.2.2 h'.2.2.2⟩

theorem turn_v3 (R : M3 K) (v : V3 K) : Vec.Agree (Vec.turn R 1 ⟨3, v.get⟩) ⟨3, (R.mulVec v).get⟩ :=
  ⟨rfl, fun a (ha : a < 3) => by
    show (if _ then _ else _) = _
    rw [if_pos (by omega)]
    exact turnAt_get R v ha⟩

theorem turn_fv (R : M3 K) (v : FV K) : Vec.Agree (Vec.turn R 2 ⟨6, v.get⟩) ⟨6, (FV.turn R v).get⟩ :=
  ⟨rfl, fun a (ha : a < 6) => by
    show (if _ then _ else _) = _
    rw [if_pos (by omega)]
    exact turnAt_fv R v ha⟩

theorem turn_none (R : M3 K) (h : HL K) : HL.Agree (HL.turn R 0 h) h :=
  ⟨⟨rfl, rfl, fun _ _ _ _ => by simp [HL.turn, Mat.turn]⟩, ⟨rfl, fun _ _ => by simp [HL.turn, Vec.turn]⟩,
    ⟨rfl, fun _ _ => by simp [HL.turn, Vec.turn]⟩, ⟨rfl, fun _ _ => by simp [HL.turn, Vec.turn]⟩⟩

theorem turn_hl3 (R : M3 K) (o : Out3 K) :
    HL.Agree (HL.turn R 1 (HLTask.hl3 o)) (HLTask.hl3 (Out3.turn R o)) :=
  ⟨Mat.Agree.rfl' _, turn_v3 R _, turn_v3 R _, turn_v3 R _⟩

theorem inWorld_hl (W : PT K) (t : HLTask K) :
    HL.Agree (HL.turn (PT.turning W) (worldBlocks t) t.hl) (HLTask.inWorld W t).hl := by
  cases t with
  | position t => exact turn_hl3 _ _
  | orientation t => exact turn_hl3 _ _
  | surfaceOrientation t => exact turn_none _ _
  | surfaceTransform t => exact turn_none _ _
  | transform t => exact turn_none _ _
  | gaze t => exact turn_none _ _
  | pbvs t => exact turn_none _ _
  | com t => exact turn_hl3 _ _
  | momentum t => exact ⟨Mat.Agree.rfl' _, turn_fv _ _, turn_fv _ _, turn_fv _ _⟩
  | linVelocity t => exact turn_hl3 _ _
  | tracking t => exact ⟨Mat.Agree.rfl' _, turn_v3 _ _, turn_v3 _ _, turn_v3 _ _⟩
  | relDist t => exact turn_none _ _
  | vectorOrientation t => exact turn_hl3 _ _

/-- The Jacobian, the error, the speed and the normal acceleration reported in the new frame are those of the
old frame, turned when they are coordinates of vectors in the world, equal otherwise. -/
theorem C118_report {f : Fns K} {W : PT K} (hW : W.Rigid) (hf : FrameFree f W) (R : RobotDesc K)
    (st : KState K) (junk : ℕ → ℕ → ℕ → K) (t : HLTask K) (hk : IsTracking t → TrackFree f W) :
    Out.Rel (fun u u' => HL.Agree (HL.turn (PT.turning W) (worldBlocks u) u.hl) u'.hl)
      (t.updateOn f R st junk) ((HLTask.inWorld W t).updateOn f R (KState.inWorld W st) junk) :=
  (C118_update hW hf R st junk t hk).mono fun u _ h => hlAgree_trans (inWorld_hl W u) h.2

theorem inWorld_shaped {W : PT K} {n : ℕ} {t : HLTask K} (h : TaskShaped n t) :
    TaskShaped n (HLTask.inWorld W t) := by
  have hd : (HLTask.inWorld W t).dim = t.dim := by cases t <;> rfl
  obtain ⟨⟨h1, h2, h3, h4⟩, h5⟩ := h
  obtain ⟨⟨a1, a2, -⟩, ⟨b1, -⟩, ⟨c1, -⟩, ⟨d1, -⟩⟩ := inWorld_hl W t
  refine ⟨⟨?_, ?_, ?_, ?_⟩, ?_⟩
  · rw [hd, ← b1]; exact h1
  · rw [hd, ← c1]; exact h2
  · rw [hd, ← d1]; exact h3
  · rw [hd, ← a1]; exact h4
  · rw [← a2]; exact h5

theorem sameTask_trans {a b c : HLTask K} (h : SameTask a b) (h' : SameTask b c) : SameTask a c :=
  ⟨h.1.trans h'.1, hlAgree_trans h.2 h'.2⟩

theorem updateOn_isTracking {f : Fns K} {R : RobotDesc K} {st : KState K} {junk : ℕ → ℕ → ℕ → K}
    {t u : HLTask K} (h : t.updateOn f R st junk = .ok u) (hu : IsTracking u) : IsTracking t := by
  cases t <;> simp only [HLTask.updateOn, Out.bind_eq_ok, Out.pure_eq, Out.ok.injEq] at h <;>
    first | trivial | (obtain ⟨_, _, rfl⟩ := h; exact hu)

/-- Updates one after the other, in the states of the list. -/
def Spec.updates (f : Fns K) (R : RobotDesc K) (l : List (KState K × (ℕ → ℕ → ℕ → K))) (t : HLTask K) :
    Out (HLTask K) :=
  forEach l (fun x t => t.updateOn f R x.1 x.2) t

/-- The same along every motion of the robot, seen from both frames. -/
theorem C118_motion {f : Fns K} {W : PT K} (hW : W.Rigid) (hf : FrameFree f W) (R : RobotDesc K) :
    ∀ (l : List (KState K × (ℕ → ℕ → ℕ → K))) {t t' : HLTask K}, TaskShaped R.mb.nrDof t →
      TaskShaped R.mb.nrDof t' → (IsTracking t → TrackFree f W) → SameTask (HLTask.inWorld W t) t' →
      (∀ x ∈ l, x.1.alpha.flatten.length = R.mb.nrDof) →
      Out.Rel (fun u u' => SameTask (HLTask.inWorld W u) u') (updates f R l t)
        (updates f R (l.map fun x => (KState.inWorld W x.1, x.2)) t')
  | [], _, _, _, _, _, h, _ => h
  | x :: l, t, t', hs, hs', hk, h, hα => by
    simp only [updates, forEach, List.map_cons]
    have h1 := C118_update hW hf R x.1 x.2 t hk
    have h2 := updateOn_rel (f := f) (st := KState.inWorld W x.1) (junk := x.2) (inWorld_shaped hs) hs' h.1
      (hα x (List.mem_cons_self ..))
    have h3 := h1.trans' (S := fun u u' => SameTask (HLTask.inWorld W u) u') h2
      fun _ _ _ a b => sameTask_trans a b
    cases e1 : t.updateOn f R x.1 x.2 with
    | ok u =>
      rw [e1] at h3
      cases e2 : t'.updateOn f R (KState.inWorld W x.1) x.2 with
      | ok u' =>
        rw [e2] at h3
        exact C118_motion hW hf R l (updateOn_shaped e1 hs).1 (updateOn_shaped e2 hs').1
          (fun hu => hk (updateOn_isTracking e1 hu)) h3
          fun y hy => hα y (List.mem_cons_of_mem _ hy)
      | ub => rw [e2] at h3; exact h3.elim
      | throws e => rw [e2] at h3; exact h3.elim
    | ub =>
      rw [e1] at h3
      cases e2 : t'.updateOn f R (KState.inWorld W x.1) x.2 with
      | ok u' => rw [e2] at h3; exact h3.elim
      | ub => trivial
      | throws e => rw [e2] at h3; exact h3.elim
    | throws e =>
      rw [e1] at h3
      cases e2 : t'.updateOn f R (KState.inWorld W x.1) x.2 with
      | ok u' => rw [e2] at h3; exact h3.elim
      | ub => rw [e2] at h3; exact h3.elim
      | throws e' => rw [e2] at h3; exact h3

/-! ### The objective -/

/-- The entries of `u'` are those of `u`, the first `nb` blocks turned. -/
def IsTurn (R : M3 K) (nb m : ℕ) (u u' : ℕ → K) : Prop :=
  ∀ a < m, u' a = if a < 3 * nb then turnAt R u a else u a

theorem IsTurn.lin {R : M3 K} {nb m : ℕ} {u u' v v' : ℕ → K} (hu : IsTurn R nb m u u')
    (hv : IsTurn R nb m v v') (c : K) : IsTurn R nb m (fun i => u i + c * v i) (fun i => u' i + c * v' i) := by
  intro a ha
  dsimp only
  rw [hu a ha, hv a ha]
  split
  · exact (turnAt_lin R u v c a).symm
  · rfl

theorem IsTurn.zero (R : M3 K) (nb m : ℕ) : IsTurn R nb m (fun _ => 0) (fun _ => 0) := by
  intro a _
  rw [turnAt_zero, ite_self]

theorem IsTurn.weight {R : M3 K} {nb m : ℕ} {u u' : ℕ → K} (hu : IsTurn R nb m u u') {w : Vec K}
    (hw : NoAxis nb w) : IsTurn R nb m (fun i => w.get i * u i) (fun i => w.get i * u' i) := by
  intro a ha
  dsimp only
  rw [hu a ha]
  split
  · rename_i h
    have e : turnAt R (fun i => w.get i * u i) a = turnAt R (fun i => 0 + w.get a * u i) a :=
      turnAt_congr R fun i hi => by
        rw [hw i (by omega), hw a h, hi, zero_add]
    rw [e, turnAt_lin, turnAt_zero, zero_add]
  · rfl

theorem turn_block (R : M3 K) (hR : R.RowsOrtho) (u v : ℕ → K) (b : ℕ) :
    turnAt R u (3 * b) * turnAt R v (3 * b) + turnAt R u (3 * b + 1) * turnAt R v (3 * b + 1)
        + turnAt R u (3 * b + 2) * turnAt R v (3 * b + 2)
      = u (3 * b) * v (3 * b) + u (3 * b + 1) * v (3 * b + 1) + u (3 * b + 2) * v (3 * b + 2) := by
  have e0 : 3 * b / 3 = b := by omega
  have e1 : (3 * b + 1) / 3 = b := by omega
  have e2 : (3 * b + 2) / 3 = b := by omega
  have f0 : 3 * b % 3 = 0 := by omega
  have f1 : (3 * b + 1) % 3 = 1 := by omega
  have f2 : (3 * b + 2) % 3 = 2 := by omega
  unfold turnAt
  rw [e0, e1, e2, f0, f1, f2]
  exact hR.dot_mulVec ⟨u (3 * b), u (3 * b + 1), u (3 * b + 2)⟩ ⟨v (3 * b), v (3 * b + 1), v (3 * b + 2)⟩

theorem turn_sum_blocks {R : M3 K} (hR : R.RowsOrtho) (u v : ℕ → K) :
    ∀ nb : ℕ, ∑ a ∈ range (3 * nb), turnAt R u a * turnAt R v a = ∑ a ∈ range (3 * nb), u a * v a
  | 0 => rfl
  | nb + 1 => by
    have e : 3 * (nb + 1) = 3 * nb + 1 + 1 + 1 := by omega
    have := turn_block R hR u v nb
    rw [e, sum_range_succ, sum_range_succ, sum_range_succ, sum_range_succ, sum_range_succ, sum_range_succ,
      turn_sum_blocks hR u v nb]
    linear_combination this

theorem turn_sum {R : M3 K} (hR : R.RowsOrtho) {nb m : ℕ} (hm : 3 * nb ≤ m) {u u' v v' : ℕ → K}
    (hu : IsTurn R nb m u u') (hv : IsTurn R nb m v v') :
    ∑ a ∈ range m, u' a * v' a = ∑ a ∈ range m, u a * v a := by
  obtain ⟨r, rfl⟩ := Nat.exists_eq_add_of_le hm
  rw [sum_range_add, sum_range_add, ← turn_sum_blocks hR u v nb]
  congr 1
  · refine sum_congr rfl fun a ha => ?_
    have h := mem_range.1 ha
    rw [hu a (by omega), hv a (by omega), if_pos h, if_pos h]
  · refine sum_congr rfl fun a ha => ?_
    have h := mem_range.1 ha
    rw [hu _ (by omega), hv _ (by omega), if_neg (by omega), if_neg (by omega)]

/-- A weighted least-squares term whose Jacobian and target turn, with weights that prefer no axis. -/
theorem lsq_turn {R : M3 K} (hR : R.RowsOrtho) {nb : ℕ} {J J' : Mat K}
    (hJ : Mat.Agree (Mat.turn R nb J) J') (hm : 3 * nb ≤ J.rows) {w : Vec K} (hw : NoAxis nb w)
    {e e' : ℕ → K} (he : IsTurn R nb J.rows e e') (b : ℕ × ℕ) (c : K) (x : ℕ → K) :
    TaskQC.obj ⟨lsqQ w J', lsqC w J' e', b, c⟩ x = TaskQC.obj ⟨lsqQ w J, lsqC w J e, b, c⟩ x := by
  obtain ⟨h1, h2, h3⟩ := hJ
  have h1' : J'.rows = J.rows := h1.symm
  have h2' : J'.cols = J.cols := h2.symm
  have hc : ∀ k < J.cols, IsTurn R nb J.rows (fun i => J.get i k) (fun i => J'.get i k) :=
    fun k hk a ha => (h3 a ha k hk).symm
  have hQ : ∀ j < J.cols, ∀ k < J.cols, (lsqQ w J').get j k = (lsqQ w J).get j k := by
    intro j hj k hk
    show ∑ i ∈ range J'.rows, _ = ∑ i ∈ range J.rows, _
    rw [h1']
    exact turn_sum hR hm (hc j hj) ((hc k hk).weight hw)
  have hC : ∀ j < J.cols, (lsqC w J' e').get j = (lsqC w J e).get j := by
    intro j hj
    show ∑ i ∈ range J'.rows, _ = ∑ i ∈ range J.rows, _
    rw [h1']
    simp only [neg_mul, sum_neg_distrib]
    rw [turn_sum hR hm (hc j hj) (he.weight hw)]
  have hr : (lsqQ w J').rows = (lsqQ w J).rows := h2'
  have hcl : (lsqQ w J').cols = (lsqQ w J).cols := h2'
  unfold TaskQC.obj
  dsimp only
  rw [hr, hcl]
  congr 2
  · congr 1
    exact sum_congr rfl fun i hi => sum_congr rfl fun j hj => by
      rw [hQ i (mem_range.1 hi) j (mem_range.1 hj)]
  · exact sum_congr rfl fun i hi => by rw [hC i (mem_range.1 hi)]

theorem agree_isTurn {R : M3 K} {nb m : ℕ} {v v' : Vec K} (h : Vec.Agree (Vec.turn R nb v) v')
    (hm : v.size = m) : IsTurn R nb m v.get v'.get :=
  fun a ha => (h.2 a (by show a < v.size; omega)).symm

theorem turn_isTurn (R : M3 K) (nb m : ℕ) (v : Vec K) : IsTurn R nb m v.get (Vec.turn R nb v).get :=
  fun _ _ => rfl

theorem IsTurn.congr {R : M3 K} {nb m : ℕ} {u u' v v' : ℕ → K} (h : IsTurn R nb m u u')
    (e : ∀ i, v i = u i) (e' : ∀ i, v' i = u' i) : IsTurn R nb m v v' := by
  obtain rfl : v = u := funext e
  obtain rfl : v' = u' := funext e'
  exact h

section
variable {R : M3 K} (hR : R.RowsOrtho) {nb : ℕ} {h h' : HL K} (hh : HL.Agree (HL.turn R nb h) h')
  (hm : 3 * nb ≤ h.jac.rows)
include hR hh hm

theorem setPoint_turn {s s1 : SetPoint K} (hw : NoAxis nb s.c.dimWeight) (hs : s.update h = .ok s1) :
    ∃ s1', s.update h' = .ok s1' ∧ ∀ x, s1'.c.task.obj x = s1.c.task.obj x := by
  rw [setPoint_update_eq_ok] at hs
  obtain ⟨⟨g1, g2, g3, g4⟩, rfl⟩ := hs
  obtain ⟨hJ, hE, hS, hN⟩ := hh
  have k0 : h.jac.rows = h'.jac.rows := hJ.1
  have k1 : h.eval.size = h'.eval.size := hE.1
  have k2 : h.speed.size = h'.speed.size := hS.1
  have k3 : h.normalAcc.size = h'.normalAcc.size := hN.1
  refine ⟨_, setPoint_update_eq_ok.2 ⟨⟨by omega, by omega, by omega, by omega⟩, rfl⟩, fun x => ?_⟩
  refine lsq_turn hR hJ hm hw ?_ _ _ x
  exact ((((IsTurn.zero R nb _).lin (agree_isTurn hE g4.symm) s.stiffness).lin
    (agree_isTurn hS (by omega)) (-s.stiffnessSqrt)).lin (agree_isTurn hN (by omega)) (-1)).congr
    (fun i => by ring) (fun i => by ring)

theorem trajectory_turn {s s1 : Trajectory K} (hw : NoAxis nb s.c.dimWeight) (hk : NoAxis nb s.stiffness)
    (hd : NoAxis nb s.damping) (hs : s.update h = .ok s1) :
    ∃ s1', Trajectory.update h' { s with
      refVel := Vec.turn R nb s.refVel, refAccel := Vec.turn R nb s.refAccel } = .ok s1' ∧
      ∀ x, s1'.c.task.obj x = s1.c.task.obj x := by
  rw [trajectory_update_eq_ok] at hs
  obtain ⟨⟨g1, g2, g3, g4, g5, g6, g7, g8⟩, rfl⟩ := hs
  obtain ⟨hJ, hE, hS, hN⟩ := hh
  have k0 : h.jac.rows = h'.jac.rows := hJ.1
  have k1 : h.eval.size = h'.eval.size := hE.1
  have k2 : h.speed.size = h'.speed.size := hS.1
  have k3 : h.normalAcc.size = h'.normalAcc.size := hN.1
  have k4 : (Vec.turn R nb s.refVel).size = s.refVel.size := rfl
  have k5 : (Vec.turn R nb s.refAccel).size = s.refAccel.size := rfl
  refine ⟨_, trajectory_update_eq_ok.2 ⟨⟨by dsimp only; omega, by dsimp only; omega, by dsimp only; omega,
    by dsimp only; omega, by dsimp only; omega, by omega, by dsimp only; omega, by omega⟩, rfl⟩,
    fun x => ?_⟩
  refine lsq_turn hR hJ hm hw ?_ _ _ x
  have t1 := (agree_isTurn hE g8.symm).weight hk
  have t2 := ((turn_isTurn R nb h.jac.rows s.refVel).lin (agree_isTurn hS (by omega)) (-1)).weight hd
  exact (((t1.lin t2 1).lin (turn_isTurn R nb _ s.refAccel) 1).lin (agree_isTurn hN (by omega)) (-1)).congr
    (fun i => by ring) (fun i => by ring)

theorem trackingTask_turn {s s1 : Tracking K} (hw : NoAxis nb s.c.dimWeight) (hs : s.update h = .ok s1) :
    ∃ s1', Tracking.update h' { s with
      errorPos := Vec.turn R nb s.errorPos, errorVel := Vec.turn R nb s.errorVel,
      refAccel := Vec.turn R nb s.refAccel } = .ok s1' ∧ ∀ x, s1'.c.task.obj x = s1.c.task.obj x := by
  rw [tracking_update_eq_ok] at hs
  obtain ⟨⟨g1, g2, g3, g4, g5⟩, rfl⟩ := hs
  obtain ⟨hJ, hE, hS, hN⟩ := hh
  have k0 : h.jac.rows = h'.jac.rows := hJ.1
  have k3 : h.normalAcc.size = h'.normalAcc.size := hN.1
  refine ⟨_, tracking_update_eq_ok.2 ⟨⟨g1, g2, g3.trans k3, g4, k0.symm.trans g5⟩, rfl⟩, fun x => ?_⟩
  refine lsq_turn hR hJ hm hw ?_ _ _ x
  exact (((((IsTurn.zero R nb _).lin (turn_isTurn R nb _ s.errorPos) s.gainPos).lin
    (turn_isTurn R nb _ s.errorVel) s.gainVel).lin (turn_isTurn R nb _ s.refAccel) 1).lin
    (agree_isTurn hN (by omega)) (-1)).congr (fun i => by ring) (fun i => by ring)

theorem pid_turn {s s1 : Pid K} (hw : NoAxis nb s.c.dimWeight) (hs : s.update h = .ok s1) :
    ∃ s1', Pid.update h' { s with
      error := Vec.turn R nb s.error, errorD := Vec.turn R nb s.errorD,
      errorI := Vec.turn R nb s.errorI } = .ok s1' ∧ ∀ x, s1'.c.task.obj x = s1.c.task.obj x := by
  rw [pid_update_eq_ok] at hs
  obtain ⟨⟨g1, g2, g3, g4, g5⟩, rfl⟩ := hs
  obtain ⟨hJ, hE, hS, hN⟩ := hh
  have k0 : h.jac.rows = h'.jac.rows := hJ.1
  have k3 : h.normalAcc.size = h'.normalAcc.size := hN.1
  refine ⟨_, pid_update_eq_ok.2 ⟨⟨g1, g2, g3.trans k3, g4, k0.symm.trans g5⟩, rfl⟩, fun x => ?_⟩
  refine lsq_turn hR hJ hm hw ?_ _ _ x
  exact (((((IsTurn.zero R nb _).lin (turn_isTurn R nb _ s.error) s.P).lin
    (turn_isTurn R nb _ s.errorD) (-s.D)).lin (turn_isTurn R nb _ s.errorI) (-s.I)).lin
    (agree_isTurn hN (by omega)) (-1)).congr (fun i => by ring) (fun i => by ring)

end

theorem blocks_le {n : ℕ} {t : HLTask K} (h : TaskShaped n t) : 3 * worldBlocks t ≤ t.hl.jac.rows := by
  obtain ⟨⟨-, -, -, h4⟩, -⟩ := h
  rw [h4]
  cases t <;> simp [worldBlocks, HLTask.dim]

section
variable {f : Fns K} {W : PT K} (hW : W.Rigid) (hf : FrameFree f W) {R : RobotDesc K} {st : KState K}
  {junk : ℕ → ℕ → ℕ → K} {t u : HLTask K} (ht : TaskShaped R.mb.nrDof t) (hk : IsTracking t → TrackFree f W)
  (hu : t.updateOn f R st junk = .ok u)
include hW hf ht hk hu

theorem moved_ok : ∃ u', (HLTask.inWorld W t).updateOn f R (KState.inWorld W st) junk = .ok u' ∧
    HL.Agree (HL.turn (PT.turning W) (worldBlocks u) u.hl) u'.hl ∧ 3 * worldBlocks u ≤ u.hl.jac.rows := by
  have h := C118_report hW hf R st junk t hk
  rw [hu] at h
  cases e : (HLTask.inWorld W t).updateOn f R (KState.inWorld W st) junk with
  | ok u' => rw [e] at h; exact ⟨u', rfl, h, blocks_le (updateOn_shaped hu ht).1⟩
  | ub => rw [e] at h; exact h.elim
  | throws x => rw [e] at h; exact h.elim

/-- `SetPointTask`: what it asks of the joint accelerations does not depend on the frame, when its weights do
not prefer an axis of the world. -/
theorem C118_setPoint {s s1 : SetPoint K} (hw : NoAxis (worldBlocks u) s.c.dimWeight)
    (hs : s.update u.hl = .ok s1) :
    ∃ u' s1', (HLTask.inWorld W t).updateOn f R (KState.inWorld W st) junk = .ok u' ∧
      s.update u'.hl = .ok s1' ∧ ∀ x, s1'.c.task.obj x = s1.c.task.obj x := by
  obtain ⟨u', e, h, hm⟩ := moved_ok hW hf ht hk hu
  obtain ⟨s1', h1, h2⟩ := setPoint_turn (turning_isRot hW).1 h hm hw hs
  exact ⟨u', s1', e, h1, h2⟩

/-- `TrajectoryTask`, with its reference velocity and acceleration in the new frame. -/
theorem C118_trajectory {s s1 : Trajectory K} (hw : NoAxis (worldBlocks u) s.c.dimWeight)
    (hst : NoAxis (worldBlocks u) s.stiffness) (hd : NoAxis (worldBlocks u) s.damping)
    (hs : s.update u.hl = .ok s1) :
    ∃ u' s1', (HLTask.inWorld W t).updateOn f R (KState.inWorld W st) junk = .ok u' ∧
      Trajectory.update u'.hl { s with
        refVel := Vec.turn (PT.turning W) (worldBlocks u) s.refVel,
        refAccel := Vec.turn (PT.turning W) (worldBlocks u) s.refAccel } = .ok s1' ∧
      ∀ x, s1'.c.task.obj x = s1.c.task.obj x := by
  obtain ⟨u', e, h, hm⟩ := moved_ok hW hf ht hk hu
  obtain ⟨s1', h1, h2⟩ := trajectory_turn (turning_isRot hW).1 h hm hw hst hd hs
  exact ⟨u', s1', e, h1, h2⟩

/-- `TrackingTask`, with the errors and the reference acceleration in the new frame. -/
theorem C118_tracking {s s1 : Tracking K} (hw : NoAxis (worldBlocks u) s.c.dimWeight)
    (hs : s.update u.hl = .ok s1) :
    ∃ u' s1', (HLTask.inWorld W t).updateOn f R (KState.inWorld W st) junk = .ok u' ∧
      Tracking.update u'.hl { s with
        errorPos := Vec.turn (PT.turning W) (worldBlocks u) s.errorPos,
        errorVel := Vec.turn (PT.turning W) (worldBlocks u) s.errorVel,
        refAccel := Vec.turn (PT.turning W) (worldBlocks u) s.refAccel } = .ok s1' ∧
      ∀ x, s1'.c.task.obj x = s1.c.task.obj x := by
  obtain ⟨u', e, h, hm⟩ := moved_ok hW hf ht hk hu
  obtain ⟨s1', h1, h2⟩ := trackingTask_turn (turning_isRot hW).1 h hm hw hs
  exact ⟨u', s1', e, h1, h2⟩

/-- `PIDTask`, with the errors in the new frame. -/
theorem C118_pid {s s1 : Pid K} (hw : NoAxis (worldBlocks u) s.c.dimWeight)
    (hs : s.update u.hl = .ok s1) :
    ∃ u' s1', (HLTask.inWorld W t).updateOn f R (KState.inWorld W st) junk = .ok u' ∧
      Pid.update u'.hl { s with
        error := Vec.turn (PT.turning W) (worldBlocks u) s.error,
        errorD := Vec.turn (PT.turning W) (worldBlocks u) s.errorD,
        errorI := Vec.turn (PT.turning W) (worldBlocks u) s.errorI } = .ok s1' ∧
      ∀ x, s1'.c.task.obj x = s1.c.task.obj x := by
  obtain ⟨u', e, h, hm⟩ := moved_ok hW hf ht hk hu
  obtain ⟨s1', h1, h2⟩ := pid_turn (turning_isRot hW).1 h hm hw hs
  exact ⟨u', s1', e, h1, h2⟩

end

/-! ### The functions of SpaceVecAlg -/

/-- `rotationError` and `transformError` of SpaceVecAlg do not depend on the world, whatever the function that
gives the angles of a rotation. -/
theorem C118_sva {W : PT K} (hW : W.Rigid) (rotVel : M3 K → V3 K) (f : Fns K)
    (h1 : f.rotErr = rotationErrorOf rotVel) (h2 : f.transErr = transformErrorOf rotVel) :
    FrameFree f W := by
  refine ⟨fun A B => ?_, fun X Y => ?_⟩
  · rw [h1]
    unfold rotationErrorOf
    rw [mul_inWorld_E hW, M3.transpose_mul, M3.mul_mulVec]
    rfl
  · rw [h2]
    unfold transformErrorOf
    rw [mul_mul_inv hW]
    unfold PT.ofRot PT.mulM MV.turn PT.mul PT.turning
    simp only [V3.zero_cross, sub_zero, M3.transpose_mul, M3.mul_mulVec]

/-! ### Two robots -/

theorem multiTransform_same {W : PT K} (hW : W.Rigid) (transVel : PT K → MV K) (mb1 mb2 : MultiBody K)
    (st1 st2 : KState K) (b1 b2 : ℕ) (J1 J2 : Jac K) (X1 X2 : PT K) (res1 res2 : Mat K) :
    Out.Rel (fun o o' => o' = o)
      (multiTransformUpdate transVel mb1 mb2 st1 st2 b1 b2 J1 J2 X1 X2 res1 res2)
      (multiTransformUpdate transVel mb1 mb2 (KState.inWorld W st1) (KState.inWorld W st2) b1 b2 J1 J2 X1 X2
        res1 res2) := by
  unfold multiTransformUpdate
  refine (inWorld_pos W st1 b1).bind fun B1 B1' e1 => ?_
  refine (inWorld_pos W st2 b2).bind fun B2 B2' e2 => ?_
  subst e1 e2
  dsimp only
  rw [← PT.mul_assoc' X1 B1 W, ← PT.mul_assoc' X2 B2 W, mul_mul_inv hW,
    ← PT.mul_assoc' (PT.ofRot _) (X2.mul B2) W, jacobianAt_inWorld hW, jacobianAt_inWorld hW]
  exact Out.Rel.refl _ fun _ _ => rfl

/-- `MultiRobotTransformTask` is the same task in every frame: the robots are seen from the same one. -/
theorem C118_multi {W : PT K} (hW : W.Rigid) (f : Fns K) (mbs : List (RobotDesc K)) (mbcs : List (KState K))
    (normalAccB : List (List (MV K))) (s : MultiTransT K) :
    s.update f mbs (mbcs.map (KState.inWorld W)) normalAccB = s.update f mbs mbcs normalAccB := by
  have hr : Out.Rel (fun u u' => u' = u) (s.update f mbs mbcs normalAccB)
      (s.update f mbs (mbcs.map (KState.inWorld W)) normalAccB) := by
    unfold MultiTransT.update
    refine Out.Rel.same _ fun R1 _ => Out.Rel.same _ fun R2 _ => ?_
    refine (vecAt_map_rel (KState.inWorld W) mbcs s.r1Index).bind fun st1 st1' e1 => ?_
    refine (vecAt_map_rel (KState.inWorld W) mbcs s.r2Index).bind fun st2 st2' e2 => ?_
    subst e1 e2
    refine Out.Rel.same _ fun n1 _ => Out.Rel.same _ fun n2 _ => ?_
    refine (multiTransform_same hW f.transVel R1.mb R2.mb { st1 with normalAccB := n1 }
      { st2 with normalAccB := n2 } _ _ _ _ _ _ _ _).bind fun o o' e => ?_
    subst e
    rfl
  cases e1 : s.update f mbs mbcs normalAccB <;> rw [e1] at hr <;>
    cases e2 : s.update f mbs (mbcs.map (KState.inWorld W)) normalAccB <;> rw [e2] at hr <;>
    first | exact hr.elim | rfl | (cases hr; rfl)

end

/-! ### A concrete case -/

namespace WorldEx

open KineEx

/-- The old world turned by 90 degrees about `z` and moved. -/
def W : PT ℚ := ⟨⟨⟨0, 1, 0⟩, ⟨-1, 0, 0⟩, ⟨0, 0, 1⟩⟩, ⟨1, 2, 3⟩⟩

theorem W_rigid : W.Rigid := by
  simp [W, PT.Rigid, M3.IsRot, M3.RowsOrtho, V3.dot, V3.cross]

/-- The tip of the robot of `KineEx`, to be brought to `(1, 1, 0)`. -/
def tip : HLTask ℚ := .position (PositionT.make 1 [0, 1] ⟨1, 1, 0⟩ ⟨1, 0, 0⟩ (junk3 2 fun _ _ _ => 7))

theorem frameFree : FrameFree WrapEx.fns W := by
  refine ⟨fun _ _ => ?_, fun _ _ => ?_⟩ <;>
    simp [WrapEx.fns, MV.turn, M3.mulVec, V3.dot] <;> rfl

theorem shaped : TaskShaped WrapEx.robot.mb.nrDof tip := ⟨⟨rfl, rfl, rfl, rfl⟩, rfl⟩

/-- A set-point task with the weights `(a, b, c)`. -/
def sp (a b c : ℚ) : SetPoint ℚ :=
  { c := { weight := 1, dimWeight := ⟨3, fun i => [a, b, c].getD i 0⟩, robotIndex := 0, alphaDBegin := 0,
           Q := Mat.zero 2 2, C := ⟨2, fun _ => 0⟩, error := ⟨3, fun _ => 0⟩ }, stiffness := 4, stiffnessSqrt := 4 }

/-- What the set-point task asks of the accelerations `x` after an update. -/
def asks (t : HLTask ℚ) (st : KState ℚ) (s : SetPoint ℚ) (x : ℕ → ℚ) : Out ℚ := do
  let u ← t.updateOn WrapEx.fns WrapEx.robot st fun _ _ _ => 0
  let s1 ← s.update u.hl
  pure (s1.c.task.obj x)

theorem asks_old : asks tip st (sp 1 1 1) x = .ok (497 / 2) := by decide +kernel

theorem asks_new : asks (HLTask.inWorld W tip) (KState.inWorld W st) (sp 1 1 1) x = .ok (497 / 2) := by decide +kernel

theorem asks_axis : asks tip st (sp 1 0 0) x = .ok (497 / 2) := by decide +kernel

theorem asks_axis_new : asks (HLTask.inWorld W tip) (KState.inWorld W st) (sp 1 0 0) x = .ok 0 := by decide +kernel

/-- With the target left where it was: another task. -/
example : asks tip (KState.inWorld W st) (sp 1 1 1) x = .ok (385 / 2) := by decide +kernel

theorem asks_ok {t : HLTask ℚ} {st : KState ℚ} {s : SetPoint ℚ} {x : ℕ → ℚ} {v : ℚ}
    (h : asks t st s x = .ok v) : ∃ u s1, t.updateOn WrapEx.fns WrapEx.robot st (fun _ _ _ => 0) = .ok u ∧
      s.update u.hl = .ok s1 ∧ s1.c.task.obj x = v := by
  unfold asks at h
  simp only [Out.bind_eq_ok, Out.pure_eq, Out.ok.injEq] at h
  obtain ⟨u, hu, s1, hs, hv⟩ := h
  exact ⟨u, s1, hu, hs, hv⟩

/-- The theorem applies to the tip, with weights that prefer no axis. -/
example : ∃ u s1 u' s1', tip.updateOn WrapEx.fns WrapEx.robot st (fun _ _ _ => 0) = .ok u ∧
    (sp 2 2 2).update u.hl = .ok s1 ∧
    (HLTask.inWorld W tip).updateOn WrapEx.fns WrapEx.robot (KState.inWorld W st) (fun _ _ _ => 0) = .ok u' ∧
    (sp 2 2 2).update u'.hl = .ok s1' ∧ s1.c.task.obj x = 497 ∧ s1'.c.task.obj x = 497 := by
  obtain ⟨u, s1, h1, h2, h3⟩ := asks_ok (show asks tip st (sp 2 2 2) x = .ok 497 by decide +kernel)
  have hb : worldBlocks u = 1 := by
    have := h1
    simp only [tip, HLTask.updateOn, Out.bind_eq_ok, Out.pure_eq, Out.ok.injEq] at this
    obtain ⟨_, _, rfl⟩ := this
    rfl
  have hw : NoAxis (worldBlocks u) (sp 2 2 2).c.dimWeight := by
    rw [hb]
    intro a ha
    have : a = 0 ∨ a = 1 ∨ a = 2 := by omega
    rcases this with rfl | rfl | rfl <;> rfl
  obtain ⟨u', s1', g1, g2, g3⟩ := C118_setPoint W_rigid frameFree shaped False.elim h1 hw h2
  exact ⟨u, s1, u', s1', h1, h2, g1, g2, h3, (g3 x).trans h3⟩

end WorldEx

/-- Weights that prefer an axis of the world make the objective depend on the frame: the tip of the robot moves
along `x` of the first frame and along `y` of the second, and a task that weighs `x` alone asks nothing
in the second. -/
theorem C118_axis_counterexample : ∃ (f : Fns ℚ) (W : PT ℚ) (R : RobotDesc ℚ) (st : KState ℚ)
    (t u u' : HLTask ℚ) (s s1 s1' : SetPoint ℚ) (x : ℕ → ℚ), W.Rigid ∧ FrameFree f W ∧
    TaskShaped R.mb.nrDof t ∧ t.updateOn f R st (fun _ _ _ => 0) = .ok u ∧
    (HLTask.inWorld W t).updateOn f R (KState.inWorld W st) (fun _ _ _ => 0) = .ok u' ∧
    s.update u.hl = .ok s1 ∧ s.update u'.hl = .ok s1' ∧
    s1.c.task.obj x ≠ s1'.c.task.obj x := by
  obtain ⟨u, s1, h1, h2, h3⟩ := WorldEx.asks_ok WorldEx.asks_axis
  obtain ⟨u', s1', g1, g2, g3⟩ := WorldEx.asks_ok WorldEx.asks_axis_new
  refine ⟨WrapEx.fns, WorldEx.W, WrapEx.robot, KineEx.st, WorldEx.tip, u, u', WorldEx.sp 1 0 0, s1, s1',
    KineEx.x, WorldEx.W_rigid, WorldEx.frameFree, WorldEx.shaped, h1, g1, h2, g2, ?_⟩
  rw [h3, g3]
  norm_num

end Verif
