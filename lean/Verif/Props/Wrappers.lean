import Verif.Model.Wrappers
import Verif.Props.Kine
import Verif.Props.SetPointSizes
import Verif.Proofs.Sizes

/-!
# C104: the high-level tasks

What a high-level task reports has the dimension it announces, for its own robot, after every history of
calls; it depends on the settings of the task and on the state of its robot only; and so the weighted tasks
built on it always find vectors and matrices of matching size.
-/

set_option autoImplicit false
set_option linter.unusedSectionVars false

namespace Verif

open Finset Spec

/-- Two outcomes agree: the same failure, or related results. -/
def Out.Rel {α β : Type} (P : α → β → Prop) : Out α → Out β → Prop
  | .ok a, .ok b => P a b
  | .ub, .ub => True
  | .throws e, .throws e' => e = e'
  | _, _ => False

theorem Out.Rel.bind {α β α' β' : Type} {P : α → β → Prop} {Q : α' → β' → Prop} {x : Out α} {y : Out β}
    {f : α → Out α'} {g : β → Out β'} (h : Out.Rel P x y) (hk : ∀ a b, P a b → Out.Rel Q (f a) (g b)) :
    Out.Rel Q (x >>= f) (y >>= g) := by
  cases x <;> cases y <;> first | exact h.elim | exact hk _ _ h | exact h

theorem Out.Rel.refl {α : Type} {P : α → α → Prop} (x : Out α) (h : ∀ a, x = .ok a → P a a) :
    Out.Rel P x x := by
  cases x with
  | ok a => exact h a rfl
  | ub => trivial
  | throws e => rfl

theorem Out.Rel.same {α α' β' : Type} {Q : α' → β' → Prop} (x : Out α)
    {f : α → Out α'} {g : α → Out β'} (hk : ∀ a, x = .ok a → Out.Rel Q (f a) (g a)) :
    Out.Rel Q (x >>= f) (x >>= g) := by
  cases x with
  | ok a => exact hk a rfl
  | ub => trivial
  | throws e => rfl

namespace Spec
variable {K : Type}

/-- Two matrices of the same shape with the same entries. -/
def Mat.Agree (A B : Mat K) : Prop :=
  A.rows = B.rows ∧ A.cols = B.cols ∧ ∀ i < A.rows, ∀ j < A.cols, A.get i j = B.get i j

/-- Two vectors of the same size with the same entries. -/
def Vec.Agree (u v : Vec K) : Prop := u.size = v.size ∧ ∀ i < u.size, u.get i = v.get i

/-- The same reported results. -/
def HL.Agree (a b : HL K) : Prop :=
  Mat.Agree a.jac b.jac ∧ Vec.Agree a.eval b.eval ∧ Vec.Agree a.speed b.speed ∧
    Vec.Agree a.normalAcc b.normalAcc

theorem Mat.Agree.rfl' (A : Mat K) : Mat.Agree A A := ⟨rfl, rfl, fun _ _ _ _ => rfl⟩
theorem Vec.Agree.rfl' (A : Vec K) : Vec.Agree A A := ⟨rfl, fun _ _ => rfl⟩

/-- The results have the dimension of the task and the Jacobian a column for each of the `n` dofs. -/
def TaskShaped [Field K] [LinearOrder K] (n : ℕ) (t : HLTask K) : Prop :=
  HL.Fits t.dim t.hl ∧ t.hl.jac.cols = n

end Spec

section
variable {K : Type} [Field K] [LinearOrder K] [IsStrictOrderedRing K]

/-! ## `fullJacobian` and the previous content -/

theorem setBlock_shape {A B R : Mat K} {i j : ℕ} (h : A.setBlock i j B = .ok R) :
    R.rows = A.rows ∧ R.cols = A.cols := by
  unfold Mat.setBlock at h
  split at h
  · cases h; exact ⟨rfl, rfl⟩
  · cases h

theorem fullJacobian_shape {mb : MultiBody K} {path : List ℕ} {jac res R : Mat K}
    (h : fullJacobian mb path jac res = .ok R) : R.rows = res.rows ∧ R.cols = res.cols := by
  simp only [fullJacobian, Out.bind_eq_ok] at h
  obtain ⟨r0, h0, s, hs, h⟩ := h
  cases h
  have e0 := setBlock_shape h0
  have := forEach_inv (I := fun s : Mat K × ℕ => s.1.rows = r0.rows ∧ s.1.cols = r0.cols) ⟨rfl, rfl⟩
    (fun i _ s s' hI hf => by
      simp only [Out.bind_eq_ok] at hf
      obtain ⟨j, _, p, _, b, _, r, hr, hf⟩ := hf
      cases hf
      have := setBlock_shape hr
      exact ⟨this.1.trans hI.1, this.2.trans hI.2⟩) hs
  exact ⟨this.1.trans e0.1, this.2.trans e0.2⟩

theorem setBlock_rel {A A' B : Mat K} {i j : ℕ} (h : Mat.Agree A A') :
    Out.Rel Mat.Agree (A.setBlock i j B) (A'.setBlock i j B) := by
  obtain ⟨h1, h2, h3⟩ := h
  unfold Mat.setBlock
  rw [h1, h2]
  split
  · refine ⟨rfl, rfl, fun a ha c hc => ?_⟩
    dsimp only
    split
    · rfl
    · exact h3 a (by rw [h1]; exact ha) c (by rw [h2]; exact hc)
  · trivial

theorem forEach_rel {α σ : Type} {P : σ → σ → Prop} {f : α → σ → Out σ} :
    ∀ (l : List α) {s s' : σ}, P s s' → (∀ a ∈ l, ∀ s s', P s s' → Out.Rel P (f a s) (f a s')) →
      Out.Rel P (forEach l f s) (forEach l f s')
  | [], _, _, h, _ => h
  | a :: l, s, s', h, hf => by
    simp only [forEach]
    exact (hf a (List.mem_cons_self ..) s s' h).bind fun x y hxy =>
      forEach_rel l hxy fun b hb => hf b (List.mem_cons_of_mem _ hb)

/-- What was in the matrix before does not show. -/
theorem fullJacobian_rel {mb : MultiBody K} {path : List ℕ} {jac res res' : Mat K}
    (h1 : res.rows = jac.rows) (h2 : res.cols = mb.nrDof) (h1' : res'.rows = jac.rows)
    (h2' : res'.cols = mb.nrDof) :
    Out.Rel Mat.Agree (fullJacobian mb path jac res) (fullJacobian mb path jac res') := by
  unfold fullJacobian
  have e : Out.Rel Mat.Agree (res.setBlock 0 0 (Mat.zero jac.rows mb.nrDof))
      (res'.setBlock 0 0 (Mat.zero jac.rows mb.nrDof)) := by
    rw [setBlock_col (by rw [h1]; rfl) (by rw [h2]; simp [Mat.zero]),
      setBlock_col (by rw [h1']; rfl) (by rw [h2']; simp [Mat.zero])]
    refine ⟨h1.trans h1'.symm, h2.trans h2'.symm, fun a ha c hc => ?_⟩
    dsimp only at ha hc ⊢
    rw [if_pos, if_pos] <;> simp only [Mat.zero] <;> omega
  refine e.bind fun r r' hr => ?_
  refine Out.Rel.bind (P := fun s s' : Mat K × ℕ => Mat.Agree s.1 s'.1 ∧ s.2 = s'.2) ?_ ?_
  · refine forEach_rel path ⟨hr, rfl⟩ fun i _ s s' hs => ?_
    obtain ⟨A, k⟩ := s
    obtain ⟨A', k'⟩ := s'
    obtain ⟨hA, rfl⟩ := hs
    refine Out.Rel.same _ fun j _ => Out.Rel.same _ fun p _ => Out.Rel.same _ fun b _ => ?_
    exact (setBlock_rel hA).bind fun x y hxy => ⟨hxy, rfl⟩
  · rintro ⟨A, k⟩ ⟨A', k'⟩ ⟨hA, -⟩
    exact hA

/-! ## Shapes -/

theorem junk3_shaped (n : ℕ) (junk : ℕ → ℕ → ℕ → K) :
    (junk3 n junk).jacMat.rows = 3 ∧ (junk3 n junk).jacMat.cols = n := ⟨rfl, rfl⟩

theorem hl3_fits {o : Out3 K} {n : ℕ} (h : o.jacMat.rows = 3 ∧ o.jacMat.cols = n) :
    HL.Fits 3 (HLTask.hl3 o) ∧ (HLTask.hl3 o).jac.cols = n := ⟨⟨rfl, rfl, rfl, h.1⟩, h.2⟩

theorem hl6_fits {o : Out6 K} {n : ℕ} (h : o.jacMat.rows = 6 ∧ o.jacMat.cols = n) :
    HL.Fits 6 (HLTask.hl6 o) ∧ (HLTask.hl6 o).jac.cols = n := ⟨⟨rfl, rfl, rfl, h.1⟩, h.2⟩

/-- The dimension of the task a constructor makes. -/
def Spec.argDim : HLArgs K → ℕ
  | .position .. => 3
  | .orientation .. => 3
  | .surfaceOrientation .. => 3
  | .surfaceTransform .. => 6
  | .transform .. => 6
  | .gaze2 .. => 2
  | .gaze3 .. => 2
  | .pbvs .. => 6
  | .com .. => 3
  | .comW .. => 3
  | .momentum .. => 6
  | .linVelocity .. => 3
  | .tracking .. => 3
  | .relDist .. => 1
  | .vectorOrientation .. => 3

theorem make_shaped {R : RobotDesc K} {junk : ℕ → ℕ → ℕ → K} {a : HLArgs K} {t : HLTask K}
    (h : HLTask.make R junk a = .ok t) : TaskShaped R.mb.nrDof t ∧ t.dim = argDim a := by
  cases a with
  | position body pos pt =>
    simp only [HLTask.make, Out.bind_eq_ok] at h
    obtain ⟨bp, _, h⟩ := h
    cases h
    exact ⟨hl3_fits ⟨rfl, rfl⟩, rfl⟩
  | orientation body m =>
    simp only [HLTask.make, OriT.make, Out.bind_eq_ok] at h
    obtain ⟨t, ⟨bp, _, ht⟩, h⟩ := h
    cases ht
    cases h
    exact ⟨hl3_fits ⟨rfl, rfl⟩, rfl⟩
  | surfaceOrientation body m X =>
    simp only [HLTask.make, SurfOriT.make, Out.bind_eq_ok] at h
    obtain ⟨t, ⟨bp, _, ht⟩, h⟩ := h
    cases ht
    cases h
    exact ⟨hl3_fits ⟨rfl, rfl⟩, rfl⟩
  | surfaceTransform body X Y =>
    simp only [HLTask.make, TransCT.make, Out.bind_eq_ok] at h
    obtain ⟨t, ⟨bp, _, ht⟩, h⟩ := h
    cases ht
    cases h
    exact ⟨hl6_fits ⟨rfl, rfl⟩, rfl⟩
  | transform body X Y m =>
    simp only [HLTask.make, TransT.make, TransCT.make, Out.bind_eq_ok] at h
    obtain ⟨t, ⟨c, ⟨bp, _, hc⟩, ht⟩, h⟩ := h
    cases hc
    cases ht
    cases h
    exact ⟨hl6_fits ⟨rfl, rfl⟩, rfl⟩
  | gaze2 body q d X ref =>
    simp only [HLTask.make, Out.bind_eq_ok] at h
    obtain ⟨bp, _, h⟩ := h
    cases h
    exact ⟨⟨⟨rfl, rfl, rfl, rfl⟩, rfl⟩, rfl⟩
  | gaze3 body q X ref =>
    simp only [HLTask.make, GazeT.make3, Out.bind_eq_ok] at h
    obtain ⟨bp, _, t, ⟨q, _, ht⟩, h⟩ := h
    cases ht
    cases h
    exact ⟨⟨⟨rfl, rfl, rfl, rfl⟩, rfl⟩, rfl⟩
  | pbvs body X Y =>
    simp only [HLTask.make, Out.bind_eq_ok] at h
    obtain ⟨bp, _, h⟩ := h
    cases h
    exact ⟨⟨⟨rfl, rfl, rfl, rfl⟩, rfl⟩, rfl⟩
  | com c =>
    simp only [HLTask.make, CoMT.make, CoMT.makeW, Out.bind_eq_ok] at h
    obtain ⟨t, ⟨J, _, ht⟩, h⟩ := h
    cases ht
    cases h
    exact ⟨hl3_fits ⟨rfl, rfl⟩, rfl⟩
  | comW c w =>
    simp only [HLTask.make, CoMT.makeW, Out.bind_eq_ok] at h
    obtain ⟨t, ⟨J, _, ht⟩, h⟩ := h
    cases ht
    cases h
    exact ⟨hl3_fits ⟨rfl, rfl⟩, rfl⟩
  | momentum m =>
    cases h
    exact ⟨⟨⟨rfl, rfl, rfl, rfl⟩, rfl⟩, rfl⟩
  | linVelocity body v pt =>
    simp only [HLTask.make, Out.bind_eq_ok] at h
    obtain ⟨bp, _, h⟩ := h
    cases h
    exact ⟨hl3_fits ⟨rfl, rfl⟩, rfl⟩
  | tracking body pt ax js tp =>
    simp only [HLTask.make, TrackQ.make, TrackT.make, Out.bind_eq_ok] at h
    obtain ⟨t, ⟨bp, _, tt, ⟨idx, _, z, _, h1⟩, ht⟩, h⟩ := h
    cases h1
    cases ht
    cases h
    exact ⟨⟨⟨rfl, rfl, rfl, rfl⟩, rfl⟩, rfl⟩
  | relDist dt body1 body2 r1 e1 r2 e2 u1 u2 =>
    simp only [HLTask.make, Out.bind_eq_ok] at h
    obtain ⟨bp1, _, bp2, _, h⟩ := h
    cases h
    exact ⟨⟨⟨rfl, rfl, rfl, rfl⟩, rfl⟩, rfl⟩
  | vectorOrientation body v tg =>
    simp only [HLTask.make, VecOriT.make, Out.bind_eq_ok] at h
    obtain ⟨t, ⟨bp, _, ht⟩, h⟩ := h
    cases ht
    cases h
    exact ⟨hl3_fits ⟨rfl, rfl⟩, rfl⟩

/-- The setters keep what was reported. -/
theorem set_hl {r : ℕ} {o : HLSet K} {t t' : HLTask K} (h : t.set r o = .ok t') :
    t'.hl = t.hl ∧ t'.dim = t.dim := by
  cases o <;> cases t <;> simp only [HLTask.set, Out.bind_eq_ok] at h <;>
    first
      | (cases h; exact ⟨rfl, rfl⟩)
      | (obtain ⟨t1, h1, h⟩ := h
         simp only [GazeT.error3, Out.bind_eq_ok] at h1
         obtain ⟨q, _, h1⟩ := h1
         cases h1
         cases h
         exact ⟨rfl, rfl⟩)
      | (obtain ⟨R, _, t1, h1, h⟩ := h
         simp only [CoMT.updateInertial, Out.bind_eq_ok] at h1
         obtain ⟨J, _, h1⟩ := h1
         cases h1
         cases h
         exact ⟨rfl, rfl⟩)

theorem visualUpdate_shape {r : ℕ} {L : ℕ → ℕ → K} {Ld : (ℕ → K) → (ℕ → K) → ℕ → ℕ → K}
    {mb : MultiBody K} {st : KState K} {b : ℕ} {J : Jac K} {X : PT K} {res : Mat K}
    {o : Vec K × Vec K × Mat K} (h : visualUpdate r L Ld mb st b J X res = .ok o) :
    o.1.size = r ∧ o.2.1.size = r ∧ o.2.2.rows = res.rows ∧ o.2.2.cols = res.cols := by
  simp only [visualUpdate, Out.bind_eq_ok] at h
  obtain ⟨_, _, _, _, _, _, _, _, _, _, M, hM, h⟩ := h
  cases h
  exact ⟨rfl, rfl, fullJacobian_shape hM⟩

theorem relLoop_shape {sqrt : K → Out K} {mb : MultiBody K} {st : KState K} {dt : K} {fixed : Bool}
    {junk : ℕ → ℕ → K} {junkA : ℕ → K} :
    ∀ (l : List (RelBody K)) {sign : K} {a : RelDistT.Acc K} {l' : List (RelBody K)} {a' : RelDistT.Acc K},
      RelDistT.loop sqrt mb st dt fixed junk junkA sign l a = .ok (l', a') → a.jacMat.rows = 1 →
      a'.jacMat.rows = 1 ∧ a'.jacMat.cols = a.jacMat.cols
  | [], _, a, l', a', h, hr => by
    simp only [RelDistT.loop] at h
    cases h
    exact ⟨hr, rfl⟩
  | b :: l, sign, a, l', a', h, hr => by
    simp only [RelDistT.loop, Out.bind_eq_ok] at h
    obtain ⟨⟨b1, a1⟩, h1, ⟨l2, a2⟩, h2, h⟩ := h
    cases h
    simp only [RelDistT.bodyStep, Out.bind_eq_ok] at h1
    obtain ⟨_, _, _, _, _, _, _, _, _, _, h1⟩ := h1
    split at h1
    · cases h1
    · simp only [Out.bind_eq_ok] at h1
      obtain ⟨_, _, _, _, _, _, h1⟩ := h1
      cases h1
      have := relLoop_shape l h2 (by rfl)
      exact this

/-- An update keeps the shape of the results. -/
theorem updateOn_shaped {f : Fns K} {R : RobotDesc K} {st : KState K} {junk : ℕ → ℕ → ℕ → K}
    {t t' : HLTask K} (h : t.updateOn f R st junk = .ok t') (hs : TaskShaped R.mb.nrDof t) :
    TaskShaped R.mb.nrDof t' ∧ t'.dim = t.dim := by
  obtain ⟨⟨g1, g2, g3, g4⟩, g5⟩ := hs
  cases t with
  | position t =>
    simp only [HLTask.updateOn, PositionT.update, Out.bind_eq_ok] at h
    obtain ⟨t1, ⟨_, _, _, _, _, _, _, _, _, _, M, hM, h1⟩, h⟩ := h
    cases h1
    cases h
    have := fullJacobian_shape hM
    exact ⟨hl3_fits ⟨this.1.trans g4, this.2.trans g5⟩, rfl⟩
  | orientation t =>
    simp only [HLTask.updateOn, OriT.update, orientationUpdate, Out.bind_eq_ok] at h
    obtain ⟨t1, ⟨o, ⟨_, _, _, _, _, _, _, _, _, _, M, hM, ho⟩, h1⟩, h⟩ := h
    cases ho
    cases h1
    cases h
    have := fullJacobian_shape hM
    exact ⟨hl3_fits ⟨this.1.trans g4, this.2.trans g5⟩, rfl⟩
  | surfaceOrientation t =>
    simp only [HLTask.updateOn, SurfOriT.update, surfaceOriUpdate, Out.bind_eq_ok] at h
    obtain ⟨t1, ⟨o, ⟨_, _, _, _, _, _, _, _, _, _, M, hM, ho⟩, h1⟩, h⟩ := h
    cases ho
    cases h1
    cases h
    have := fullJacobian_shape hM
    exact ⟨hl3_fits ⟨this.1.trans g4, this.2.trans g5⟩, rfl⟩
  | surfaceTransform t =>
    simp only [HLTask.updateOn, TransCT.update, surfaceUpdate, Out.bind_eq_ok] at h
    obtain ⟨t1, ⟨o, ⟨_, _, _, _, _, _, _, _, _, _, M, hM, ho⟩, h1⟩, h⟩ := h
    cases ho
    cases h1
    cases h
    have := fullJacobian_shape hM
    exact ⟨hl6_fits ⟨this.1.trans g4, this.2.trans g5⟩, rfl⟩
  | transform t =>
    simp only [HLTask.updateOn, TransT.update, transformUpdate, Out.bind_eq_ok] at h
    obtain ⟨t1, ⟨o, ⟨_, _, _, _, _, _, _, _, M, hM, ho⟩, h1⟩, h⟩ := h
    cases ho
    cases h1
    cases h
    have := fullJacobian_shape hM
    exact ⟨hl6_fits ⟨this.1.trans g4, this.2.trans g5⟩, rfl⟩
  | gaze t =>
    simp only [HLTask.updateOn, GazeT.update, Out.bind_eq_ok] at h
    obtain ⟨t1, ⟨L, _, r, hr, h1⟩, h⟩ := h
    cases h1
    cases h
    obtain ⟨e1, e2, e3, e4⟩ := visualUpdate_shape hr
    exact ⟨⟨⟨rfl, e1, e2, e3.trans g4⟩, e4.trans g5⟩, rfl⟩
  | pbvs t =>
    simp only [HLTask.updateOn, PbvsT.update, Out.bind_eq_ok] at h
    obtain ⟨t1, ⟨r, hr, h1⟩, h⟩ := h
    cases h1
    cases h
    obtain ⟨e1, e2, e3, e4⟩ := visualUpdate_shape hr
    exact ⟨⟨⟨rfl, e1, e2, e3.trans g4⟩, e4.trans g5⟩, rfl⟩
  | com t =>
    simp only [HLTask.updateOn, CoMT.update, CoMT.updateAt, Out.bind_eq_ok] at h
    obtain ⟨t1, ⟨_, _, _, _, _, _, M, hM, h1⟩, h⟩ := h
    cases h1
    cases h
    refine ⟨hl3_fits ?_, rfl⟩
    exact forRange_pres (I := fun M : Mat K => M.rows = 3 ∧ M.cols = R.mb.nrDof) ⟨rfl, rfl⟩
      (fun i M M' _ hf => by
        simp only [Out.bind_eq_ok] at hf
        obtain ⟨_, _, _, _, _, _, _, _, _, _, hf⟩ := hf
        cases hf
        exact ⟨rfl, rfl⟩) hM
  | momentum t =>
    simp only [HLTask.updateOn, MomentumT.update, Out.bind_eq_ok] at h
    obtain ⟨t1, ⟨_, _, _, _, _, _, _, _, M, hM, h1⟩, h⟩ := h
    cases h1
    cases h
    have := forRange_pres (I := fun M : Mat K => M.rows = 6 ∧ M.cols = R.mb.nrDof) ⟨rfl, rfl⟩
      (fun i M M' _ hf => by
        simp only [Out.bind_eq_ok] at hf
        obtain ⟨_, _, _, _, _, _, _, _, hf⟩ := hf
        cases hf
        exact ⟨rfl, rfl⟩) hM
    exact ⟨⟨⟨rfl, rfl, rfl, this.1⟩, this.2⟩, rfl⟩
  | linVelocity t =>
    simp only [HLTask.updateOn, LinVelT.update, Out.bind_eq_ok] at h
    obtain ⟨t1, ⟨_, _, _, _, _, _, _, _, M, hM, h1⟩, h⟩ := h
    cases h1
    cases h
    have := fullJacobian_shape hM
    exact ⟨hl3_fits ⟨this.1.trans g4, this.2.trans g5⟩, rfl⟩
  | tracking t =>
    simp only [HLTask.updateOn, TrackQ.update, TrackT.qpUpdate, TrackT.update, Out.bind_eq_ok] at h
    obtain ⟨t1, ⟨⟨t2, v, n, a⟩, ⟨t3, ⟨_, _, _, _, _, _, _, _, M, hM, h3⟩, av, _, h2⟩, h1⟩, h⟩ := h
    cases h3
    split at h2
    · cases h2
      cases h1
      cases h
      have := fullJacobian_shape hM
      exact ⟨⟨⟨rfl, rfl, rfl, this.1.trans g4⟩, this.2.trans g5⟩, rfl⟩
    · cases h2
  | relDist t =>
    simp only [HLTask.updateOn, RelDistT.update, Out.bind_eq_ok] at h
    obtain ⟨t1, ⟨⟨l, a⟩, hl, h1⟩, h⟩ := h
    cases h1
    cases h
    have := relLoop_shape _ hl g4
    exact ⟨⟨⟨rfl, rfl, rfl, this.1⟩, this.2.trans g5⟩, rfl⟩
  | vectorOrientation t =>
    simp only [HLTask.updateOn, VecOriT.update, vectorOriUpdate, Out.bind_eq_ok] at h
    obtain ⟨t1, ⟨⟨o, ac⟩, ⟨_, _, _, _, _, _, M, hM, _, _, _, _, ho⟩, h1⟩, h⟩ := h
    cases ho
    cases h1
    cases h
    have := fullJacobian_shape hM
    exact ⟨hl3_fits ⟨rfl, this.2⟩, rfl⟩

/-! ## What the results depend on -/

namespace Spec

/-- Results erased. -/
def blank3 : Out3 K := ⟨0, 0, 0, ⟨0, 0, fun _ _ => 0⟩⟩
def blank6 : Out6 K := ⟨0, 0, 0, ⟨0, 0, fun _ _ => 0⟩⟩

/-- What the user has chosen: the task without its results.  `LinVelocityTask` and `MomentumTask` report the
constant speed the constructor stores; `RelativeDistTask` also remembers its last directions and
`OrientationTrackingTask` the matrix `updateDot` left. -/
def settings : HLTask K → HLTask K
  | .position t => .position { t with out := blank3 }
  | .orientation t => .orientation { t with out := blank3 }
  | .surfaceOrientation t => .surfaceOrientation { t with out := blank3 }
  | .surfaceTransform t => .surfaceTransform { t with out := blank6 }
  | .transform t => .transform { t with c := { t.c with out := blank6 } }
  | .gaze t => .gaze { t with
      eval := (0, 0), speed := ⟨0, fun _ => 0⟩, normalAcc := ⟨0, fun _ => 0⟩, jacMat := ⟨0, 0, fun _ _ => 0⟩ }
  | .pbvs t => .pbvs { t with
      eval := 0, speed := ⟨0, fun _ => 0⟩, normalAcc := ⟨0, fun _ => 0⟩, jacMat := ⟨0, 0, fun _ _ => 0⟩ }
  | .com t => .com { t with actual := 0, out := blank3 }
  | .momentum t => .momentum { t with
      eval := ⟨0, 0⟩, normalAcc := ⟨0, 0⟩, jacMat := ⟨0, 0, fun _ _ => 0⟩ }
  | .linVelocity t => .linVelocity { t with out := { blank3 with speed := t.out.speed } }
  | .tracking t => .tracking { t with
      t := { t.t with
        eval := 0, shortJac := ⟨t.t.shortJac.rows, t.t.shortJac.cols, fun _ _ => 0⟩,
        jacMat := ⟨0, 0, fun _ _ => 0⟩ }
      alphaVec := ⟨t.alphaVec.size, fun _ => 0⟩, speed := 0, normalAcc := 0 }
  | .relDist t => .relDist { t with
      eval := 0, speed := 0, normalAcc := 0, jacMat := ⟨0, 0, fun _ _ => 0⟩ }
  | .vectorOrientation t => .vectorOrientation { t with actual := 0, out := blank3 }

/-- The same settings and the same results. -/
def SameTask (t t' : HLTask K) : Prop := settings t = settings t' ∧ HL.Agree t.hl t'.hl

end Spec

theorem agree3 {o o' : Out3 K} (h1 : o.eval = o'.eval) (h2 : o.speed = o'.speed)
    (h3 : o.normalAcc = o'.normalAcc) (h4 : Mat.Agree o.jacMat o'.jacMat) :
    HL.Agree (HLTask.hl3 o) (HLTask.hl3 o') := by
  refine ⟨h4, ?_, ?_, ?_⟩
  · rw [HLTask.hl3, HLTask.hl3, h1]; exact Vec.Agree.rfl' _
  · rw [HLTask.hl3, HLTask.hl3, h2]; exact Vec.Agree.rfl' _
  · rw [HLTask.hl3, HLTask.hl3, h3]; exact Vec.Agree.rfl' _

theorem block_rows {A B : Mat K} {i j r c : ℕ} (h : A.block i j r c = .ok B) : B.rows = r ∧ B.cols = c := by
  unfold Mat.block at h
  split at h
  · cases h; exact ⟨rfl, rfl⟩
  · cases h

theorem jacobianAt_rows {mb : MultiBody K} {st : KState K} {J : Jac K} {X : PT K} {M : Mat K}
    (h : J.jacobianAt mb st X = .ok M) : M.rows = 6 := by
  simp only [Jac.jacobianAt, Out.bind_eq_ok] at h
  obtain ⟨_, _, h⟩ := h
  cases h
  rfl

theorem subCross_rows {err : MV K} {M R : Mat K} {n : ℕ} (h : subCross err M n = .ok R) :
    R.rows = M.rows :=
  forRange_pres (I := fun A : Mat K => A.rows = M.rows) rfl (fun i A A' hA hf => by
    split at hf
    · cases hf; exact hA
    · cases hf) h

theorem orientationUpdate_rel {rotErr : M3 K → M3 K → V3 K} {mb : MultiBody K} {st : KState K} {b : ℕ}
    {J : Jac K} {ori : M3 K} {res res' : Mat K} (h1 : res.rows = 3) (h2 : res.cols = mb.nrDof)
    (h1' : res'.rows = 3) (h2' : res'.cols = mb.nrDof) :
    Out.Rel (fun o o' : Out3 K => HL.Agree (HLTask.hl3 o) (HLTask.hl3 o'))
      (orientationUpdate rotErr mb st b J ori res) (orientationUpdate rotErr mb st b J ori res') := by
  unfold orientationUpdate
  refine Out.Rel.same _ fun X _ => Out.Rel.same _ fun v _ => Out.Rel.same _ fun n _ =>
    Out.Rel.same _ fun M _ => Out.Rel.same _ fun sh hsh => ?_
  have e := (block_rows hsh).1
  exact (fullJacobian_rel (h1.trans e.symm) h2 (h1'.trans e.symm) h2').bind fun A A' hA =>
    agree3 rfl rfl rfl hA

theorem surfaceOriUpdate_rel {rotVel : M3 K → V3 K} {mb : MultiBody K} {st : KState K} {b : ℕ}
    {J : Jac K} {ori : M3 K} {X_b_s : PT K} {res res' : Mat K} (h1 : res.rows = 3) (h2 : res.cols = mb.nrDof)
    (h1' : res'.rows = 3) (h2' : res'.cols = mb.nrDof) :
    Out.Rel (fun o o' : Out3 K => HL.Agree (HLTask.hl3 o) (HLTask.hl3 o'))
      (surfaceOriUpdate rotVel mb st b J ori X_b_s res) (surfaceOriUpdate rotVel mb st b J ori X_b_s res') := by
  unfold surfaceOriUpdate
  refine Out.Rel.same _ fun X _ => Out.Rel.same _ fun v _ => Out.Rel.same _ fun n _ =>
    Out.Rel.same _ fun M _ => Out.Rel.same _ fun sh hsh => ?_
  have e := (block_rows hsh).1
  exact (fullJacobian_rel (h1.trans e.symm) h2 (h1'.trans e.symm) h2').bind fun A A' hA =>
    agree3 rfl rfl rfl hA

theorem agree6 {o o' : Out6 K} (h1 : o.eval = o'.eval) (h2 : o.speed = o'.speed)
    (h3 : o.normalAcc = o'.normalAcc) (h4 : Mat.Agree o.jacMat o'.jacMat) :
    HL.Agree (HLTask.hl6 o) (HLTask.hl6 o') := by
  refine ⟨h4, ?_, ?_, ?_⟩
  · rw [HLTask.hl6, HLTask.hl6, h1]; exact Vec.Agree.rfl' _
  · rw [HLTask.hl6, HLTask.hl6, h2]; exact Vec.Agree.rfl' _
  · rw [HLTask.hl6, HLTask.hl6, h3]; exact Vec.Agree.rfl' _

theorem transformUpdate_rel {transErr : PT K → PT K → MV K} {mb : MultiBody K} {st : KState K} {b : ℕ}
    {J : Jac K} {X Y : PT K} {m : M3 K} {res res' : Mat K} (h1 : res.rows = 6) (h2 : res.cols = mb.nrDof)
    (h1' : res'.rows = 6) (h2' : res'.cols = mb.nrDof) :
    Out.Rel (fun o o' : Out6 K => HL.Agree (HLTask.hl6 o) (HLTask.hl6 o'))
      (transformUpdate transErr mb st b J X Y m res) (transformUpdate transErr mb st b J X Y m res') := by
  unfold transformUpdate
  refine Out.Rel.same _ fun X _ => ?_
  refine Out.Rel.same _ fun v _ => Out.Rel.same _ fun n _ => Out.Rel.same _ fun M hM => ?_
  have e := jacobianAt_rows hM
  exact (fullJacobian_rel (h1.trans e.symm) h2 (h1'.trans e.symm) h2').bind fun A A' hA =>
    agree6 rfl rfl rfl hA

theorem surfaceUpdate_rel {transVel : PT K → MV K} {mb : MultiBody K} {st : KState K} {b : ℕ}
    {J : Jac K} {X Y : PT K} {res res' : Mat K} (h1 : res.rows = 6) (h2 : res.cols = mb.nrDof)
    (h1' : res'.rows = 6) (h2' : res'.cols = mb.nrDof) :
    Out.Rel (fun o o' : Out6 K => HL.Agree (HLTask.hl6 o) (HLTask.hl6 o'))
      (surfaceUpdate transVel mb st b J X Y res) (surfaceUpdate transVel mb st b J X Y res') := by
  unfold surfaceUpdate
  refine Out.Rel.same _ fun X _ => ?_
  refine Out.Rel.same _ fun v _ => Out.Rel.same _ fun n _ => Out.Rel.same _ fun M hM =>
    Out.Rel.same _ fun M' hM' => ?_
  have e := (subCross_rows hM').trans (jacobianAt_rows hM)
  exact (fullJacobian_rel (h1.trans e.symm) h2 (h1'.trans e.symm) h2').bind fun A A' hA =>
    agree6 rfl rfl rfl hA

theorem visualUpdate_rel {r : ℕ} {L : ℕ → ℕ → K} {Ld : (ℕ → K) → (ℕ → K) → ℕ → ℕ → K}
    {mb : MultiBody K} {st : KState K} {b : ℕ} {J : Jac K} {X : PT K} {res res' : Mat K}
    (h1 : res.rows = r) (h2 : res.cols = mb.nrDof) (h1' : res'.rows = r) (h2' : res'.cols = mb.nrDof) :
    Out.Rel (fun o o' : Vec K × Vec K × Mat K => o.1 = o'.1 ∧ o.2.1 = o'.2.1 ∧ Mat.Agree o.2.2 o'.2.2)
      (visualUpdate r L Ld mb st b J X res) (visualUpdate r L Ld mb st b J X res') := by
  unfold visualUpdate
  refine Out.Rel.same _ fun X _ => Out.Rel.same _ fun v _ => Out.Rel.same _ fun n _ => ?_
  refine Out.Rel.same _ fun M _ => Out.Rel.same _ fun sh _ => ?_
  exact (fullJacobian_rel h1 h2 h1' h2').bind fun A A' hA => ⟨rfl, rfl, hA⟩

theorem zeroJacobian_shape {z : List ℕ} {M R : Mat K} (h : zeroJacobian z M = .ok R) :
    R.rows = M.rows ∧ R.cols = M.cols :=
  forEach_inv (I := fun A : Mat K => A.rows = M.rows ∧ A.cols = M.cols) ⟨rfl, rfl⟩
    (fun i _ A A' hA hf => by
      split at hf
      · cases hf; exact hA
      · cases hf) h

theorem rowMul_agree {A A' : Mat K} (h : Mat.Agree A A') {x x' : ℕ → K} (hx : ∀ i < A.cols, x i = x' i)
    {a : ℕ} (ha : a < A.rows) : A.rowMul a x = A'.rowMul a x' := by
  unfold Mat.rowMul
  rw [← h.2.1]
  refine Finset.sum_congr rfl fun j hj => ?_
  have hj' := Finset.mem_range.1 hj
  rw [h.2.2 a ha j hj', hx j hj']

/-- Two tasks with the same settings report the same after an update, whatever they reported before. -/
theorem updateOn_rel {f : Fns K} {R : RobotDesc K} {st : KState K} {junk : ℕ → ℕ → ℕ → K} {t t' : HLTask K}
    (hs : TaskShaped R.mb.nrDof t) (hs' : TaskShaped R.mb.nrDof t') (h : settings t = settings t')
    (hα : st.alpha.flatten.length = R.mb.nrDof) :
    Out.Rel SameTask (t.updateOn f R st junk) (t'.updateOn f R st junk) := by
  obtain ⟨⟨-, -, -, g4⟩, g5⟩ := hs
  obtain ⟨⟨-, -, -, g4'⟩, g5'⟩ := hs'
  cases t with
  | position t =>
    cases t' <;> simp only [settings, reduceCtorEq, HLTask.position.injEq] at h
    rename_i t'
    obtain ⟨p, q, b, J, o⟩ := t
    obtain ⟨p', q', b', J', o'⟩ := t'
    simp only [PositionT.mk.injEq, and_true] at h
    obtain ⟨rfl, rfl, rfl, rfl⟩ := h
    refine Out.Rel.bind (P := fun t t' : PositionT K => SameTask (.position t) (.position t')) ?_
      fun a b h => h
    unfold PositionT.update
    dsimp only
    refine Out.Rel.same _ fun X _ => Out.Rel.same _ fun v _ => Out.Rel.same _ fun n _ =>
      Out.Rel.same _ fun M _ => Out.Rel.same _ fun sh hsh => ?_
    have e := (block_rows hsh).1
    exact (fullJacobian_rel (g4.trans e.symm) g5 (g4'.trans e.symm) g5').bind fun A A' hA =>
      ⟨rfl, agree3 rfl rfl rfl hA⟩
  | orientation t =>
    cases t' <;> simp only [settings, reduceCtorEq, HLTask.orientation.injEq] at h
    rename_i t'
    obtain ⟨p, b, J, o⟩ := t
    obtain ⟨p', b', J', o'⟩ := t'
    simp only [OriT.mk.injEq, and_true] at h
    obtain ⟨rfl, rfl, rfl⟩ := h
    refine Out.Rel.bind (P := fun t t' : OriT K => SameTask (.orientation t) (.orientation t')) ?_
      fun a b h => h
    exact (orientationUpdate_rel g4 g5 g4' g5').bind fun o o' ho => ⟨rfl, ho⟩
  | surfaceOrientation t =>
    cases t' <;> simp only [settings, reduceCtorEq, HLTask.surfaceOrientation.injEq] at h
    rename_i t'
    obtain ⟨p, b, J, X, o⟩ := t
    obtain ⟨p', b', J', X', o'⟩ := t'
    simp only [SurfOriT.mk.injEq, and_true] at h
    obtain ⟨rfl, rfl, rfl, rfl⟩ := h
    refine Out.Rel.bind (P := fun t t' : SurfOriT K =>
      SameTask (.surfaceOrientation t) (.surfaceOrientation t')) ?_ fun a b h => h
    exact (surfaceOriUpdate_rel g4 g5 g4' g5').bind fun o o' ho => ⟨rfl, ho⟩
  | surfaceTransform t =>
    cases t' <;> simp only [settings, reduceCtorEq, HLTask.surfaceTransform.injEq] at h
    rename_i t'
    obtain ⟨p, q, b, J, o⟩ := t
    obtain ⟨p', q', b', J', o'⟩ := t'
    simp only [TransCT.mk.injEq, and_true] at h
    obtain ⟨rfl, rfl, rfl, rfl⟩ := h
    refine Out.Rel.bind (P := fun t t' : TransCT K =>
      SameTask (.surfaceTransform t) (.surfaceTransform t')) ?_ fun a b h => h
    exact (surfaceUpdate_rel g4 g5 g4' g5').bind fun o o' ho => ⟨rfl, ho⟩
  | transform t =>
    cases t' <;> simp only [settings, reduceCtorEq, HLTask.transform.injEq] at h
    rename_i t'
    obtain ⟨⟨p, q, b, J, o⟩, m⟩ := t
    obtain ⟨⟨p', q', b', J', o'⟩, m'⟩ := t'
    simp only [TransT.mk.injEq, TransCT.mk.injEq, and_true] at h
    obtain ⟨⟨rfl, rfl, rfl, rfl⟩, rfl⟩ := h
    refine Out.Rel.bind (P := fun t t' : TransT K => SameTask (.transform t) (.transform t')) ?_
      fun a b h => h
    exact (transformUpdate_rel g4 g5 g4' g5').bind fun o o' ho => ⟨rfl, ho⟩
  | gaze t =>
    cases t' <;> simp only [settings, reduceCtorEq, HLTask.gaze.injEq] at h
    rename_i t'
    obtain ⟨p, r, d, b, J, X, e, s, n, M⟩ := t
    obtain ⟨p', r', d', b', J', X', e', s', n', M'⟩ := t'
    simp only [GazeT.mk.injEq, and_true] at h
    obtain ⟨rfl, rfl, rfl, rfl, rfl, rfl⟩ := h
    refine Out.Rel.bind (P := fun t t' : GazeT K => SameTask (.gaze t) (.gaze t')) ?_ fun a b h => h
    unfold GazeT.update
    dsimp only
    refine Out.Rel.same _ fun L _ => (visualUpdate_rel g4 g5 g4' g5').bind fun o o' ho => ⟨rfl, ho.2.2, ?_, ?_, ?_⟩
    · exact Vec.Agree.rfl' _
    · rw [HLTask.hl, HLTask.hl, ho.1]; exact Vec.Agree.rfl' _
    · rw [HLTask.hl, HLTask.hl, ho.2.1]; exact Vec.Agree.rfl' _
  | pbvs t =>
    cases t' <;> simp only [settings, reduceCtorEq, HLTask.pbvs.injEq] at h
    rename_i t'
    obtain ⟨p, X, b, J, e, s, n, M⟩ := t
    obtain ⟨p', X', b', J', e', s', n', M'⟩ := t'
    simp only [PbvsT.mk.injEq, and_true] at h
    obtain ⟨rfl, rfl, rfl, rfl⟩ := h
    refine Out.Rel.bind (P := fun t t' : PbvsT K => SameTask (.pbvs t) (.pbvs t')) ?_ fun a b h => h
    unfold PbvsT.update
    dsimp only
    refine (visualUpdate_rel g4 g5 g4' g5').bind fun o o' ho => ⟨rfl, ho.2.2, ?_, ?_, ?_⟩
    · exact Vec.Agree.rfl' _
    · rw [HLTask.hl, HLTask.hl, ho.1]; exact Vec.Agree.rfl' _
    · rw [HLTask.hl, HLTask.hl, ho.2.1]; exact Vec.Agree.rfl' _
  | com t =>
    cases t' <;> simp only [settings, reduceCtorEq, HLTask.com.injEq] at h
    rename_i t'
    obtain ⟨c, ac, J, o⟩ := t
    obtain ⟨c', ac', J', o'⟩ := t'
    simp only [CoMT.mk.injEq, and_true, true_and] at h
    obtain ⟨rfl, rfl⟩ := h
    refine Out.Rel.bind (P := fun t t' : CoMT K => SameTask (.com t) (.com t')) ?_ fun a b h => h
    unfold CoMT.update CoMT.updateAt
    dsimp only
    refine Out.Rel.same _ fun cm _ => Out.Rel.same _ fun v _ => Out.Rel.same _ fun n _ =>
      Out.Rel.same _ fun M _ => ?_
    exact ⟨rfl, agree3 rfl rfl rfl (Mat.Agree.rfl' _)⟩
  | momentum t =>
    cases t' <;> simp only [settings, reduceCtorEq, HLTask.momentum.injEq] at h
    rename_i t'
    obtain ⟨m, e, s, n, M⟩ := t
    obtain ⟨m', e', s', n', M'⟩ := t'
    simp only [MomentumT.mk.injEq, and_true, true_and] at h
    obtain ⟨rfl, rfl⟩ := h
    refine Out.Rel.bind (P := fun t t' : MomentumT K => SameTask (.momentum t) (.momentum t')) ?_
      fun a b h => h
    unfold MomentumT.update
    dsimp only
    refine Out.Rel.same _ fun cm _ => Out.Rel.same _ fun v _ => Out.Rel.same _ fun n _ =>
      Out.Rel.same _ fun M _ => Out.Rel.same _ fun M _ => ?_
    exact ⟨rfl, Mat.Agree.rfl' _, Vec.Agree.rfl' _, Vec.Agree.rfl' _, Vec.Agree.rfl' _⟩
  | linVelocity t =>
    cases t' <;> simp only [settings, reduceCtorEq, HLTask.linVelocity.injEq] at h
    rename_i t'
    obtain ⟨p, b, J, o⟩ := t
    obtain ⟨p', b', J', o'⟩ := t'
    simp only [LinVelT.mk.injEq, Out3.mk.injEq, and_true, true_and] at h
    obtain ⟨rfl, rfl, rfl, ho⟩ := h
    refine Out.Rel.bind (P := fun t t' : LinVelT K => SameTask (.linVelocity t) (.linVelocity t')) ?_
      fun a b h => h
    unfold LinVelT.update
    dsimp only
    refine Out.Rel.same _ fun v _ => Out.Rel.same _ fun n _ =>
      Out.Rel.same _ fun M _ => Out.Rel.same _ fun sh hsh => ?_
    have e := (block_rows hsh).1
    refine (fullJacobian_rel (g4.trans e.symm) g5 (g4'.trans e.symm) g5').bind fun A A' hA =>
      ⟨?_, agree3 rfl ho rfl hA⟩
    simp only [settings]
    rw [ho]
  | tracking t =>
    cases t' <;> simp only [settings, reduceCtorEq, HLTask.tracking.injEq] at h
    rename_i t'
    obtain ⟨p, ax, tp, ⟨b, J, z, e, sh, M, D⟩, al, v, n⟩ := t
    obtain ⟨p', ax', tp', ⟨b', J', z', e', sh', M', D'⟩, al', v', n'⟩ := t'
    simp only [TrackQ.mk.injEq, TrackT.mk.injEq, Mat.mk.injEq, Vec.mk.injEq, and_true, true_and] at h
    obtain ⟨rfl, rfl, rfl, ⟨rfl, rfl, rfl, ⟨e1, e2⟩, rfl⟩, e3⟩ := h
    refine Out.Rel.bind (P := fun t t' : TrackQ K => SameTask (.tracking t) (.tracking t')) ?_
      fun a b h => h
    have hT : Out.Rel (fun s s' : TrackT K => ∃ A A' ev S, Mat.Agree A A' ∧ A.cols = R.mb.nrDof ∧ A.rows = 3 ∧
        s = ⟨b, J, z, ev, S, A, D⟩ ∧ s' = ⟨b, J, z, ev, S, A', D⟩)
        (TrackT.update R.mb st (f.trackErr p ax tp) ⟨b, J, z, e, sh, M, D⟩)
        (TrackT.update R.mb st (f.trackErr p ax tp) ⟨b, J, z, e', sh', M', D⟩) := by
      unfold TrackT.update
      dsimp only
      rw [e2]
      refine Out.Rel.same _ fun X _ => Out.Rel.same _ fun S _ => Out.Rel.same _ fun s1 h1 =>
        Out.Rel.same _ fun s2 h2 => ?_
      have e := (zeroJacobian_shape h2).1.trans (block_rows h1).1
      have hrel := fullJacobian_rel (path := J.path) (g4.trans e.symm) g5 (g4'.trans e.symm) g5'
      have hsh := fun A (h : fullJacobian R.mb J.path s2 M = .ok A) => fullJacobian_shape h
      change Out.Rel Mat.Agree (fullJacobian R.mb J.path s2 M) (fullJacobian R.mb J.path s2 M') at hrel
      revert hrel hsh
      generalize fullJacobian R.mb J.path s2 M = x
      generalize fullJacobian R.mb J.path s2 M' = y
      intro hsh hrel
      cases x <;> cases y <;> first | exact hrel.elim | exact hrel | skip
      have := hsh _ rfl
      exact ⟨_, _, _, _, hrel, this.2.trans g5, this.1.trans g4, rfl, rfl⟩
    refine Out.Rel.bind (P := fun r r' : TrackT K × V3 K × V3 K × Vec K =>
      settings (.tracking ⟨p, ax, tp, r.1, r.2.2.2, r.2.1, r.2.2.1⟩)
        = settings (.tracking ⟨p, ax, tp, r'.1, r'.2.2.2, r'.2.1, r'.2.2.1⟩) ∧
      Mat.Agree r.1.jacMat r'.1.jacMat ∧ r.1.eval = r'.1.eval ∧ r.2.1 = r'.2.1 ∧ r.2.2.1 = r'.2.2.1) ?_ ?_
    · unfold TrackT.qpUpdate
      dsimp only
      refine hT.bind ?_
      rintro _ _ ⟨A, A', ev, S, hA, hc, hr, rfl, rfl⟩
      refine Out.Rel.bind (P := fun u u' : Vec K => u.size = al.size ∧ u'.size = al.size ∧
        (al.size = R.mb.nrDof → ∀ i < al.size, u.get i = u'.get i)) ?_ ?_
      · unfold paramToVector
        rw [← e3]
        split
        · refine ⟨rfl, rfl, fun hn i hi => ?_⟩
          have : i < st.alpha.flatten.length := by rw [hα, ← hn]; exact hi
          dsimp only
          rw [List.getElem?_eq_getElem this]
          rfl
        · trivial
      · rintro u u' ⟨q1, q2, q3⟩
        dsimp only
        rw [← hA.2.1, q1, q2]
        split
        · next hh =>
          have q3' := q3 (by rw [← hh.1, hc])
          have key : ∀ a < 3, A.rowMul a u.get = A'.rowMul a u'.get := fun a ha =>
            rowMul_agree hA (fun i hi => q3' i (by rw [← hh.1]; exact hi)) (by rw [hr]; exact ha)
          have keyD : ∀ a, D.rowMul a u.get = D.rowMul a u'.get := fun a => by
            unfold Mat.rowMul
            refine Finset.sum_congr rfl fun j hj => ?_
            rw [q3' j (by rw [← hh.2]; exact Finset.mem_range.1 hj)]
          refine ⟨?_, hA, rfl, ?_, ?_⟩
          · simp only [settings]
            rw [q1, q2]
          · dsimp only
            rw [key 0 (by decide), key 1 (by decide), key 2 (by decide)]
          · dsimp only
            rw [keyD 0, keyD 1, keyD 2]
        · trivial
    · rintro ⟨t1, v1, n1, a1⟩ ⟨t1', v1', n1', a1'⟩ ⟨k1, k2, k3, k4, k5⟩
      dsimp only at k1 k2 k3 k4 k5
      refine ⟨k1, k2, ?_, ?_, ?_⟩
      · simp only [HLTask.hl]; rw [k3]; exact Vec.Agree.rfl' _
      · simp only [HLTask.hl]; rw [k4]; exact Vec.Agree.rfl' _
      · simp only [HLTask.hl]; rw [k5]; exact Vec.Agree.rfl' _
  | relDist t =>
    cases t' <;> simp only [settings, reduceCtorEq, HLTask.relDist.injEq] at h
    rename_i t'
    obtain ⟨dt, fx, e, s, n, M, l⟩ := t
    obtain ⟨dt', fx', e', s', n', M', l'⟩ := t'
    simp only [RelDistT.mk.injEq, true_and] at h
    obtain ⟨rfl, rfl, rfl⟩ := h
    refine Out.Rel.bind (P := fun t t' : RelDistT K => SameTask (.relDist t) (.relDist t')) ?_
      fun a b h => h
    unfold RelDistT.update
    dsimp only
    have e1 : M.rows = M'.rows := g4.trans g4'.symm
    have e2 : M.cols = M'.cols := g5.trans g5'.symm
    rw [e1, e2]
    refine Out.Rel.same _ fun r _ => ?_
    exact ⟨rfl, Mat.Agree.rfl' _, Vec.Agree.rfl' _, Vec.Agree.rfl' _, Vec.Agree.rfl' _⟩
  | vectorOrientation t =>
    cases t' <;> simp only [settings, reduceCtorEq, HLTask.vectorOrientation.injEq] at h
    rename_i t'
    obtain ⟨ac, v, tg, b, J, o⟩ := t
    obtain ⟨ac', v', tg', b', J', o'⟩ := t'
    simp only [VecOriT.mk.injEq, and_true, true_and] at h
    obtain ⟨rfl, rfl, rfl, rfl⟩ := h
    refine Out.Rel.bind (P := fun t t' : VecOriT K =>
      SameTask (.vectorOrientation t) (.vectorOrientation t')) ?_ fun a b h => h
    unfold VecOriT.update
    refine Out.Rel.same _ fun r _ => ?_
    exact ⟨rfl, agree3 rfl rfl rfl (Mat.Agree.rfl' _)⟩

/-! ## Histories -/

namespace Spec

/-- A call on a high-level task. -/
inductive HLCall (K : Type)
  | set (o : HLSet K)
  | update (mbs : List (RobotDesc K)) (mbcs : List (KState K)) (normalAccB : List (List (MV K)))
      (junk : ℕ → ℕ → ℕ → K)

/-- Effect of a call. -/
def HLCall.run (f : Fns K) : HLCall K → QPTask K → Out (QPTask K)
  | .set o, q => q.set o
  | .update mbs mbcs n junk, q => q.update f mbs mbcs n junk

/-- Robot `rI` keeps its number of dofs. -/
def HLCall.Keeps (rI n : ℕ) : HLCall K → Prop
  | .set _ => True
  | .update mbs _ _ _ => ∀ R, mbs[rI]? = some R → R.mb.nrDof = n

/-- The setters of a history. -/
def setterOf : HLCall K → Option (HLSet K)
  | .set o => some o
  | .update .. => none

end Spec

theorem set_shaped {q q' : QPTask K} {o : HLSet K} {n : ℕ} (h : q.set o = .ok q') (hs : TaskShaped n q.task) :
    TaskShaped n q'.task ∧ q'.dim = q.dim ∧ q'.robotIndex = q.robotIndex := by
  simp only [QPTask.set, Out.bind_eq_ok] at h
  obtain ⟨t, ht, h⟩ := h
  cases h
  obtain ⟨e1, e2⟩ := set_hl ht
  refine ⟨?_, e2, rfl⟩
  unfold TaskShaped at hs ⊢
  dsimp only
  rw [e1, e2]
  exact hs

theorem update_shaped {f : Fns K} {mbs : List (RobotDesc K)} {mbcs : List (KState K)}
    {na : List (List (MV K))} {junk : ℕ → ℕ → ℕ → K} {q q' : QPTask K} {n : ℕ}
    (h : q.update f mbs mbcs na junk = .ok q') (hk : ∀ R, mbs[q.robotIndex]? = some R → R.mb.nrDof = n)
    (hs : TaskShaped n q.task) : TaskShaped n q'.task ∧ q'.dim = q.dim ∧ q'.robotIndex = q.robotIndex := by
  simp only [QPTask.update, Out.bind_eq_ok] at h
  obtain ⟨R, hR, st, _, nn, _, t, ht, h⟩ := h
  cases h
  have := hk R (vecAt_eq_ok.1 hR)
  subst this
  obtain ⟨g1, g2⟩ := updateOn_shaped ht hs
  exact ⟨g1, g2, rfl⟩

theorem run_shaped {f : Fns K} {c : HLCall K} {q q' : QPTask K} {n : ℕ} (h : c.run f q = .ok q')
    (hk : c.Keeps q.robotIndex n) (hs : TaskShaped n q.task) :
    TaskShaped n q'.task ∧ q'.dim = q.dim ∧ q'.robotIndex = q.robotIndex := by
  cases c with
  | set o => exact set_shaped h hs
  | update mbs mbcs na junk => exact update_shaped h hk hs

theorem make_qp {mbs : List (RobotDesc K)} {rI : ℕ} {junk : ℕ → ℕ → ℕ → K} {a : HLArgs K} {q : QPTask K}
    (h : QPTask.make mbs rI junk a = .ok q) :
    ∃ R, mbs[rI]? = some R ∧ HLTask.make R junk a = .ok q.task ∧ q.robotIndex = rI ∧
      TaskShaped R.mb.nrDof q.task ∧ q.dim = argDim a := by
  simp only [QPTask.make, Out.bind_eq_ok] at h
  obtain ⟨R, hR, t, ht, h⟩ := h
  cases h
  obtain ⟨g1, g2⟩ := make_shaped ht
  exact ⟨R, vecAt_eq_ok.1 hR, ht, rfl, g1, g2⟩

theorem runs_shaped {f : Fns K} {n : ℕ} :
    ∀ {calls : List (HLCall K)} {q q' : QPTask K}, forEach calls (HLCall.run f) q = .ok q' →
      (∀ c ∈ calls, c.Keeps q.robotIndex n) → TaskShaped n q.task →
      TaskShaped n q'.task ∧ q'.dim = q.dim ∧ q'.robotIndex = q.robotIndex
  | [], q, q', h, _, hs => by
    simp only [forEach] at h
    cases h
    exact ⟨hs, rfl, rfl⟩
  | c :: l, q, q', h, hk, hs => by
    simp only [forEach, Out.bind_eq_ok] at h
    obtain ⟨q1, h1, h⟩ := h
    obtain ⟨g1, g2, g3⟩ := run_shaped h1 (hk c (List.mem_cons_self ..)) hs
    obtain ⟨k1, k2, k3⟩ := runs_shaped h (fun c hc => by
      rw [g3]; exact hk c (List.mem_cons_of_mem _ hc)) g1
    exact ⟨k1, k2.trans g2, k3.trans g3⟩

/-- After any history of setters and updates a high-level task still belongs to its robot, announces the
dimension of its class, and reports vectors of that dimension and a Jacobian with that many rows and a column
for each dof of the robot. -/
theorem C104_dimension {f : Fns K} {mbs : List (RobotDesc K)} {rI : ℕ} {junk : ℕ → ℕ → ℕ → K}
    {a : HLArgs K} {q q' : QPTask K} {calls : List (HLCall K)} {R : RobotDesc K}
    (hm : QPTask.make mbs rI junk a = .ok q) (hR : mbs[rI]? = some R)
    (hk : ∀ c ∈ calls, c.Keeps rI R.mb.nrDof) (h : forEach calls (HLCall.run f) q = .ok q') :
    q'.robotIndex = rI ∧ q'.dim = argDim a ∧ HL.Fits q'.dim q'.hl ∧ q'.hl.jac.cols = R.mb.nrDof := by
  obtain ⟨R', hR', -, e1, e2, e3⟩ := make_qp hm
  obtain rfl : R' = R := Option.some.inj (hR'.symm.trans hR)
  obtain ⟨k1, k2, k3⟩ := runs_shaped h (by rw [e1]; exact hk) e2
  exact ⟨k3.trans e1, k2.trans e3, k1.1, k1.2⟩

namespace Spec

/-- The three coordinates. -/
def coords (v : V3 K) : List K := [v.x, v.y, v.z]

/-- The numbers the task inside a high-level task computed, in the order of its rows: the error, the speed
and the normal acceleration. -/
def rows : HLTask K → List K × List K × List K
  | .position t => (coords t.out.eval, coords t.out.speed, coords t.out.normalAcc)
  | .orientation t => (coords t.out.eval, coords t.out.speed, coords t.out.normalAcc)
  | .surfaceOrientation t => (coords t.out.eval, coords t.out.speed, coords t.out.normalAcc)
  | .surfaceTransform t =>
    (coords t.out.eval.ang ++ coords t.out.eval.lin, coords t.out.speed.ang ++ coords t.out.speed.lin,
      coords t.out.normalAcc.ang ++ coords t.out.normalAcc.lin)
  | .transform t =>
    (coords t.c.out.eval.ang ++ coords t.c.out.eval.lin,
      coords t.c.out.speed.ang ++ coords t.c.out.speed.lin,
      coords t.c.out.normalAcc.ang ++ coords t.c.out.normalAcc.lin)
  | .gaze t => ([t.eval.1, t.eval.2], t.speed.toList, t.normalAcc.toList)
  | .pbvs t => (coords t.eval.ang ++ coords t.eval.lin, t.speed.toList, t.normalAcc.toList)
  | .com t => (coords t.out.eval, coords t.out.speed, coords t.out.normalAcc)
  | .momentum t =>
    (coords t.eval.couple ++ coords t.eval.force, coords t.speed.couple ++ coords t.speed.force,
      coords t.normalAcc.couple ++ coords t.normalAcc.force)
  | .linVelocity t => (coords t.out.eval, coords t.out.speed, coords t.out.normalAcc)
  | .tracking t => (coords t.t.eval, coords t.speed, coords t.normalAcc)
  | .relDist t => ([t.eval], [t.speed], [t.normalAcc])
  | .vectorOrientation t => (coords t.out.eval, coords t.out.speed, coords t.out.normalAcc)

end Spec

/-- What a high-level task reports is what the task inside it computed, row by row, angular rows first. -/
theorem C104_reports (t : HLTask K) :
    t.hl.eval.toList = (Spec.rows t).1 ∧ t.hl.speed.toList = (Spec.rows t).2.1 ∧
    t.hl.normalAcc.toList = (Spec.rows t).2.2 := by
  cases t <;> exact ⟨rfl, rfl, rfl⟩

/-- An update looks at the structure, the configuration and the normal accelerations of its own robot: in two
worlds with the same robot under the indices of the two tasks, the outcome is the same. -/
theorem C104_own_robot {f : Fns K} {mbs mbs' : List (RobotDesc K)} {mbcs mbcs' : List (KState K)}
    {na na' : List (List (MV K))} {junk : ℕ → ℕ → ℕ → K} {q q' : QPTask K} (ht : q.task = q'.task)
    (h1 : mbs[q.robotIndex]? = mbs'[q'.robotIndex]?) (h2 : mbcs[q.robotIndex]? = mbcs'[q'.robotIndex]?)
    (h3 : na[q.robotIndex]? = na'[q'.robotIndex]?) :
    Out.Rel (fun r r' : QPTask K => r.task = r'.task ∧ r.hl = r'.hl) (q.update f mbs mbcs na junk)
      (q'.update f mbs' mbcs' na' junk) := by
  have e : ∀ {α : Type} {l l' : List α} {i j : ℕ}, l[i]? = l'[j]? → vecAt l i = vecAt l' j := by
    intro α l l' i j h
    unfold vecAt
    rw [h]
  unfold QPTask.update
  rw [e h1, e h2, e h3, ht]
  refine Out.Rel.same _ fun R _ => Out.Rel.same _ fun st _ => Out.Rel.same _ fun n _ =>
    Out.Rel.same _ fun t _ => ⟨rfl, rfl⟩

/-! ### The past does not matter -/

theorem set_settings (r : ℕ) (o : HLSet K) (t : HLTask K) :
    (t.set r o >>= fun t' => .ok (settings t')) = ((settings t).set r o >>= fun t' => .ok (settings t')) := by
  have hg : ∀ (t : GazeT K) (p : V3 K) (ref : K × K),
      (HLTask.set r (.error3 p ref) (.gaze t) >>= fun t' => .ok (settings t'))
        = (HLTask.set r (.error3 p ref) (settings (.gaze t)) >>= fun t' => .ok (settings t')) := by
    intro t p ref
    simp only [settings, HLTask.set]
    unfold GazeT.error3
    cases project p <;> rfl
  have hc : ∀ (t : CoMT K) (mbs : List (RobotDesc K)),
      (HLTask.set r (.updateInertial mbs) (.com t) >>= fun t' => .ok (settings t'))
        = (HLTask.set r (.updateInertial mbs) (settings (.com t)) >>= fun t' => .ok (settings t')) := by
    intro t mbs
    simp only [settings, HLTask.set]
    unfold CoMT.updateInertial
    cases vecAt mbs r with
    | ok R =>
      simp only [Out.ok_bind]
      cases ComJac.updateInertial (R.bodies.map BodyI.b) t.jac <;> rfl
    | ub => rfl
    | throws e => rfl
  cases o <;> cases t <;> first
    | rfl
    | exact hg ..
    | exact hc ..

theorem set_settings_eq {r : ℕ} {o : HLSet K} {t t' t1 t1' : HLTask K} (h : settings t = settings t')
    (h1 : t.set r o = .ok t1) (h1' : t'.set r o = .ok t1') : settings t1 = settings t1' := by
  have e := set_settings r o t
  have e' := set_settings r o t'
  rw [h, ← e', h1, h1'] at e
  exact Out.ok.inj e

/-- The tasks without a memory of their own. -/
def Spec.Plain : HLTask K → Prop
  | .relDist _ => False
  | .tracking _ => False
  | _ => True

/-- The constructors of these tasks. -/
def Spec.PlainArgs : HLArgs K → Prop
  | .relDist .. => False
  | .tracking .. => False
  | _ => True

theorem set_plain {r : ℕ} {o : HLSet K} {t t' : HLTask K} (h : t.set r o = .ok t') (hp : Plain t) :
    Plain t' := by
  cases o <;> cases t <;> simp only [HLTask.set, Out.bind_eq_ok] at h <;> first
    | exact hp.elim
    | (cases h; exact trivial)
    | (obtain ⟨t1, _, h⟩ := h; cases h; exact trivial)
    | (obtain ⟨R, _, t1, _, h⟩ := h; cases h; exact trivial)

theorem updateOn_settings {f : Fns K} {R : RobotDesc K} {st : KState K} {junk : ℕ → ℕ → ℕ → K}
    {t t' : HLTask K} (h : t.updateOn f R st junk = .ok t') (hp : Plain t) :
    settings t' = settings t ∧ Plain t' := by
  cases t with
  | position t =>
    simp only [HLTask.updateOn, PositionT.update, Out.bind_eq_ok] at h
    obtain ⟨t1, ⟨_, _, _, _, _, _, _, _, _, _, M, hM, h1⟩, h⟩ := h
    cases h1
    cases h
    exact ⟨rfl, trivial⟩
  | orientation t =>
    simp only [HLTask.updateOn, OriT.update, Out.bind_eq_ok] at h
    obtain ⟨t1, ⟨o, ho, h1⟩, h⟩ := h
    cases h1
    cases h
    exact ⟨rfl, trivial⟩
  | surfaceOrientation t =>
    simp only [HLTask.updateOn, SurfOriT.update, Out.bind_eq_ok] at h
    obtain ⟨t1, ⟨o, ho, h1⟩, h⟩ := h
    cases h1
    cases h
    exact ⟨rfl, trivial⟩
  | surfaceTransform t =>
    simp only [HLTask.updateOn, TransCT.update, Out.bind_eq_ok] at h
    obtain ⟨t1, ⟨o, ho, h1⟩, h⟩ := h
    cases h1
    cases h
    exact ⟨rfl, trivial⟩
  | transform t =>
    simp only [HLTask.updateOn, TransT.update, Out.bind_eq_ok] at h
    obtain ⟨t1, ⟨o, ho, h1⟩, h⟩ := h
    cases h1
    cases h
    exact ⟨rfl, trivial⟩
  | gaze t =>
    simp only [HLTask.updateOn, GazeT.update, Out.bind_eq_ok] at h
    obtain ⟨t1, ⟨L, _, r, hr, h1⟩, h⟩ := h
    cases h1
    cases h
    exact ⟨rfl, trivial⟩
  | pbvs t =>
    simp only [HLTask.updateOn, PbvsT.update, Out.bind_eq_ok] at h
    obtain ⟨t1, ⟨r, hr, h1⟩, h⟩ := h
    cases h1
    cases h
    exact ⟨rfl, trivial⟩
  | com t =>
    simp only [HLTask.updateOn, CoMT.update, CoMT.updateAt, Out.bind_eq_ok] at h
    obtain ⟨t1, ⟨_, _, _, _, _, _, M, hM, h1⟩, h⟩ := h
    cases h1
    cases h
    exact ⟨rfl, trivial⟩
  | momentum t =>
    simp only [HLTask.updateOn, MomentumT.update, Out.bind_eq_ok] at h
    obtain ⟨t1, ⟨_, _, _, _, _, _, _, _, M, hM, h1⟩, h⟩ := h
    cases h1
    cases h
    exact ⟨rfl, trivial⟩
  | linVelocity t =>
    simp only [HLTask.updateOn, LinVelT.update, Out.bind_eq_ok] at h
    obtain ⟨t1, ⟨_, _, _, _, _, _, _, _, M, hM, h1⟩, h⟩ := h
    cases h1
    cases h
    exact ⟨rfl, trivial⟩
  | tracking t => exact hp.elim
  | relDist t => exact hp.elim
  | vectorOrientation t =>
    simp only [HLTask.updateOn, VecOriT.update, Out.bind_eq_ok] at h
    obtain ⟨t1, ⟨o, ho, h1⟩, h⟩ := h
    cases h1
    cases h
    exact ⟨rfl, trivial⟩

theorem make_settings {R : RobotDesc K} {junk junk' : ℕ → ℕ → ℕ → K} {a : HLArgs K} {t t' : HLTask K}
    (ha : PlainArgs a) (h : HLTask.make R junk a = .ok t) (h' : HLTask.make R junk' a = .ok t') :
    settings t = settings t' ∧ Plain t ∧ Plain t' := by
  have key : (HLTask.make R junk a >>= fun t => .ok (settings t))
      = (HLTask.make R junk' a >>= fun t => .ok (settings t)) := by
    cases a with
    | relDist => exact ha.elim
    | tracking => exact ha.elim
    | momentum m => rfl
    | gaze3 body q X ref =>
      simp only [HLTask.make, GazeT.make3]
      cases R.find body with
      | ok bp => simp only [Out.ok_bind]; cases project q <;> rfl
      | ub => rfl
      | throws e => rfl
    | com c =>
      simp only [HLTask.make, CoMT.make, CoMT.makeW]
      cases ComJac.make (K := K) _ _ <;> rfl
    | comW c w =>
      simp only [HLTask.make, CoMT.makeW]
      cases ComJac.make (K := K) _ _ <;> rfl
    | position body => simp only [HLTask.make]; cases R.find body <;> rfl
    | orientation body => simp only [HLTask.make, OriT.make]; cases R.find body <;> rfl
    | surfaceOrientation body => simp only [HLTask.make, SurfOriT.make]; cases R.find body <;> rfl
    | surfaceTransform body => simp only [HLTask.make, TransCT.make]; cases R.find body <;> rfl
    | transform body => simp only [HLTask.make, TransT.make, TransCT.make]; cases R.find body <;> rfl
    | gaze2 body => simp only [HLTask.make]; cases R.find body <;> rfl
    | pbvs body => simp only [HLTask.make]; cases R.find body <;> rfl
    | linVelocity body => simp only [HLTask.make]; cases R.find body <;> rfl
    | vectorOrientation body => simp only [HLTask.make, VecOriT.make]; cases R.find body <;> rfl
  have plain : ∀ {junk : ℕ → ℕ → ℕ → K} {t : HLTask K}, HLTask.make R junk a = .ok t → Plain t := by
    intro junk t h
    cases a <;> first
      | exact ha.elim
      | (cases h; exact trivial)
      | (simp only [HLTask.make, Out.bind_eq_ok] at h; obtain ⟨_, _, h⟩ := h; cases h; exact trivial)
      | (simp only [HLTask.make, Out.bind_eq_ok] at h; obtain ⟨_, _, _, _, h⟩ := h; cases h; exact trivial)
  rw [h, h'] at key
  exact ⟨Out.ok.inj key, plain h, plain h'⟩

theorem runs_settings {f : Fns K} : ∀ {calls : List (HLCall K)} {q q' : QPTask K},
    forEach calls (HLCall.run f) q = .ok q' → Plain q.task → Plain q'.task ∧ q'.robotIndex = q.robotIndex ∧
      ∀ p : QPTask K, p.robotIndex = q.robotIndex → settings p.task = settings q.task → Plain p.task →
      ∀ {calls' : List (HLCall K)} {p' : QPTask K}, forEach calls' (HLCall.run f) p = .ok p' →
        calls'.filterMap setterOf = calls.filterMap setterOf → settings p'.task = settings q'.task := by
  -- a history acts on the settings like its setters
  have act : ∀ {calls : List (HLCall K)} {q q' : QPTask K}, forEach calls (HLCall.run f) q = .ok q' →
      Plain q.task → Plain q'.task ∧ q'.robotIndex = q.robotIndex ∧
      ∃ t, forEach (calls.filterMap setterOf) (fun o t => HLTask.set q.robotIndex o t) q.task = .ok t ∧
        settings t = settings q'.task := by
    intro calls
    induction calls with
    | nil =>
      intro q q' h hp
      simp only [forEach] at h
      cases h
      exact ⟨hp, rfl, _, rfl, rfl⟩
    | cons c l ih =>
      intro q q' h hp
      simp only [forEach, Out.bind_eq_ok] at h
      obtain ⟨q1, h1, h⟩ := h
      cases c with
      | set o =>
        simp only [HLCall.run, QPTask.set, Out.bind_eq_ok] at h1
        obtain ⟨t1, ht1, h1⟩ := h1
        cases h1
        obtain ⟨g1, g2, t, g3, g4⟩ := ih h (set_plain ht1 hp)
        refine ⟨g1, g2, t, ?_, g4⟩
        simp only [List.filterMap_cons, setterOf, forEach]
        rw [ht1]
        exact g3
      | update mbs mbcs na junk =>
        simp only [HLCall.run, QPTask.update, Out.bind_eq_ok] at h1
        obtain ⟨R, _, st, _, n, _, t1, ht1, h1⟩ := h1
        cases h1
        obtain ⟨e1, e2⟩ := updateOn_settings ht1 hp
        obtain ⟨g1, g2, t, g3, g4⟩ := ih h e2
        refine ⟨g1, g2, ?_⟩
        simp only [List.filterMap_cons, setterOf]
        have tr : ∀ (os : List (HLSet K)) (u u' w : HLTask K), settings u = settings u' →
            forEach os (fun o t => HLTask.set q.robotIndex o t) u = .ok w →
            ∃ w', forEach os (fun o t => HLTask.set q.robotIndex o t) u' = .ok w' ∧
              settings w' = settings w := by
          intro os
          induction os with
          | nil =>
            intro u u' w hu h
            simp only [forEach] at h
            cases h
            exact ⟨u', rfl, hu.symm⟩
          | cons o os ih2 =>
            intro u u' w hu h
            simp only [forEach, Out.bind_eq_ok] at h
            obtain ⟨u1, hu1, h⟩ := h
            have k := set_settings q.robotIndex o u
            have k' := set_settings q.robotIndex o u'
            rw [hu, ← k', hu1] at k
            cases hx : HLTask.set q.robotIndex o u' with
            | ok u2 =>
              rw [hx] at k
              obtain ⟨w', hw', hs⟩ := ih2 u1 u2 w (Out.ok.inj k) h
              refine ⟨w', ?_, hs⟩
              simp only [forEach]
              rw [hx]
              exact hw'
            | ub => rw [hx] at k; cases k
            | throws e => rw [hx] at k; cases k
        obtain ⟨w', hw', hs⟩ := tr _ _ _ _ e1 g3
        exact ⟨w', hw', hs.trans g4⟩
  intro calls q q' h hp
  obtain ⟨g1, g2, t, g3, g4⟩ := act h hp
  refine ⟨g1, g2, fun p hi hs hpp calls' p' h' he => ?_⟩
  obtain ⟨k1, k2, u, k3, k4⟩ := act h' hpp
  rw [he, hi] at k3
  rw [← g4, ← k4]
  clear k4 g4 h h' he k1 k2 g1 g2
  revert t u
  generalize calls.filterMap setterOf = os
  have : ∀ (os : List (HLSet K)) (a b t u : HLTask K), settings a = settings b →
      forEach os (fun o t => HLTask.set q.robotIndex o t) a = .ok t →
      forEach os (fun o t => HLTask.set q.robotIndex o t) b = .ok u → settings u = settings t := by
    intro os
    induction os with
    | nil =>
      intro a b t u h h1 h2
      simp only [forEach] at h1 h2
      cases h1
      cases h2
      exact h.symm
    | cons o os ih =>
      intro a b t u h h1 h2
      simp only [forEach, Out.bind_eq_ok] at h1 h2
      obtain ⟨a1, ha1, h1⟩ := h1
      obtain ⟨b1, hb1, h2⟩ := h2
      exact ih a1 b1 t u (set_settings_eq h ha1 hb1) h1 h2
  intro t h1 u h2
  exact this os _ _ _ _ hs.symm h1 h2

/-- What a task reports after an update depends on how it was constructed, on the setters called since and on
the state of its robot: not on the updates in between, nor on the memory it was constructed in. -/
theorem C104_memoryless {f : Fns K} {mbs : List (RobotDesc K)} {rI : ℕ} {junk0 junk0' : ℕ → ℕ → ℕ → K}
    {a : HLArgs K} {q q' p p' : QPTask K} {calls calls' : List (HLCall K)} {R : RobotDesc K}
    (ha : PlainArgs a) (hR : mbs[rI]? = some R)
    (hm : QPTask.make mbs rI junk0 a = .ok q) (hm' : QPTask.make mbs rI junk0' a = .ok p)
    (hk : ∀ c ∈ calls, c.Keeps rI R.mb.nrDof) (hk' : ∀ c ∈ calls', c.Keeps rI R.mb.nrDof)
    (h : forEach calls (HLCall.run f) q = .ok q') (h' : forEach calls' (HLCall.run f) p = .ok p')
    (he : calls.filterMap setterOf = calls'.filterMap setterOf)
    {mbs1 : List (RobotDesc K)} {mbcs : List (KState K)} {na : List (List (MV K))}
    (hk1 : ∀ R1, mbs1[rI]? = some R1 → R1.mb.nrDof = R.mb.nrDof)
    (hα : ∀ st, mbcs[rI]? = some st → st.alpha.flatten.length = R.mb.nrDof)
    {junk : ℕ → ℕ → ℕ → K} :
    Out.Rel (fun r r' : QPTask K => HL.Agree r.hl r'.hl) (q'.update f mbs1 mbcs na junk)
      (p'.update f mbs1 mbcs na junk) := by
  obtain ⟨R1, hR1, t1, i1, s1, -⟩ := make_qp hm
  obtain ⟨R2, hR2, t2, i2, s2, -⟩ := make_qp hm'
  obtain rfl : R1 = R := Option.some.inj (hR1.symm.trans hR)
  obtain rfl : R2 = R1 := Option.some.inj (hR2.symm.trans hR)
  obtain ⟨es, pl1, pl2⟩ := make_settings ha t1 t2
  obtain ⟨k1, -, k3⟩ := runs_shaped h (by rw [i1]; exact hk) s1
  obtain ⟨l1, -, l3⟩ := runs_shaped h' (by rw [i2]; exact hk') s2
  obtain ⟨-, -, hset⟩ := runs_settings h pl1
  have hfin := hset p (i2.trans i1.symm) es.symm pl2 h' he.symm
  unfold QPTask.update
  rw [k3, i1, l3, i2]
  refine Out.Rel.same _ fun R3 hR3 => Out.Rel.same _ fun st hst => Out.Rel.same _ fun n _ => ?_
  have e3 := hk1 R3 (vecAt_eq_ok.1 hR3)
  exact (updateOn_rel (by rw [e3]; exact k1) (by rw [e3]; exact l1) hfin.symm
    (by rw [e3]; exact hα st (vecAt_eq_ok.1 hst))).bind fun x y hxy => hxy.2

/-! ### The updates are defined -/

/-- Body and Jacobian of a task on a body, with what its update needs besides. -/
def Spec.bodyOf : HLTask K → Option (ℕ × Jac K × Prop)
  | .position t => some (t.bodyIndex, t.jac, True)
  | .orientation t => some (t.bodyIndex, t.jac, True)
  | .surfaceOrientation t => some (t.bodyIndex, t.jac, True)
  | .surfaceTransform t => some (t.bodyIndex, t.jac, True)
  | .transform t => some (t.c.bodyIndex, t.c.jac, True)
  | .gaze t => some (t.bodyIndex, t.jac, t.depth ≠ 0)
  | .pbvs t => some (t.bodyIndex, t.jac, True)
  | .linVelocity t => some (t.bodyIndex, t.jac, True)
  | .vectorOrientation t => some (t.bodyIndex, t.jac, True)
  | _ => none

section
variable {mb : MultiBody K} {st : KState K} {J : Jac K} {b : ℕ}

theorem Out.bind_def {α β : Type} {x : Out α} {k : α → Out β} (h : ∃ a, x = .ok a)
    (hk : ∀ a, ∃ b, k a = .ok b) : ∃ b, (x >>= k) = .ok b := by
  obtain ⟨a, rfl⟩ := h
  exact hk a

theorem fullJacobian_def (h : KSized mb st J.path) {M res : Mat K} (hc : pathDof mb J.path ≤ M.cols)
    (hr : M.rows ≤ res.rows) (hn : res.cols = mb.nrDof) : ∃ R, fullJacobian mb J.path M res = .ok R := by
  obtain ⟨R, hR, -⟩ := fullJacobian_ok mb J.path M res h.mem h.nodup hc hr hn.ge
  exact ⟨R, hR⟩

theorem visualUpdate_def (h : KSized mb st J.path) (hb : J.path.getLast? = some b) {r : ℕ} {L : ℕ → ℕ → K}
    {Ld : (ℕ → K) → (ℕ → K) → ℕ → ℕ → K} {X : PT K} {res : Mat K} (hr : res.rows = r)
    (hn : res.cols = mb.nrDof) : ∃ o, visualUpdate r L Ld mb st b J X res = .ok o := by
  unfold visualUpdate
  rw [vecAt_getD PT.one (h.pos b (List.mem_of_getLast? hb)), Out.ok_bind, jac_velAt h hb, Out.ok_bind,
    jac_accAt h hb, Out.ok_bind, jac_at h, Out.ok_bind, block_ok ⟨by simp, by simp⟩, Out.ok_bind]
  exact Out.bind_def (fullJacobian_def h (le_refl _) hr.ge hn) fun _ => ⟨_, rfl⟩

end

theorem updateOn_defined {f : Fns K} {R : RobotDesc K} {st : KState K} {junk : ℕ → ℕ → ℕ → K}
    {t : HLTask K} {b : ℕ} {J : Jac K} {P : Prop} (hb : bodyOf t = some (b, J, P)) (hP : P)
    (h : KSized R.mb st J.path) (hl : J.path.getLast? = some b) (hs : TaskShaped R.mb.nrDof t) :
    ∃ t', t.updateOn f R st junk = .ok t' := by
  have hm := h.pos b (List.mem_of_getLast? hl)
  have hj : (HLTask.hl t).jac.rows = t.dim ∧ (HLTask.hl t).jac.cols = R.mb.nrDof := ⟨hs.1.2.2.2, hs.2⟩
  cases t with
  | position t =>
    cases hb
    simp only [HLTask.updateOn, PositionT.update, vecAt_getD PT.one hm, jac_vel h hl, jac_acc h hl,
      jac_world h hl, Out.ok_bind]
    rw [block_ok ⟨by simp, by simp⟩, Out.ok_bind]
    exact Out.bind_def (Out.bind_def (fullJacobian_def h (le_refl _) hj.1.ge hj.2) fun _ => ⟨_, rfl⟩)
      fun _ => ⟨_, rfl⟩
  | orientation t =>
    cases hb
    simp only [HLTask.updateOn, OriT.update, orientationUpdate, vecAt_getD PT.one hm, jac_vel h hl,
      jac_acc h hl, jac_world h hl, Out.ok_bind]
    rw [block_ok ⟨by simp, by simp⟩, Out.ok_bind]
    exact Out.bind_def (Out.bind_def (Out.bind_def
      (fullJacobian_def h (le_refl _) hj.1.ge hj.2) fun _ => ⟨_, rfl⟩) fun _ => ⟨_, rfl⟩) fun _ => ⟨_, rfl⟩
  | surfaceOrientation t =>
    cases hb
    simp only [HLTask.updateOn, SurfOriT.update, surfaceOriUpdate, vecAt_getD PT.one hm, jac_velAt h hl,
      jac_accAt h hl, jac_at h, Out.ok_bind]
    rw [block_ok ⟨by simp, by simp⟩, Out.ok_bind]
    exact Out.bind_def (Out.bind_def (Out.bind_def
      (fullJacobian_def h (le_refl _) hj.1.ge hj.2) fun _ => ⟨_, rfl⟩) fun _ => ⟨_, rfl⟩) fun _ => ⟨_, rfl⟩
  | surfaceTransform t =>
    cases hb
    simp only [HLTask.updateOn, TransCT.update, surfaceUpdate, vecAt_getD PT.one hm, jac_velAt h hl,
      jac_accAt h hl, jac_at h, Out.ok_bind]
    have e := subCross_ok (f.transVel (t.X_0_t.mul (t.X_b_p.mul (st.bodyPosW.getD t.bodyIndex PT.one)).inv))
      (⟨6, pathDof R.mb t.jac.path, fun a k => ((pathCols R.mb (kCol st
        (t.X_b_p.mul (st.bodyPosW.getD t.bodyIndex PT.one))) t.jac.path).getD k 0).get a⟩) rfl
    dsimp only at e
    rw [e, Out.ok_bind]
    exact Out.bind_def (Out.bind_def (Out.bind_def
      (fullJacobian_def h (le_refl _) hj.1.ge hj.2) fun _ => ⟨_, rfl⟩) fun _ => ⟨_, rfl⟩) fun _ => ⟨_, rfl⟩
  | transform t =>
    cases hb
    simp only [HLTask.updateOn, TransT.update, transformUpdate, vecAt_getD PT.one hm, jac_velAt h hl,
      jac_accAt h hl, jac_at h, Out.ok_bind]
    exact Out.bind_def (Out.bind_def (Out.bind_def
      (fullJacobian_def h (le_refl _) hj.1.ge hj.2) fun _ => ⟨_, rfl⟩) fun _ => ⟨_, rfl⟩) fun _ => ⟨_, rfl⟩
  | gaze t =>
    cases hb
    obtain ⟨o, ho⟩ := visualUpdate_def h hl (r := 2) (L := imgL t.point2d t.depth)
      (Ld := fun u V => imgLdot t.point2d u t.depth (∑ j ∈ Finset.range 6, f.depthDot u t.depth j * V j))
      (X := t.X_b_gaze) (res := t.jacMat) hj.1 hj.2
    simp only [HLTask.updateOn, GazeT.update, imagePointJacobian]
    rw [if_neg hP, Out.ok_bind, ho]
    exact ⟨_, rfl⟩
  | pbvs t =>
    cases hb
    obtain ⟨o, ho⟩ := visualUpdate_def h hl (r := 6) (L := f.poseJac t.X_t_s.E)
      (Ld := fun _ V => pbvsLdot t.X_t_s.E ⟨V 0, V 1, V 2⟩)
      (X := t.X_b_s) (res := t.jacMat) hj.1 hj.2
    simp only [HLTask.updateOn, PbvsT.update]
    rw [ho]
    exact ⟨_, rfl⟩
  | com t => cases hb
  | momentum t => cases hb
  | linVelocity t =>
    cases hb
    simp only [HLTask.updateOn, LinVelT.update, jac_vel h hl, jac_acc h hl, jac_world h hl, Out.ok_bind]
    rw [block_ok ⟨by simp, by simp⟩, Out.ok_bind]
    exact Out.bind_def (Out.bind_def (fullJacobian_def h (le_refl _) hj.1.ge hj.2) fun _ => ⟨_, rfl⟩)
      fun _ => ⟨_, rfl⟩
  | tracking t => cases hb
  | relDist t => cases hb
  | vectorOrientation t =>
    cases hb
    simp only [HLTask.updateOn, VecOriT.update, vectorOriUpdate, vecAt_getD PT.one hm, jac_bodyJac h hl,
      Jac.bodyVelocity, Jac.bodyNormalAcc, jac_velAt h hl, jac_accAt h hl, Out.ok_bind]
    rw [block_ok ⟨by simp, by simp⟩, Out.ok_bind]
    exact Out.bind_def (Out.bind_def (Out.bind_def
      (fullJacobian_def h (le_refl _) (le_refl _) rfl) fun _ => ⟨_, rfl⟩) fun _ => ⟨_, rfl⟩) fun _ => ⟨_, rfl⟩

/-- A task on a body, constructed and used in any way, can be updated whenever the tables of the state of its
robot have the entries of the joints between the root and the body; the gaze task needs a depth that is not
zero. -/
theorem C104_defined {f : Fns K} {mbs : List (RobotDesc K)} {rI : ℕ} {junk0 junk : ℕ → ℕ → ℕ → K}
    {a : HLArgs K} {q q' : QPTask K} {calls : List (HLCall K)} {R R1 : RobotDesc K}
    (hm : QPTask.make mbs rI junk0 a = .ok q) (hR : mbs[rI]? = some R)
    (hk : ∀ c ∈ calls, c.Keeps rI R.mb.nrDof) (h : forEach calls (HLCall.run f) q = .ok q')
    {mbs1 : List (RobotDesc K)} {mbcs : List (KState K)} {na : List (List (MV K))} {st : KState K}
    {n : List (MV K)} (hR1 : mbs1[rI]? = some R1) (hd : R1.mb.nrDof = R.mb.nrDof)
    (hst : mbcs[rI]? = some st) (hn : na[rI]? = some n) {b : ℕ} {J : Jac K} {P : Prop}
    (hb : bodyOf q'.task = some (b, J, P)) (hP : P) (hs : KSized R1.mb { st with normalAccB := n } J.path)
    (hl : J.path.getLast? = some b) : ∃ r, q'.update f mbs1 mbcs na junk = .ok r := by
  obtain ⟨R', hR', -, e1, e2, e3⟩ := make_qp hm
  obtain rfl : R' = R := Option.some.inj (hR'.symm.trans hR)
  obtain ⟨k1, -, k3⟩ := runs_shaped h (by rw [e1]; exact hk) e2
  obtain ⟨t', ht'⟩ := updateOn_defined (f := f) (junk := junk) hb hP hs hl (by rw [hd]; exact k1)
  unfold QPTask.update
  rw [k3, e1, vecAt_eq_ok.2 hR1, Out.ok_bind, vecAt_eq_ok.2 hst, Out.ok_bind, vecAt_eq_ok.2 hn, Out.ok_bind,
    ht']
  exact ⟨_, rfl⟩

/-! ### `MultiRobotTransformTask` -/

namespace Spec

/-- The calls on a `MultiRobotTransformTask`. -/
inductive MTCall (K : Type)
  | X1 (X : PT K)
  | X2 (X : PT K)
  | update (mbs : List (RobotDesc K)) (mbcs : List (KState K)) (normalAccB : List (List (MV K)))

/-- Effect of a call. -/
def MTCall.run (f : Fns K) : MTCall K → MultiTransT K → Out (MultiTransT K)
  | .X1 X, s => .ok (s.setX1 X)
  | .X2 X, s => .ok (s.setX2 X)
  | .update mbs mbcs na, s => s.update f mbs mbcs na

/-- A task of the two robots with matrices of six rows and a column per dof of each. -/
def MTShaped (r1 r2 n1 n2 : ℕ) (s : MultiTransT K) : Prop :=
  s.r1Index = r1 ∧ s.r2Index = r2 ∧ s.out.jacMat.rows = 6 ∧ s.out.jacMat.cols = n1 ∧ s.jacMat2.rows = 6 ∧
    s.jacMat2.cols = n2

end Spec

/-- `MultiRobotTransformTask` keeps its two robots, and its two Jacobians keep six rows and a column for each
dof of the first and of the second robot. -/
theorem C104_multi {f : Fns K} {mbs : List (RobotDesc K)} {r1 r2 : ℕ} {body1 body2 : String} {X1 X2 : PT K}
    {junk : ℕ → ℕ → ℕ → K} {s s' : MultiTransT K} {calls : List (MTCall K)} {R1 R2 : RobotDesc K}
    (hm : MultiTransT.make mbs r1 r2 body1 body2 X1 X2 junk = .ok s)
    (h1 : mbs[r1]? = some R1) (h2 : mbs[r2]? = some R2)
    (h : forEach calls (MTCall.run f) s = .ok s') : MTShaped r1 r2 R1.mb.nrDof R2.mb.nrDof s' := by
  have h0 : MTShaped r1 r2 R1.mb.nrDof R2.mb.nrDof s := by
    simp only [MultiTransT.make, Out.bind_eq_ok] at hm
    obtain ⟨A, hA, bp, -, B, hB, bp', -, hm⟩ := hm
    cases hm
    obtain rfl := Option.some.inj ((vecAt_eq_ok.1 hA).symm.trans h1)
    obtain rfl := Option.some.inj ((vecAt_eq_ok.1 hB).symm.trans h2)
    exact ⟨rfl, rfl, rfl, rfl, rfl, rfl⟩
  clear hm
  induction calls generalizing s with
  | nil =>
    simp only [forEach] at h
    cases h
    exact h0
  | cons c l ih =>
    simp only [forEach, Out.bind_eq_ok] at h
    obtain ⟨s1, hs1, h⟩ := h
    refine ih h ?_
    cases c with
    | X1 X => cases hs1; exact h0
    | X2 X => cases hs1; exact h0
    | update mbs mbcs na =>
      simp only [MTCall.run, MultiTransT.update, multiTransformUpdate, Out.bind_eq_ok] at hs1
      obtain ⟨_, _, _, _, _, _, _, _, _, _, _, _, o, ⟨_, _, _, _, _, _, _, _, _, _, _, _, _, _, _, _, _, _, A,
        hA, B, hB, ho⟩, hs1⟩ := hs1
      cases ho
      cases hs1
      have a := fullJacobian_shape hA
      have b := fullJacobian_shape hB
      obtain ⟨g1, g2, g3, g4, g5, g6⟩ := h0
      exact ⟨g1, g2, a.1.trans g3, a.2.trans g4, b.1.trans g5, b.2.trans g6⟩

/-- It looks at its two robots only. -/
theorem C104_multi_own {f : Fns K} {mbs mbs' : List (RobotDesc K)} {mbcs mbcs' : List (KState K)}
    {na na' : List (List (MV K))} {s : MultiTransT K}
    (h1 : ∀ r, r = s.r1Index ∨ r = s.r2Index → mbs[r]? = mbs'[r]?)
    (h2 : ∀ r, r = s.r1Index ∨ r = s.r2Index → mbcs[r]? = mbcs'[r]?)
    (h3 : ∀ r, r = s.r1Index ∨ r = s.r2Index → na[r]? = na'[r]?) :
    s.update f mbs mbcs na = s.update f mbs' mbcs' na' := by
  unfold MultiTransT.update vecAt
  rw [h1 _ (.inl rfl), h1 _ (.inr rfl), h2 _ (.inl rfl), h2 _ (.inr rfl), h3 _ (.inl rfl), h3 _ (.inr rfl)]

/-! ## The weighted tasks over a high-level task -/

namespace Spec

/-- A program that calls a high-level task (`.inl`) and the weighted task over it (`.inr`): an update of the
former is followed by the update of the latter with its results (`SetPointTask::update` and the others,
QPTasks.cpp:110-119).  The result is the list of calls the weighted task gets. -/
def drive {ο : Type} (f : Fns K) (upd : HL K → ο) :
    List (HLCall K ⊕ ο) → QPTask K → Out (QPTask K × List ο)
  | [], q => .ok (q, [])
  | .inr o :: l, q => do
    let (q', l') ← drive f upd l q
    pure (q', o :: l')
  | .inl (.set o) :: l, q => do
    let q1 ← q.set o
    drive f upd l q1
  | .inl (.update mbs mbcs na junk) :: l, q => do
    let q1 ← q.update f mbs mbcs na junk
    let (q', l') ← drive f upd l q1
    pure (q', upd q1.hl :: l')

end Spec

theorem drive_fits {ο : Type} {f : Fns K} {upd : HL K → ο} {F : ο → Prop} {dim n rI : ℕ}
    (hF : ∀ hl, HL.Fits dim hl → F (upd hl)) :
    ∀ {prog : List (HLCall K ⊕ ο)} {q q' : QPTask K} {l : List ο},
      drive f upd prog q = .ok (q', l) → q.dim = dim → q.robotIndex = rI → TaskShaped n q.task →
      (∀ c, Sum.inl c ∈ prog → c.Keeps rI n) → (∀ o, Sum.inr o ∈ prog → F o) →
      (∀ o ∈ l, F o) ∧ HL.Fits dim q'.hl
  | [], q, q', l, h, hd, _, hs, _, _ => by
    simp only [drive] at h
    cases h
    refine ⟨fun o ho => absurd ho (List.not_mem_nil), ?_⟩
    rw [← hd]
    exact hs.1
  | .inr o :: pr, q, q', l, h, hd, hr, hs, hk, ho => by
    simp only [drive, Out.bind_eq_ok] at h
    obtain ⟨⟨q1, l1⟩, h1, h⟩ := h
    cases h
    obtain ⟨g1, g2⟩ := drive_fits hF h1 hd hr hs (fun c hc => hk c (List.mem_cons_of_mem _ hc))
      (fun o hc => ho o (List.mem_cons_of_mem _ hc))
    refine ⟨fun x hx => ?_, g2⟩
    rcases List.mem_cons.1 hx with rfl | hx
    · exact ho _ (List.mem_cons_self ..)
    · exact g1 x hx
  | .inl (.set o) :: pr, q, q', l, h, hd, hr, hs, hk, ho => by
    simp only [drive, Out.bind_eq_ok] at h
    obtain ⟨q1, h1, h⟩ := h
    obtain ⟨e1, e2, e3⟩ := set_shaped h1 hs
    exact drive_fits hF h (e2.trans hd) (e3.trans hr) e1 (fun c hc => hk c (List.mem_cons_of_mem _ hc))
      (fun o hc => ho o (List.mem_cons_of_mem _ hc))
  | .inl (.update mbs mbcs na junk) :: pr, q, q', l, h, hd, hr, hs, hk, ho => by
    simp only [drive, Out.bind_eq_ok] at h
    obtain ⟨q1, h1, ⟨q2, l2⟩, h2, h⟩ := h
    cases h
    have hk0 := hk _ (List.mem_cons_self ..)
    rw [← hr] at hk0
    obtain ⟨e1, e2, e3⟩ := update_shaped h1 hk0 hs
    obtain ⟨g1, g2⟩ := drive_fits hF h2 (e2.trans hd) (e3.trans hr) e1
      (fun c hc => hk c (List.mem_cons_of_mem _ hc)) (fun o hc => ho o (List.mem_cons_of_mem _ hc))
    refine ⟨fun x hx => ?_, g2⟩
    rcases List.mem_cons.1 hx with rfl | hx
    · refine hF _ ?_
      rw [← hd, ← e2]
      exact e1.1
    · exact g1 x hx

section
variable {f : Fns K} {mbs : List (RobotDesc K)} {rI : ℕ} {R : RobotDesc K} {junk : ℕ → ℕ → ℕ → K}
  {a : HLArgs K} {q q' : QPTask K} {dw : Option (Vec K)} {jw : ℕ → ℕ → K} {w : K}

/-- A `SetPointTask` over any high-level task: as long as the updates of the latter are defined, so is every
program of calls on the two, with weights of the dimension of the task. -/
theorem C104_setpoint (hm : QPTask.make mbs rI junk a = .ok q) (hR : mbs[rI]? = some R)
    {sqrt : K → Out K} (hs : SqrtOK sqrt) {k : K} (hk : 0 ≤ k) (hw : WeightsFit q.dim dw)
    {prog : List (HLCall K ⊕ SetPointOp K)} {ops : List (SetPointOp K)}
    (hp : drive f .update prog q = .ok (q', ops))
    (hc : ∀ c, Sum.inl c ∈ prog → c.Keeps rI R.mb.nrDof)
    (ho : ∀ o, Sum.inr o ∈ prog → SetPointFits rI q.dim o) :
    ∃ s0 s s', SetPoint.make sqrt (mbs.map RobotDesc.mb) rI q.dim k dw w jw = .ok s0 ∧
      forEach ops (SetPoint.step sqrt) s0 = .ok s ∧ s.update q'.hl = .ok s' := by
  obtain ⟨R', hR', -, i, sh, -⟩ := make_qp hm
  obtain rfl : R' = R := Option.some.inj (hR'.symm.trans hR)
  obtain ⟨g1, g2⟩ := drive_fits (upd := SetPointOp.update) (F := SetPointFits rI q.dim) (dim := q.dim)
    (fun hl h => h) hp rfl i sh hc ho
  refine C43_setpoint_runs hs ?_ hw hk g1 g2
  rw [List.length_map]
  exact (List.getElem?_eq_some_iff.1 hR).1

/-- `TrackingTask`. -/
theorem C104_tracking (hm : QPTask.make mbs rI junk a = .ok q) (hR : mbs[rI]? = some R)
    {gp gv : K} (hw : WeightsFit q.dim dw)
    {prog : List (HLCall K ⊕ TrackingOp K)} {ops : List (TrackingOp K)}
    (hp : drive f .update prog q = .ok (q', ops))
    (hc : ∀ c, Sum.inl c ∈ prog → c.Keeps rI R.mb.nrDof)
    (ho : ∀ o, Sum.inr o ∈ prog → TrackingFits rI q.dim o) :
    ∃ s0 s s', Tracking.make (mbs.map RobotDesc.mb) rI q.dim gp gv dw w jw = .ok s0 ∧
      forEach ops Tracking.step s0 = .ok s ∧ s.update q'.hl = .ok s' := by
  obtain ⟨R', hR', -, i, sh, -⟩ := make_qp hm
  obtain rfl : R' = R := Option.some.inj (hR'.symm.trans hR)
  obtain ⟨g1, g2⟩ := drive_fits (upd := TrackingOp.update) (F := TrackingFits rI q.dim) (dim := q.dim)
    (fun hl h => h) hp rfl i sh hc ho
  refine C43_tracking_runs ?_ hw g1 g2
  rw [List.length_map]
  exact (List.getElem?_eq_some_iff.1 hR).1

/-- `TrajectoryTask`. -/
theorem C104_trajectory (hm : QPTask.make mbs rI junk a = .ok q) (hR : mbs[rI]? = some R)
    {gp gv : K} (hw : WeightsFit q.dim dw)
    {prog : List (HLCall K ⊕ TrajectoryOp K)} {ops : List (TrajectoryOp K)}
    (hp : drive f .update prog q = .ok (q', ops))
    (hc : ∀ c, Sum.inl c ∈ prog → c.Keeps rI R.mb.nrDof)
    (ho : ∀ o, Sum.inr o ∈ prog → TrajectoryFits rI q.dim o) :
    ∃ s0 s s', Trajectory.make (mbs.map RobotDesc.mb) rI q.dim gp gv dw w jw = .ok s0 ∧
      forEach ops (Trajectory.step q.dim) s0 = .ok s ∧ s.update q'.hl = .ok s' := by
  obtain ⟨R', hR', -, i, sh, -⟩ := make_qp hm
  obtain rfl : R' = R := Option.some.inj (hR'.symm.trans hR)
  obtain ⟨g1, g2⟩ := drive_fits (upd := TrajectoryOp.update) (F := TrajectoryFits rI q.dim) (dim := q.dim)
    (fun hl h => h) hp rfl i sh hc ho
  refine C43_trajectory_runs ?_ hw g1 g2
  rw [List.length_map]
  exact (List.getElem?_eq_some_iff.1 hR).1

/-- `PIDTask`. -/
theorem C104_pid (hm : QPTask.make mbs rI junk a = .ok q) (hR : mbs[rI]? = some R)
    {gP gI gD : K} (hw : WeightsFit q.dim dw)
    {prog : List (HLCall K ⊕ PidOp K)} {ops : List (PidOp K)}
    (hp : drive f .update prog q = .ok (q', ops))
    (hc : ∀ c, Sum.inl c ∈ prog → c.Keeps rI R.mb.nrDof)
    (ho : ∀ o, Sum.inr o ∈ prog → PidFits rI q.dim o) :
    ∃ s0 s s', Pid.make (mbs.map RobotDesc.mb) rI q.dim gP gI gD dw w jw = .ok s0 ∧
      forEach ops Pid.step s0 = .ok s ∧ s.update q'.hl = .ok s' := by
  obtain ⟨R', hR', -, i, sh, -⟩ := make_qp hm
  obtain rfl : R' = R := Option.some.inj (hR'.symm.trans hR)
  obtain ⟨g1, g2⟩ := drive_fits (upd := PidOp.update) (F := PidFits rI q.dim) (dim := q.dim)
    (fun hl h => h) hp rfl i sh hc ho
  refine C43_pid_runs ?_ hw g1 g2
  rw [List.length_map]
  exact (List.getElem?_eq_some_iff.1 hR).1

end

end

namespace WrapEx

open KineEx

/-- The robot of `KineEx` with the names of its bodies. -/
def robot : RobotDesc ℚ :=
  ⟨⟨⟨mb, fun n => if n = "tip" then .ok [0, 1] else .throws .outOfRange⟩,
    fun n => if n = "tip" then .ok 1 else .throws .outOfRange⟩, []⟩

/-- A robot with one dof. -/
def other : RobotDesc ℚ := ⟨⟨⟨⟨[⟨"c", 1, none⟩], 1, [-1], [0]⟩, fun _ => .ok [0]⟩, fun _ => .ok 0⟩, []⟩

def fns : Fns ℚ := ⟨fun _ _ => 0, fun _ => 0, fun _ _ => 0, fun _ => 0, fun _ _ _ => 0, fun _ => 0,
  fun _ _ _ => 0, fun _ _ _ _ => 0, fun x => .ok x⟩

def tip : QPTask ℚ := ⟨1, .position (PositionT.make 1 [0, 1] 0 ⟨1, 0, 0⟩ (junk3 2 fun _ _ _ => 7))⟩

theorem tip_make : QPTask.make [other, robot] 1 (fun _ _ _ => 7) (.position "tip" 0 ⟨1, 0, 0⟩) = .ok tip := rfl

/-- A position task on the tip of the second of two robots: after its target has been moved it can be updated,
it has three rows, and two columns whatever the other robot has. -/
example : ∃ q r, forEach [.set (.position ⟨0, 1, 0⟩)] (HLCall.run fns) tip = .ok q ∧
    q.update fns [other, robot] [st, st] [[], [0, 0]] (fun _ _ _ => 0) = .ok r ∧ r.robotIndex = 1 ∧
    r.dim = 3 ∧ HL.Fits 3 r.hl ∧ r.hl.jac.cols = 2 := by
  refine ⟨⟨1, .position ((PositionT.make 1 [0, 1] 0 ⟨1, 0, 0⟩ (junk3 2 fun _ _ _ => 7)).setPosition ⟨0, 1, 0⟩)⟩,
    ?_⟩
  obtain ⟨r, hr⟩ := C104_defined (f := fns) (junk := fun _ _ _ => 0) (R := robot) (R1 := robot)
    (calls := [.set (.position ⟨0, 1, 0⟩)]) tip_make rfl (by simp [HLCall.Keeps]) rfl
    (mbs1 := [other, robot]) (mbcs := [st, st]) (na := [[], [0, 0]]) rfl rfl rfl rfl
    (b := 1) (J := ⟨[0, 1], ⟨1, 0, 0⟩⟩) (P := True) rfl trivial moves.sized rfl
  dsimp only [tip] at hr
  obtain ⟨g1, g2, g3, g4⟩ := C104_dimension (f := fns) (R := robot)
    (calls := [.set (.position ⟨0, 1, 0⟩), .update [other, robot] [st, st] [[], [0, 0]] fun _ _ _ => 0])
    (q' := r) tip_make rfl (by simp [HLCall.Keeps, robot]) (by
      simp only [forEach]
      change (_ >>= fun q => (_ >>= _)) = _
      simp only [HLCall.run, QPTask.set, HLTask.set, tip, Out.ok_bind, Out.pure_eq]
      rw [hr]
      rfl)
  refine ⟨r, rfl, hr, g1, g2, ?_, g4⟩
  rw [g2] at g3
  exact g3

end WrapEx

end Verif
