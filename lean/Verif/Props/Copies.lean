import Verif.Proofs.Copies

/-!
# C100: copies of visual servoing tasks and image constraints are values of their own

The specification of values (`Spec.valStep`, `Spec.Represents`, `Spec.SameOut`) is in Proofs/Copies.
-/

set_option autoImplicit false
set_option linter.unusedSectionVars false

namespace Verif

open Spec

theorem gazeCls_complete {K : Type} : (gazeCls : Cls (GazeF K)).Complete where
  pos := by simp [gazeCls]
  copyF _ := rfl
  copyNodup := by simp [gazeCls]
  copyCells i := by simp [gazeCls]; omega
  assignF _ _ := rfl
  assignCells i := by simp [gazeCls]; omega

theorem pbvsCls_complete {K : Type} : (pbvsCls : Cls (PbvsF K)).Complete where
  pos := by simp [pbvsCls]
  copyF _ := rfl
  copyNodup := by simp [pbvsCls]
  copyCells i := by simp [pbvsCls]; omega
  assignF _ _ := rfl
  assignCells i := by simp [pbvsCls]; omega

theorem imageCls_complete {K : Type} : (imageCls : Cls (ImageF K)).Complete where
  pos := by simp [imageCls]
  copyF _ := rfl
  copyNodup := by simp [imageCls]
  copyCells i := by simp [imageCls]; omega
  assignF _ _ := rfl
  assignCells i := by simp [imageCls]; omega

/-- A refinement forgets the addresses ahead. -/
theorem sameOut_represents {F C : Type} [Inhabited C] {n : ℕ} {x : Out (Heap F C)} {y : Out (Vars F C)}
    (h : SameOut (Rep n) x y) : SameOut (Represents n) x y := by
  cases x <;> cases y <;> simp_all [SameOut]
  exact h.toRepresents

section
variable {K : Type} [Inhabited K]

/-- **C100.** Every program that declares, copies, assigns, moves, uses and destroys gaze tasks has the
outcome it has when every variable is a value of its own. -/
theorem C100_gaze_partial (ops : List (ObjOp (GazeF K) (Cell K))) (hops : ∀ op ∈ ops, InClass 6 op) :
    SameOut (Represents 6) (gazeCls.run ops Heap.empty) (valRun ops fun _ => none) :=
  sameOut_represents (run_refines gazeCls gazeCls_complete ops hops (rep_empty 6))

/-- The same for position-based visual servoing tasks. -/
theorem C100_pbvs_partial (ops : List (ObjOp (PbvsF K) (Cell K))) (hops : ∀ op ∈ ops, InClass 3 op) :
    SameOut (Represents 3) (pbvsCls.run ops Heap.empty) (valRun ops fun _ => none) :=
  sameOut_represents (run_refines pbvsCls pbvsCls_complete ops hops (rep_empty 3))

/-- The same for image constraints. -/
theorem C100_image_partial (ops : List (ObjOp (ImageF K) (Cell K))) (hops : ∀ op ∈ ops, InClass 10 op) :
    SameOut (Represents 10) (imageCls.run ops Heap.empty) (valRun ops fun _ => none) :=
  sameOut_represents (run_refines imageCls imageCls_complete ops hops (rep_empty 10))

end

namespace Spec

/-- What is observable of a variable: its inline members and the content of its matrices. -/
def reads {F C : Type} (n : ℕ) (h : Heap F C) (v : ℕ) : Option (F × List (Option C)) :=
  (h.objs v).map fun o => (o.f, (List.range n).map fun i => (o.ptr i).bind h.mem)

/-- The operation changes the variable `v`, or begins or ends its lifetime; copying from it and assigning
from it do not. -/
def Changes {F C : Type} (v : ℕ) : ObjOp F C → Prop
  | .make w _ => w = v
  | .copy w _ => w = v
  | .assign w _ => w = v
  | .moveNew w u _ => w = v ∨ u = v
  | .moveTo w u _ => w = v ∨ u = v
  | .call w _ _ => w = v
  | .destroy w => w = v

end Spec

section
variable {F C : Type} [Inhabited C]

theorem reads_of_shows {n : ℕ} {h h' : Heap F C} {v w : ℕ} {x : Option (Val F C)}
    (h1 : Shows n h.mem (h.objs v) x) (h2 : Shows n h'.mem (h'.objs w) x) :
    reads n h v = reads n h' w := by
  unfold reads
  cases ho : h.objs v with
  | none =>
    rw [ho] at h1
    obtain rfl := Shows.none_left h1
    cases ho' : h'.objs w with
    | none => rfl
    | some o' => rw [ho'] at h2; exact (Shows.get h2).elim fun y hy => by simp at hy
  | some o =>
    rw [ho] at h1
    obtain ⟨y, rfl, e1, c1⟩ := Shows.get h1
    cases ho' : h'.objs w with
    | none => rw [ho'] at h2; exact absurd (Shows.none_left h2) (by simp)
    | some o' =>
      rw [ho'] at h2
      obtain ⟨y', e, e2, c2⟩ := Shows.get h2
      obtain rfl := Option.some.inj e
      simp only [Option.map_some, Option.some.injEq, Prod.mk.injEq, e1, e2, true_and]
      refine List.map_congr_left fun i hi => ?_
      have hi := List.mem_range.1 hi
      rcases c1 with ⟨k1, c1⟩ | ⟨c, k1, c1⟩ <;> rcases c2 with ⟨k2, c2⟩ | ⟨c', k2, c2⟩
      · rw [c1 i hi, c2 i hi]; rfl
      · rw [k1] at k2; simp at k2
      · rw [k1] at k2; simp at k2
      · rw [k1] at k2
        obtain rfl := Option.some.inj k2
        obtain ⟨p, p1, p2⟩ := c1 i hi
        obtain ⟨q, q1, q2⟩ := c2 i hi
        simp [p1, p2, q1, q2]

theorem valStep_keeps {op : ObjOp F C} {v : ℕ} (hv : ¬Changes v op) {a a' : Vars F C}
    (h : valStep op a = .ok a') : a' v = a v := by
  have up : ∀ {w : ℕ} {b : Vars F C} {x}, w ≠ v → Function.update b w x v = b v := by
    intro w b x hw
    exact Function.update_of_ne (fun e => hw e.symm) _ _
  cases op with
  | make w r =>
    simp only [valStep] at h
    split at h
    · simp at h
    · obtain ⟨x, -, hx⟩ := Out.bind_eq_ok.1 h
      rw [← Out.ok.inj hx, up hv]
  | copy w u =>
    simp only [valStep] at h
    split at h
    · rw [← Out.ok.inj h, up hv]
    · simp at h
  | assign w u =>
    simp only [valStep] at h
    split at h
    · split at h
      · simp at h
      · rw [← Out.ok.inj h]
    · split at h
      · rw [← Out.ok.inj h, up hv]
      · simp at h
  | moveNew w u junk =>
    simp only [Changes, not_or] at hv
    simp only [valStep] at h
    split at h
    · rw [← Out.ok.inj h, up hv.1, up hv.2]
    · simp at h
  | moveTo w u junk =>
    simp only [Changes, not_or] at hv
    simp only [valStep] at h
    split at h
    · split at h
      · rw [← Out.ok.inj h, up hv.2]
      · rw [← Out.ok.inj h, up hv.1, up hv.2]
    · simp at h
  | call w touch m =>
    simp only [valStep] at h
    split at h
    · obtain ⟨x, -, hx⟩ := Out.bind_eq_ok.1 h
      rw [← Out.ok.inj hx, up hv]
    · split at h
      · obtain ⟨x, -, hx⟩ := Out.bind_eq_ok.1 h
        rw [← Out.ok.inj hx, up hv]
      · simp at h
    · simp at h
  | destroy w =>
    simp only [valStep] at h
    split at h
    · rw [← Out.ok.inj h, up hv]
    · simp at h

theorem valRun_keeps {ops : List (ObjOp F C)} {v : ℕ} (hv : ∀ op ∈ ops, ¬Changes v op) {a a' : Vars F C}
    (h : valRun ops a = .ok a') : a' v = a v := by
  induction ops generalizing a with
  | nil => rw [← Out.ok.inj h]
  | cons op t ih =>
    obtain ⟨b, h1, h2⟩ := Out.bind_eq_ok.1 h
    rw [ih (fun o ho => hv o (by simp [ho])) h2, valStep_keeps (hv op (by simp)) h1]

/-- What a program reaches represents values. -/
theorem run_rep (T : Cls F) (hT : T.Complete) {ops : List (ObjOp F C)}
    (hops : ∀ op ∈ ops, InClass T.n op) {h : Heap F C} {a : Vars F C} (R : Rep T.n h a) {h' : Heap F C}
    (hr : T.run ops h = .ok h') : ∃ a', valRun ops a = .ok a' ∧ Rep T.n h' a' := by
  have := run_refines T hT ops hops R
  rw [hr] at this
  cases hv : valRun ops a with
  | ok a' => exact ⟨a', rfl, by rw [hv] at this; exact this⟩
  | ub => rw [hv] at this; exact this.elim
  | throws e => rw [hv] at this; exact this.elim

/-- **C100, independence.** Whatever a program does with other variables, including copies of `v` and
variables `v` was assigned to, is not observable through `v`. -/
theorem C100_independent (T : Cls F) (hT : T.Complete) (ops ops' : List (ObjOp F C))
    (hops : ∀ op ∈ ops, InClass T.n op) (hops' : ∀ op ∈ ops', InClass T.n op) (v : ℕ)
    (hv : ∀ op ∈ ops', ¬Changes v op) {h h' : Heap F C} (h1 : T.run ops Heap.empty = .ok h)
    (h2 : T.run ops' h = .ok h') : reads T.n h' v = reads T.n h v := by
  obtain ⟨a, -, R⟩ := run_rep T hT hops (rep_empty T.n) h1
  obtain ⟨a', e, R'⟩ := run_rep T hT hops' R h2
  refine reads_of_shows (R'.shows v) ?_
  rw [valRun_keeps hv e]
  exact R.shows v

/-- **C100, copying.** A copy, and a variable after an assignment, read as the original. -/
theorem C100_copy (T : Cls F) (hT : T.Complete) (ops : List (ObjOp F C))
    (hops : ∀ op ∈ ops, InClass T.n op) (w v : ℕ) {h h' : Heap F C}
    (h1 : T.run ops Heap.empty = .ok h)
    (h2 : T.step (.copy w v) h = .ok h' ∨ T.step (.assign w v) h = .ok h') :
    reads T.n h' w = reads T.n h v ∧ reads T.n h' v = reads T.n h v := by
  obtain ⟨a, -, R⟩ := run_rep T hT hops (rep_empty T.n) h1
  have main : ∀ (op : ObjOp F C), InClass T.n op → T.step op h = .ok h' →
      (∀ a', valStep op a = .ok a' → a' w = a v ∧ a' v = a v) →
      reads T.n h' w = reads T.n h v ∧ reads T.n h' v = reads T.n h v := by
    intro op hop hs hk
    have := step_refines T hT op hop R
    rw [hs] at this
    cases hv : valStep op a with
    | ok a' =>
      rw [hv] at this
      obtain ⟨k1, k2⟩ := hk a' hv
      have sw := this.shows w
      have sv := this.shows v
      rw [k1] at sw
      rw [k2] at sv
      exact ⟨reads_of_shows sw (R.shows v), reads_of_shows sv (R.shows v)⟩
    | ub => rw [hv] at this; exact this.elim
    | throws e => rw [hv] at this; exact this.elim
  rcases h2 with h2 | h2
  · refine main _ (by trivial) h2 fun a' ha => ?_
    simp only [valStep] at ha
    split at ha
    · rename_i f c e1 e2
      have hne : v ≠ w := by rintro rfl; rw [e1] at e2; simp at e2
      rw [← Out.ok.inj ha]
      simp [e2, Function.update_of_ne hne]
    · simp at ha
  · refine main _ (by trivial) h2 fun a' ha => ?_
    simp only [valStep] at ha
    split at ha
    · rename_i hwv
      split at ha
      · simp at ha
      · rw [← Out.ok.inj ha, hwv]; exact ⟨rfl, rfl⟩
    · rename_i hne
      split at ha
      · rename_i e1 e2
        rw [← Out.ok.inj ha]
        simp [e2, Function.update_of_ne (fun e : v = w => hne e.symm)]
      · simp at ha

end

/-! ## The member functions on the members are those on values -/

section
variable {K : Type} [Field K] [DecidableEq K]

theorem vecAt_ne_throws {α : Type} {l : List α} {i : ℕ} {e : Exn} : vecAt l i ≠ .throws e := by
  unfold vecAt; split <;> simp

theorem velocityAt_ne_throws {R : Type} [CommRing R] {J : Jac R} {st : KState R} {X : PT R} {e : Exn} :
    J.velocityAt st X ≠ .throws e := by
  unfold Jac.velocityAt Jac.body
  cases J.path.getLast? with
  | none => simp
  | some i =>
    simp only [Out.ok_bind]
    cases h : vecAt st.bodyVelB i with
    | throws e => exact absurd h vecAt_ne_throws
    | ub => simp
    | ok V => simp

theorem normalAccAt_ne_throws {R : Type} [CommRing R] {J : Jac R} {st : KState R} {X : PT R} {W : MV R}
    {e : Exn} : J.normalAccAt st X W ≠ .throws e := by
  unfold Jac.normalAccAt Jac.body
  cases J.path.getLast? with
  | none => simp
  | some i =>
    simp only [Out.ok_bind]
    cases h : vecAt st.bodyVelB i with
    | throws e => exact absurd h vecAt_ne_throws
    | ub => simp
    | ok V =>
      simp only [Out.ok_bind]
      cases h : vecAt st.normalAccB i with
      | throws e => exact absurd h vecAt_ne_throws
      | ub => simp
      | ok V => simp

/-- What the rest of the model keeps of a gaze task. -/
def gazeView (x : GazeF K × (ℕ → Cell K)) : GazeT K :=
  ⟨pair2 (x.2 0), pair2 (x.2 1), x.1.depth, x.1.bodyIndex, x.1.jac, x.1.X_b_gaze,
    (x.1.eval.get 0, x.1.eval.get 1), x.1.speed, x.1.normalAcc, x.1.jacMat⟩

/-- **C100, member functions.** The member functions of `GazeTask`, statement by statement on its
members, do to the value what Model/Visual says: in particular no result depends on what the matrices
held before. -/
theorem C100_gaze_members (D : (ℕ → K) → K → ℕ → K) (mb : MultiBody K) (st : KState K) (f : GazeF K)
    (c : ℕ → Cell K) (p ref : K × K) (q : V3 K) :
    gazeView <$> gazeError2 p ref f c = .ok ((gazeView (f, c)).error2 p ref) ∧
    gazeView <$> gazeError3 q ref f c = (gazeView (f, c)).error3 q ref ∧
    gazeView <$> gazeUpdate D mb st f c = (gazeView (f, c)).update D mb st := by
  refine ⟨?_, ?_, ?_⟩
  · simp [gazeError2, gazeView, GazeT.error2, pair2, cell2]
  · unfold gazeError3 GazeT.error3 project
    cases fdiv q.x q.z <;> try rfl
    simp only [Out.ok_bind]
    cases fdiv q.y q.z <;> rfl
  · unfold gazeUpdate GazeT.update visualUpdate
    simp only [gazeView]
    cases hL : imagePointJacobian (pair2 (c 0)) f.depth with
    | ub => rfl
    | throws e => rfl
    | ok L =>
      simp only [Out.ok_bind]
      cases hX : vecAt st.bodyPosW f.bodyIndex with
      | throws e => exact absurd hX vecAt_ne_throws
      | ub =>
        cases hV : f.jac.velocityAt st f.X_b_gaze with
        | throws e => exact absurd hV velocityAt_ne_throws
        | ub => rfl
        | ok V =>
          cases hn : f.jac.normalAccAt st f.X_b_gaze 0 with
          | throws e => exact absurd hn normalAccAt_ne_throws
          | ub => rfl
          | ok n => rfl
      | ok X =>
        cases hV : f.jac.velocityAt st f.X_b_gaze with
        | throws e => rfl
        | ub => rfl
        | ok V =>
          cases hn : f.jac.normalAccAt st f.X_b_gaze 0 with
          | throws e => rfl
          | ub => rfl
          | ok n =>
            simp only [Out.ok_bind]
            cases hM : f.jac.jacobianAt mb st (f.X_b_gaze.mul X) with
            | throws e => rfl
            | ub => rfl
            | ok M =>
              simp only [Out.ok_bind]
              cases hB : M.block 0 0 6 (pathDof mb f.jac.path) with
              | throws e => rfl
              | ub => rfl
              | ok sh =>
                simp only [Out.ok_bind, Function.update_self, Function.update_of_ne, ne_eq,
                  Nat.reduceEqDiff, not_false_eq_true]
                cases hF : fullJacobian mb f.jac.path (lMul 2 L sh) f.jacMat with
                | throws e => rfl
                | ub => rfl
                | ok F => simp [gazeView, pair2]

end

section
variable {K : Type} [CommRing K]

/-- What the rest of the model keeps of a position-based visual servoing task. -/
def pbvsView (x : PbvsF K × (ℕ → Cell K)) : PbvsT K :=
  ⟨x.1.X_t_s, x.1.X_b_s, x.1.bodyIndex, x.1.jac,
    ⟨⟨x.1.eval.get 0, x.1.eval.get 1, x.1.eval.get 2⟩, ⟨x.1.eval.get 3, x.1.eval.get 4, x.1.eval.get 5⟩⟩,
    x.1.speed, x.1.normalAcc, x.1.jacMat⟩

/-- The same for `PositionBasedVisServoTask`. -/
theorem C100_pbvs_members (aa : M3 K → K × V3 K) (L : M3 K → ℕ → ℕ → K) (mb : MultiBody K)
    (st : KState K) (f : PbvsF K) (c : ℕ → Cell K) (T : PT K) :
    pbvsView <$> pbvsError T f c = .ok ((pbvsView (f, c)).error T) ∧
    pbvsView <$> pbvsUpdate aa L mb st f c
      = (pbvsView (f, c)).update (fun m => (aa m).1 • (aa m).2) L mb st := by
  refine ⟨rfl, ?_⟩
  unfold pbvsUpdate PbvsT.update visualUpdate
  simp only [pbvsView]
  cases hX : vecAt st.bodyPosW f.bodyIndex with
  | throws e => exact absurd hX vecAt_ne_throws
  | ub =>
    cases hV : f.jac.velocityAt st f.X_b_s with
    | throws e => exact absurd hV velocityAt_ne_throws
    | ub => rfl
    | ok V =>
      cases hn : f.jac.normalAccAt st f.X_b_s 0 with
      | throws e => exact absurd hn normalAccAt_ne_throws
      | ub => rfl
      | ok n => rfl
  | ok X =>
    cases hV : f.jac.velocityAt st f.X_b_s with
    | throws e => rfl
    | ub => rfl
    | ok V =>
      cases hn : f.jac.normalAccAt st f.X_b_s 0 with
      | throws e => rfl
      | ub => rfl
      | ok n =>
        simp only [Out.ok_bind]
        cases hM : f.jac.jacobianAt mb st (f.X_b_s.mul X) with
        | throws e => rfl
        | ub => rfl
        | ok M =>
          simp only [Out.ok_bind]
          cases hB : M.block 0 0 6 (pathDof mb f.jac.path) with
          | throws e => rfl
          | ub => rfl
          | ok sh =>
            simp only [Out.ok_bind, Function.update_self, Function.update_of_ne, ne_eq,
              Nat.reduceEqDiff, not_false_eq_true]
            cases hF : fullJacobian mb f.jac.path (lMul 6 (L f.X_t_s.E) sh) f.jacMat with
            | throws e => rfl
            | ub => rfl
            | ok F =>
              simp [hF, pbvsView, V3.get, pbvsLdot]
              exact ⟨rfl, rfl⟩

end

section
variable {K : Type} [Field K] [LinearOrder K]

/-- What the rest of the model keeps of an image constraint. -/
def imageView (x : ImageF K × (ℕ → Cell K)) : Image K :=
  ⟨x.1.points, x.1.robotPoints.map ImgRobotPoint.bName, x.1.robotIndex, x.1.jac.path, x.1.alphaDBegin, x.1.nrVars,
    x.1.step, x.1.accel, x.1.nrAct, x.1.jacMat, fun i => x.2 6 i 0, fun i => x.2 7 i 0, fun i => x.2 8 i 0,
    fun i => x.2 9 i 0, x.1.damping, x.1.off, x.1.inv, x.1.dir, x.1.A, x.1.b⟩

theorem forEach_view {α σ τ : Type} {f : α → σ → Out σ} {g : α → τ → Out τ} (v : σ → τ)
    (h : ∀ a s, v <$> f a s = g a (v s)) (l : List α) (s : σ) : v <$> forEach l f s = forEach l g (v s) := by
  induction l generalizing s with
  | nil => rfl
  | cons a t ih =>
    simp only [forEach]
    rw [← h a s]
    cases f a s with
    | ok s1 => exact ih s1
    | ub => rfl
    | throws e => rfl

theorem forRange_view {σ τ : Type} {f : ℕ → σ → Out σ} {g : ℕ → τ → Out τ} (v : σ → τ)
    (h : ∀ a s, v <$> f a s = g a (v s)) (n : ℕ) (s : σ) : v <$> forRange n f s = forRange n g (v s) := by
  induction n with
  | zero => rfl
  | succ n ih =>
    simp only [forRange]
    rw [← ih]
    cases forRange n f s with
    | ok s1 => exact h n s1
    | ub => rfl
    | throws e => rfl

theorem imageFill_view (mb : MultiBody K) (i : ℕ) (f : ImageF K) (c : ℕ → Cell K) :
    imageView <$> (imageFill mb i f >>= fun f => pure (f, c)) = (imageView (f, c)).fill mb i := by
  unfold imageFill Image.fill
  simp only [imageView]
  cases f.alphaDBegin with
  | none => rfl
  | some a =>
    simp only [Out.ok_bind]
    cases f.jacMat.block i 0 1 mb.nrDof with
    | ub => rfl
    | throws e => rfl
    | ok r =>
      simp only [Out.ok_bind]
      cases f.A.setBlock f.nrAct a ⟨1, mb.nrDof, fun x col => f.inv * r.get x col⟩ <;> rfl

theorem imageAxis_view (mb : MultiBody K) (p bc : ℕ → K) (i : ℕ) (x : ImageF K × (ℕ → Cell K)) :
    imageView <$> imageAxis mb p bc i x = (imageView x).axis mb p bc i := by
  obtain ⟨f, c⟩ := x
  have last : ∀ (v : K), imageView <$> (f.b.set f.nrAct v >>= fun b => pure ({ f with b := b }, c))
      = ((imageView (f, c)).b.set (imageView (f, c)).nrAct v >>= fun b => pure { imageView (f, c) with b := b }) := by
    intro v
    simp only [imageView]
    cases f.b.set f.nrAct v <;> rfl
  have act : ∀ (inv s t : K) (k : K → K), imageView <$> (fdiv s t >>= fun q =>
        f.b.set f.nrAct (k q) >>= fun b => imageFill mb i { f with inv := inv, b := b } >>= fun f => pure (f, c))
      = (fdiv s t >>= fun q => (imageView (f, c)).b.set (imageView (f, c)).nrAct (k q) >>= fun b =>
        Image.fill mb i { imageView (f, c) with inv := inv, b := b }) := by
    intro inv s t k
    cases fdiv s t with
    | ub => rfl
    | throws e => rfl
    | ok q =>
      simp only [Out.ok_bind]
      have : (imageView (f, c)).b.set (imageView (f, c)).nrAct (k q) = f.b.set f.nrAct (k q) := rfl
      rw [this]
      cases f.b.set f.nrAct (k q) with
      | ub => rfl
      | throws e => rfl
      | ok b =>
        simp only [Out.ok_bind]
        exact imageFill_view mb i { f with inv := inv, b := b } c
  unfold imageAxis Image.axis
  dsimp only
  by_cases h1 : f.dir = 1 ∨ (c 6 (if i = 0 then 1 else 0) 0 < p (if i = 0 then 1 else 0) ∧
      p (if i = 0 then 1 else 0) < c 7 (if i = 0 then 1 else 0) 0)
  · rw [if_pos h1]
    refine Eq.trans ?_ (if_pos h1).symm
    by_cases h2 : f.dir * p i < f.dir * c 6 i 0 ∧ (f.dir = 1 ∨ p i < 0)
    · rw [if_pos h2]
      refine Eq.trans ?_ (if_pos h2).symm
      by_cases h3 : f.dir * c 8 i 0 < f.dir * p i
      · rw [if_pos h3]
        refine Eq.trans ?_ (if_pos h3).symm
        exact act _ _ _ _
      · rw [if_neg h3]
        refine Eq.trans ?_ (if_neg h3).symm
        exact last _
    · rw [if_neg h2]
      refine Eq.trans ?_ (if_neg h2).symm
      by_cases h4 : f.dir * c 7 i 0 < f.dir * p i ∧ (f.dir = 1 ∨ 0 < p i)
      · rw [if_pos h4]
        refine Eq.trans ?_ (if_pos h4).symm
        by_cases h3 : f.dir * p i < f.dir * c 9 i 0
        · rw [if_pos h3]
          refine Eq.trans ?_ (if_pos h3).symm
          exact act _ _ _ _
        · rw [if_neg h3]
          refine Eq.trans ?_ (if_neg h3).symm
          exact last _
      · rw [if_neg h4]
        refine Eq.trans ?_ (if_neg h4).symm
        rfl
  · rw [if_neg h1]
    exact (if_neg h1).symm

theorem imagePoint_view (mb : MultiBody K) (env : ImageEnv K) (pt : ImgPoint K) (x : ImageF K × (ℕ → Cell K)) :
    imageView <$> imagePoint mb env pt x = (imageView x).point mb env pt := by
  obtain ⟨f, c⟩ := x
  unfold imagePoint Image.point imageComponents Image.components
  simp only [show (imageView (f, c)).path = f.jac.path from rfl, show (imageView (f, c)).jacMat = f.jacMat from rfl,
    show (imageView (f, c)).accel = f.accel from rfl, show (imageView (f, c)).step = f.step from rfl, dot6]
  cases env.jac.block 0 0 6 (pathDof mb f.jac.path) with
  | ub => rfl
  | throws e => rfl
  | ok J =>
    simp only [Out.ok_bind, Function.update_self, Function.update_of_ne, ne_eq, Nat.reduceEqDiff, not_false_eq_true,
      OfNat.ofNat_ne_zero, zero_ne_one, one_ne_zero, OfNat.ofNat_ne_one, OfNat.zero_ne_ofNat, OfNat.one_ne_ofNat]
    cases fullJacobian mb f.jac.path ⟨2, J.cols, fun i col =>
        ∑ k ∈ Finset.range 6, (f.accel * env.imgJac pt.p pt.depth i k) * J.get k col⟩ f.jacMat with
    | ub => rfl
    | throws e => rfl
    | ok full =>
      simp only [Out.ok_bind, Out.pure_eq]
      rw [forRange_view imageView (imageAxis_view mb _ _)]
      rfl

/-- The same for `ImageConstr`: also here what the matrices held before has no influence; the limits set last
have. -/
theorem C100_image_members (mbs : List (MultiBody K)) (env : ImageEnv K) (d : SolverData K) (f : ImageF K)
    (c : ℕ → Cell K) (min max p : ℕ → K) (i s dmp off depth : K) :
    imageView <$> imageSetLimits min max i s dmp off f c = .ok ((imageView (f, c)).setLimits min max i s dmp off) ∧
    imageView <$> imageAddPoint p depth f c = .ok ((imageView (f, c)).addPoint p depth).1 ∧
    imageView <$> imageUpdateNrVars d f c = (imageView (f, c)).updateNrVars d ∧
    imageView <$> imageUpdate mbs env f c = (imageView (f, c)).update mbs env := by
  refine ⟨?_, rfl, ?_, ?_⟩
  · simp [imageSetLimits, imageView, Image.setLimits]
  · unfold imageUpdateNrVars Image.updateNrVars
    simp only [imageView, List.length_map]
    cases vecAt d.alphaDBegin f.robotIndex <;> rfl
  · unfold imageUpdate Image.update
    dsimp only
    have : (imageView (f, c)).robotIndex = f.robotIndex := rfl
    rw [this]
    cases vecAt mbs f.robotIndex with
    | ub => rfl
    | throws e => rfl
    | ok mb =>
      simp only [Out.ok_bind]
      rw [forEach_view imageView (imagePoint_view mb env)]
      rfl

/-- **C100, constructors.** The three constructors, member by member, make the values of the rest of the
model. -/
theorem C100_constructors (mb : MultiBody K) (b : ℕ) (path : List ℕ) (p ref : K × K) (depth : K) (X Y : PT K)
    (junk : ℕ → ℕ → K) (rks : List (RobotKin K)) (r : ℕ) (body : String) (step dir : K) :
    gazeView <$> gazeMake2 mb b path p depth X ref junk = .ok (GazeT.make2 mb b path p depth X ref junk) ∧
    pbvsView <$> pbvsMake mb b path X Y junk = .ok (PbvsT.make mb b path X Y junk) ∧
    imageView <$> imageMake rks r body b X step dir junk = Image.make rks r body step dir junk := by
  refine ⟨?_, rfl, ?_⟩
  · simp [gazeMake2, gazeView, GazeT.make2, pair2, cell2]
  · unfold imageMake Image.make
    cases vecAt rks r with
    | ok rk =>
      simp only [Out.ok_bind]
      cases rk.path body <;> rfl
    | ub => rfl
    | throws e => rfl

end

/-! ## What is missing: assigning to a moved-from variable -/

namespace Spec

/-- The operations as they would be with members copied the ordinary way: assigning to a moved-from
variable gives it the value. -/
def valStepFull {F C : Type} [Inhabited C] (op : ObjOp F C) (a : Vars F C) : Out (Vars F C) :=
  match op with
  | .assign w v =>
    match a w, a v with
    | some _, some ⟨f, some c⟩ => .ok (Function.update a w (some ⟨f, some c⟩))
    | _, _ => valStep (.assign w v) a
  | op => valStep op a

/-- A program on such values. -/
def valRunFull {F C : Type} [Inhabited C] (ops : List (ObjOp F C)) (a : Vars F C) : Out (Vars F C) :=
  forEach ops valStepFull a

/-- `T v0(x), v1(y); T v2(std::move(v0)); v0 = v1;` -/
def reuse {F C : Type} (x y : F × (ℕ → C)) (junk : F) : List (ObjOp F C) :=
  [.make 0 (.ok x), .make 1 (.ok y), .moveNew 2 0 junk, .assign 0 1]

end Spec

section
variable {F C : Type} [Inhabited C]

/-- **C100, negation.** Assigning to a gaze task, visual servoing task or image constraint that was moved
from, which gives an ordinary class its value back, dereferences a null pointer. -/
theorem C100_moved_counterexample (T : Cls F) (hT : T.Complete) (x y : F × (ℕ → C)) (junk : F) :
    T.run (reuse x y junk) Heap.empty = .ub ∧
    ∃ a, valRunFull (reuse x y junk) (fun _ => none) = .ok a ∧ a 0 = some ⟨y.1, some y.2⟩ := by
  constructor
  · have h := run_refines T hT (reuse x y junk) (by simp [reuse, InClass]) (rep_empty (F := F) (C := C) T.n)
    have e : valRun (reuse x y junk) (fun _ => none) = .ub := by
      simp [valRun, reuse, forEach, valStep, Function.update_of_ne]
    rw [e] at h
    cases hr : T.run (reuse x y junk) Heap.empty with
    | ub => rfl
    | ok h' => rw [hr] at h; exact h.elim
    | throws e => rw [hr] at h; exact h.elim
  · simp [valRunFull, reuse, forEach, valStepFull, valStep, Function.update_of_ne]

/-- Move assignment gives such a variable a value again. -/
theorem C100_moved_restored (T : Cls F) (hT : T.Complete) (x y : F × (ℕ → C)) (junk : F) :
    ∃ h, T.run [.make 0 (.ok x), .make 1 (.ok y), .moveNew 2 0 junk, .moveTo 0 1 junk] Heap.empty = .ok h ∧
      reads T.n h 0 = some (y.1, (List.range T.n).map fun i => some (y.2 i)) ∧
      reads T.n h 2 = some (x.1, (List.range T.n).map fun i => some (x.2 i)) := by
  have h := run_refines T hT [.make 0 (.ok x), .make 1 (.ok y), .moveNew 2 0 junk, .moveTo 0 1 junk]
    (by simp [InClass]) (rep_empty (F := F) (C := C) T.n)
  cases hr : T.run [.make 0 (.ok x), .make 1 (.ok y), .moveNew 2 0 junk, .moveTo 0 1 junk] Heap.empty with
  | ub =>
    rw [hr] at h
    simp [valRun, forEach, valStep, Function.update_of_ne, SameOut] at h
  | throws e =>
    rw [hr] at h
    simp [valRun, forEach, valStep, Function.update_of_ne, SameOut] at h
  | ok h' =>
    rw [hr] at h
    simp only [valRun, forEach, valStep, Function.update_self, Out.ok_bind, Out.pure_eq, ne_eq,
      one_ne_zero, not_false_eq_true, Function.update_of_ne, OfNat.ofNat_ne_zero, OfNat.ofNat_ne_one,
      zero_ne_one, if_false, SameOut] at h
    have read : ∀ v (z : F × (ℕ → C)), Shows T.n h'.mem (h'.objs v) (some ⟨z.1, some z.2⟩) →
        reads T.n h' v = some (z.1, (List.range T.n).map fun i => some (z.2 i)) := by
      intro v z hz
      cases ho : h'.objs v with
      | none => rw [ho] at hz; exact absurd (Shows.none_left hz) (by simp)
      | some o =>
        rw [ho] at hz
        simp only [reads, ho, Option.map_some, Option.some.injEq, Prod.mk.injEq]
        refine ⟨hz.1, List.map_congr_left fun i hi => ?_⟩
        obtain ⟨p, p1, p2⟩ := hz.2 i (List.mem_range.1 hi)
        simp [p1, p2]
    refine ⟨h', rfl, read 0 y ?_, read 2 x ?_⟩
    · have := h.shows 0
      simpa [Function.update_of_ne] using this
    · have := h.shows 2
      simpa [Function.update_of_ne] using this

end

/-! ## Examples -/

namespace CopiesEx

/-- A gaze task on the first body of the robot without joints. -/
def task (p : ℚ × ℚ) : Out (GazeF ℚ × (ℕ → Cell ℚ)) :=
  gazeMake2 ⟨[], 1, [], []⟩ 0 [0] p 2 (PT.ofTrans 0) (0, 0) (fun _ _ => 0)

/-- `GazeTask t(p), u(t); u.error(q); t = u; u.error(p);` -/
def program (p q : ℚ × ℚ) : List (ObjOp (GazeF ℚ) (Cell ℚ)) :=
  [.make 0 (task p), .copy 1 0, .call 1 [0, 1] (gazeError2 q (0, 0)), .assign 0 1,
    .call 1 [0, 1] (gazeError2 p (0, 0))]

end CopiesEx

/-- The hypotheses of C100 hold for this program, it runs, and in the end the first task has the point
assigned to it, not the one its copy got later. -/
example : (∀ op ∈ CopiesEx.program (1, 2) (3, 4), InClass 6 op) ∧
    ∃ h, gazeCls.run (CopiesEx.program (1, 2) (3, 4)) Heap.empty = .ok h ∧
      ((reads 6 h 0).map fun x => (x.2.getD 0 none).map pair2) = some (some (3, 4)) ∧
      ((reads 6 h 1).map fun x => (x.2.getD 0 none).map pair2) = some (some (1, 2)) := by
  refine ⟨by simp [CopiesEx.program, InClass], ?_⟩
  exact ⟨_, rfl, rfl, rfl⟩

end Verif
