import Verif.Model.Throwing
import Verif.Props.Solver
import Verif.Proofs.Registry

/-!
# C106: what an exception leaves behind

Every call of the solver that can throw is seen by a caller that catches the exception: outcome and
state left.  See `Model/Throwing.lean`.
-/

set_option autoImplicit false
set_option linter.unusedSectionVars false

namespace Verif

/-! ## Which statements can throw -/

/-- The call returns or is undefined, but does not throw. -/
def NoThrow {α : Type} (x : Out α) : Prop := ∀ e, x ≠ .throws e

namespace NoThrow

variable {α β σ : Type}

theorem ok (a : α) : NoThrow (.ok a : Out α) := by intro e h; cases h
theorem pure' (a : α) : NoThrow (pure a : Out α) := by intro e h; cases h
theorem ub : NoThrow (.ub : Out α) := by intro e h; cases h

theorem bind {x : Out α} {f : α → Out β} (hx : NoThrow x) (hf : ∀ a, NoThrow (f a)) :
    NoThrow (x >>= f) := by
  cases x with
  | ok a => exact hf a
  | ub => exact ub
  | throws e => exact absurd rfl (hx e)

theorem forEach {l : List α} {f : α → σ → Out σ} {s : σ} (hf : ∀ a ∈ l, ∀ s, NoThrow (f a s)) :
    NoThrow (forEach l f s) := by
  induction l generalizing s with
  | nil => exact ok _
  | cons a t ih =>
    exact bind (hf a (by simp) s) fun s' => ih fun b hb => hf b (by simp [hb])

theorem forRange {n : ℕ} {f : ℕ → σ → Out σ} {s : σ} (hf : ∀ i s, NoThrow (f i s)) :
    NoThrow (forRange n f s) := by
  induction n with
  | zero => exact ok _
  | succ n ih => exact bind ih fun s' => hf n s'

theorem vecAt (l : List α) (i : ℕ) : NoThrow (vecAt l i) := by
  unfold Verif.vecAt; split <;> first | exact ok _ | exact ub
theorem vecAtI (l : List α) (i : ℤ) : NoThrow (vecAtI l i) := by
  unfold Verif.vecAtI; split
  · exact ub
  · exact vecAt _ _
theorem vecSet (l : List α) (i : ℕ) (a : α) : NoThrow (vecSet l i a) := by
  unfold Verif.vecSet; split <;> first | exact ok _ | exact ub
theorem at' (v : Vec α) (i : ℕ) : NoThrow (v.at' i) := by
  unfold Vec.at'; split <;> first | exact ok _ | exact ub
theorem atI (v : Vec α) (i : ℤ) : NoThrow (v.atI i) := by
  unfold Vec.atI; split
  · exact ub
  · exact at' _ _
theorem set (v : Vec α) (i : ℕ) (a : α) : NoThrow (v.set i a) := by
  unfold Vec.set; split <;> first | exact ok _ | exact ub
theorem setI (v : Vec α) (i : ℤ) (a : α) : NoThrow (v.setI i a) := by
  unfold Vec.setI; split
  · exact ub
  · exact set _ _ _
theorem segment (v : Vec α) (b n : ℕ) : NoThrow (v.segment b n) := by
  unfold Vec.segment; split <;> first | exact ok _ | exact ub
theorem setSegment (v : Vec α) (b : ℕ) (w : Vec α) : NoThrow (v.setSegment b w) := by
  unfold Vec.setSegment; split <;> first | exact ok _ | exact ub
theorem addSegment [Add α] [Mul α] (v : Vec α) (b : ℕ) (c : α) (w : Vec α) :
    NoThrow (v.addSegment b c w) := by
  unfold Vec.addSegment; split <;> first | exact ok _ | exact ub
theorem block (m : Mat α) (i j r c : ℕ) : NoThrow (m.block i j r c) := by
  unfold Mat.block; split <;> first | exact ok _ | exact ub
theorem setBlock (m : Mat α) (i j : ℕ) (b : Mat α) : NoThrow (m.setBlock i j b) := by
  unfold Mat.setBlock; split <;> first | exact ok _ | exact ub
theorem addBlock [Add α] [Mul α] (m : Mat α) (i j : ℕ) (w : α) (b : Mat α) :
    NoThrow (m.addBlock i j w b) := by
  unfold Mat.addBlock; split <;> first | exact ok _ | exact ub

end NoThrow

/-- Discharges `NoThrow` goals by following the structure of the body. -/
macro "no_throw" : tactic => `(tactic|
  repeat' (first
    | exact NoThrow.ok _ | exact NoThrow.pure' _ | exact NoThrow.ub
    | exact NoThrow.vecAt _ _ | exact NoThrow.vecAtI _ _ | exact NoThrow.vecSet _ _ _
    | exact NoThrow.at' _ _ | exact NoThrow.atI _ _ | exact NoThrow.set _ _ _
    | exact NoThrow.setI _ _ _ | exact NoThrow.segment _ _ _ | exact NoThrow.setSegment _ _ _
    | exact NoThrow.addSegment _ _ _ _ | exact NoThrow.block _ _ _ _ _
    | exact NoThrow.setBlock _ _ _ _ | exact NoThrow.addBlock _ _ _ _ _
    | assumption
    | refine NoThrow.forEach (fun _ _ _ => ?_)
    | refine NoThrow.forRange (fun _ _ => ?_)
    | refine NoThrow.bind ?_ (fun _ => ?_)
    | split))

section
variable {K Ob W R : Type} [Field K] [LinearOrder K]

theorem layout_noThrow (old : SolverData K) (mbs : List (MultiBody K))
    (uni : List (UniContact K)) (bi : List (BiContact K)) : NoThrow (layout old mbs uni bi) := by
  have h1 : ∀ (mb : MultiBody K) b deps, NoThrow (mimicLoop mb b deps) := by
    intro mb b deps
    unfold mimicLoop MultiBody.jointIndexByName MultiBody.jointPosInDof
    no_throw
  have h2 : ∀ r s, NoThrow (alphaStep mbs r s) := by
    intro r s
    unfold alphaStep
    repeat' (first
      | exact h1 _ _ _ | exact NoThrow.vecAt _ _ | exact NoThrow.vecSet _ _ _
      | exact NoThrow.pure' _ | refine NoThrow.bind ?_ (fun _ => ?_) | split)
  have h3 : ∀ (n : Out ℕ) c s, NoThrow n → NoThrow (lamStep (K := K) n c s) := by
    intro n c s hn
    unfold lamStep
    no_throw
  have h4 : ∀ c : UniContact K, NoThrow c.nrLambda := by
    intro c
    unfold UniContact.nrLambda UniContact.nrLambdaAt
    no_throw
  have h5 : ∀ c : BiContact K, NoThrow c.nrLambda := by
    intro c
    unfold BiContact.nrLambda BiContact.nrLambdaAt
    no_throw
  unfold layout
  refine NoThrow.bind (NoThrow.forRange h2) fun _ => ?_
  refine NoThrow.bind (NoThrow.forEach fun c _ s => h3 _ _ s (h4 c)) fun _ => ?_
  refine NoThrow.bind (NoThrow.forEach fun c _ s => h3 _ _ s (h5 c)) fun _ => ?_
  exact NoThrow.pure' _

theorem computeNormalAccB_noThrow (mbs : List (MultiBody K)) (mbcs : List (Mbc K R))
    (d : SolverData K) : NoThrow (computeNormalAccB mbs mbcs d) := by
  unfold computeNormalAccB normalAccRobot normalAccJoint
  no_throw

theorem setDependencies_noThrow (n : ℕ) (deps : List (Dep K)) (b : Backend K) :
    NoThrow (b.setDependencies n deps) := by
  have h : ∀ s : DepSt K, NoThrow (setDependencies n deps s) := by
    intro s
    unfold setDependencies idxStep depTripStep fromTriplets
    no_throw
  cases b <;> exact NoThrow.bind (h _) fun _ => NoThrow.pure' _

theorem reduceQC_noThrow (QFull : Mat K) (CFull : Vec K) (M : Mat K) :
    NoThrow (reduceQC QFull CFull M) := by
  unfold reduceQC
  no_throw

theorem reduceA_noThrow (A M : Mat K) : NoThrow (reduceA A M) := by
  unfold reduceA
  no_throw

theorem reduceBound_noThrow (XL XU : Vec (Ext K)) (ds : DepSt K) (s : Vec (Ext K) × Vec (Ext K)) :
    NoThrow (reduceBound XL XU ds s) := by
  unfold reduceBound reduceBoundCopy reduceBoundDep
  no_throw

theorem updateMatrix_noThrow (inp : QPInput K) (b : Backend K) : NoThrow (b.updateMatrix inp) := by
  have q : ∀ l n s, NoThrow (fillQC (K := K) l n s) := by
    intro l n s; unfold fillQC fillTask diagStep; no_throw
  have bd : ∀ l s, NoThrow (fillBound (K := K) l s) := by
    intro l s; unfold fillBound fillBoundStep; no_throw
  have e1 : ∀ l n s, NoThrow (fillEqStd (K := K) l n s) := by
    intro l n s; unfold fillEqStd fillEqStdStep; no_throw
  have e2 : ∀ l n s, NoThrow (fillInEqStd (K := K) l n s) := by
    intro l n s; unfold fillInEqStd fillInEqStdStep; no_throw
  have e3 : ∀ l n s, NoThrow (fillGenStd (K := K) l n s) := by
    intro l n s; unfold fillGenStd fillGenStdStep; no_throw
  have g1 : ∀ l n s, NoThrow (fillEqGen (K := K) l n s) := by
    intro l n s; unfold fillEqGen fillEqGenStep; no_throw
  have g2 : ∀ l n s, NoThrow (fillInEqGen (K := K) l n s) := by
    intro l n s; unfold fillInEqGen fillInEqGenStep; no_throw
  have g3 : ∀ l n s, NoThrow (fillGenGen (K := K) l n s) := by
    intro l n s; unfold fillGenGen fillGenGenStep; no_throw
  cases b with
  | qld s =>
    refine NoThrow.bind ?_ fun _ => NoThrow.pure' _
    unfold Qld.updateMatrix
    repeat' (first
      | exact q _ _ _ | exact bd _ _ | exact e1 _ _ _ | exact e2 _ _ _ | exact e3 _ _ _
      | exact reduceQC_noThrow _ _ _ | exact reduceA_noThrow _ _ | exact reduceBound_noThrow _ _ _ _
      | exact NoThrow.pure' _ | exact NoThrow.ok _ | exact NoThrow.ub
      | refine NoThrow.bind ?_ (fun _ => ?_) | split)
  | lssol s =>
    refine NoThrow.bind ?_ fun _ => NoThrow.pure' _
    unfold Lssol.updateMatrix
    repeat' (first
      | exact q _ _ _ | exact bd _ _ | exact g1 _ _ _ | exact g2 _ _ _ | exact g3 _ _ _
      | exact reduceQC_noThrow _ _ _ | exact reduceA_noThrow _ _ | exact reduceBound_noThrow _ _ _ _
      | exact NoThrow.pure' _ | exact NoThrow.ok _ | exact NoThrow.ub
      | refine NoThrow.bind ?_ (fun _ => ?_) | split)

theorem backendSolve_noThrow (eng : Engines K) (b : Backend K) : NoThrow (b.solve eng) := by
  cases b with
  | qld s =>
    refine NoThrow.bind ?_ fun _ => NoThrow.pure' _
    unfold Qld.solve Qld.problem expandResult
    no_throw
  | lssol s =>
    refine NoThrow.bind ?_ fun _ => NoThrow.pure' _
    unfold Lssol.solve Lssol.problem expandResult
    no_throw

theorem errorMsg_noThrow (eng : Engines K) (inp : QPInput K) (b : Backend K) :
    NoThrow (b.errorMsg eng inp) := by
  cases b with
  | qld s => exact NoThrow.ok _
  | lssol s =>
    have c : ∀ k n a l i se, NoThrow (constrErrorMsg k n a l i se) := by
      intro k n a l
      induction l with
      | nil => intro i se; exact NoThrow.ok _
      | cons c t ih =>
        intro i se
        obtain ⟨x, y⟩ := se
        unfold constrErrorMsg
        dsimp only
        repeat' (first | exact ih _ _ | exact NoThrow.ok _ | exact NoThrow.ub | split)
    show NoThrow (Lssol.errorMsg _ _ _)
    unfold Lssol.errorMsg Verif.errorMsg boundStep lineStep lineMsg
    dsimp only
    repeat' (first
      | exact c _ _ _ _ _ _ | exact NoThrow.at' _ _ | exact NoThrow.pure' _ | exact NoThrow.ub
      | refine NoThrow.forRange (fun _ _ => ?_) | refine NoThrow.bind ?_ (fun _ => ?_) | split)

theorem updateMbcs_noThrow (s : Solver K Ob) (l : List (Mbc K R)) (r : ℕ) :
    NoThrow (s.updateMbcs l r) := by
  have f : ∀ (v : Vec K) l p, NoThrow (fillInner v l p) := by
    intro v l
    induction l with
    | nil => intro p; exact NoThrow.ok _
    | cons a t ih =>
      intro p
      exact NoThrow.bind (NoThrow.at' _ _) fun _ => NoThrow.bind (ih _) fun _ => NoThrow.pure' _
  have g : ∀ (v : Vec K) l p, NoThrow (vectorToParam v l p) := by
    intro v l
    induction l with
    | nil => intro p; exact NoThrow.ok _
    | cons a t ih =>
      intro p
      exact NoThrow.bind (f _ _ _) fun _ => NoThrow.bind (ih _) fun _ => NoThrow.pure' _
  induction l generalizing r with
  | nil => exact NoThrow.ok _
  | cons m t ih =>
    refine NoThrow.bind ?_ fun _ => NoThrow.bind (ih _) fun _ => NoThrow.pure' _
    unfold Solver.updateMbc alphaDVecAt
    repeat' (first
      | exact g _ _ _ | exact NoThrow.vecAt _ _ | exact NoThrow.segment _ _ _
      | exact NoThrow.pure' _ | refine NoThrow.bind ?_ (fun _ => ?_))

end

/-! ## The calls agree with the ones that forget the state -/

section
variable {K Ob W R : Type} [Field K] [LinearOrder K] [DecidableEq Ob]

namespace Spec

/-- `y` is the call `x` seen by a caller that catches the exception: it ends in the same way, and
when it returns, what it returns and the state are given by `f`. -/
def Agrees {α β σ : Type} (x : Out α) (y : Out β × σ) (f : α → β × σ) : Prop :=
  match x with
  | .ok a => y = (.ok (f a).1, (f a).2)
  | .throws e => y.1 = .throws e
  | .ub => y.1 = .ub

/-- Something to catch: the outcome of a call that threw. -/
def Threw {α : Type} (x : Out α) : Prop := ∃ e, x = .throws e

end Spec

open Spec

theorem attempt_agrees {α β γ σ : Type} {x : Out α} {k : α → Out β} {s : σ}
    {k' : α → Out γ × σ} {f : β → γ × σ} (h : ∀ a, x = .ok a → Agrees (k a) (k' a) f) :
    Agrees (x >>= k) (attempt x s k') f := by
  cases x with
  | ok a => exact h a rfl
  | throws e => rfl
  | ub => rfl

theorem andThen_agrees {α β γ δ σ τ : Type} {x : Out α} {y : Out β × σ} {g : α → β × σ}
    {k : α → Out γ} {put : σ → τ} {k' : β → σ → Out δ × τ} {f : γ → δ × τ} (hx : Agrees x y g)
    (h : ∀ a, x = .ok a → Agrees (k a) (k' (g a).1 (g a).2) f) :
    Agrees (x >>= k) (andThen y put k') f := by
  cases x with
  | ok a =>
    have : y = (.ok (g a).1, (g a).2) := hx
    rw [this]
    exact h a rfl
  | throws e =>
    obtain ⟨o, s⟩ := y
    have : o = .throws e := hx
    subst this
    rfl
  | ub =>
    obtain ⟨o, s⟩ := y
    have : o = .ub := hx
    subst this
    rfl

theorem forEachX_agrees {α σ : Type} (l : List α) (f : α → σ → Out σ) (left : α → σ → σ) (s : σ) :
    Agrees (forEach l f s) (forEachX l f left s) (fun s' => ((), s')) := by
  induction l generalizing s with
  | nil => rfl
  | cons a t ih => exact attempt_agrees fun s' _ => ih s'

variable (ob : Objects K Ob W R) (left : Left K Ob W R) (eng : Engines K)

/-- **C106, the calls.**  The calls written with the state they leave are the calls of the model. -/
theorem C106_calls_agree (s : Solver K Ob) (w : W) :
    (∀ mbs uni bi, Agrees (s.nrVars ob mbs uni bi w) (s.nrVarsX ob left mbs uni bi w)
      (fun r => ((), r))) ∧
    (∀ mbs o, Agrees (s.addConstr ob mbs o w) (s.addConstrX ob left mbs o w) (fun r => ((), r))) ∧
    (∀ mbs o, Agrees (s.addTask ob mbs o w) (s.addTaskX ob left mbs o w) (fun r => ((), r))) ∧
    (∀ mbs mbcs, Agrees (s.solveNoMbcUpdate ob eng mbs mbcs w)
      (s.solveNoMbcUpdateX ob left eng mbs mbcs w) (fun r => (r.1, r.2.2))) ∧
    (∀ mbs mbcs, Agrees (s.solve ob eng mbs mbcs w) (s.solveX ob left eng mbs mbcs w)
      (fun r => (r.1, r.2))) := by
  have hsolve : ∀ mbs mbcs, Agrees (s.solveNoMbcUpdate ob eng mbs mbcs w)
      (s.solveNoMbcUpdateX ob left eng mbs mbcs w) (fun r => (r.1, r.2.2)) := by
    intro mbs mbcs
    unfold Solver.solveNoMbcUpdate Solver.solveNoMbcUpdateX
    refine andThen_agrees (g := fun r => ((), r)) ?_ ?_
    · unfold Solver.preUpdate Solver.preUpdateX
      refine attempt_agrees fun d _ => ?_
      refine andThen_agrees (forEachX_agrees _ _ _ _) fun w1 _ => ?_
      refine andThen_agrees (forEachX_agrees _ _ _ _) fun w2 _ => ?_
      exact attempt_agrees fun b _ => rfl
    · intro sw _
      refine attempt_agrees fun ⟨ok, b⟩ _ => ?_
      cases ok with
      | true => rfl
      | false => exact attempt_agrees fun _ _ => rfl
  refine ⟨fun mbs uni bi => ?_, fun mbs o => ?_, fun mbs o => ?_, hsolve, fun mbs mbcs => ?_⟩
  · unfold Solver.nrVars Solver.nrVarsX
    refine attempt_agrees fun ⟨d, deps⟩ _ => ?_
    refine andThen_agrees (forEachX_agrees _ _ _ _) fun w1 _ => ?_
    refine andThen_agrees (forEachX_agrees _ _ _ _) fun w2 _ => ?_
    exact attempt_agrees fun b _ => rfl
  · unfold Solver.addConstr Solver.addConstrX Solver.addConstraintX
    by_cases ho : o ∈ s.regs.constr
    · cases mbs <;> simp [ho, Agrees, andThen, addToSolver, regAdd]
    · cases mbs with
      | none => simp [ho, Agrees, andThen, addToSolver, regAdd]
      | some mbs =>
        by_cases hn : 0 < s.data.nrVars
        · simp only [ho, not_false_eq_true, hn, and_self, if_true, if_false]
          cases ob.cNrVars o mbs s.data w <;>
            simp [ho, Agrees, andThen, attempt, addToSolver, regAdd]
        · simp [ho, hn, Agrees, andThen, addToSolver, regAdd]
  · unfold Solver.addTask Solver.addTaskX
    by_cases ho : o ∈ s.tasks
    · cases mbs <;> simp [ho, Agrees, regAdd]
    · cases mbs with
      | none => simp [ho, Agrees, regAdd]
      | some mbs =>
        by_cases hn : 0 < s.data.nrVars
        · simp only [ho, not_false_eq_true, hn, and_self, if_true, if_false]
          cases ob.tNrVars o mbs s.data w <;> simp [ho, Agrees, attempt, regAdd]
        · simp [ho, hn, Agrees, regAdd]
  · unfold Solver.solve Solver.solveX
    refine andThen_agrees (hsolve mbs mbcs) ?_
    intro ⟨ok, m, sw⟩ _
    cases ok with
    | true => exact attempt_agrees fun _ _ => rfl
    | false => rfl

namespace Spec

/-- `o` is the first of `l` whose call throws: those before it return, and lead from `w` to the world
`o` sees. -/
def FirstThrow {α σ : Type} (l : List α) (f : α → σ → Out σ) (w : σ) (o : α) (w' : σ) (e : Exn) : Prop :=
  ∃ pre post, l = pre ++ o :: post ∧ forEach pre f w = .ok w' ∧ f o w' = .throws e

end Spec

theorem forEachX_throws {α σ : Type} {l : List α} {f : α → σ → Out σ} {left : α → σ → σ} {s s' : σ} {e : Exn}
    (h : forEachX l f left s = (.throws e, s')) :
    ∃ o s1, Spec.FirstThrow l f s o s1 e ∧ s' = left o s1 := by
  induction l generalizing s with
  | nil => simp [forEachX] at h
  | cons a t ih =>
    unfold forEachX attempt at h
    cases hf : f a s with
    | ok s1 =>
      rw [hf] at h
      obtain ⟨o, s2, ⟨pre, post, e1, e2, e3⟩, e4⟩ := ih h
      exact ⟨o, s2, ⟨a :: pre, post, by rw [e1]; rfl, by simp [forEach, hf, e2], e3⟩, e4⟩
    | throws e' =>
      rw [hf] at h
      cases h
      exact ⟨a, s, ⟨[], t, rfl, rfl, hf⟩, rfl⟩
    | ub => rw [hf] at h; cases h

/-- **C106, `updateNrVars`.**  All the tasks are told, then all the constraints, and the solver is not
changed.  If one throws, those after it are not told, and the world is the one left by the call that threw. -/
theorem C106_updateNrVars (mbs : List (MultiBody K)) (s : Solver K Ob) (w : W) :
    Agrees (do
      let w1 ← forEach s.tasks (fun t w => ob.tNrVars t mbs s.data w) w
      forEach s.regs.constr (fun c w => ob.cNrVars c mbs s.data w) w1)
      (s.updateNrVarsX ob left mbs w) (fun w2 => ((), s, w2)) ∧
    ∀ e sw, s.updateNrVarsX ob left mbs w = (.throws e, sw) → sw.1 = s ∧
      ((∃ o w1, FirstThrow s.tasks (fun t w => ob.tNrVars t mbs s.data w) w o w1 e ∧
          sw.2 = left.tNrVars o mbs s.data w1) ∨
        ∃ w1, forEach s.tasks (fun t w => ob.tNrVars t mbs s.data w) w = .ok w1 ∧
          ∃ o w2, FirstThrow s.regs.constr (fun c w => ob.cNrVars c mbs s.data w) w1 o w2 e ∧
            sw.2 = left.cNrVars o mbs s.data w2) := by
  have ht := forEachX_agrees s.tasks (fun t w => ob.tNrVars t mbs s.data w)
    (fun t w => left.tNrVars t mbs s.data w) w
  constructor
  · unfold Solver.updateNrVarsX
    refine andThen_agrees ht fun w1 _ => ?_
    have hc := forEachX_agrees s.regs.constr (fun c w => ob.cNrVars c mbs s.data w)
      (fun c w => left.cNrVars c mbs s.data w) w1
    have := andThen_agrees (k := fun w2 => .ok w2) (put := fun w => (s, w))
      (k' := fun _ w2 => (.ok (), s, w2)) (f := fun w2 => ((), s, w2)) hc fun w2 _ => rfl
    have hid : ∀ x : Out W, (x >>= fun w2 => .ok w2) = x := fun x => by cases x <;> rfl
    rwa [hid] at this
  · intro e sw h
    unfold Solver.updateNrVarsX at h
    cases hx : forEachX s.tasks (fun t w => ob.tNrVars t mbs s.data w)
        (fun t w => left.tNrVars t mbs s.data w) w with
    | mk o1 w1 =>
      cases o1 with
      | ub => rw [hx] at h; cases h
      | throws e1 =>
        rw [hx] at h
        cases h
        exact ⟨rfl, .inl (forEachX_throws hx)⟩
      | ok u =>
        have hw : forEach s.tasks (fun t w => ob.tNrVars t mbs s.data w) w = .ok w1 := by
          cases hf : forEach s.tasks (fun t w => ob.tNrVars t mbs s.data w) w with
          | ok a =>
            simp only [hf, Agrees, hx, Prod.mk.injEq] at ht
            rw [ht.2]
          | throws e' => simp [hf, Agrees, hx] at ht
          | ub => simp [hf, Agrees, hx] at ht
        rw [hx] at h
        simp only [andThen] at h
        cases hy : forEachX s.regs.constr (fun c w => ob.cNrVars c mbs s.data w)
            (fun c w => left.cNrVars c mbs s.data w) w1 with
        | mk o2 w2 =>
          rw [hy] at h
          cases o2 with
          | ub => cases h
          | ok u => cases h
          | throws e2 =>
            cases h
            exact ⟨rfl, .inr ⟨w1, hw, forEachX_throws hy⟩⟩

/-! ## Where an exception comes from -/

/-- **C106, the source.**  A call of the solver throws only if a method of a registered object
throws (of the object being added, for `addTask` and `addToSolver`). -/
theorem C106_only_objects (s : Solver K Ob) (w : W) :
    (∀ mbs uni bi, (∀ o ∈ s.tasks, ∀ d w, NoThrow (ob.tNrVars o mbs d w)) →
      (∀ o ∈ s.regs.constr, ∀ d w, NoThrow (ob.cNrVars o mbs d w)) →
      NoThrow (s.nrVars ob mbs uni bi w)) ∧
    (∀ mbs o, (∀ m, mbs = some m → NoThrow (ob.cNrVars o m s.data w)) →
      NoThrow (s.addConstr ob mbs o w)) ∧
    (∀ mbs o, (∀ m, mbs = some m → NoThrow (ob.tNrVars o m s.data w)) →
      NoThrow (s.addTask ob mbs o w)) ∧
    (∀ o, NoThrow (s.removeConstr ob o)) ∧
    (∀ mbs mbcs, (∀ o ∈ s.tasks, ∀ d w, NoThrow (ob.tUpdate o mbs mbcs d w)) →
      (∀ o ∈ s.regs.constr, ∀ d w, NoThrow (ob.cUpdate o mbs mbcs d w)) →
      NoThrow (s.solve ob eng mbs mbcs w)) := by
  refine ⟨fun mbs uni bi ht hc => ?_, fun mbs o h => ?_, fun mbs o h => ?_, fun o => ?_,
    fun mbs mbcs ht hc => ?_⟩
  · refine NoThrow.bind (layout_noThrow _ _ _ _) fun r => ?_
    refine NoThrow.bind (NoThrow.forEach fun o ho w => ht o ho _ w) fun _ => ?_
    refine NoThrow.bind (NoThrow.forEach fun o ho w => hc o ho _ w) fun _ => ?_
    exact NoThrow.bind (setDependencies_noThrow _ _ _) fun _ => NoThrow.pure' _
  · cases mbs with
    | none => exact NoThrow.pure' _
    | some m =>
      have hm := h m rfl
      unfold Solver.addConstr
      dsimp only
      split
      · exact NoThrow.bind hm fun _ => NoThrow.pure' _
      · exact NoThrow.pure' _
  · cases mbs with
    | none => exact NoThrow.pure' _
    | some m =>
      have hm := h m rfl
      unfold Solver.addTask
      dsimp only
      split
      · exact NoThrow.bind hm fun _ => NoThrow.pure' _
      · exact NoThrow.pure' _
  · refine NoThrow.bind ?_ fun _ => NoThrow.pure' _
    unfold removeFromSolver removePart
    no_throw
  · refine NoThrow.bind ?_ fun r => ?_
    · refine NoThrow.bind ?_ fun r => NoThrow.bind (backendSolve_noThrow _ _) fun r => ?_
      · refine NoThrow.bind (computeNormalAccB_noThrow _ _ _) fun d => ?_
        refine NoThrow.bind (NoThrow.forEach fun o ho w => hc o ho _ w) fun _ => ?_
        refine NoThrow.bind (NoThrow.forEach fun o ho w => ht o ho _ w) fun _ => ?_
        exact NoThrow.bind (updateMatrix_noThrow _ _) fun _ => NoThrow.pure' _
      · dsimp only
        split
        · exact NoThrow.pure' _
        · exact NoThrow.bind (errorMsg_noThrow _ _ _) fun _ => NoThrow.pure' _
    · dsimp only
      split
      · exact NoThrow.bind (updateMbcs_noThrow _ _ _) fun _ => NoThrow.pure' _
      · exact NoThrow.pure' _

/-- `solver(name)` throws exactly for a name that is not a backend of this build. -/
theorem C106_setSolver (hasLssol : Bool) (name : String) (s : Solver K Ob) :
    Threw (s.setSolver hasLssol name) ↔ name ≠ "QLD" ∧ (name = "LSSOL" → hasLssol = false) := by
  unfold Solver.setSolver createQPSolver qpFactory Threw
  by_cases h1 : name = "QLD"
  · subst h1
    cases hasLssol <;> simp [List.lookup]
  · by_cases h2 : name = "LSSOL"
    · subst h2
      cases hasLssol <;> simp [List.lookup]
    · have e1 : (name == "QLD") = false := by simpa using h1
      have e2 : (name == "LSSOL") = false := by simpa using h2
      cases hasLssol <;> simp [List.lookup, e1, e2, h1, h2]

/-! ## What is left -/

theorem attempt_threw {α β σ : Type} {x : Out α} {s s' : σ} {k : α → Out β × σ} {e : Exn}
    (hx : NoThrow x) (h : attempt x s k = (.throws e, s')) : ∃ a, x = .ok a ∧ k a = (.throws e, s') := by
  cases x with
  | ok a => exact ⟨a, rfl, h⟩
  | throws e => exact absurd rfl (hx e)
  | ub => simp [attempt] at h

theorem andThen_threw {α β σ τ : Type} {x : Out α × σ} {put : σ → τ} {k : α → σ → Out β × τ}
    {e : Exn} {s' : τ} (h : andThen x put k = (.throws e, s')) :
    (∃ s, x = (.throws e, s) ∧ s' = put s) ∨ ∃ a s, x = (.ok a, s) ∧ k a s = (.throws e, s') := by
  obtain ⟨o, s⟩ := x
  cases o with
  | ok a => exact Or.inr ⟨a, s, rfl, h⟩
  | throws e' =>
    simp only [andThen, Prod.mk.injEq, Out.throws.injEq] at h
    obtain ⟨rfl, rfl⟩ := h
    exact Or.inl ⟨s, rfl, rfl⟩
  | ub => simp [andThen] at h

theorem forEachX_ok {α σ : Type} {l : List α} {f : α → σ → Out σ} {left : α → σ → σ} {s s' : σ}
    (h : forEachX l f left s = (.ok (), s')) : forEach l f s = .ok s' := by
  have := forEachX_agrees l f left s
  cases hf : forEach l f s with
  | ok a => rw [hf, h] at this; simpa [Agrees] using this.symm
  | throws e => rw [hf, h] at this; simp [Agrees] at this
  | ub => rw [hf, h] at this; simp [Agrees] at this

/-- A loop that throws stops at the first object that throws: the ones before it have completed, the
ones after it are not called. -/
theorem forEachX_threw {α σ : Type} {l : List α} {f : α → σ → Out σ} {left : α → σ → σ} {s s' : σ}
    {e : Exn} (h : forEachX l f left s = (.throws e, s')) :
    ∃ pre o post s1, l = pre ++ o :: post ∧ forEach pre f s = .ok s1 ∧ f o s1 = .throws e ∧
      s' = left o s1 := by
  induction l generalizing s with
  | nil => simp [forEachX] at h
  | cons a t ih =>
    unfold forEachX at h
    cases hf : f a s with
    | ok s1 =>
      rw [hf] at h
      obtain ⟨pre, o, post, s2, rfl, h2, h3, h4⟩ := ih h
      exact ⟨a :: pre, o, post, s2, rfl, by simp [forEach, hf, h2], h3, h4⟩
    | throws e' =>
      rw [hf] at h
      simp only [attempt, Prod.mk.injEq, Out.throws.injEq] at h
      obtain ⟨rfl, rfl⟩ := h
      exact ⟨[], a, t, s, rfl, rfl, hf, rfl⟩
    | ub => rw [hf] at h; simp [attempt] at h

variable [IsStrictOrderedRing K] {ob left eng}

theorem preUpdateX_threw {mbs : List (MultiBody K)} {mbcs : List (Mbc K R)} {s s' : Solver K Ob}
    {w w' : W} {e : Exn} (h : s.preUpdateX ob left mbs mbcs w = (.throws e, s', w')) :
    ∃ d, computeNormalAccB mbs mbcs s.data = .ok d ∧ s' = { s with data := d } ∧
      ((∃ pre o post w1, s.regs.constr = pre ++ o :: post ∧
          forEach pre (fun c w => ob.cUpdate c mbs mbcs d w) w = .ok w1 ∧
          ob.cUpdate o mbs mbcs d w1 = .throws e ∧ w' = left.cUpdate o mbs mbcs d w1) ∨
        ∃ pre o post w1 w2, s.tasks = pre ++ o :: post ∧
          forEach s.regs.constr (fun c w => ob.cUpdate c mbs mbcs d w) w = .ok w1 ∧
          forEach pre (fun c w => ob.tUpdate c mbs mbcs d w) w1 = .ok w2 ∧
          ob.tUpdate o mbs mbcs d w2 = .throws e ∧ w' = left.tUpdate o mbs mbcs d w2) := by
  obtain ⟨d, hd, h⟩ := attempt_threw (computeNormalAccB_noThrow _ _ _) h
  refine ⟨d, hd, ?_⟩
  rcases andThen_threw h with ⟨w1, h1, h2⟩ | ⟨_, w1, h1, h⟩
  · cases h2
    obtain ⟨pre, o, post, w1, a, b, c, e⟩ := forEachX_threw h1
    exact ⟨rfl, Or.inl ⟨pre, o, post, w1, a, b, c, e⟩⟩
  · rcases andThen_threw h with ⟨w2, h3, h4⟩ | ⟨_, w2, h3, h⟩
    · cases h4
      obtain ⟨pre, o, post, w2, a, b, c, e⟩ := forEachX_threw h3
      exact ⟨rfl, Or.inr ⟨pre, o, post, w1, w2, a, forEachX_ok h1, b, c, e⟩⟩
    · obtain ⟨b, _, h⟩ := attempt_threw (updateMatrix_noThrow _ _) h
      simp at h

theorem solveNoMbcUpdateX_threw {mbs : List (MultiBody K)} {mbcs : List (Mbc K R)}
    {s s' : Solver K Ob} {w w' : W} {e : Exn}
    (h : s.solveNoMbcUpdateX ob left eng mbs mbcs w = (.throws e, s', w')) :
    s.preUpdateX ob left mbs mbcs w = (.throws e, s', w') := by
  rcases andThen_threw h with ⟨sw, h1, h2⟩ | ⟨_, sw, h1, h⟩
  · rw [h1, ← show (s', w') = sw from h2]
  · obtain ⟨⟨ok, b⟩, _, h⟩ := attempt_threw (backendSolve_noThrow _ _) h
    cases ok with
    | true => simp at h
    | false =>
      simp only [Bool.false_eq_true, if_false] at h
      obtain ⟨_, _, h⟩ := attempt_threw (errorMsg_noThrow _ _ _) h
      simp at h

theorem solveX_threw {mbs : List (MultiBody K)} {mbcs mbcs' : List (Mbc K R)}
    {s s' : Solver K Ob} {w w' : W} {e : Exn}
    (h : s.solveX ob left eng mbs mbcs w = (.throws e, mbcs', s', w')) :
    mbcs' = mbcs ∧ s.preUpdateX ob left mbs mbcs w = (.throws e, s', w') := by
  rcases andThen_threw h with ⟨sw, h1, h2⟩ | ⟨ok, sw, h1, h⟩
  · simp only [Prod.mk.injEq] at h2
    obtain ⟨rfl, rfl⟩ := h2
    exact ⟨rfl, solveNoMbcUpdateX_threw h1⟩
  · cases ok with
    | true =>
      simp only [if_true] at h
      obtain ⟨_, _, h⟩ := attempt_threw (updateMbcs_noThrow _ _ _) h
      simp at h
    | false => simp at h

/-- **C106, control step.**  A control step that throws leaves the configurations, the registered
objects, the line counts, the backend (hence the last result) and the layout of the decision vector
as they were; the constraints before the one that threw have been updated, and no task unless every
constraint has. -/
theorem C106_solve {mbs : List (MultiBody K)} {mbcs mbcs' : List (Mbc K R)} {s s' : Solver K Ob}
    {w w' : W} {e : Exn} (h : s.solveX ob left eng mbs mbcs w = (.throws e, mbcs', s', w')) :
    mbcs' = mbcs ∧ s'.regs = s.regs ∧ s'.tasks = s.tasks ∧ s'.maxEq = s.maxEq ∧
      s'.maxInEq = s.maxInEq ∧ s'.maxGen = s.maxGen ∧ s'.backend = s.backend ∧
      SameLayout s.data s'.data ∧
      ((∃ pre o post w1, s.regs.constr = pre ++ o :: post ∧
          forEach pre (fun c w => ob.cUpdate c mbs mbcs s'.data w) w = .ok w1 ∧
          ob.cUpdate o mbs mbcs s'.data w1 = .throws e ∧
          w' = left.cUpdate o mbs mbcs s'.data w1) ∨
        ∃ pre o post w1 w2, s.tasks = pre ++ o :: post ∧
          forEach s.regs.constr (fun c w => ob.cUpdate c mbs mbcs s'.data w) w = .ok w1 ∧
          forEach pre (fun c w => ob.tUpdate c mbs mbcs s'.data w) w1 = .ok w2 ∧
          ob.tUpdate o mbs mbcs s'.data w2 = .throws e ∧
          w' = left.tUpdate o mbs mbcs s'.data w2) := by
  obtain ⟨rfl, h⟩ := solveX_threw h
  obtain ⟨d, hd, rfl, hw⟩ := preUpdateX_threw h
  exact ⟨rfl, rfl, rfl, rfl, rfl, rfl, rfl, computeNormalAccB_layout hd, hw⟩

/-- What the solver reports between the failed step and the next one is the result of the last
successful step. -/
theorem C106_result {mbs : List (MultiBody K)} {mbcs mbcs' : List (Mbc K R)} {s s' : Solver K Ob}
    {w w' : W} {e : Exn} (h : s.solveX ob left eng mbs mbcs w = (.throws e, mbcs', s', w')) :
    s'.backend.result = s.backend.result ∧
      (∀ r, alphaDVecAt s'.data s'.backend.result r = alphaDVecAt s.data s.backend.result r) ∧
      lambdaVec s'.data s'.backend.result = lambdaVec s.data s.backend.result := by
  obtain ⟨-, -, -, -, -, -, hb, hl, -⟩ := C106_solve h
  rw [hb]
  exact ⟨rfl, fun r => SameLayout.alphaDVecAt hl _ r, SameLayout.lambdaVec hl _⟩

theorem computeNormalAccB_other {mbs : List (MultiBody K)} {mbcs : List (Mbc K R)}
    {d d' : SolverData K} (h : computeNormalAccB mbs mbcs d = .ok d') {r : ℕ}
    (hr : r ∉ d.mobileRobotIndex) : d'.normalAccB[r]? = d.normalAccB[r]? := by
  refine forEach_inv (fun t => t.normalAccB[r]? = d.normalAccB[r]?) rfl ?_ h
  intro k hk t t' ht hstep
  simp only [normalAccRobot, Out.bind_eq_ok, Out.pure_eq, Out.ok.injEq] at hstep
  obtain ⟨mb, _, mbc, _, acc, _, acc', _, nB, hnB, rfl⟩ := hstep
  unfold vecSet at hnB
  split at hnB
  · cases hnB
    have : k ≠ r := fun h => hr (h ▸ hk)
    simpa [List.getElem?_set_ne this] using ht
  · cases hnB

/-- A control step forgets the normal accelerations of the step before it. -/
theorem computeNormalAccB_again {mbs : List (MultiBody K)} {uni : List (UniContact K)}
    {bi : List (BiContact K)} (hg : GoodInput mbs bi)
    (htree : ∀ mb ∈ mbs, 0 < mb.nrDof → Tree mb) {d d' : SolverData K}
    (hd : AfterNrVars mbs uni bi d) {mbcs₁ : List (Mbc K R)}
    (h : computeNormalAccB mbs mbcs₁ d = .ok d') (mbcs : List (Mbc K R))
    (hmbc : ∀ (r : ℕ) (mb : MultiBody K), mbs[r]? = some mb → 0 < mb.nrDof →
      ∃ mbc, mbcs[r]? = some mbc ∧ MbcSized mb mbc) :
    computeNormalAccB mbs mbcs d' = computeNormalAccB mbs mbcs d := by
  have hd' : AfterNrVars mbs uni bi d' := .step mbcs₁ hd h
  obtain ⟨a, ea, sa, _, za⟩ := C54_normal_recursion_partial hg htree hd mbcs hmbc
  obtain ⟨b, eb, sb, _, zb⟩ := C54_normal_recursion_partial hg htree hd' mbcs hmbc
  obtain ⟨mob, -, -⟩ := afterNrVars_inv hg htree hd
  obtain ⟨-, la, -⟩ := afterNrVars_inv hg htree (.step mbcs hd ea)
  obtain ⟨-, lb, -⟩ := afterNrVars_inv hg htree (.step mbcs hd' eb)
  have hn : a.normalAccB = b.normalAccB := by
    refine List.ext_getElem? fun r => ?_
    cases hr : mbs[r]? with
    | none =>
      have : mbs.length ≤ r := List.getElem?_eq_none_iff.mp hr
      rw [List.getElem?_eq_none (by omega), List.getElem?_eq_none (by omega)]
    | some mb =>
      by_cases hp : 0 < mb.nrDof
      · exact C54_no_history_partial hg hg htree hd hd' mbcs hmbc ea eb hr hp
      · have h0 : mb.nrDof = 0 := by omega
        rw [za r mb hr h0, zb r mb hr h0]
        refine (computeNormalAccB_other h ?_).symm
        rw [mob]
        simp [isMobile, hr, h0]
  rw [ea, eb, sa, sb, ← hn, ← computeNormalAccB_layout h]

/-- **C106, next control step.**  After a control step that threw, the next one on the same robots is
exactly the one the solver would have made without the failed attempt: it does not depend on how far
the attempt went, except through the objects themselves. -/
theorem C106_solve_again {mbs : List (MultiBody K)} {uni : List (UniContact K)}
    {bi : List (BiContact K)} (hg : GoodInput mbs bi)
    (htree : ∀ mb ∈ mbs, 0 < mb.nrDof → Tree mb) {s s' : Solver K Ob}
    (hd : AfterNrVars mbs uni bi s.data) {mbcs mbcs₁ : List (Mbc K R)} {w w' : W} {e : Exn}
    (h : s.solveX ob left eng mbs mbcs w = (.throws e, mbcs₁, s', w'))
    {mbcs₂ : List (Mbc K R)}
    (hmbc : ∀ (r : ℕ) (mb : MultiBody K), mbs[r]? = some mb → 0 < mb.nrDof →
      ∃ mbc, mbcs₂[r]? = some mbc ∧ MbcSized mb mbc) (eng₂ : Engines K) (w₂ : W) :
    s'.solve ob eng₂ mbs mbcs₂ w₂ = s.solve ob eng₂ mbs mbcs₂ w₂ := by
  obtain ⟨rfl, h⟩ := solveX_threw h
  obtain ⟨d, hd', rfl, -⟩ := preUpdateX_threw h
  unfold Solver.solve Solver.solveNoMbcUpdate Solver.preUpdate
  dsimp only
  rw [computeNormalAccB_again hg htree hd hd' mbcs₂ hmbc]
  rfl

/-- **C106, new robots or contacts.**  When a task or a constraint throws out of `nrVars`, the data
already have the new layout, while the backend, the registered objects and the line counts are as
before; no constraint has been told unless every task has. -/
theorem C106_nrVars {mbs : List (MultiBody K)} {uni : List (UniContact K)} {bi : List (BiContact K)}
    {s s' : Solver K Ob} {w w' : W} {e : Exn}
    (h : s.nrVarsX ob left mbs uni bi w = (.throws e, s', w')) :
    (∃ deps, layout s.data mbs uni bi = .ok (s'.data, deps)) ∧
      s' = { s with data := s'.data } ∧
      ((∃ pre o post w1, s.tasks = pre ++ o :: post ∧
          forEach pre (fun c w => ob.tNrVars c mbs s'.data w) w = .ok w1 ∧
          ob.tNrVars o mbs s'.data w1 = .throws e ∧ w' = left.tNrVars o mbs s'.data w1) ∨
        ∃ pre o post w1 w2, s.regs.constr = pre ++ o :: post ∧
          forEach s.tasks (fun c w => ob.tNrVars c mbs s'.data w) w = .ok w1 ∧
          forEach pre (fun c w => ob.cNrVars c mbs s'.data w) w1 = .ok w2 ∧
          ob.cNrVars o mbs s'.data w2 = .throws e ∧ w' = left.cNrVars o mbs s'.data w2) := by
  obtain ⟨⟨d, deps⟩, hd, h⟩ := attempt_threw (layout_noThrow _ _ _ _) h
  rcases andThen_threw h with ⟨w1, h1, h2⟩ | ⟨_, w1, h1, h⟩
  · cases h2
    obtain ⟨pre, o, post, w1, a, b, c, e⟩ := forEachX_threw h1
    exact ⟨⟨deps, hd⟩, rfl, Or.inl ⟨pre, o, post, w1, a, b, c, e⟩⟩
  · rcases andThen_threw h with ⟨w2, h3, h4⟩ | ⟨_, w2, h3, h⟩
    · cases h4
      obtain ⟨pre, o, post, w2, a, b, c, e⟩ := forEachX_threw h3
      exact ⟨⟨deps, hd⟩, rfl, Or.inr ⟨pre, o, post, w1, w2, a, forEachX_ok h1, b, c, e⟩⟩
    · obtain ⟨b, _, h⟩ := attempt_threw (setDependencies_noThrow _ _ _) h
      simp at h

/-- **C106, repair.**  After `nrVars` threw, a call of `nrVars` that returns, for any robots and
contacts, brings the solver where that call alone would have brought it. -/
theorem C106_nrVars_again {mbs mbs₂ : List (MultiBody K)} {uni uni₂ : List (UniContact K)}
    {bi bi₂ : List (BiContact K)} (hg : GoodInput mbs₂ bi₂) {s s' s₂ : Solver K Ob}
    {w w' w₂ w₃ : W} {e : Exn} (h : s.nrVarsX ob left mbs uni bi w = (.throws e, s', w'))
    (h₂ : s'.nrVars ob mbs₂ uni₂ bi₂ w₂ = .ok (s₂, w₃)) :
    ∃ d deps b, layout s.data mbs₂ uni₂ bi₂ = .ok (d, deps) ∧
      s.backend.setDependencies d.nrVars deps = .ok b ∧ SameLayout d s₂.data ∧
      s₂ = { s with
        data := s₂.data, backend := b.updateSize d.nrVars s.maxEq s.maxInEq s.maxGen } := by
  obtain ⟨-, hs, -⟩ := C106_nrVars h
  obtain ⟨d, d', deps, e1, e2, hn⟩ := C01_layout_no_history s.data s'.data mbs₂ uni₂ bi₂ hg
  simp only [Solver.nrVars, e2, Out.bind_eq_ok, Out.ok_bind, Out.pure_eq, Out.ok.injEq,
    Prod.mk.injEq] at h₂
  obtain ⟨w4, -, w5, -, b, hb, rfl, -⟩ := h₂
  have hv : d.nrVars = d'.nrVars := by
    have := congrArg SolverData.nrVars hn
    exact this
  rw [hs] at hb
  refine ⟨d, deps, b, e1, by rw [hv]; exact hb, ?_, ?_⟩
  · have := congrArg (fun x : SolverData K => { x with normalAccB := d.normalAccB }) hn
    exact this.symm
  · rw [hs, hv]

/-- **C106, adding a task.**  A task whose `updateNrVars` throws out of `addTask(mbs, t)` stays in the
solver, at the end of its list; `removeTask` undoes the call, and adding the task again returns
without telling it the layout. -/
theorem C106_addTask {mbs : Option (List (MultiBody K))} {o : Ob} {s s' : Solver K Ob} {w w' : W}
    {e : Exn} (h : s.addTaskX ob left mbs o w = (.throws e, s', w')) :
    o ∉ s.tasks ∧ s' = { s with tasks := s.tasks ++ [o] } ∧ s'.removeTask o = s ∧
      ∀ mbs₂ w₂, s'.addTask ob mbs₂ o w₂ = .ok (s', w₂) := by
  unfold Solver.addTaskX at h
  by_cases ho : o ∈ s.tasks
  · simp [ho] at h
  · have key : s' = { s with tasks := s.tasks ++ [o] } := by
      cases mbs with
      | none => simp [ho] at h
      | some m =>
        simp only [ho, if_false] at h
        split at h
        · cases hx : ob.tNrVars o m s.data w <;> rw [hx] at h <;> simp [attempt] at h
          exact h.2.1.symm
        · simp at h
    subst key
    refine ⟨ho, rfl, ?_, ?_⟩
    · have : (s.tasks ++ [o]).erase o = s.tasks := by
        rw [List.erase_append_right _ ho]; simp
      simp [Solver.removeTask, regRemove, this]
    · intro mbs₂ w₂
      cases mbs₂ <;> simp [Solver.addTask, regAdd]

/-- **C106, adding a constraint.**  A constraint whose `updateNrVars` throws out of
`addToSolver(mbs, solver)` stays in the list of constraints but is in none of the lists of rows: it
keeps being updated and is not enforced.  Adding it again returns without telling it the layout, and
from then on it is enforced. -/
theorem C106_addConstr_partial {mbs : Option (List (MultiBody K))} {o : Ob} {s s' : Solver K Ob} {w w' : W}
    {e : Exn} (h : s.addConstrX ob left mbs o w = (.throws e, s', w')) :
    o ∉ s.regs.constr ∧
      s' = { s with regs := { s.regs with constr := s.regs.constr ++ [o] } } ∧
      regRemove s'.regs.constr o = s.regs.constr ∧
      ∀ mbs₂ w₂, s'.addConstr ob mbs₂ o w₂
        = .ok ({ s' with regs := (ob.parts o).foldl (fun r p => addPart o p r) s'.regs }, w₂) := by
  unfold Solver.addConstrX Solver.addConstraintX at h
  by_cases ho : o ∈ s.regs.constr
  · simp [ho, andThen] at h
  · have key : s' = { s with regs := { s.regs with constr := s.regs.constr ++ [o] } } := by
      cases mbs with
      | none => simp [ho, andThen] at h
      | some m =>
        simp only [ho, if_false] at h
        split at h
        · cases hx : ob.cNrVars o m s.data w <;> rw [hx] at h <;> simp [attempt, andThen] at h
          exact h.2.1.symm
        · simp [andThen] at h
    subst key
    refine ⟨ho, rfl, ?_, ?_⟩
    · have : (s.regs.constr ++ [o]).erase o = s.regs.constr := by
        rw [List.erase_append_right _ ho]; simp
      simp [regRemove, this]
    · intro mbs₂ w₂
      cases mbs₂ <;> simp [Solver.addConstr, addToSolver, regAdd]

/-- **C106, disagreement.**  `removeFromSolver` does not undo a failed `addToSolver`: it erases the
end of a list of rows the constraint is not in, whatever the solver and the constraint. -/
theorem C106_addConstr_remove_ub {mbs : Option (List (MultiBody K))} {o : Ob} {s s' : Solver K Ob}
    {w w' : W} {e : Exn} (h : s.addConstrX ob left mbs o w = (.throws e, s', w')) {p : Part}
    (hp : p ∈ ob.parts o) (ho : o ∉ s.regs.rows p) : s'.removeConstr ob o = .ub := by
  obtain ⟨-, rfl, -⟩ := C106_addConstr_partial h
  have := removeParts_ub o (ob.parts o)
    ⟨regRemove (s.regs.constr ++ [o]) o, s.regs.rows⟩ p hp (by simpa using ho)
  unfold Solver.removeConstr removeFromSolver
  dsimp only
  rw [this]
  rfl

end

/-! ## Examples -/

namespace ThrowEx

open Spec

/-- The task and the bound constraint of `exObjects`; the constraint throws when told the layout. -/
def ob : Objects ℚ ℕ Unit Unit := { exObjects with cNrVars := fun _ _ _ _ => .throws .outOfRange }

/-- A task that throws when updated, the constraint being fine. -/
def obT : Objects ℚ ℕ Unit Unit := { exObjects with tUpdate := fun _ _ _ _ _ => .throws .outOfRange }

def left : Left ℚ ℕ Unit Unit := ⟨fun _ _ _ w => w, fun _ _ _ w => w, fun _ _ _ _ w => w,
  fun _ _ _ _ w => w⟩

theorem grip_tree : ∀ mb ∈ [exGrip], 0 < mb.nrDof → Tree mb := by
  intro mb hmb _
  simp only [List.mem_singleton] at hmb
  subst hmb
  exact exGrip_tree

theorem grip_good : GoodInput [exGrip] ([] : List (BiContact ℚ)) :=
  ⟨fun mb h => MimicOK.named (exGrip_ok mb h), by simp⟩

theorem grip_mbc : ∀ (r : ℕ) (mb : MultiBody ℚ), [exGrip][r]? = some mb → 0 < mb.nrDof →
    ∃ mbc, [exGripMbc][r]? = some mbc ∧ MbcSized mb mbc := by
  intro r mb hr _
  cases r with
  | zero => simp at hr; subst hr; exact ⟨exGripMbc, rfl, rfl, rfl, rfl⟩
  | succ r => simp at hr

/-- `nrVars` throws because of the constraint. -/
theorem nrVars_throws : ∃ s', exStart.nrVarsX ob left [exGrip] [] [] ()
      = (.throws .outOfRange, s', ()) ∧ s' = { exStart with data := s'.data } ∧
    s'.data.nrVars = 2 ∧ AfterNrVars [exGrip] [] [] s'.data := by
  obtain ⟨d, deps, e, sp⟩ := layout_ok (SolverData.init : SolverData ℚ) [exGrip] [] []
    (fun mb h => MimicOK.named (exGrip_ok mb h)) (by simp)
  refine ⟨{ exStart with data := d }, ?_, rfl, ?_, .nrVars e⟩
  · have hdat : exStart.data = SolverData.init := rfl
    unfold Solver.nrVarsX
    rw [hdat, e]
    rfl
  · show d.nrVars = 2
    rw [sp.nrVars, sp.totalAlphaD, sp.totalLambda, sp.nrUniLambda, sp.nrBiLambda]; rfl

/-- **C106, disagreement.**  After `nrVars` threw, the next control step writes out of the matrices of
the backend, which still has the sizes from before the call. -/
theorem C106_nrVars_counterexample : ∃ s', exStart.nrVarsX ob left [exGrip] [] [] ()
      = (.throws .outOfRange, s', ()) ∧
    s'.solve ob (exOnes true) [exGrip] [exGripMbc] () = .ub := by
  obtain ⟨s', h, hs, -, ha⟩ := nrVars_throws
  refine ⟨s', h, ?_⟩
  obtain ⟨d, hd, -⟩ := C54_normal_recursion_partial (R := Unit) grip_good grip_tree ha [exGripMbc]
    grip_mbc
  unfold Solver.solve Solver.solveNoMbcUpdate Solver.preUpdate
  rw [hd, hs]
  rfl

/-- A control step that throws because of the task, on a solver that has been sized. -/
theorem solve_throws : ∃ s s', Run obT false [.nrVars [exGrip] [] []] (exStart, ()) (s, ()) ∧
    s.solveX obT left (exOnes true) [exGrip] [exGripMbc] ()
      = (.throws .outOfRange, [exGripMbc], s', ()) := by
  obtain ⟨s, hrun, h1, h2, -, -, -, -, -, ha⟩ := exRun [] rfl
  obtain ⟨d, hd, -⟩ := C54_normal_recursion_partial (R := Unit) grip_good grip_tree ha [exGripMbc]
    grip_mbc
  refine ⟨s, { s with data := d }, hrun, ?_⟩
  unfold Solver.solveX Solver.solveNoMbcUpdateX Solver.preUpdateX
  rw [hd, h1, h2]
  rfl

/-- The next control step is the one of a solver that has not tried. -/
example : ∃ s s', Run obT false [.nrVars [exGrip] [] []] (exStart, ()) (s, ()) ∧
    s.solveX obT left (exOnes true) [exGrip] [exGripMbc] ()
      = (.throws .outOfRange, [exGripMbc], s', ()) ∧
    s'.solve obT (exOnes true) [exGrip] [exGripMbc] ()
      = s.solve obT (exOnes true) [exGrip] [exGripMbc] () := by
  obtain ⟨s, hrun, h1, h2, -, -, -, -, -, ha⟩ := exRun [] rfl
  obtain ⟨d, hd, -⟩ := C54_normal_recursion_partial (R := Unit) grip_good grip_tree ha [exGripMbc]
    grip_mbc
  have h : s.solveX obT left (exOnes true) [exGrip] [exGripMbc] ()
      = (.throws .outOfRange, [exGripMbc], { s with data := d }, ()) := by
    unfold Solver.solveX Solver.solveNoMbcUpdateX Solver.preUpdateX
    rw [hd, h1, h2]
    rfl
  exact ⟨s, _, hrun, h, C106_solve_again grip_good grip_tree ha h grip_mbc _ _⟩

/-- Adding the constraint to a solver that has been sized throws, and it cannot be removed. -/
example : ∃ s s' : Solver ℚ ℕ, s.addConstrX ob left (some [exGrip]) 1 () = (.throws .outOfRange, s', ()) ∧
    s'.removeConstr ob 1 = .ub := by
  let s : Solver ℚ ℕ := ⟨⟨[], fun _ => []⟩, [], { SolverData.init with nrVars := 2 }, 0, 0, 0,
    .qld Qld.init⟩
  have h : s.addConstrX ob left (some [exGrip]) 1 ()
      = (.throws .outOfRange, { s with regs := ⟨[1], fun _ => []⟩ }, ()) := rfl
  exact ⟨s, _, h, C106_addConstr_remove_ub h (p := .bound) (by simp [ob, exObjects]) (by simp [s])⟩

end ThrowEx

end Verif
