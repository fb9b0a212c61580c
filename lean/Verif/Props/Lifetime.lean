import Verif.Props.SolverReg
import Verif.Proofs.Copies

/-!
# C101: objects that are no longer registered may be destroyed

The solver keeps raw pointers to the tasks and the constraints (QPSolver.h:134-139).  Here the world of the
user is a memory: locations `Loc` with contents `S`.  An object's footprint is the part of the memory its
methods use; it may overlap with the footprint of another object (two tasks on one high-level task).
-/

set_option autoImplicit false
set_option linter.unusedSectionVars false

namespace Verif

variable {K Ob R Loc S : Type} [Field K] [LinearOrder K] [IsStrictOrderedRing K] [DecidableEq Ob]

namespace Spec

/-- The two memories agree outside `D`. -/
def EqOff (D : Set Loc) (w w' : Loc → S) : Prop := ∀ l, l ∉ D → w l = w' l

/-- The method reads and writes nothing outside `A`. -/
def UsesOnly (A : Set Loc) (m : (Loc → S) → Out (Loc → S)) : Prop :=
  (∀ w w', (∀ l ∈ A, w l = w' l) → SameOut (fun v v' => ∀ l ∈ A, v l = v' l) (m w) (m w')) ∧
  ∀ w v, m w = .ok v → ∀ l, l ∉ A → v l = w l

/-- The getter reads nothing outside `A`. -/
def ReadsOnly {β : Type} (A : Set Loc) (g : (Loc → S) → β) : Prop :=
  ∀ w w', (∀ l ∈ A, w l = w' l) → g w = g w'

/-- The methods of each object keep to its footprint. -/
structure Footprints (ob : Objects K Ob (Loc → S) R) (foot : Ob → Set Loc) : Prop where
  cNrVars : ∀ o mbs d, UsesOnly (foot o) (ob.cNrVars o mbs d)
  tNrVars : ∀ o mbs d, UsesOnly (foot o) (ob.tNrVars o mbs d)
  cUpdate : ∀ o mbs mbcs d, UsesOnly (foot o) (ob.cUpdate o mbs mbcs d)
  tUpdate : ∀ o mbs mbcs d, UsesOnly (foot o) (ob.tUpdate o mbs mbcs d)
  eq : ∀ o, ReadsOnly (foot o) (fun w => ob.eq w o)
  inEq : ∀ o, ReadsOnly (foot o) (fun w => ob.inEq w o)
  gen : ∀ o, ReadsOnly (foot o) (fun w => ob.gen w o)
  bound : ∀ o, ReadsOnly (foot o) (fun w => ob.bound w o)
  task : ∀ o, ReadsOnly (foot o) (fun w => ob.task w o)

/-- The call is not on an object in `D`, and the user's own code does not read `D`, except to write in `D`. -/
def AvoidsMem (foot : Ob → Set Loc) (D : Set Loc) : Call K Ob (Loc → S) R → Prop
  | .addConstr _ o => Disjoint (foot o) D
  | .removeConstr o => Disjoint (foot o) D
  | .addTask _ o => Disjoint (foot o) D
  | .user f => ∀ w w', EqOff D w w' → EqOff D (f w) (f w')
  | _ => True

/-- What a call of `solve` shows: success, configurations, and the solver with its result. -/
def SameSolve (D : Set Loc) (a b : Bool × List (Mbc K R) × Solver K Ob × (Loc → S)) : Prop :=
  a.1 = b.1 ∧ a.2.1 = b.2.1 ∧ a.2.2.1 = b.2.2.1 ∧ EqOff D a.2.2.2 b.2.2.2

end Spec

open Spec

/-- No pointer of the solver is to an object in `D`. -/
structure Clear (foot : Ob → Set Loc) (D : Set Loc) (s : Solver K Ob) : Prop where
  tasks : ∀ o ∈ s.tasks, Disjoint (foot o) D
  constr : ∀ o ∈ s.regs.constr, Disjoint (foot o) D
  rows : ∀ p, ∀ o ∈ s.regs.rows p, Disjoint (foot o) D

theorem sameOut_bind {α β γ δ : Type} {P : α → β → Prop} {Q : γ → δ → Prop} {x : Out α} {y : Out β}
    {f : α → Out γ} {g : β → Out δ} (h : SameOut P x y) (hf : ∀ a b, P a b → SameOut Q (f a) (g b)) :
    SameOut Q (x >>= f) (y >>= g) := by
  cases x <;> cases y <;> simp only [SameOut] at h
  · exact hf _ _ h
  · trivial
  · subst h; rfl

theorem sameOut_refl {α : Type} (x : Out α) : SameOut (fun a b : α => a = b) x x := by
  cases x <;> simp [SameOut]

theorem sameOut_mono {α β : Type} {P Q : α → β → Prop} {x : Out α} {y : Out β} (h : SameOut P x y)
    (hPQ : ∀ a b, x = .ok a → y = .ok b → P a b → Q a b) : SameOut Q x y := by
  cases x <;> cases y <;> simp only [SameOut] at h ⊢
  · exact hPQ _ _ rfl rfl h
  · exact h

section
variable {D : Set Loc} {foot : Ob → Set Loc} {ob : Objects K Ob (Loc → S) R}

theorem notMem_of_disjoint {A : Set Loc} (h : Disjoint A D) {l : Loc} (hl : l ∈ A) : l ∉ D :=
  fun hd => Set.disjoint_left.mp h hl hd

theorem readsOnly_eqOff {β : Type} {A : Set Loc} {g : (Loc → S) → β} (hg : ReadsOnly A g) (hA : Disjoint A D)
    {w w' : Loc → S} (h : EqOff D w w') : g w = g w' :=
  hg _ _ fun l hl => h l (notMem_of_disjoint hA hl)

theorem usesOnly_eqOff {A : Set Loc} {m : (Loc → S) → Out (Loc → S)} (hm : UsesOnly A m) (hA : Disjoint A D)
    {w w' : Loc → S} (h : EqOff D w w') : SameOut (EqOff D) (m w) (m w') := by
  refine sameOut_mono (hm.1 w w' fun l hl => h l (notMem_of_disjoint hA hl)) ?_
  intro v v' e e' hv l hl
  by_cases hlA : l ∈ A
  · exact hv l hlA
  · rw [hm.2 _ _ e l hlA, hm.2 _ _ e' l hlA]
    exact h l hl

theorem usesOnly_keeps {A : Set Loc} {m : (Loc → S) → Out (Loc → S)} (hm : UsesOnly A m) (hA : Disjoint A D)
    {w v : Loc → S} (e : m w = .ok v) {l : Loc} (hl : l ∈ D) : v l = w l :=
  hm.2 _ _ e l fun h => notMem_of_disjoint hA h hl

theorem forEach_eqOff {α : Type} {m : α → (Loc → S) → Out (Loc → S)} {A : α → Set Loc} (l : List α)
    (hm : ∀ a ∈ l, UsesOnly (A a) (m a)) (hA : ∀ a ∈ l, Disjoint (A a) D) {w w' : Loc → S}
    (h : EqOff D w w') : SameOut (EqOff D) (forEach l m w) (forEach l m w') := by
  induction l generalizing w w' with
  | nil => exact h
  | cons a t ih =>
    refine sameOut_bind (usesOnly_eqOff (hm a (by simp)) (hA a (by simp)) h) ?_
    intro v v' hv
    exact ih (fun b hb => hm b (by simp [hb])) (fun b hb => hA b (by simp [hb])) hv

theorem forEach_keeps {α : Type} {m : α → (Loc → S) → Out (Loc → S)} {A : α → Set Loc} (l : List α)
    (hm : ∀ a ∈ l, UsesOnly (A a) (m a)) (hA : ∀ a ∈ l, Disjoint (A a) D) {w v : Loc → S}
    (h : forEach l m w = .ok v) {x : Loc} (hx : x ∈ D) : v x = w x := by
  induction l generalizing w with
  | nil => cases h; rfl
  | cons a t ih =>
    simp only [forEach, Out.bind_eq_ok] at h
    obtain ⟨u, h1, h2⟩ := h
    rw [ih (fun b hb => hm b (by simp [hb])) (fun b hb => hA b (by simp [hb])) h2]
    exact usesOnly_keeps (hm a (by simp)) (hA a (by simp)) h1 hx

theorem input_eqOff (hf : Footprints ob foot) {s : Solver K Ob} (hs : Clear foot D s) {w w' : Loc → S}
    (h : EqOff D w w') : s.input ob w = s.input ob w' := by
  unfold Solver.input
  congr 1
  · exact List.map_congr_left fun o ho => readsOnly_eqOff (hf.task o) (hs.tasks o ho) h
  · exact List.map_congr_left fun o ho => readsOnly_eqOff (hf.eq o) (hs.rows _ o ho) h
  · exact List.map_congr_left fun o ho => readsOnly_eqOff (hf.inEq o) (hs.rows _ o ho) h
  · exact List.map_congr_left fun o ho => readsOnly_eqOff (hf.gen o) (hs.rows _ o ho) h
  · exact List.map_congr_left fun o ho => readsOnly_eqOff (hf.bound o) (hs.rows _ o ho) h

theorem foldl_congr_mem {α β : Type} {f g : β → α → β} (l : List α) (h : ∀ b, ∀ a ∈ l, f b a = g b a) (b : β) :
    l.foldl f b = l.foldl g b := by
  induction l generalizing b with
  | nil => rfl
  | cons a t ih =>
    simp only [List.foldl_cons]
    rw [h b a (by simp)]
    exact ih (fun b a ha => h b a (by simp [ha])) _

theorem constrSize_eqOff (hf : Footprints ob foot) {s : Solver K Ob} (hs : Clear foot D s) {w w' : Loc → S}
    (h : EqOff D w w') : s.updateConstrSize ob w = s.updateConstrSize ob w' := by
  have e1 : (s.regs.rows .eq).foldl (fun acc o => acc + (ob.eq w o).maxEq) 0
      = (s.regs.rows .eq).foldl (fun acc o => acc + (ob.eq w' o).maxEq) 0 :=
    foldl_congr_mem _ (fun b o ho => by rw [(readsOnly_eqOff (hf.eq o) (hs.rows _ o ho) h : ob.eq w o = ob.eq w' o)]) 0
  have e2 : (s.regs.rows .inEq).foldl (fun acc o => acc + (ob.inEq w o).maxInEq) 0
      = (s.regs.rows .inEq).foldl (fun acc o => acc + (ob.inEq w' o).maxInEq) 0 :=
    foldl_congr_mem _ (fun b o ho => by rw [(readsOnly_eqOff (hf.inEq o) (hs.rows _ o ho) h : ob.inEq w o = ob.inEq w' o)]) 0
  have e3 : (s.regs.rows .genInEq).foldl (fun acc o => acc + (ob.gen w o).maxGen) 0
      = (s.regs.rows .genInEq).foldl (fun acc o => acc + (ob.gen w' o).maxGen) 0 :=
    foldl_congr_mem _ (fun b o ho => by rw [(readsOnly_eqOff (hf.gen o) (hs.rows _ o ho) h : ob.gen w o = ob.gen w' o)]) 0
  unfold Solver.updateConstrSize
  rw [e1, e2, e3]


theorem clear_data {s s' : Solver K Ob} (hs : Clear foot D s) (h1 : s'.tasks = s.tasks) (h2 : s'.regs = s.regs) :
    Clear foot D s' :=
  ⟨by rw [h1]; exact hs.tasks, by rw [h2]; exact hs.constr, by rw [h2]; exact hs.rows⟩

theorem preUpdate_eqOff (hf : Footprints ob foot) {s : Solver K Ob} (hs : Clear foot D s)
    (mbs : List (MultiBody K)) (mbcs : List (Mbc K R)) {w w' : Loc → S} (h : EqOff D w w') :
    SameOut (fun a b => a.1 = b.1 ∧ EqOff D a.2 b.2) (s.preUpdate ob mbs mbcs w) (s.preUpdate ob mbs mbcs w') := by
  unfold Solver.preUpdate
  refine sameOut_bind (sameOut_refl _) ?_
  rintro d _ rfl
  refine sameOut_bind (forEach_eqOff _ (fun o _ => hf.cUpdate o mbs mbcs d) hs.constr h) ?_
  intro w1 w1' h1
  refine sameOut_bind (forEach_eqOff _ (fun o _ => hf.tUpdate o mbs mbcs d) hs.tasks h1) ?_
  intro w2 w2' h2
  rw [input_eqOff hf hs h2]
  refine sameOut_bind (sameOut_refl _) ?_
  rintro b _ rfl
  exact ⟨rfl, h2⟩

theorem preUpdate_keeps (hf : Footprints ob foot) {s : Solver K Ob} (hs : Clear foot D s)
    {mbs : List (MultiBody K)} {mbcs : List (Mbc K R)} {w : Loc → S} {r : Solver K Ob × (Loc → S)}
    (h : s.preUpdate ob mbs mbcs w = .ok r) :
    r.1.tasks = s.tasks ∧ r.1.regs = s.regs ∧ ∀ x ∈ D, r.2 x = w x := by
  unfold Solver.preUpdate at h
  simp only [Out.bind_eq_ok] at h
  obtain ⟨d, _, w1, h1, w2, h2, b, _, h⟩ := h
  cases h
  refine ⟨rfl, rfl, fun x hx => ?_⟩
  dsimp only
  rw [forEach_keeps _ (fun o _ => hf.tUpdate o mbs mbcs d) hs.tasks h2 hx,
    forEach_keeps _ (fun o _ => hf.cUpdate o mbs mbcs d) hs.constr h1 hx]

theorem solveNo_eqOff (hf : Footprints ob foot) {s : Solver K Ob} (hs : Clear foot D s) (eng : Engines K)
    (mbs : List (MultiBody K)) (mbcs : List (Mbc K R)) {w w' : Loc → S} (h : EqOff D w w') :
    SameOut (fun a b => a.1 = b.1 ∧ a.2.1 = b.2.1 ∧ a.2.2.1 = b.2.2.1 ∧ EqOff D a.2.2.2 b.2.2.2)
      (s.solveNoMbcUpdate ob eng mbs mbcs w) (s.solveNoMbcUpdate ob eng mbs mbcs w') := by
  unfold Solver.solveNoMbcUpdate
  refine sameOut_bind (P := fun a b => a.1 = b.1 ∧ EqOff D a.2 b.2 ∧ Clear foot D a.1) ?_ ?_
  · refine sameOut_mono (preUpdate_eqOff hf hs mbs mbcs h) ?_
    rintro a b ea - ⟨h1, h2⟩
    obtain ⟨k1, k2, -⟩ := preUpdate_keeps hf hs ea
    exact ⟨h1, h2, clear_data hs k1 k2⟩
  rintro ⟨s1, w1⟩ ⟨s1', w1'⟩ ⟨e, h1, hs1⟩
  dsimp only at e h1 hs1
  subst e
  refine sameOut_bind (sameOut_refl _) ?_
  rintro ⟨ok, b⟩ _ rfl
  dsimp only
  have e : Solver.input ob { s1 with backend := b } w1 = Solver.input ob { s1 with backend := b } w1' :=
    input_eqOff hf (clear_data hs1 rfl rfl) h1
  cases ok with
  | true => exact ⟨rfl, rfl, rfl, h1⟩
  | false =>
    simp only [Bool.false_eq_true, if_false]
    rw [e]
    refine sameOut_bind (sameOut_refl _) ?_
    rintro msg _ rfl
    exact ⟨rfl, rfl, rfl, h1⟩

/-- **C101** (one call of `solve`): when no pointer of the solver is to an object in the part `D` of the memory,
`solve` gives the same success flag, the same configurations and the same result whatever `D` holds. -/
theorem C101_solve (hf : Footprints ob foot) {s : Solver K Ob} (hs : Clear foot D s) (eng : Engines K)
    (mbs : List (MultiBody K)) (mbcs : List (Mbc K R)) {w w' : Loc → S} (h : EqOff D w w') :
    SameOut (SameSolve D) (s.solve ob eng mbs mbcs w) (s.solve ob eng mbs mbcs w') := by
  unfold Solver.solve
  refine sameOut_bind (solveNo_eqOff hf hs eng mbs mbcs h) ?_
  rintro ⟨ok, msg, s1, w1⟩ ⟨ok', msg', s1', w1'⟩ ⟨e1, -, e2, h1⟩
  dsimp only at e1 e2 h1
  subst e1; subst e2
  cases ok with
  | false => exact ⟨rfl, rfl, rfl, h1⟩
  | true =>
    simp only [if_true]
    refine sameOut_bind (sameOut_refl _) ?_
    rintro m _ rfl
    exact ⟨rfl, rfl, rfl, h1⟩

theorem addPart_rows {parts : List Part} {o x : Ob} {q : Part} {s : Regs Ob}
    (h : x ∈ (parts.foldl (fun s p => addPart o p s) s).rows q) : x = o ∨ x ∈ s.rows q := by
  induction parts generalizing s with
  | nil => exact Or.inr h
  | cons p t ih =>
    rcases ih h with h1 | h1
    · exact Or.inl h1
    · simp only [addPart] at h1
      split at h1
      · rcases List.mem_append.mp h1 with h2 | h2
        · exact Or.inr h2
        · exact Or.inl (by simpa using h2)
      · exact Or.inr h1

theorem addPart_constr {parts : List Part} {o : Ob} {s : Regs Ob} :
    (parts.foldl (fun s p => addPart o p s) s).constr = s.constr := by
  induction parts generalizing s with
  | nil => rfl
  | cons p t ih => exact ih

theorem mem_regAdd {l : List Ob} {o x : Ob} (h : x ∈ regAdd l o) : x = o ∨ x ∈ l := by
  unfold regAdd at h
  split at h
  · exact Or.inr h
  · rcases List.mem_append.mp h with h | h
    · exact Or.inr h
    · exact Or.inl (by simpa using h)

theorem mem_regRemove {l : List Ob} {o x : Ob} (h : x ∈ regRemove l o) : x ∈ l := by
  unfold regRemove at h
  split at h
  · exact List.mem_of_mem_erase h
  · exact h

theorem removeFrom_sub {parts : Ob → List Part} {s s' : Regs Ob} {o : Ob}
    (h : removeFromSolver parts s o = .ok s') :
    (∀ x ∈ s'.constr, x ∈ s.constr) ∧ ∀ p, ∀ x ∈ s'.rows p, x ∈ s.rows p := by
  unfold removeFromSolver at h
  refine forEach_inv (fun t : Regs Ob => (∀ x ∈ t.constr, x ∈ s.constr) ∧ ∀ p, ∀ x ∈ t.rows p, x ∈ s.rows p)
    (s := { s with constr := regRemove s.constr o }) ⟨fun x hx => mem_regRemove hx, fun p x hx => hx⟩ ?_ h
  intro p _ t t' ht e
  unfold removePart at e
  split at e
  · cases e
    refine ⟨ht.1, fun q x hx => ?_⟩
    dsimp only at hx
    split at hx
    · exact ht.2 q x (List.mem_of_mem_erase hx)
    · exact ht.2 q x hx
  · cases e

theorem layoutThen_eqOff (hf : Footprints ob foot) {s : Solver K Ob} (hs : Clear foot D s)
    (mbs : List (MultiBody K)) (uni : List (UniContact K)) (bi : List (BiContact K)) {w w' : Loc → S}
    (h : EqOff D w w') :
    SameOut (fun a b => a.1 = b.1 ∧ EqOff D a.2 b.2) (s.nrVars ob mbs uni bi w) (s.nrVars ob mbs uni bi w') := by
  unfold Solver.nrVars
  refine sameOut_bind (sameOut_refl _) ?_
  rintro ⟨d, deps⟩ _ rfl
  dsimp only
  refine sameOut_bind (forEach_eqOff _ (fun o _ => hf.tNrVars o mbs _) hs.tasks h) ?_
  intro w1 w1' h1
  refine sameOut_bind (forEach_eqOff _ (fun o _ => hf.cNrVars o mbs _) hs.constr h1) ?_
  intro w2 w2' h2
  refine sameOut_bind (sameOut_refl _) ?_
  rintro b _ rfl
  exact ⟨rfl, h2⟩

/-- **C101** (one call): with no pointer of the solver to an object in `D`, a call that is not on such an object
has the same outcome whatever `D` holds, also when it crashes or throws. -/
theorem C101_call (hf : Footprints ob foot) {s : Solver K Ob} (hs : Clear foot D s) (l : Bool)
    {c : Call K Ob (Loc → S) R} (hc : AvoidsMem foot D c) {w w' : Loc → S} (h : EqOff D w w') :
    SameOut (fun a b => a.1 = b.1 ∧ EqOff D a.2 b.2) (c.run ob l (s, w)) (c.run ob l (s, w')) := by
  cases c with
  | nrVars mbs uni bi => exact layoutThen_eqOff hf hs mbs uni bi h
  | updateConstrSize => exact ⟨constrSize_eqOff hf hs h, h⟩
  | updateNrVars mbs =>
    refine sameOut_bind (forEach_eqOff _ (fun o _ => hf.tNrVars o mbs _) hs.tasks h) ?_
    intro w1 w1' h1
    refine sameOut_bind (forEach_eqOff _ (fun o _ => hf.cNrVars o mbs _) hs.constr h1) ?_
    intro w2 w2' h2
    exact ⟨rfl, h2⟩
  | setSolver name =>
    refine sameOut_bind (sameOut_refl _) ?_
    rintro b _ rfl
    exact ⟨rfl, h⟩
  | addConstr mbs o =>
    cases mbs with
    | none => exact ⟨rfl, h⟩
    | some mbs =>
      simp only [Call.run, Solver.addConstr]
      split
      · refine sameOut_bind (usesOnly_eqOff (hf.cNrVars o mbs _) hc h) ?_
        intro w1 w1' h1
        exact ⟨rfl, h1⟩
      · exact ⟨rfl, h⟩
  | removeConstr o =>
    refine sameOut_bind (sameOut_refl _) ?_
    rintro b _ rfl
    exact ⟨rfl, h⟩
  | addTask mbs o =>
    cases mbs with
    | none => exact ⟨rfl, h⟩
    | some mbs =>
      simp only [Call.run, Solver.addTask]
      split
      · refine sameOut_bind (usesOnly_eqOff (hf.tNrVars o mbs _) hc h) ?_
        intro w1 w1' h1
        exact ⟨rfl, h1⟩
      · exact ⟨rfl, h⟩
  | removeTask o => exact ⟨rfl, h⟩
  | resetTasks => exact ⟨rfl, h⟩
  | solve eng mbs mbcs =>
    refine sameOut_bind (C101_solve hf hs eng mbs mbcs h) ?_
    rintro ⟨ok, m, s1, w1⟩ ⟨ok', m', s1', w1'⟩ ⟨-, -, e, h1⟩
    exact ⟨e, h1⟩
  | solveNoMbcUpdate eng mbs mbcs =>
    refine sameOut_bind (solveNo_eqOff hf hs eng mbs mbcs h) ?_
    rintro ⟨ok, m, s1, w1⟩ ⟨ok', m', s1', w1'⟩ ⟨-, -, e, h1⟩
    exact ⟨e, h1⟩
  | user f => exact ⟨rfl, hc _ _ h⟩

/-- The pointers of the solver after a call. -/
theorem clear_call {s : Solver K Ob} (hs : Clear foot D s) {l : Bool} {c : Call K Ob (Loc → S) R}
    (hc : AvoidsMem foot D c) {w : Loc → S} {r : Solver K Ob × (Loc → S)} (h : c.run ob l (s, w) = .ok r) :
    Clear foot D r.1 := by
  obtain ⟨e1, e2⟩ := call_regs h
  obtain ⟨s', w'⟩ := r
  dsimp only at e1 e2
  have T : ∀ o ∈ s'.tasks, Disjoint (foot o) D := by
    intro o ho
    rw [e1] at ho
    cases c with
    | addTask mbs x =>
      rcases mem_regAdd (show o ∈ regAdd s.tasks x from ho) with rfl | ho
      · exact hc
      · exact hs.tasks o ho
    | removeTask x => exact hs.tasks o (mem_regRemove (show o ∈ regRemove s.tasks x from ho))
    | resetTasks => cases ho
    | _ => exact hs.tasks o ho
  have G : (∀ o ∈ s'.regs.constr, Disjoint (foot o) D) ∧
      ∀ p, ∀ o ∈ s'.regs.rows p, Disjoint (foot o) D := by
    cases c with
    | addConstr mbs x =>
      have e : addToSolver ob.parts s.regs x = s'.regs := Out.ok.inj e2
      rw [← e]
      constructor
      · intro o ho
        rw [addToSolver, addPart_constr] at ho
        rcases mem_regAdd ho with rfl | ho
        · exact hc
        · exact hs.constr o ho
      · intro p o ho
        rcases addPart_rows ho with rfl | ho
        · exact hc
        · exact hs.rows p o ho
    | removeConstr x =>
      have e : removeFromSolver ob.parts s.regs x = .ok s'.regs := by
        simp only [constrOp, Option.toList, forEach, funStep] at e2
        rw [Out.bind_eq_ok] at e2
        obtain ⟨r, hr, e2⟩ := e2
        cases e2
        exact hr
      obtain ⟨k1, k2⟩ := removeFrom_sub e
      exact ⟨fun o ho => hs.constr o (k1 o ho), fun p o ho => hs.rows p o (k2 p o ho)⟩
    | _ =>
      have e : s.regs = s'.regs := Out.ok.inj e2
      rw [← e]
      exact ⟨hs.constr, hs.rows⟩
  exact ⟨T, G.1, G.2⟩

/-- **C101** (no write): a call of the solver that is not on an object in `D` does not write to `D`. -/
theorem C101_no_write (hf : Footprints ob foot) {s : Solver K Ob} (hs : Clear foot D s) (l : Bool)
    {c : Call K Ob (Loc → S) R} (hc : AvoidsMem foot D c) (hu : ∀ f, c ≠ .user f) {w w1 : Loc → S}
    {s1 : Solver K Ob} (h : c.run ob l (s, w) = .ok (s1, w1)) : ∀ x ∈ D, w1 x = w x := by
  intro x hx
  have solve : ∀ eng mbs mbcs r, s.solveNoMbcUpdate ob eng mbs mbcs w = .ok r → r.2.2.2 x = w x := by
    intro eng mbs mbcs r hr
    unfold Solver.solveNoMbcUpdate at hr
    simp only [Out.bind_eq_ok] at hr
    obtain ⟨⟨s2, w2⟩, h1, ⟨ok, b⟩, -, hr⟩ := hr
    have k := (preUpdate_keeps hf hs h1).2.2 x hx
    cases ok with
    | true => cases hr; exact k
    | false =>
      simp only [Bool.false_eq_true, if_false, Out.bind_eq_ok] at hr
      obtain ⟨msg, -, hr⟩ := hr
      cases hr
      exact k
  cases c with
  | nrVars mbs uni bi =>
    simp only [Call.run, Solver.nrVars, Out.bind_eq_ok] at h
    obtain ⟨⟨d, deps⟩, _, u1, h1, u2, h2, b, _, h⟩ := h
    cases h
    rw [forEach_keeps _ (fun o _ => hf.cNrVars o mbs _) hs.constr h2 hx,
      forEach_keeps _ (fun o _ => hf.tNrVars o mbs _) hs.tasks h1 hx]
  | updateConstrSize => cases h; rfl
  | updateNrVars mbs =>
    simp only [Call.run, Out.bind_eq_ok] at h
    obtain ⟨u1, h1, u2, h2, h⟩ := h
    cases h
    rw [forEach_keeps _ (fun o _ => hf.cNrVars o mbs _) hs.constr h2 hx,
      forEach_keeps _ (fun o _ => hf.tNrVars o mbs _) hs.tasks h1 hx]
  | setSolver name =>
    simp only [Call.run, Out.bind_eq_ok] at h
    obtain ⟨b, _, h⟩ := h
    cases h; rfl
  | addConstr mbs o =>
    cases mbs with
    | none => cases h; rfl
    | some mbs =>
      simp only [Call.run, Solver.addConstr] at h
      split at h
      · rw [Out.bind_eq_ok] at h
        obtain ⟨u, h1, h⟩ := h
        cases h
        exact usesOnly_keeps (hf.cNrVars o mbs _) hc h1 hx
      · cases h; rfl
  | removeConstr o =>
    simp only [Call.run, Out.bind_eq_ok] at h
    obtain ⟨b, _, h⟩ := h
    cases h; rfl
  | addTask mbs o =>
    cases mbs with
    | none => cases h; rfl
    | some mbs =>
      simp only [Call.run, Solver.addTask] at h
      split at h
      · rw [Out.bind_eq_ok] at h
        obtain ⟨u, h1, h⟩ := h
        cases h
        exact usesOnly_keeps (hf.tNrVars o mbs _) hc h1 hx
      · cases h; rfl
  | removeTask o => cases h; rfl
  | resetTasks => cases h; rfl
  | solve eng mbs mbcs =>
    simp only [Call.run, Out.bind_eq_ok] at h
    obtain ⟨⟨ok, m, s2, w2⟩, h1, h⟩ := h
    cases h
    obtain ⟨⟨msg, hr⟩, -⟩ := solve_parts h1
    exact solve _ _ _ _ hr
  | solveNoMbcUpdate eng mbs mbcs =>
    simp only [Call.run, Out.bind_eq_ok] at h
    obtain ⟨r, hr, h⟩ := h
    cases h
    exact solve _ _ _ _ hr
  | user f => exact absurd rfl (hu f)

theorem calls_eqOff (hf : Footprints ob foot) (l : Bool) (calls : List (Call K Ob (Loc → S) R))
    (hc : ∀ c ∈ calls, AvoidsMem foot D c) {s : Solver K Ob} (hs : Clear foot D s) {w w' : Loc → S}
    (h : EqOff D w w') :
    SameOut (fun a b => a.1 = b.1 ∧ EqOff D a.2 b.2) (forEach calls (Call.run ob l) (s, w))
      (forEach calls (Call.run ob l) (s, w')) := by
  induction calls generalizing s w w' with
  | nil => exact ⟨rfl, h⟩
  | cons c t ih =>
    refine sameOut_bind (P := fun a b => a.1 = b.1 ∧ EqOff D a.2 b.2 ∧ Clear foot D a.1) ?_ ?_
    · refine sameOut_mono (C101_call hf hs l (hc c (by simp)) h) ?_
      rintro a b ea - ⟨h1, h2⟩
      exact ⟨h1, h2, clear_call hs (hc c (by simp)) ea⟩
    · rintro ⟨s1, w1⟩ ⟨s1', w1'⟩ ⟨e, h1, hs1⟩
      dsimp only at e h1 hs1
      subst e
      exact ih (fun c hc' => hc c (by simp [hc'])) hs1 h1

/-- **C101** (partial).  After any history on a new solver that adds each constraint only while absent and
removes it only while present, let `D` be memory that no registered task or constraint uses, for example that of
objects that were removed.  Whatever the user then does with `D` (destroys the objects in it, uses it for
something else), every later sequence of calls that is not on objects in `D` has the same outcome: the same
state and result of the solver, the same memory outside `D`, the same crash or exception if any.

Missing for the full property: histories that add a constraint twice, for which the claim is false
(`C101_counterexample`). -/
theorem C101_destroyed_partial (hf : Footprints ob foot) (hp : ∀ o, (ob.parts o).Nodup) (l : Bool)
    (calls later : List (Call K Ob (Loc → S) R)) (s₀ s : Solver K Ob) (w₀ w : Loc → S)
    (h₀ : Solver.init l = .ok s₀) (h : Run ob l calls (s₀, w₀) (s, w)) (ha : Alternating (calls.filterMap constrOp))
    (D : Set Loc) (ht : ∀ i o, LiveAdd (calls.filterMap taskOp) i o → Disjoint (foot o) D)
    (hcs : ∀ o, Registered (calls.filterMap constrOp) o → Disjoint (foot o) D)
    (hl : ∀ c ∈ later, AvoidsMem foot D c) (w' : Loc → S) (hw : EqOff D w w') :
    SameOut (fun a b => a.1 = b.1 ∧ EqOff D a.2 b.2) (forEach later (Call.run ob l) (s, w))
      (forEach later (Call.run ob l) (s, w')) := by
  refine calls_eqOff hf l later hl ?_ hw
  unfold Solver.init at h₀
  rw [Out.bind_eq_ok] at h₀
  obtain ⟨b, _, h₀⟩ := h₀
  cases h₀
  obtain ⟨h1, h2⟩ := run_regs calls h
  obtain ⟨r, e, nd, mem, rows⟩ := C04_in_step_partial ob.parts hp _ ha
  have : r = s.regs := Out.ok.inj (e.symm.trans h2)
  subst this
  refine ⟨fun o ho => ?_, fun o ho => hcs o ((mem o).mp ho), fun p o ho => ?_⟩
  · rw [h1] at ho
    obtain ⟨i, hi⟩ := ((C03_registry_ordered_set (calls.filterMap taskOp)).2.1 o).mp ho
    exact ht i o hi
  · rw [rows p] at ho
    exact hcs o ((mem o).mp (List.mem_of_mem_filter ho))

end

/-! ## Objects of one number each -/

namespace LifeEx

/-- Object `o` counts its updates at location `o`, and is an inequality with as many rows. -/
def ob : Objects ℚ ℕ (ℕ → ℕ) Unit where
  cNrVars := fun o _ _ w => .ok (Function.update w o 1)
  tNrVars := fun o _ _ w => .ok (Function.update w o 1)
  cUpdate := fun o _ _ _ w => .ok (Function.update w o (w o + 1))
  tUpdate := fun o _ _ _ w => .ok (Function.update w o (w o + 1))
  eq := fun _ _ => ⟨0, 0, Mat.zero 0 0, Vec.const 0 0⟩
  inEq := fun w o => ⟨w o, 0, Mat.zero 0 0, Vec.const 0 .posInf⟩
  gen := fun _ _ => ⟨0, 0, Mat.zero 0 0, Vec.const 0 .negInf, Vec.const 0 .posInf⟩
  bound := fun _ _ => ⟨0, Vec.const 0 .negInf, Vec.const 0 .posInf⟩
  task := fun _ _ => ⟨Mat.zero 0 0, Vec.const 0 0, (0, 0), 1⟩
  parts := fun _ => [.inEq]

theorem uses (o : ℕ) (f : ℕ → ℕ) : UsesOnly {o} (fun w : ℕ → ℕ => Out.ok (Function.update w o (f (w o)))) := by
  constructor
  · intro w w' h l hl
    rw [Set.mem_singleton_iff.mp hl]
    simp [h o rfl]
  · intro w v e l hl
    cases e
    exact Function.update_of_ne (fun h => hl h) _ _

theorem foot : Footprints ob (fun o => {o}) where
  cNrVars o _ _ := uses o (fun _ => 1)
  tNrVars o _ _ := uses o (fun _ => 1)
  cUpdate o _ _ _ := uses o (fun n => n + 1)
  tUpdate o _ _ _ := uses o (fun n => n + 1)
  eq _ := fun _ _ _ => rfl
  inEq o := fun w w' h => by simp [ob, h o rfl]
  gen _ := fun _ _ _ => rfl
  bound _ := fun _ _ _ => rfl
  task _ := fun _ _ _ => rfl

/-- Task 0, constraints 1 and 2; constraint 2 removed again. -/
def calls : List (Call ℚ ℕ (ℕ → ℕ) Unit) :=
  [.addTask none 0, .addConstr none 1, .addConstr none 2, .updateConstrSize, .removeConstr 2]

/-- Afterwards, constraint 3 is added and the memory of 2 used for something else. -/
def later : List (Call ℚ ℕ (ℕ → ℕ) Unit) :=
  [.updateConstrSize, .user (fun w => Function.update w 2 7), .addConstr none 3, .updateNrVars [], .updateConstrSize]

theorem alt : Alternating (calls.filterMap constrOp) := by
  intro pre op post e
  have e' : [FunOp.add 1, FunOp.add 2, FunOp.remove 2] = pre ++ op :: post := e
  match pre, e' with
  | [], e' =>
    simp only [List.nil_append, List.cons.injEq] at e'
    obtain ⟨rfl, -⟩ := e'
    rintro ⟨i, hi, -⟩
    simp at hi
  | [a], e' =>
    simp only [List.cons_append, List.nil_append, List.cons.injEq] at e'
    obtain ⟨rfl, rfl, -⟩ := e'
    rintro ⟨i, hi, -⟩
    rcases i with _ | i <;> simp at hi
  | [a, b], e' =>
    simp only [List.cons_append, List.nil_append, List.cons.injEq] at e'
    obtain ⟨rfl, rfl, rfl, -⟩ := e'
    refine ⟨1, rfl, ?_⟩
    intro j hj
    rcases j with _ | _ | j <;> simp at hj ⊢
  | a :: b :: c :: t, e' => simp at e'

example : ∃ s₀ s w, Solver.init false = .ok s₀ ∧ Run ob false calls (s₀, fun _ => 1) (s, w) ∧
    Alternating (calls.filterMap constrOp) ∧ (∀ o, (ob.parts o).Nodup) ∧
    (∀ c ∈ later, AvoidsMem (fun o => {o}) {2} c) ∧
    (∀ i o, LiveAdd (calls.filterMap taskOp) i o → Disjoint ({o} : Set ℕ) {2}) ∧
    (∀ o, Registered (calls.filterMap constrOp) o → Disjoint ({o} : Set ℕ) {2}) ∧
    ∃ s' w', forEach later (Call.run ob false) (s, Function.update w 2 100) = .ok (s', w') ∧ s'.maxInEq = 2 := by
  refine ⟨_, _, _, rfl, rfl, alt, fun o => by simp [ob], ?_, ?_, ?_, _, _, rfl, by decide⟩
  · intro c hc
    simp only [later, List.mem_cons, List.not_mem_nil, or_false] at hc
    rcases hc with rfl | rfl | rfl | rfl | rfl
    · trivial
    · intro w w' h l hl
      dsimp only
      rw [Function.update_of_ne (fun e => hl e), Function.update_of_ne (fun e => hl e)]
      exact h l hl
    · simp [AvoidsMem]
    · trivial
    · trivial
  · intro i o h
    have e : calls.filterMap taskOp = [RegOp.add 0] := rfl
    rw [e] at h
    obtain ⟨h1, -⟩ := h
    rcases i with _ | i <;> simp at h1
    subst h1
    simp
  · intro o h
    have e : calls.filterMap constrOp = [FunOp.add 1, FunOp.add 2, FunOp.remove 2] := rfl
    rw [e] at h
    obtain ⟨i, h1, h2⟩ := h
    rcases i with _ | _ | _ | i <;> simp at h1
    · subst h1; simp
    · subst h1
      exact absurd rfl (h2 2 (by omega))

end LifeEx

/-- A constraint that is added twice and then removed stays in the problem (C04): destroying it is seen by the
solver.  Here the constraint's memory `D` is used by no task or constraint registered according to the calls,
but the number of rows the solver reserves depends on what `D` holds after the removal. -/
theorem C101_counterexample : ∃ (ob : Objects ℚ ℕ (ℕ → ℕ) Unit) (foot : ℕ → Set ℕ)
    (calls later : List (Call ℚ ℕ (ℕ → ℕ) Unit)) (s₀ s : Solver ℚ ℕ) (w₀ w w' : ℕ → ℕ) (D : Set ℕ),
    Footprints ob foot ∧ (∀ o, (ob.parts o).Nodup) ∧ Solver.init false = .ok s₀ ∧
    Run ob false calls (s₀, w₀) (s, w) ∧
    (∀ i o, LiveAdd (calls.filterMap taskOp) i o → Disjoint (foot o) D) ∧
    (∀ o, Registered (calls.filterMap constrOp) o → Disjoint (foot o) D) ∧
    (∀ c ∈ later, AvoidsMem foot D c) ∧ EqOff D w w' ∧
    ¬ SameOut (fun a b => a.1 = b.1 ∧ EqOff D a.2 b.2) (forEach later (Call.run ob false) (s, w))
      (forEach later (Call.run ob false) (s, w')) := by
  refine ⟨LifeEx.ob, fun o => {o}, [.addConstr none 2, .addConstr none 2, .removeConstr 2], [.updateConstrSize],
    _, _, fun _ => 1, _, Function.update (fun _ => 1) 2 100, {2}, LifeEx.foot, fun o => by simp [LifeEx.ob], rfl,
    rfl, ?_, ?_, ?_, ?_, ?_⟩
  · rintro i o ⟨h1, -⟩
    cases h1
  · intro o h
    have e : ([.addConstr none 2, .addConstr none 2, .removeConstr 2] : List (Call ℚ ℕ (ℕ → ℕ) Unit)).filterMap
      constrOp = [FunOp.add 2, FunOp.add 2, FunOp.remove 2] := rfl
    rw [e] at h
    obtain ⟨i, h1, h2⟩ := h
    rcases i with _ | _ | _ | i <;> simp at h1
    · subst h1
      exact absurd rfl (h2 2 (by omega))
    · subst h1
      exact absurd rfl (h2 2 (by omega))
  · simp [AvoidsMem]
  · intro l hl
    exact (Function.update_of_ne (fun e => hl e) _ _).symm
  · rintro ⟨h, -⟩
    have := congrArg Solver.maxInEq h
    revert this
    decide

end Verif
