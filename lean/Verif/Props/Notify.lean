import Verif.Props.SolverReg

/-!
# C105: every registered task and constraint knows the current layout when it is updated

`nrVars` announces the layout to the registered objects, and `addTask(mbs, task)`, `addConstraint(mbs, co)`
announce it to a new one.  What an object has to remember of the layout is left open: `Pt o d w` says that in
the world `w` the task `o` is ready for the layout `d`, `Pc` the same for constraints.
-/

set_option autoImplicit false
set_option linter.unusedSectionVars false

namespace Verif

variable {K Ob W R : Type} [Field K] [LinearOrder K] [IsStrictOrderedRing K] [DecidableEq Ob]

namespace Spec

/-- `updateNrVars` of an object makes it ready for the layout it is given; neither it nor an update makes an
object that is ready for a layout forget it. -/
structure Knowledge (ob : Objects K Ob W R) (Pt Pc : Ob → SolverData K → W → Prop) : Prop where
  layout_t : ∀ {o d d' w}, SameLayout d d' → Pt o d w → Pt o d' w
  layout_c : ∀ {o d d' w}, SameLayout d d' → Pc o d w → Pc o d' w
  tNrVars : ∀ {o mbs d w w'}, ob.tNrVars o mbs d w = .ok w' → Pt o d w' ∧
    ∀ o', (Pt o' d w → Pt o' d w') ∧ (Pc o' d w → Pc o' d w')
  cNrVars : ∀ {o mbs d w w'}, ob.cNrVars o mbs d w = .ok w' → Pc o d w' ∧
    ∀ o', (Pt o' d w → Pt o' d w') ∧ (Pc o' d w → Pc o' d w')
  tUpdate : ∀ {o mbs mbcs d w w'}, ob.tUpdate o mbs mbcs d w = .ok w' →
    ∀ o', (Pt o' d w → Pt o' d w') ∧ (Pc o' d w → Pc o' d w')
  cUpdate : ∀ {o mbs mbcs d w w'}, ob.cUpdate o mbs mbcs d w = .ok w' →
    ∀ o', (Pt o' d w → Pt o' d w') ∧ (Pc o' d w → Pc o' d w')

open Classical in
/-- The same objects, except that updating one that is not ready for the layout in use is an error. -/
noncomputable def watch (ob : Objects K Ob W R) (Pt Pc : Ob → SolverData K → W → Prop) : Objects K Ob W R :=
  { ob with
    tUpdate := fun o mbs mbcs d w =>
      if 0 < d.nrVars → Pt o d w then ob.tUpdate o mbs mbcs d w else .ub
    cUpdate := fun o mbs mbcs d w =>
      if 0 < d.nrVars → Pc o d w then ob.cUpdate o mbs mbcs d w else .ub }

/-- All registered objects are ready for the solver's layout, once it has one. -/
def AllKnow (Pt Pc : Ob → SolverData K → W → Prop) (sw : Solver K Ob × W) : Prop :=
  0 < sw.1.data.nrVars →
    (∀ o ∈ sw.1.tasks, Pt o sw.1.data sw.2) ∧ ∀ o ∈ sw.1.regs.constr, Pc o sw.1.data sw.2

/-- Objects are added with the robots, and what the user does leaves the objects ready. -/
def Announces (Pt Pc : Ob → SolverData K → W → Prop) : Call K Ob W R → Prop
  | .addTask none _ => False
  | .addConstr none _ => False
  | .user f => ∀ o d w, (Pt o d w → Pt o d (f w)) ∧ (Pc o d w → Pc o d (f w))
  | _ => True

end Spec

open Spec

theorem forEach_congr_inv {α σ : Type} {f g : α → σ → Out σ} (I : σ → Prop) :
    ∀ {l : List α} {s : σ}, I s → (∀ a ∈ l, ∀ s, I s → f a s = g a s) →
      (∀ a ∈ l, ∀ s s', I s → g a s = .ok s' → I s') → forEach l f s = forEach l g s
  | [], _, _, _, _ => rfl
  | a :: l, s, hs, he, hi => by
    simp only [forEach]
    rw [he a (List.mem_cons_self ..) s hs]
    cases h : g a s with
    | ok s' =>
      simp only [Out.ok_bind]
      exact forEach_congr_inv I (hi a (List.mem_cons_self ..) s s' hs h)
        (fun b hb => he b (List.mem_cons_of_mem _ hb)) (fun b hb => hi b (List.mem_cons_of_mem _ hb))
    | ub => rfl
    | throws e => rfl

theorem SameLayout.nrVars_eq {d d' : SolverData K} (h : SameLayout d d') : d'.nrVars = d.nrVars := by
  unfold SameLayout at h
  have := congrArg SolverData.nrVars h
  exact this

theorem SameLayout.symm {d d' : SolverData K} (h : SameLayout d d') : SameLayout d' d := by
  unfold SameLayout at *
  rw [← h]

section
variable {ob : Objects K Ob W R} {Pt Pc : Ob → SolverData K → W → Prop}

/-- The two loops of `updateNrVars` make everybody ready. -/
theorem tell_all (hk : Knowledge ob Pt Pc) {mbs : List (MultiBody K)} {d : SolverData K} {ts cs : List Ob}
    {w w1 w2 : W} (h1 : forEach ts (fun t w => ob.tNrVars t mbs d w) w = .ok w1)
    (h2 : forEach cs (fun c w => ob.cNrVars c mbs d w) w1 = .ok w2) :
    (∀ o ∈ ts, Pt o d w2) ∧ ∀ o ∈ cs, Pc o d w2 := by
  have g1 : ∀ {ts : List Ob} {w w1 : W}, forEach ts (fun t w => ob.tNrVars t mbs d w) w = .ok w1 →
      (∀ o ∈ ts, Pt o d w1) ∧ ∀ o, Pt o d w → Pt o d w1 := by
    intro ts
    induction ts with
    | nil =>
      intro w w1 h
      cases h
      exact ⟨fun o ho => absurd ho List.not_mem_nil, fun o h => h⟩
    | cons t ts ih =>
      intro w w1 h
      simp only [forEach, Out.bind_eq_ok] at h
      obtain ⟨w0, h0, h⟩ := h
      obtain ⟨a, b⟩ := hk.tNrVars h0
      obtain ⟨c, e⟩ := ih h
      refine ⟨fun o ho => ?_, fun o ho => e o ((b o).1 ho)⟩
      rcases List.mem_cons.1 ho with rfl | ho
      · exact e _ a
      · exact c o ho
  have g2 : ∀ {cs : List Ob} {w w1 : W}, forEach cs (fun t w => ob.cNrVars t mbs d w) w = .ok w1 →
      (∀ o ∈ cs, Pc o d w1) ∧ ∀ o, (Pc o d w → Pc o d w1) ∧ (Pt o d w → Pt o d w1) := by
    intro ts
    induction ts with
    | nil =>
      intro w w1 h
      cases h
      exact ⟨fun o ho => absurd ho List.not_mem_nil, fun o => ⟨fun h => h, fun h => h⟩⟩
    | cons t ts ih =>
      intro w w1 h
      simp only [forEach, Out.bind_eq_ok] at h
      obtain ⟨w0, h0, h⟩ := h
      obtain ⟨a, b⟩ := hk.cNrVars h0
      obtain ⟨c, e⟩ := ih h
      refine ⟨fun o ho => ?_, fun o => ⟨fun ho => (e o).1 ((b o).2 ho), fun ho => (e o).2 ((b o).1 ho)⟩⟩
      rcases List.mem_cons.1 ho with rfl | ho
      · exact (e _).1 a
      · exact c o ho
  exact ⟨fun o ho => ((g2 h2).2 o).2 ((g1 h1).1 o ho), (g2 h2).1⟩

/-- `nrVars` makes everybody ready, whatever happened before. -/
theorem C105_nrVars (hk : Knowledge ob Pt Pc) {mbs : List (MultiBody K)} {uni : List (UniContact K)}
    {bi : List (BiContact K)} {s s' : Solver K Ob} {w w' : W}
    (h : s.nrVars ob mbs uni bi w = .ok (s', w')) :
    (∀ o ∈ s'.tasks, Pt o s'.data w') ∧ ∀ o ∈ s'.regs.constr, Pc o s'.data w' := by
  simp only [Solver.nrVars, Out.bind_eq_ok] at h
  obtain ⟨⟨d, deps⟩, _, w1, h1, w2, h2, b, _, h⟩ := h
  cases h
  exact tell_all hk h1 h2

theorem preUpdate_watch (hk : Knowledge ob Pt Pc) {mbs : List (MultiBody K)} {mbcs : List (Mbc K R)}
    {s : Solver K Ob} {w : W} (hi : AllKnow Pt Pc (s, w)) :
    s.preUpdate (watch ob Pt Pc) mbs mbcs w = s.preUpdate ob mbs mbcs w ∧
      ∀ s' w', s.preUpdate ob mbs mbcs w = .ok (s', w') → AllKnow Pt Pc (s', w') := by
  unfold Solver.preUpdate
  cases hd : computeNormalAccB mbs mbcs s.data with
  | ub => exact ⟨rfl, fun _ _ h => nomatch h⟩
  | throws e => exact ⟨rfl, fun _ _ h => nomatch h⟩
  | ok d =>
    simp only [Out.ok_bind]
    have hl := computeNormalAccB_layout hd
    let I : W → Prop := fun w => 0 < d.nrVars →
      (∀ o ∈ s.tasks, Pt o d w) ∧ ∀ o ∈ s.regs.constr, Pc o d w
    have h0 : I w := fun hn => by
      obtain ⟨a, b⟩ := hi (by rw [hl.nrVars_eq] at hn; exact hn)
      exact ⟨fun o ho => hk.layout_t hl (a o ho), fun o ho => hk.layout_c hl (b o ho)⟩
    have sc : ∀ a ∈ s.regs.constr, ∀ w w', I w → ob.cUpdate a mbs mbcs d w = .ok w' → I w' :=
      fun a _ w w' hw h hn => ⟨fun o ho => (hk.cUpdate h o).1 ((hw hn).1 o ho),
        fun o ho => (hk.cUpdate h o).2 ((hw hn).2 o ho)⟩
    have st : ∀ a ∈ s.tasks, ∀ w w', I w → ob.tUpdate a mbs mbcs d w = .ok w' → I w' :=
      fun a _ w w' hw h hn => ⟨fun o ho => (hk.tUpdate h o).1 ((hw hn).1 o ho),
        fun o ho => (hk.tUpdate h o).2 ((hw hn).2 o ho)⟩
    have ec : forEach s.regs.constr (fun c w => (watch ob Pt Pc).cUpdate c mbs mbcs d w) w
        = forEach s.regs.constr (fun c w => ob.cUpdate c mbs mbcs d w) w :=
      forEach_congr_inv I h0 (fun a ha w hw => if_pos fun hn => (hw hn).2 a ha) sc
    rw [ec]
    cases hc : forEach s.regs.constr (fun c w => ob.cUpdate c mbs mbcs d w) w with
    | ub => exact ⟨rfl, fun _ _ h => nomatch h⟩
    | throws e => exact ⟨rfl, fun _ _ h => nomatch h⟩
    | ok w1 =>
      simp only [Out.ok_bind]
      have h1 : I w1 := forEach_inv I h0 (fun a ha s s' hs h => sc a ha s s' hs h) hc
      have et : forEach s.tasks (fun c w => (watch ob Pt Pc).tUpdate c mbs mbcs d w) w1
          = forEach s.tasks (fun c w => ob.tUpdate c mbs mbcs d w) w1 :=
        forEach_congr_inv I h1 (fun a ha w hw => if_pos fun hn => (hw hn).1 a ha) st
      rw [et]
      cases ht : forEach s.tasks (fun c w => ob.tUpdate c mbs mbcs d w) w1 with
      | ub => exact ⟨rfl, fun _ _ h => nomatch h⟩
      | throws e => exact ⟨rfl, fun _ _ h => nomatch h⟩
      | ok w2 =>
        refine ⟨rfl, fun s' w' h => ?_⟩
        have h2 : I w2 := forEach_inv I h1 (fun a ha s s' hs h => st a ha s s' hs h) ht
        simp only [Out.ok_bind, Out.bind_eq_ok] at h
        obtain ⟨b, _, h⟩ := h
        cases h
        exact h2

theorem solveNoMbcUpdate_watch (hk : Knowledge ob Pt Pc) {eng : Engines K} {mbs : List (MultiBody K)}
    {mbcs : List (Mbc K R)} {s : Solver K Ob} {w : W} (hi : AllKnow Pt Pc (s, w)) :
    s.solveNoMbcUpdate (watch ob Pt Pc) eng mbs mbcs w = s.solveNoMbcUpdate ob eng mbs mbcs w ∧
      ∀ o m s' w', s.solveNoMbcUpdate ob eng mbs mbcs w = .ok (o, m, s', w') → AllKnow Pt Pc (s', w') := by
  obtain ⟨e, hp⟩ := preUpdate_watch (mbs := mbs) (mbcs := mbcs) hk hi
  refine ⟨?_, fun o m s' w' h => ?_⟩
  · unfold Solver.solveNoMbcUpdate
    rw [e]
    rfl
  · obtain ⟨d, w1, b1, b2, e1, e2, e3, e4, _, rfl, _⟩ := solveNoMbcUpdate_parts h
    refine hp { s with data := d, backend := b1 } w' ?_
    unfold Solver.preUpdate
    rw [e1, Out.ok_bind, e2, Out.ok_bind, e3, Out.ok_bind, e4]
    rfl

theorem step_watch (hk : Knowledge ob Pt Pc) {l : Bool} {c : Call K Ob W R} (hc : Announces Pt Pc c)
    {sw : Solver K Ob × W} (hi : AllKnow Pt Pc sw) :
    c.run (watch ob Pt Pc) l sw = c.run ob l sw ∧
      ∀ sw', c.run ob l sw = .ok sw' → AllKnow Pt Pc sw' := by
  obtain ⟨s, w⟩ := sw
  cases c with
  | nrVars mbs uni bi => exact ⟨rfl, fun sw' h _ => C105_nrVars hk h⟩
  | updateConstrSize => exact ⟨rfl, fun sw' h => by cases h; exact hi⟩
  | updateNrVars mbs =>
    refine ⟨rfl, fun sw' h _ => ?_⟩
    simp only [Call.run, Out.bind_eq_ok] at h
    obtain ⟨w1, h1, w2, h2, h⟩ := h
    cases h
    exact tell_all hk h1 h2
  | setSolver name =>
    refine ⟨rfl, fun sw' h => ?_⟩
    simp only [Call.run, Solver.setSolver, Out.bind_eq_ok] at h
    obtain ⟨s1, ⟨b, _, h1⟩, h⟩ := h
    cases h1
    cases h
    exact hi
  | addConstr mbs o =>
    refine ⟨rfl, fun sw' h hn => ?_⟩
    cases mbs with
    | none => exact hc.elim
    | some mbs =>
      simp only [Call.run, Solver.addConstr] at h
      split at h
      · simp only [Out.bind_eq_ok] at h
        obtain ⟨w1, h1, h⟩ := h
        cases h
        obtain ⟨a, b⟩ := hk.cNrVars h1
        obtain ⟨i1, i2⟩ := hi hn
        refine ⟨fun o' ho => (b o').1 (i1 o' ho), fun o' ho => ?_⟩
        rw [addToSolver_constr] at ho
        unfold regAdd at ho
        split at ho
        · exact (b o').2 (i2 o' ho)
        · rcases List.mem_append.1 ho with ho | ho
          · exact (b o').2 (i2 o' ho)
          · rw [List.mem_singleton.1 ho]
            exact a
      · rename_i hno
        cases h
        refine ⟨(hi hn).1, fun o' ho => (hi hn).2 o' ?_⟩
        rw [addToSolver_constr] at ho
        unfold regAdd at ho
        split at ho
        · exact ho
        · rename_i hm
          exact absurd ⟨hm, hn⟩ hno
  | removeConstr o =>
    refine ⟨rfl, fun sw' h hn => ?_⟩
    simp only [Call.run, Solver.removeConstr, Out.bind_eq_ok] at h
    obtain ⟨s1, ⟨r, hr, h1⟩, h⟩ := h
    cases h1
    cases h
    refine ⟨(hi hn).1, fun o' ho => (hi hn).2 o' ?_⟩
    have e : r.constr = regRemove s.regs.constr o := by
      refine forEach_inv (fun r : Regs Ob => r.constr = regRemove s.regs.constr o) rfl ?_ hr
      intro p _ r r' hr hs
      unfold removePart at hs
      split at hs
      · cases hs
        exact hr
      · cases hs
    dsimp only at ho
    rw [e] at ho
    unfold regRemove at ho
    split at ho
    · exact List.mem_of_mem_erase ho
    · exact ho
  | addTask mbs o =>
    refine ⟨rfl, fun sw' h hn => ?_⟩
    cases mbs with
    | none => exact hc.elim
    | some mbs =>
      simp only [Call.run, Solver.addTask] at h
      split at h
      · simp only [Out.bind_eq_ok] at h
        obtain ⟨w1, h1, h⟩ := h
        cases h
        obtain ⟨a, b⟩ := hk.tNrVars h1
        obtain ⟨i1, i2⟩ := hi hn
        refine ⟨fun o' ho => ?_, fun o' ho => (b o').2 (i2 o' ho)⟩
        unfold regAdd at ho
        split at ho
        · exact (b o').1 (i1 o' ho)
        · rcases List.mem_append.1 ho with ho | ho
          · exact (b o').1 (i1 o' ho)
          · rw [List.mem_singleton.1 ho]
            exact a
      · rename_i hno
        cases h
        refine ⟨fun o' ho => (hi hn).1 o' ?_, (hi hn).2⟩
        unfold regAdd at ho
        split at ho
        · exact ho
        · rename_i hm
          exact absurd ⟨hm, hn⟩ hno
  | removeTask o =>
    refine ⟨rfl, fun sw' h hn => ?_⟩
    cases h
    refine ⟨fun o' ho => (hi hn).1 o' ?_, (hi hn).2⟩
    simp only [Solver.removeTask, regRemove] at ho
    split at ho
    · exact List.mem_of_mem_erase ho
    · exact ho
  | resetTasks =>
    refine ⟨rfl, fun sw' h hn => ?_⟩
    cases h
    exact ⟨fun o' ho => absurd ho List.not_mem_nil, (hi hn).2⟩
  | solve eng mbs mbcs =>
    obtain ⟨e, hp⟩ := solveNoMbcUpdate_watch (eng := eng) (mbs := mbs) (mbcs := mbcs) hk hi
    refine ⟨?_, fun sw' h => ?_⟩
    · simp only [Call.run, Solver.solve]
      rw [e]
    · simp only [Call.run, Out.bind_eq_ok] at h
      obtain ⟨⟨o, m, s1, w1⟩, h1, h⟩ := h
      cases h
      obtain ⟨⟨msg, h2⟩, _⟩ := solve_parts h1
      exact hp _ _ _ _ h2
  | solveNoMbcUpdate eng mbs mbcs =>
    obtain ⟨e, hp⟩ := solveNoMbcUpdate_watch (eng := eng) (mbs := mbs) (mbcs := mbcs) hk hi
    refine ⟨?_, fun sw' h => ?_⟩
    · simp only [Call.run]
      rw [e]
    · simp only [Call.run, Out.bind_eq_ok] at h
      obtain ⟨⟨o, m, s1, w1⟩, h1, h⟩ := h
      cases h
      exact hp _ _ _ _ h1
  | user f =>
    refine ⟨rfl, fun sw' h hn => ?_⟩
    cases h
    exact ⟨fun o ho => (hc o _ _).1 ((hi hn).1 o ho), fun o ho => (hc o _ _).2 ((hi hn).2 o ho)⟩

/-- From a solver all of whose objects are ready, every history of calls in which objects are added together
with the robots updates only objects that are ready for the layout in use, and leaves all of them ready. -/
theorem C105_history (hk : Knowledge ob Pt Pc) {l : Bool} {calls : List (Call K Ob W R)}
    (hc : ∀ c ∈ calls, Announces Pt Pc c) {sw : Solver K Ob × W} (hi : AllKnow Pt Pc sw) :
    forEach calls (Call.run (watch ob Pt Pc) l) sw = forEach calls (Call.run ob l) sw ∧
      ∀ sw', forEach calls (Call.run ob l) sw = .ok sw' → AllKnow Pt Pc sw' :=
  ⟨forEach_congr_inv (AllKnow Pt Pc) hi (fun c h s hs => (step_watch hk (hc c h) hs).1)
      (fun c h s s' hs => (step_watch hk (hc c h) hs).2 s'),
    fun _ h => forEach_inv (AllKnow Pt Pc) hi
      (fun c hcm s s' hs h => (step_watch hk (hc c hcm) hs).2 s' h) h⟩

/-- The same from the construction of the solver. -/
theorem C105_from_construction (hk : Knowledge ob Pt Pc) {l : Bool} {s0 : Solver K Ob}
    (h0 : Solver.init l = .ok s0) {calls : List (Call K Ob W R)} (hc : ∀ c ∈ calls, Announces Pt Pc c) {w : W} :
    forEach calls (Call.run (watch ob Pt Pc) l) (s0, w) = forEach calls (Call.run ob l) (s0, w) ∧
      ∀ sw', forEach calls (Call.run ob l) (s0, w) = .ok sw' → AllKnow Pt Pc sw' := by
  refine C105_history hk hc fun _ => ?_
  simp only [Solver.init, Out.bind_eq_ok] at h0
  obtain ⟨b, _, h0⟩ := h0
  cases h0
  exact ⟨fun o ho => absurd ho List.not_mem_nil, fun o ho => absurd ho List.not_mem_nil⟩

/-- The same from a call of `nrVars`, whatever happened before. -/
theorem C105_from_nrVars (hk : Knowledge ob Pt Pc) {l : Bool} {mbs : List (MultiBody K)}
    {uni : List (UniContact K)} {bi : List (BiContact K)} {calls : List (Call K Ob W R)}
    (hc : ∀ c ∈ calls, Announces Pt Pc c) {sw : Solver K Ob × W} :
    forEach (.nrVars mbs uni bi :: calls) (Call.run (watch ob Pt Pc) l) sw
        = forEach (.nrVars mbs uni bi :: calls) (Call.run ob l) sw ∧
      ∀ sw', forEach (.nrVars mbs uni bi :: calls) (Call.run ob l) sw = .ok sw' → AllKnow Pt Pc sw' := by
  simp only [forEach]
  have e : Call.run (watch ob Pt Pc) l (.nrVars mbs uni bi) sw = Call.run ob l (.nrVars mbs uni bi) sw := rfl
  rw [e]
  cases h : Call.run ob l (.nrVars mbs uni bi) sw with
  | ub => exact ⟨rfl, fun _ h => nomatch h⟩
  | throws x => exact ⟨rfl, fun _ h => nomatch h⟩
  | ok sw1 => exact C105_history hk hc fun _ => C105_nrVars hk h

/-- A task or constraint is announced the layout once: adding a registered object again changes neither the
task list nor any object. -/
theorem C105_again {s : Solver K Ob} {w : W} {mbs : Option (List (MultiBody K))} {o : Ob} :
    (o ∈ s.tasks → s.addTask ob mbs o w = .ok (s, w)) ∧
      (o ∈ s.regs.constr → s.addConstr ob mbs o w = .ok ({ s with regs := addToSolver ob.parts s.regs o }, w)) := by
  refine ⟨fun h => ?_, fun h => ?_⟩
  · unfold Solver.addTask regAdd
    rw [if_pos h]
    cases mbs with
    | none => rfl
    | some mbs => simp only [h, not_true_eq_false, false_and, if_false]; rfl
  · unfold Solver.addConstr
    cases mbs with
    | none => rfl
    | some mbs => simp only [h, not_true_eq_false, false_and, if_false]; rfl

/-- Before the first layout there is nothing to announce: with or without the robots, adding an object leaves
all objects as they are. -/
theorem C105_unsized {s : Solver K Ob} {w : W} {mbs : Option (List (MultiBody K))} {o : Ob}
    (h : s.data.nrVars = 0) :
    s.addTask ob mbs o w = .ok ({ s with tasks := regAdd s.tasks o }, w) ∧
      s.addConstr ob mbs o w = .ok ({ s with regs := addToSolver ob.parts s.regs o }, w) := by
  unfold Solver.addTask Solver.addConstr
  cases mbs with
  | none => exact ⟨rfl, rfl⟩
  | some mbs => simp only [h, lt_irrefl, and_false, if_false]; exact ⟨rfl, rfl⟩

end

/-! ## The overloads without the robots -/

namespace NotifyEx

/-- Objects that write down the number of variables they are told. -/
def obs : Objects ℚ ℕ (ℕ → ℕ) Unit :=
  { cNrVars := fun o _ d w => .ok (Function.update w o d.nrVars)
    tNrVars := fun o _ d w => .ok (Function.update w o d.nrVars)
    cUpdate := fun _ _ _ _ w => .ok w
    tUpdate := fun _ _ _ _ w => .ok w
    eq := fun _ => exObjects.eq ()
    inEq := fun _ => exObjects.inEq ()
    gen := fun _ => exObjects.gen ()
    bound := fun _ => exObjects.bound ()
    task := fun _ => exObjects.task ()
    parts := exObjects.parts }

/-- The number is up to date. -/
def Heard (o : ℕ) (d : SolverData ℚ) (w : ℕ → ℕ) : Prop := w o = d.nrVars

theorem knowledge : Knowledge obs Heard Heard := by
  have key : ∀ {o : ℕ} {d : SolverData ℚ} {w w' : ℕ → ℕ}, Out.ok (Function.update w o d.nrVars) = .ok w' →
      Heard o d w' ∧ ∀ o', (Heard o' d w → Heard o' d w') ∧ (Heard o' d w → Heard o' d w') := by
    intro o d w w' h
    cases h
    refine ⟨Function.update_self .., fun o' => ?_⟩
    have : Heard o' d w → Heard o' d (Function.update w o d.nrVars) := by
      intro h
      unfold Heard at *
      by_cases e : o' = o
      · rw [e, Function.update_self]
      · rw [Function.update_of_ne e, h]
    exact ⟨this, this⟩
  refine ⟨fun h e => e.trans h.nrVars_eq.symm, fun h e => e.trans h.nrVars_eq.symm, key, key, ?_, ?_⟩
  · intro o mbs mbcs d w w' h
    cases h
    exact fun o' => ⟨id, id⟩
  · intro o mbs mbcs d w w' h
    cases h
    exact fun o' => ⟨id, id⟩

/-- A solver with a two-dof robot: a task added together with the robots has heard of the two variables, a
task added without them has not. -/
theorem C105_without_robots_counterexample : ∃ s : Solver ℚ ℕ,
    (∃ w, Run obs false [.nrVars [exGrip] [] [], .addTask (some [exGrip]) 5] (exStart, fun _ => 0) (s, w) ∧
      s.data.nrVars = 2 ∧ w 5 = 2 ∧ AllKnow Heard Heard (s, w)) ∧
    ∃ w, Run obs false [.nrVars [exGrip] [] [], .addTask none 5] (exStart, fun _ => 0) (s, w) ∧
      w 5 = 0 ∧ ¬ AllKnow Heard Heard (s, w) := by
  obtain ⟨d, deps, e, sp⟩ := layout_ok (SolverData.init : SolverData ℚ) [exGrip] [] []
    (fun mb h => MimicOK.named (exGrip_ok mb h)) (by simp)
  have hn : d.nrVars = 2 := by
    rw [sp.nrVars, sp.totalAlphaD, sp.totalLambda, sp.nrUniLambda, sp.nrBiLambda]; rfl
  have hwf : DepsWF d.nrVars (allDeps [exGrip] 0) :=
    allDeps_DepsWF exGrip_ok (by rw [hn]; simp [exGrip, MultiBody.nrDof])
  obtain ⟨ds, hds, _⟩ := setDependencies_ok hwf (by omega) DepSt.init
  have hdeps := sp.deps
  subst hdeps
  let s1 : Solver ℚ ℕ := { exStart with
    data := d, backend := (Backend.qld { Qld.init with dep := ds }).updateSize 2 0 0 0 }
  let w1 : ℕ → ℕ := Function.update (Function.update (fun _ => 0) 0 2) 1 2
  have h1 : Call.run obs false (.nrVars [exGrip] [] []) (exStart, fun _ => 0) = .ok (s1, w1) := by
    have hdat : exStart.data = SolverData.init := rfl
    have hbk : exStart.backend.setDependencies d.nrVars (allDeps [exGrip] 0)
        = .ok (.qld { Qld.init with dep := ds }) := by
      simp only [exStart, Backend.setDependencies]
      change (Verif.setDependencies _ _ DepSt.init >>= _) = _
      rw [hds]
      rfl
    simp only [Call.run, Solver.nrVars, hdat, e, Out.ok_bind, hbk, Out.pure_eq]
    simp only [Solver.updateTasksNrVars, Solver.updateConstrsNrVars, exStart, forEach, obs, Out.ok_bind, hn]
    rfl
  refine ⟨{ s1 with tasks := [0, 5] }, ⟨Function.update w1 5 2, ?_, hn, by simp, ?_⟩, w1, ?_, rfl, ?_⟩
  · unfold Run forEach
    rw [h1, Out.ok_bind]
    simp only [forEach, Call.run, Solver.addTask]
    have : (5 : ℕ) ∉ s1.tasks ∧ 0 < s1.data.nrVars := ⟨by simp [s1, exStart], by change 0 < d.nrVars; omega⟩
    rw [if_pos this]
    have e2 : s1.data.nrVars = 2 := hn
    simp only [obs, Out.ok_bind, e2]
    rfl
  · intro _
    refine ⟨fun o ho => ?_, fun o ho => ?_⟩
    · have : o = 0 ∨ o = 5 := by simpa using ho
      change Function.update w1 5 2 o = d.nrVars
      rcases this with rfl | rfl <;> rw [hn] <;> rfl
    · have : o = 1 := by simpa [s1, exStart] using ho
      change Function.update w1 5 2 o = d.nrVars
      rw [this, hn]
      rfl
  · unfold Run forEach
    rw [h1, Out.ok_bind]
    rfl
  · intro h
    have := (h (by change 0 < d.nrVars; omega)).1 5 (by simp)
    change (0 : ℕ) = d.nrVars at this
    omega

end NotifyEx

end Verif
