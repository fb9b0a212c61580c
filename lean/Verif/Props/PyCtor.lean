import Verif.Model.PyCtor
import Verif.Props.Binding

/-!
# C113: the other constructors of the Python binding, and the objects without a C++ object

For every constructor with one C++ constructor behind it: the arguments it takes are those of the C++
constructor, in the same order, with the same default values, and everything else raises an exception.  Then the
cases in which the Python object exists and has no C++ object.
-/

set_option autoImplicit false

namespace Verif.PyCtor

open Verif.Binding Verif.Binding.Spec

/-! ## One overload -/

/-- What the property says of one constructor: for all arguments without `None` it makes the C++ object of the
overload exactly when the arguments are arguments of the overload, every argument in its place, and raises a
Python exception otherwise.  `n` is the number of the parameters that are passed to C++. -/
def Spec.Builds (run : List PyVal → Py Made) (fn : CFn) (n : ℕ) (os : List Overload) : Prop :=
  ∀ vs, NoNone vs → vs.length ≤ n →
    (∀ c, run vs = .ok (.built c) ↔ c.fn = fn ∧ ∃ o ∈ os, Accepts o vs c.args) ∧
    run vs ≠ .ok .empty ∧ run vs ≠ .ub

/-- A value that Python takes for true: not `None`, nor zero, nor empty. -/
def Spec.IsTrue (v : PyVal) : Prop :=
  ¬ (v = .none ∨ v = .int 0 ∨ v = .float 0 ∨ v = .str [] ∨ v = .bytes [] ∨ v = .list [])

/-- Every further positional argument is the undocumented `skip_alloc` of the constraints, or an error. -/
def Spec.Rest (run : List PyVal → Py Made) (fn : CFn) (n : ℕ) (skip : Bool) (o : Overload) : Prop :=
  ∀ vs w, NoNone vs → vs.length = n →
    (∀ c, run (vs ++ [w]) = .ok (.built c) ↔
      skip = true ∧ ¬ IsTrue w ∧ c.fn = fn ∧ Accepts o vs c.args) ∧
    (∀ as, Accepts o vs as →
      (run (vs ++ [w]) = .ok .empty ↔ skip = true ∧ IsTrue w)) ∧
    ∀ w' ws, run (vs ++ w :: w' :: ws) = .raises

theorem truthy_iff (v : PyVal) : Spec.IsTrue v ↔ truthy v = true := by
  cases v <;> simp [Spec.IsTrue, truthy]

theorem bindParams_le {ps : List Param} {vs ws : List PyVal} (h : bindParams ps vs = .ok ws) :
    vs.length ≤ ps.length ∧ ws.length = ps.length := by
  induction ps generalizing vs ws with
  | nil => cases vs <;> simp_all [bindParams]
  | cons p ps ih =>
    cases vs with
    | nil =>
      simp only [bindParams] at h
      split at h
      · simp at h
      · obtain ⟨ws', hw, h⟩ := Py.bind_eq_ok.1 h
        simp only [Py.pure_eq, Py.ok.injEq] at h
        subst h
        exact ⟨by simp, by simp [(ih hw).2]⟩
    | cons v vs =>
      simp only [bindParams] at h
      split at h
      · obtain ⟨ws', hw, h⟩ := Py.bind_eq_ok.1 h
        simp only [Py.pure_eq, Py.ok.injEq] at h
        subst h
        exact ⟨by simpa using (ih hw).1, by simp [(ih hw).2]⟩
      · simp at h

theorem bindParams_ge {ps : List Param} {vs ws : List PyVal} (h : bindParams ps vs = .ok ws) :
    (ps.filter fun p => p.dflt.isNone).length ≤ vs.length := by
  induction ps generalizing vs ws with
  | nil => simp
  | cons p ps ih =>
    cases vs with
    | nil =>
      simp only [bindParams] at h
      split at h
      · simp at h
      · rename_i d hd
        obtain ⟨ws', hw, h⟩ := Py.bind_eq_ok.1 h
        simpa [hd] using ih hw
    | cons v vs =>
      simp only [bindParams] at h
      split at h
      · obtain ⟨ws', hw, h⟩ := Py.bind_eq_ok.1 h
        have := ih hw
        rw [List.filter_cons]
        split <;> simp <;> omega
      · simp at h

/-- A last parameter with a default value that is not given. -/
theorem bindParams_dflt {ps : List Param} {q : Param} {d : PyVal} (hq : q.dflt = some d) {vs : List PyVal}
    (hl : vs.length ≤ ps.length) :
    bindParams (ps ++ [q]) vs = bindParams ps vs >>= fun ws => .ok (ws ++ [d]) := by
  induction ps generalizing vs with
  | nil =>
    cases vs with
    | nil => simp [bindParams, hq]
    | cons v vs => simp at hl
  | cons p ps ih =>
    cases vs with
    | nil =>
      simp only [List.cons_append, bindParams]
      cases p.dflt with
      | none => rfl
      | some e =>
        have := ih (vs := []) (by simp)
        rw [this]
        cases bindParams ps [] <;> simp
    | cons v vs =>
      simp only [List.cons_append, bindParams]
      split
      · rw [ih (by simpa using hl)]
        cases bindParams ps vs <;> simp
      · rfl

/-- A last parameter without a type that is given. -/
theorem bindParams_last {ps : List Param} {q : Param} (hq : q.ty = .any) {vs : List PyVal} (w : PyVal)
    (ws : List PyVal) (hl : vs.length = ps.length) :
    bindParams (ps ++ [q]) (vs ++ w :: ws) =
      if ws = [] then bindParams ps vs >>= fun xs => .ok (xs ++ [w]) else .raises := by
  induction ps generalizing vs with
  | nil =>
    cases vs with
    | nil => cases ws <;> simp [bindParams, hq, ParamTy.accepts]
    | cons v vs => simp at hl
  | cons p ps ih =>
    cases vs with
    | nil => simp at hl
    | cons v vs =>
      simp only [List.cons_append, bindParams]
      rw [ih (by simpa using hl)]
      split
      · split
        · cases bindParams ps vs <;> simp
        · rfl
      · split <;> rfl

theorem bindParams_more {ps : List Param} {vs : List PyVal} (h : ps.length < vs.length) :
    bindParams ps vs = .raises := by
  cases hb : bindParams ps vs with
  | raises => rfl
  | ub => exact absurd hb (bindParams_ne_ub _ _)
  | ok ws => exact absurd (bindParams_le hb).1 (by omega)

theorem zipPass_append (us : List Use) (vs ws : List PyVal) (h : us.length = vs.length) :
    zipPass (vs ++ ws) us = zipPass vs us := by
  induction us generalizing vs with
  | nil => cases vs <;> simp_all [zipPass]
  | cons u us ih =>
    cases vs with
    | nil => simp at h
    | cons v vs => simp [zipPass, ih vs (by simpa using h)]

/-- The declared parameters, their order and their default values agree with the overload. -/
def Ctor.good (k : Ctor) (o : Overload) : Bool :=
  ((List.range (o.opt.length + 1)).all fun j =>
      okAlt (List.replicate (o.req.length + j) none) k.params k.uses o.req o.opt)
    && k.params.length = o.req.length + o.opt.length && k.uses.length = k.params.length
    && (k.params.filter fun p => p.dflt.isNone).length = o.req.length
    && k.params.all fun p => match p.dflt with
      | none => true
      | some d => plain d

/-- The arguments of the C++ constructor. -/
theorem Ctor.args_iff {k : Ctor} {o : Overload} (h : k.good o = true) {vs : List PyVal} (hn : NoNone vs)
    {as : List CArg} :
    (bindParams k.params vs >>= fun ws => zipPass ws k.uses) = .ok as ↔ Accepts o vs as := by
  simp only [Ctor.good, Bool.and_eq_true, decide_eq_true_eq] at h
  obtain ⟨⟨⟨⟨h1, h2⟩, -⟩, h4⟩, -⟩ := h
  have hv : ∀ v ∈ vs, v ≠ .none := fun v hv => (hn v hv).1
  by_cases hl : ∃ j < o.opt.length + 1, vs.length = o.req.length + j
  · obtain ⟨j, hj, hl⟩ := hl
    have hok := List.all_eq_true.1 h1 j (List.mem_range.2 hj)
    have hc : checkArgs vs (List.replicate (o.req.length + j) none) = true := by
      have := checkArgs_pad vs (o.req.length + j) (by omega) []
      rw [List.append_nil] at this
      rw [this, ← hl]
      simp [checkArgs]
    have := okAlt_iff hok hv (as := as) (by simpa using hl)
    rw [hc] at this
    simpa [Accepts] using this
  · constructor
    · intro hb
      obtain ⟨ws, hw, -⟩ := Py.bind_eq_ok.1 hb
      have a := (bindParams_le hw).1
      have b := bindParams_ge hw
      exact absurd ⟨vs.length - o.req.length, by omega, by omega⟩ hl
    · intro hA
      exact absurd (args_length hA) hl

theorem Ctor.pass_ne_ub {k : Ctor} {o : Overload} (h : k.good o = true) {vs ws : List PyVal} (hn : NoNone vs)
    (hb : bindParams k.params vs = .ok ws) : zipPass ws k.uses ≠ .ub := by
  simp only [Ctor.good, Bool.and_eq_true, decide_eq_true_eq] at h
  refine zipPass_ne_ub (fun w hw => ?_) _
  rcases bindParams_mem hb w hw with hv | ⟨p, hp, hd⟩
  · exact hn w hv
  · have := List.all_eq_true.1 h.2 p hp
    rw [hd] at this
    cases w <;> simp_all [plain]

/-- A call that does not mention `skip_alloc`. -/
theorem Ctor.run_le {k : Ctor} (h3 : k.uses.length = k.params.length) {vs : List PyVal}
    (hl : vs.length ≤ k.params.length) :
    k.run vs = (bindParams k.params vs >>= fun ws => zipPass ws k.uses) >>= fun as => .ok (.built ⟨k.fn, as⟩) := by
  unfold Ctor.run
  simp only [passAll_inOrder]
  cases hs : k.skip with
  | false =>
    simp only [Bool.false_eq_true, if_false, List.append_nil, Bool.false_and]
    cases bindParams k.params vs <;> simp
  | true =>
    simp only [if_true, Bool.true_and]
    rw [bindParams_dflt (d := .int 0) rfl hl]
    cases hb : bindParams k.params vs with
    | raises => rfl
    | ub => rfl
    | ok ws =>
      have hw := (bindParams_le hb).2
      simp only [Py.ok_bind]
      rw [zipPass_append _ _ _ (by omega)]
      simp [← hw, truthy]

/-- A call with a value for `skip_alloc`. -/
theorem Ctor.run_skip {k : Ctor} (hs : k.skip = true) (h3 : k.uses.length = k.params.length) {vs : List PyVal}
    (w : PyVal) (hl : vs.length = k.params.length) :
    k.run (vs ++ [w]) = bindParams k.params vs >>= fun ws =>
      if truthy w then .ok .empty else zipPass ws k.uses >>= fun as => .ok (.built ⟨k.fn, as⟩) := by
  unfold Ctor.run
  simp only [passAll_inOrder, hs, if_true, Bool.true_and]
  rw [bindParams_last rfl w [] hl]
  cases hb : bindParams k.params vs with
  | raises => rfl
  | ub => rfl
  | ok ws =>
    have hw := (bindParams_le hb).2
    simp only [if_true, Py.ok_bind]
    rw [zipPass_append _ _ _ (by omega)]
    simp [← hw]

theorem Ctor.builds {k : Ctor} {o : Overload} (h : k.good o = true) :
    Spec.Builds k.run k.fn k.params.length [o] := by
  intro vs hn hl
  have h' := h
  simp only [Ctor.good, Bool.and_eq_true, decide_eq_true_eq] at h'
  rw [Ctor.run_le h'.1.1.2 hl]
  refine ⟨fun c => ?_, ?_, ?_⟩
  · simp only [List.mem_singleton, exists_eq_left, ← Ctor.args_iff h hn, Py.bind_eq_ok, Py.ok.injEq,
      Made.built.injEq]
    constructor
    · rintro ⟨as, hw, rfl⟩
      exact ⟨rfl, hw⟩
    · rintro ⟨hf, hw⟩
      refine ⟨c.args, hw, ?_⟩
      cases c
      cases hf
      rfl
  · intro hb
    obtain ⟨as, -, hb⟩ := Py.bind_eq_ok.1 hb
    simp at hb
  · exact Py.bind_ne_ub (Py.bind_ne_ub (bindParams_ne_ub _ _) fun ws hw => Ctor.pass_ne_ub h hn hw)
      fun _ _ => by simp

theorem Ctor.rest {k : Ctor} {o : Overload} (h : k.good o = true) :
    Spec.Rest k.run k.fn k.params.length k.skip o := by
  intro vs w hn hl
  simp only [truthy_iff, Bool.not_eq_true]
  have h' := h
  simp only [Ctor.good, Bool.and_eq_true, decide_eq_true_eq] at h'
  have h3 := h'.1.1.2
  cases hs : k.skip with
  | false =>
    have hr : ∀ ws : List PyVal, k.run (vs ++ w :: ws) = .raises := by
      intro ws
      unfold Ctor.run
      rw [hs]
      simp only [Bool.false_eq_true, if_false, List.append_nil]
      rw [bindParams_more (by simp; omega)]
      rfl
    exact ⟨by simp [hr], by simp [hr], fun _ _ => hr _⟩
  | true =>
    refine ⟨fun c => ?_, fun as hA => ?_, fun w' ws => ?_⟩
    · rw [Ctor.run_skip hs h3 w hl]
      cases ht : truthy w with
      | true => simp [Py.bind_eq_ok]
      | false =>
        simp only [← Ctor.args_iff h hn, Py.bind_eq_ok, Bool.false_eq_true, if_false, Py.ok.injEq,
          Made.built.injEq, true_and]
        constructor
        · rintro ⟨ws, hw, as, hz, rfl⟩
          exact ⟨rfl, ws, hw, hz⟩
        · rintro ⟨hf, ws, hw, hz⟩
          refine ⟨ws, hw, c.args, hz, ?_⟩
          cases c
          cases hf
          rfl
    · rw [Ctor.run_skip hs h3 w hl]
      obtain ⟨ws, hw, hz⟩ := Py.bind_eq_ok.1 ((Ctor.args_iff h hn).2 hA)
      rw [hw]
      cases ht : truthy w <;> simp [hz]
    · unfold Ctor.run
      rw [hs]
      simp only [if_true]
      rw [bindParams_last rfl w _ hl]
      simp

/-! ## The constructors of the C++ headers -/

namespace Spec

private abbrev robot : List CType := [.ref .multiBodyVector, .int]
private abbrev zero3 : CType × CArg := (.ref .vector3d, .ref .vector3d 0)
private abbrev identity : CType × CArg := (.ref .ptransformd, .ref .ptransformd 0)
private abbrev identity3 : CType × CArg := (.ref .matrix3d, .ref .matrix3d 0)
private abbrev off : CType × CArg := (.double, .dbl 0)

/-- src/Tasks/QPTasks.h:493-497 -/
def positionTask : Overload := { req := robot ++ [.string, .ref .vector3d], opt := [zero3] }
/-- src/Tasks/QPTasks.h:616-621 -/
def transformTask : Overload := { req := robot ++ [.string, .ref .ptransformd], opt := [identity, identity3] }
/-- src/Tasks/QPTasks.h:601-605 -/
def surfaceTransformTask : Overload := { req := robot ++ [.string, .ref .ptransformd], opt := [identity] }
/-- src/Tasks/QPTasks.h:711-715 -/
def visServoTask : Overload := { req := robot ++ [.string, .ref .ptransformd], opt := [identity] }
/-- src/Tasks/QPTasks.h:888 -/
def momentumTask : Overload := { req := robot ++ [.ref .forceVecd] }
/-- src/Tasks/QPTasks.h:976-980 -/
def linVelocityTask : Overload := { req := robot ++ [.string, .ref .vector3d], opt := [zero3] }
/-- src/Tasks/QPTasks.h:833-841 -/
def multiRobotTransformTask : Overload :=
  { req := [.ref .multiBodyVector, .int, .int, .string, .string, .ref .ptransformd, .ref .ptransformd, .double,
      .double] }
/-- src/Tasks/QPTasks.h:914 -/
def contactTask : Overload := { req := [.ref .contactId, .double, .double] }
/-- src/Tasks/QPTasks.h:948 -/
def gripperTorqueTask : Overload := { req := [.ref .contactId, .ref .vector3d, .ref .vector3d, .double] }

/-- src/Tasks/QPMotionConstr.h:200 -/
def motionPolyConstr : Overload := { req := robot ++ [.ref .polyTorqueBound] }
/-- src/Tasks/QPMotionConstr.h:33, QPContactConstr.h:203, QPConstr.h:606 -/
def noParameters : Overload := { req := [] }
/-- src/Tasks/QPContactConstr.h:222, 246 -/
def timeStep : Overload := { req := [.double] }
/-- src/Tasks/QPConstr.h:295 -/
def collisionConstr : Overload := { req := [.ref .multiBodyVector, .double] }
/-- src/Tasks/QPConstr.h:478, 669 -/
def robotStep : Overload := { req := robot ++ [.double] }
/-- src/Tasks/QPConstr.h:65 -/
def jointLimitsConstr : Overload := { req := robot ++ [.ref .qBound, .double] }
/-- src/Tasks/QPConstr.h:164-171 -/
def damperJointLimitsConstr : Overload :=
  { req := robot ++ [.ref .qBound, .ref .alphaBound, .double, .double, .double, .double] }
/-- src/Tasks/QPConstr.h:800-805, with the type of the body name as a parameter -/
def imageConstr (s : CType) : Overload :=
  { req := robot ++ [s, .ref .ptransformd, .double], opt := [(.double, .dbl 1)] }
/-- src/Tasks/QPConstr.h:324-337, without the last two parameters -/
def addCollision : Overload :=
  { req := [.ref .multiBodyVector, .int, .int, .string, .ref .sObject, .ref .ptransformd, .int, .string,
      .ref .sObject, .ref .ptransformd, .double, .double, .double], opt := [off] }
/-- src/Tasks/QPConstr.h:495-501 -/
def addPlane : Overload :=
  { req := [.int, .ref .vector3d, .double, .double, .double, .double], opt := [off] }
/-- src/Tasks/QPConstr.h:608-611 -/
def addGripper : Overload := { req := [.ref .contactId, .double, .ref .vector3d, .ref .vector3d] }
/-- src/Tasks/QPConstr.h:685-689 -/
def addBoundedSpeed : Overload :=
  { req := [.ref .multiBodyVector, .string, .ref .vector3d, .ref .matrixXd, .ref .vectorXd] }
/-- src/Tasks/QPConstr.h:827-832 -/
def setLimits : Overload :=
  { req := [.ref .vector2d, .ref .vector2d, .double, .double, .double, .double] }

/-- src/Tasks/Tasks.h:35-38, with the type of the body name as a parameter; so are the next ones -/
def tPositionTask (s : CType) : Overload := { req := [.ref .multiBody, s, .ref .vector3d], opt := [zero3] }
/-- src/Tasks/Tasks.h:75, 76 -/
def tOrientationTask (s : CType) : List Overload :=
  [{ req := [.ref .multiBody, s, .ref .quaterniond] }, { req := [.ref .multiBody, s, .ref .matrix3d] }]
/-- src/Tasks/Tasks.h:230-237 -/
def tSurfaceOrientationTask (s : CType) : List Overload :=
  [{ req := [.ref .multiBody, s, .ref .quaterniond, .ref .ptransformd] },
   { req := [.ref .multiBody, s, .ref .matrix3d, .ref .ptransformd] }]
/-- src/Tasks/Tasks.h:272-277 -/
def tGaze2 (s : CType) : Overload :=
  { req := [.ref .multiBody, s, .ref .vector2d, .double, .ref .ptransformd],
    opt := [(.ref .vector2d, .ref .vector2d 0)] }
/-- src/Tasks/Tasks.h:278-282 -/
def tGaze3 (s : CType) : Overload :=
  { req := [.ref .multiBody, s, .ref .vector3d, .ref .ptransformd],
    opt := [(.ref .vector2d, .ref .vector2d 0)] }
/-- src/Tasks/Tasks.h:292, 293 -/
def tGazeError : List Overload :=
  [{ req := [.ref .vector2d], opt := [(.ref .vector2d, .ref .vector2d 0)] },
   { req := [.ref .vector3d], opt := [(.ref .vector2d, .ref .vector2d 0)] }]
/-- src/Tasks/Tasks.h:328-331 -/
def tVisServoTask (s : CType) : Overload := { req := [.ref .multiBody, s, .ref .ptransformd, .ref .ptransformd] }
/-- src/Tasks/Tasks.h:187-193 -/
def tMultiRobotTransformTask (s : CType) : Overload :=
  { req := [.ref .multiBodyVector, .int, .int, s, s, .ref .ptransformd, .ref .ptransformd] }
/-- src/Tasks/Tasks.h:484 -/
def tMomentumTask : Overload := { req := [.ref .multiBody, .ref .forceVecd] }
/-- src/Tasks/Tasks.h:515-518 -/
def tLinVelocityTask (s : CType) : Overload := { req := [.ref .multiBody, s, .ref .vector3d], opt := [zero3] }
/-- src/Tasks/Tasks.h:167-171 -/
def tTransformTask (s : CType) : Overload :=
  { req := [.ref .multiBody, s, .ref .ptransformd], opt := [identity, identity3] }
/-- src/Tasks/Tasks.h:145-148 -/
def tSurfaceTransformTask (s : CType) : Overload :=
  { req := [.ref .multiBody, s, .ref .ptransformd], opt := [identity] }

/-- src/Tasks/QPTasks.h:329, 330 -/
def jointStiffness : List Overload := [{ req := [] }, { req := [.string, .double] }]
/-- src/Tasks/QPTasks.h:338-342, with the type of the joint name as a parameter -/
def jointGains (s : CType) : List Overload :=
  [{ req := [] }, { req := [s, .double] }, { req := [s, .double, .double] }]
/-- src/Tasks/QPMotionConstr.h:152, 153 -/
def springJoint (s : CType) : List Overload := [{ req := [] }, { req := [s, .double, .double, .double] }]

/-- src/Tasks/QPMotionConstr.h:125 -/
def motion : Overload := { req := robot ++ [.ref .torqueBound] }
/-- src/Tasks/QPMotionConstr.h:127-131 -/
def motionDot : Overload := { req := robot ++ [.ref .torqueBound, .ref .torqueDBound, .double] }
/-- src/Tasks/QPMotionConstr.h:162-165 -/
def spring : Overload := { req := robot ++ [.ref .torqueBound, .vec .springJoint] }
/-- src/Tasks/QPMotionConstr.h:167-172 -/
def springDot : Overload :=
  { req := robot ++ [.ref .torqueBound, .ref .torqueDBound, .double, .vec .springJoint] }

/-- The tasks of the solver (src/Tasks/QPTasks.h) with one constructor. -/
def tasks : List (Ctor × Overload) := [
  (PyCtor.positionTask, positionTask), (PyCtor.transformTask, transformTask),
  (PyCtor.surfaceTransformTask, surfaceTransformTask), (PyCtor.visServoTask, visServoTask),
  (PyCtor.momentumTask, momentumTask), (PyCtor.linVelocityTask, linVelocityTask),
  (PyCtor.multiRobotTransformTask, multiRobotTransformTask), (PyCtor.contactTask, contactTask),
  (PyCtor.gripperTorqueTask, gripperTorqueTask)]

/-- The constraints and their methods; for `JointLimitsConstr`, `DamperJointLimitsConstr`, `addPlane` and
`addBoundedSpeed` the first overload of the header. -/
def constraints : List (Ctor × Overload) := [
  (PyCtor.motionPolyConstr, motionPolyConstr), (PyCtor.positiveLambda, noParameters),
  (PyCtor.contactAccConstr, noParameters), (PyCtor.contactSpeedConstr, timeStep),
  (PyCtor.contactPosConstr, timeStep), (PyCtor.collisionConstr, collisionConstr),
  (PyCtor.comIncPlaneConstr, robotStep), (PyCtor.jointLimitsConstr, jointLimitsConstr),
  (PyCtor.damperJointLimitsConstr, damperJointLimitsConstr), (PyCtor.gripperTorqueConstr, noParameters),
  (PyCtor.boundedSpeedConstr, robotStep), (PyCtor.imageConstr, imageConstr .byteString),
  (PyCtor.addCollision, addCollision), (PyCtor.addPlane, addPlane), (PyCtor.addGripper, addGripper),
  (PyCtor.addBoundedSpeed, addBoundedSpeed), (PyCtor.setLimits, setLimits)]

/-- The tasks without a solver (src/Tasks/Tasks.h) with one constructor, the names given as `bytes`. -/
def plainTasks : List (Ctor × Overload) := [
  (PyCtor.tPositionTask, tPositionTask .byteString), (PyCtor.tVisServoTask, tVisServoTask .byteString),
  (PyCtor.tMultiRobotTransformTask, tMultiRobotTransformTask .byteString),
  (PyCtor.tMomentumTask, tMomentumTask), (PyCtor.tLinVelocityTask, tLinVelocityTask .byteString),
  (PyCtor.tTransformTask, tTransformTask .byteString),
  (PyCtor.tSurfaceTransformTask, tSurfaceTransformTask .byteString)]

end Spec

/-- **C113.** The tasks of the solver, the constraints with their methods, and the tasks without a solver. -/
theorem C113_one_overload_partial :
    ∀ p ∈ Spec.tasks ++ Spec.constraints ++ Spec.plainTasks,
      Spec.Builds p.1.run p.1.fn p.1.params.length [p.2] ∧
      Spec.Rest p.1.run p.1.fn p.1.params.length p.1.skip p.2 := by
  have key : (Spec.tasks ++ Spec.constraints ++ Spec.plainTasks).all (fun p => p.1.good p.2) = true := by
    decide
  intro p hp
  have := List.all_eq_true.1 key p hp
  exact ⟨Ctor.builds this, Ctor.rest this⟩

/-- **C113.** Each of them builds an object of the class of its own name, or calls the method of its own name. -/
theorem C113_own_class :
    Spec.tasks.map (fun p => p.1.fn) = [.positionTask, .transformTask, .surfaceTransformTask, .visServoTask,
      .momentumTask, .linVelocityTask, .multiRobotTransformTask, .contactTask, .gripperTorqueTask] ∧
    Spec.constraints.map (fun p => p.1.fn) = [.motionPolyConstr, .positiveLambda, .contactAccConstr,
      .contactSpeedConstr, .contactPosConstr, .collisionConstr, .comIncPlaneConstr, .jointLimitsConstr,
      .damperJointLimitsConstr, .gripperTorqueConstr, .boundedSpeedConstr, .imageConstr, .addCollision, .addPlane,
      .addGripper, .addBoundedSpeed, .setLimits] ∧
    Spec.plainTasks.map (fun p => p.1.fn) = [.tPositionTask, .tVisServoTask, .tMultiRobotTransformTask,
      .tMomentumTask, .tLinVelocityTask, .tTransformTask, .tSurfaceTransformTask] := by decide

/-- Which constructors have the parameter `skip_alloc`. -/
theorem C113_skip_alloc :
    ((Spec.tasks ++ Spec.constraints ++ Spec.plainTasks).filter fun p => p.1.skip).map (fun p => p.1.fn) =
      [.motionPolyConstr, .positiveLambda, .contactAccConstr, .contactSpeedConstr, .contactPosConstr,
        .collisionConstr, .jointLimitsConstr, .damperJointLimitsConstr] := by decide

/-- **C113.** The gains and springs of a joint. -/
theorem C113_joint_values_partial :
    Exact jointStiffness.run .jointStiffness Spec.jointStiffness ∧
    Exact jointGains.run .jointGains (Spec.jointGains .byteString) ∧
    Exact springJoint.run .springJoint (Spec.springJoint .byteString) :=
  ⟨Entry.exact (by decide) rfl, Entry.exact (by decide) rfl, Entry.exact (by decide) rfl⟩

/-- **C113.** The orientation tasks without a solver and `GazeTask.error`. -/
theorem C113_plain_orientation_partial :
    Exact tOrientationTask.run .tOrientationTask (Spec.tOrientationTask .byteString) ∧
    Exact tSurfaceOrientationTask.run .tSurfaceOrientationTask (Spec.tSurfaceOrientationTask .byteString) ∧
    Exact tGazeError.run .tGazeError Spec.tGazeError :=
  ⟨Entry.exact (by decide) rfl, Entry.exact (by decide) rfl, Entry.exact (by decide) rfl⟩

/-! ## The motion constraints -/

/-- `MotionConstr(mbs, robotIndex, tb)` -/
private def motion3 : Ctor where
  params := [⟨.ext .multiBodyVector, none⟩, ⟨.cint, none⟩, ⟨.ext .torqueBound, none⟩]
  fn := .motionConstr
  uses := [.impl .multiBodyVector, .int, .impl .torqueBound]

/-- `MotionConstr(mbs, robotIndex, tb, tdb, dt)` -/
private def motion5 : Ctor where
  params := [⟨.ext .multiBodyVector, none⟩, ⟨.cint, none⟩, ⟨.ext .torqueBound, none⟩,
    ⟨.ext .torqueDBound, none⟩, ⟨.any, none⟩]
  fn := .motionConstr
  uses := [.impl .multiBodyVector, .int, .impl .torqueBound, .impl .torqueDBound, .dbl]

private theorem motion_three (a b c : PyVal) : motionConstr [a, b, c] = motion3.run [a, b, c] := by
  simp only [motionConstr, Ctor.run, motion3, bindParams, List.cons_append, List.nil_append, skipParam]
  repeat' split
  all_goals simp [passAll, inOrder, truthy, bindParams]

private theorem motion_five (a b c d e : PyVal) (hd : d ≠ .none) :
    motionConstr [a, b, c, d, e] = motion5.run [a, b, c, d, e] := by
  simp only [motionConstr, Ctor.run, motion5, bindParams, List.cons_append, List.nil_append, skipParam]
  repeat' split
  all_goals simp_all [passAll, inOrder, truthy, bindParams]

/-- A time step that is not given raises an exception. -/
private theorem zipPass_no_step (us : List Use) {vs : List PyVal} (hn : NoNone vs) (h : us.length = vs.length)
    (ws : List PyVal) : zipPass (vs ++ .none :: ws) (us ++ [.dbl]) = .raises := by
  induction us generalizing vs with
  | nil => cases vs <;> simp_all [zipPass, Use.pass]
  | cons u us ih =>
    cases vs with
    | nil => simp at h
    | cons v vs =>
      have hv := hn v (by simp)
      simp only [List.cons_append, zipPass]
      rw [ih (fun x hx => hn x (by simp [hx])) (by simpa using h)]
      cases hp : u.pass v with
      | ok a => simp
      | raises => rfl
      | ub => exact absurd hp (pass_ne_ub hv.1 hv.2)

private theorem motion_four (a b c d : PyVal) (hn : NoNone [a, b, c, d]) :
    motionConstr [a, b, c, d] = .raises := by
  have hd := (hn d (by simp)).1
  have := zipPass_no_step [.impl .multiBodyVector, .int, .impl .torqueBound, .impl .torqueDBound] hn rfl [.int 0]
  simp only [List.cons_append, List.nil_append] at this
  simp only [motionConstr, bindParams, skipParam, passAll_inOrder]
  repeat' split
  all_goals simp only [Py.ok_bind, Py.raises_bind, Py.pure_eq]
  simp only [truthy, this, List.getElem?_cons_succ, List.getElem?_cons_zero, Option.any_some]
  simp
  split
  · simp_all
  · rfl

/-- **C113.** `MotionConstr`: the two constructors of the header. -/
theorem C113_motion : Spec.Builds motionConstr .motionConstr 5 [Spec.motion, Spec.motionDot] := by
  intro vs hn hl
  have k3 := Ctor.builds (k := motion3) (o := Spec.motion) (by decide)
  have k5 := Ctor.builds (k := motion5) (o := Spec.motionDot) (by decide)
  have hlen : ∀ {as}, (Accepts Spec.motion vs as → vs.length = 3) ∧ (Accepts Spec.motionDot vs as → vs.length = 5) := by
    intro as
    constructor
    · intro h
      obtain ⟨k, hk, h⟩ := args_length h
      simp [Spec.motion] at hk h
      omega
    · intro h
      obtain ⟨k, hk, h⟩ := args_length h
      simp [Spec.motionDot] at hk h
      omega
  have no : motionConstr vs = .raises → (∀ as, ¬ Accepts Spec.motion vs as) → (∀ as, ¬ Accepts Spec.motionDot vs as) →
      (∀ c, motionConstr vs = .ok (.built c) ↔ c.fn = .motionConstr ∧ ∃ o ∈ [Spec.motion, Spec.motionDot], Accepts o vs c.args) ∧
      motionConstr vs ≠ .ok .empty ∧ motionConstr vs ≠ .ub := by
    intro h h3 h5
    simp [h, h3, h5]
  match vs, hl with
  | [], _ => exact no rfl (fun _ h => by simpa using hlen.1 h) (fun _ h => by simpa using hlen.2 h)
  | [a], _ =>
    refine no ?_ (fun _ h => by simpa using hlen.1 h) (fun _ h => by simpa using hlen.2 h)
    simp only [motionConstr, bindParams]
    split <;> rfl
  | [a, b], _ =>
    refine no ?_ (fun _ h => by simpa using hlen.1 h) (fun _ h => by simpa using hlen.2 h)
    simp only [motionConstr, bindParams]
    repeat' split
    all_goals rfl
  | [a, b, c], _ =>
    have h5 : ∀ as, ¬ Accepts Spec.motionDot [a, b, c] as := fun _ h => by simpa using hlen.2 h
    rw [motion_three]
    simpa [h5, motion3] using k3 [a, b, c] hn (by simp [motion3])
  | [a, b, c, d], _ =>
    exact no (motion_four a b c d hn) (fun _ h => by simpa using hlen.1 h) (fun _ h => by simpa using hlen.2 h)
  | [a, b, c, d, e], _ =>
    have h3 : ∀ as, ¬ Accepts Spec.motion [a, b, c, d, e] as := fun _ h => by simpa using hlen.1 h
    rw [motion_five _ _ _ _ _ (hn d (by simp)).1]
    simpa [h3, motion5] using k5 [a, b, c, d, e] hn (by simp [motion5])
  | _ :: _ :: _ :: _ :: _ :: _ :: _, h => exact absurd h (by simp)

/-- `MotionSpringConstr(mbs, robotIndex, tb, springs)` -/
private def spring4 : Ctor where
  params := [⟨.ext .multiBodyVector, none⟩, ⟨.cint, none⟩, ⟨.ext .torqueBound, none⟩, ⟨.any, none⟩]
  fn := .motionSpringConstr
  uses := [.impl .multiBodyVector, .int, .impl .torqueBound, .vec .springJoint]

/-- `MotionSpringConstr(mbs, robotIndex, tb, springs, tdb, dt)`, the arguments in the order of Python -/
private def spring6 : Ctor where
  params := [⟨.ext .multiBodyVector, none⟩, ⟨.cint, none⟩, ⟨.ext .torqueBound, none⟩, ⟨.any, none⟩,
    ⟨.ext .torqueDBound, none⟩, ⟨.any, none⟩]
  fn := .motionSpringConstr
  uses := [.impl .multiBodyVector, .int, .impl .torqueBound, .vec .springJoint, .impl .torqueDBound, .dbl]

private theorem spring_four (a b c d : PyVal) : motionSpringConstr [a, b, c, d] = spring4.run [a, b, c, d] := by
  simp only [motionSpringConstr, Ctor.run, spring4, bindParams, List.cons_append, List.nil_append, skipParam]
  repeat' split
  all_goals simp [passAll, inOrder, truthy, bindParams]

private theorem spring_six (a b c d e f : PyVal) (he : e ≠ .none) (k : CCall) :
    motionSpringConstr [a, b, c, d, e, f] = .ok (.built k) ↔
      ∃ a0 a1 a2 a3 a4 a5, spring6.run [a, b, c, d, e, f] =
          .ok (.built ⟨.motionSpringConstr, [a0, a1, a2, a3, a4, a5]⟩) ∧
        k = ⟨.motionSpringConstr, [a0, a1, a2, a4, a5, a3]⟩ := by
  simp only [motionSpringConstr, Ctor.run, spring6, bindParams, List.cons_append, List.nil_append, skipParam]
  repeat' split
  all_goals simp [passAll, inOrder, truthy, bindParams]
  split
  · simp_all
  · simp only [Py.bind_eq_ok, Py.ok.injEq, Made.built.injEq]
    constructor
    · rintro ⟨_, ⟨a0, h0, _, ⟨a1, h1, _, ⟨a2, h2, _, ⟨a4, h4, _, ⟨a5, h5, _, ⟨a3, h3, e3⟩, e5⟩, e4⟩, e2⟩, e1⟩, e0⟩, e⟩
      subst e3 e5 e4 e2 e1 e0 e
      refine ⟨a0, a1, a2, a3, a4, a5, ?_, rfl⟩
      simp [h0, h1, h2, h3, h4, h5]
    · rintro ⟨a0, a1, a2, a3, a4, a5, ⟨_, ⟨b0, h0, _, ⟨b1, h1, _, ⟨b2, h2, _, ⟨b3, h3, _, ⟨b4, h4, _, ⟨b5, h5, e5⟩, e4⟩, e3⟩, e2⟩, e1⟩, e0⟩, h⟩, hk⟩
      subst e5 e4 e3 e2 e1 e0
      simp only [CCall.mk.injEq, List.cons.injEq, true_and, and_true] at h
      obtain ⟨rfl, rfl, rfl, rfl, rfl, rfl⟩ := h
      subst hk
      simp [h0, h1, h2, h3, h4, h5]

private theorem bind_raises {α β : Type} {x : Py α} (hx : x ≠ .ub) {f : α → Py β} (hf : ∀ a, f a = .raises) :
    x >>= f = .raises := by
  cases x with
  | ok a => exact hf a
  | raises => rfl
  | ub => exact absurd rfl hx

private theorem spring_five (a b c d e : PyVal) (hn : NoNone [a, b, c, d, e]) :
    motionSpringConstr [a, b, c, d, e] = .raises := by
  have ha := hn a (by simp)
  have hb := hn b (by simp)
  have hc := hn c (by simp)
  have he := hn e (by simp)
  simp only [motionSpringConstr, bindParams, skipParam]
  repeat' split
  all_goals simp only [Py.ok_bind, Py.raises_bind, Py.pure_eq]
  simp only [truthy, List.getElem?_cons_succ, List.getElem?_cons_zero, Option.any_some, passAll]
  simp
  split
  · simp_all
  · rw [bind_raises (pass_ne_ub ha.1 ha.2)]
    · rfl
    intro _
    rw [bind_raises (pass_ne_ub hb.1 hb.2)]
    · rfl
    intro _
    rw [bind_raises (pass_ne_ub hc.1 hc.2)]
    · rfl
    intro _
    rw [bind_raises (pass_ne_ub he.1 he.2)]
    · rfl
    intro _
    simp [Use.pass]

private theorem spring_six_ne_ub (a b c d e f : PyVal) (hn : NoNone [a, b, c, d, e, f]) :
    motionSpringConstr [a, b, c, d, e, f] ≠ .ub ∧ motionSpringConstr [a, b, c, d, e, f] ≠ .ok .empty := by
  have he := hn e (by simp)
  have hn' : NoNone [a, b, c, d, e, f, .int 0] := by
    intro v hv
    by_cases h : v ∈ [a, b, c, d, e, f]
    · exact hn v h
    · have : v = .int 0 := by simp_all
      subst this
      simp
  simp only [motionSpringConstr, bindParams, skipParam]
  repeat' split
  all_goals simp only [Py.ok_bind, Py.raises_bind, Py.pure_eq]
  all_goals try simp only [List.getElem?_cons_succ, List.getElem?_cons_zero, Option.any_some, truthy]
  all_goals try simp
  split
  · simp_all
  · refine ⟨Py.bind_ne_ub (passAll_ne_ub hn' _) (by simp), fun h => ?_⟩
    obtain ⟨_, -, h⟩ := Py.bind_eq_ok.1 h
    simp at h

/-- The springs before the bound on the derivative of the torques, as the Python constructor declares them. -/
def Spec.springPy : Overload :=
  { req := [.ref .multiBodyVector, .int, .ref .torqueBound, .vec .springJoint, .ref .torqueDBound, .double] }

/-- One spring stands for the list of this spring. -/
def Spec.asList : PyVal → PyVal
  | .list l => .list l
  | v => .list [v]

/-- The arguments, with the fourth one made a list. -/
def Spec.springs (vs : List PyVal) : List PyVal := vs.modify 3 Spec.asList

private theorem pass_asList (c : PyClass) (v : PyVal) : (Use.vec c).pass (Spec.asList v) = (Use.vec c).pass v := by
  cases v <;> rfl

/-- A list of tests that the arguments pass. -/
private theorem Ctor.listed {k : Ctor} {o : Overload} {ts : List (Option PyTy)}
    (h : okAlt ts k.params k.uses o.req o.opt = true) (h3 : k.uses.length = k.params.length)
    (ht : ts.length = k.params.length) (hd : k.params.all (fun p => p.dflt.isNone) = true) {vs : List PyVal}
    (hn : NoNone vs) (hc : checkArgs vs ts = true) :
    (∀ c, k.run vs = .ok (.built c) ↔ c.fn = k.fn ∧ Accepts o vs c.args) ∧
    k.run vs ≠ .ok .empty ∧ k.run vs ≠ .ub := by
  have hl := checkArgs_length hc
  have hv : ∀ v ∈ vs, v ≠ .none := fun v hv => (hn v hv).1
  have hA : ∀ as, (bindParams k.params vs >>= fun ws => zipPass ws k.uses) = .ok as ↔ Accepts o vs as := by
    intro as
    have := okAlt_iff h hv (as := as) hl
    rw [hc] at this
    simpa [Accepts] using this
  rw [Ctor.run_le h3 (by omega)]
  refine ⟨fun c => ?_, fun hb => ?_, ?_⟩
  · simp only [← hA, Py.bind_eq_ok, Py.ok.injEq, Made.built.injEq]
    constructor
    · rintro ⟨as, hw, rfl⟩
      exact ⟨rfl, hw⟩
    · rintro ⟨hf, hw⟩
      refine ⟨c.args, hw, ?_⟩
      cases c
      cases hf
      rfl
  · obtain ⟨as, -, hb⟩ := Py.bind_eq_ok.1 hb
    simp at hb
  · refine Py.bind_ne_ub (Py.bind_ne_ub (bindParams_ne_ub _ _) fun ws hw => zipPass_ne_ub (fun w hw' => ?_) _)
      fun _ _ => by simp
    rcases bindParams_mem hw w hw' with h | ⟨p, hp, hpd⟩
    · exact hn w h
    · have := List.all_eq_true.1 hd p hp
      simp [hpd] at this

private theorem noNone_asList {a b c d : PyVal} {vs : List PyVal} (hn : NoNone (a :: b :: c :: d :: vs)) :
    NoNone (a :: b :: c :: Spec.asList d :: vs) := by
  have hd := hn d (by simp)
  intro v hv
  simp only [List.mem_cons] at hv
  rcases hv with h | h | h | h | h
  · exact hn v (by simp [h])
  · exact hn v (by simp [h])
  · exact hn v (by simp [h])
  · subst h
    cases d <;> simp_all [Spec.asList]
  · exact hn v (by simp [h])

private theorem spring4_asList (a b c d : PyVal) :
    spring4.run [a, b, c, d] = spring4.run [a, b, c, Spec.asList d] := by
  rw [Ctor.run_le (k := spring4) (vs := [a, b, c, d]) rfl (by simp [spring4]),
    Ctor.run_le (k := spring4) (vs := [a, b, c, Spec.asList d]) rfl (by simp [spring4])]
  simp only [spring4, bindParams]
  simp only [show ∀ v, ParamTy.accepts .any v = true from fun _ => rfl, if_true]
  repeat' split
  all_goals simp [zipPass, pass_asList]

private theorem spring6_asList (a b c d e f : PyVal) :
    spring6.run [a, b, c, d, e, f] = spring6.run [a, b, c, Spec.asList d, e, f] := by
  rw [Ctor.run_le (k := spring6) (vs := [a, b, c, d, e, f]) rfl (by simp [spring6]),
    Ctor.run_le (k := spring6) (vs := [a, b, c, Spec.asList d, e, f]) rfl (by simp [spring6])]
  simp only [spring6, bindParams]
  simp only [show ∀ v, ParamTy.accepts .any v = true from fun _ => rfl, if_true]
  repeat' split
  all_goals simp [zipPass, pass_asList]

private theorem isList (v : PyVal) : ∃ l, Spec.asList v = .list l := by
  cases v <;> exact ⟨_, rfl⟩

/-- **C113.** `MotionSpringConstr`: the first constructor of the header, and the second one with its arguments in
another order: the springs come fourth and are passed last.  One spring can be given without a list. -/
theorem C113_spring_partial {vs : List PyVal} (hn : NoNone vs) (hl : vs.length ≤ 6) :
    (∀ c, motionSpringConstr vs = .ok (.built c) ↔ c.fn = .motionSpringConstr ∧
      (Accepts Spec.spring (Spec.springs vs) c.args ∨ ∃ mbs i tb springs tdb dt,
        Accepts Spec.springPy (Spec.springs vs) [mbs, i, tb, springs, tdb, dt] ∧
        c.args = [mbs, i, tb, tdb, dt, springs])) ∧
    motionSpringConstr vs ≠ .ok .empty ∧ motionSpringConstr vs ≠ .ub := by
  have hlen : ∀ {as}, (Accepts Spec.spring (Spec.springs vs) as → vs.length = 4) ∧
      (Accepts Spec.springPy (Spec.springs vs) as → vs.length = 6) := by
    intro as
    constructor
    · intro h
      obtain ⟨k, hk, h⟩ := args_length h
      simp [Spec.spring, Spec.springs] at hk h
      omega
    · intro h
      obtain ⟨k, hk, h⟩ := args_length h
      simp [Spec.springPy, Spec.springs] at hk h
      omega
  have no : motionSpringConstr vs = .raises → vs.length ≠ 4 → vs.length ≠ 6 →
      (∀ c, motionSpringConstr vs = .ok (.built c) ↔ c.fn = .motionSpringConstr ∧
        (Accepts Spec.spring (Spec.springs vs) c.args ∨ ∃ mbs i tb springs tdb dt,
          Accepts Spec.springPy (Spec.springs vs) [mbs, i, tb, springs, tdb, dt] ∧
          c.args = [mbs, i, tb, tdb, dt, springs])) ∧
      motionSpringConstr vs ≠ .ok .empty ∧ motionSpringConstr vs ≠ .ub := by
    intro h h4 h6
    have n4 : ∀ as, ¬ Accepts Spec.spring (Spec.springs vs) as := fun _ h => h4 (hlen.1 h)
    have n6 : ∀ as, ¬ Accepts Spec.springPy (Spec.springs vs) as := fun _ h => h6 (hlen.2 h)
    simp [h, n4, n6]
  match vs, hl with
  | [], _ => exact no rfl (by simp) (by simp)
  | [a], _ =>
    refine no ?_ (by simp) (by simp)
    simp only [motionSpringConstr, bindParams]
    split <;> rfl
  | [a, b], _ =>
    refine no ?_ (by simp) (by simp)
    simp only [motionSpringConstr, bindParams]
    repeat' split
    all_goals rfl
  | [a, b, c], _ =>
    refine no ?_ (by simp) (by simp)
    simp only [motionSpringConstr, bindParams]
    repeat' split
    all_goals rfl
  | [a, b, c, d], _ =>
    have h6 : ∀ as, ¬ Accepts Spec.springPy (Spec.springs [a, b, c, d]) as := fun _ h => by simpa using hlen.2 h
    obtain ⟨l, hlist⟩ := isList d
    rw [spring_four, spring4_asList]
    have := Ctor.listed (k := spring4) (o := Spec.spring) (ts := [none, none, none, some .list]) (by decide) rfl rfl
      (by decide) (noNone_asList hn) (by rw [hlist]; rfl)
    have hsp : Spec.springs [a, b, c, d] = [a, b, c, Spec.asList d] := rfl
    refine ⟨fun k => ?_, this.2⟩
    rw [this.1 k, hsp]
    rw [hsp] at h6
    simp only [h6, false_and, exists_false, or_false]
    rfl
  | [a, b, c, d, e], _ => exact no (spring_five a b c d e hn) (by simp) (by simp)
  | [a, b, c, d, e, f], _ =>
    have h4 : ∀ as, ¬ Accepts Spec.spring (Spec.springs [a, b, c, d, e, f]) as := fun _ h => by simpa using hlen.1 h
    have hu := spring_six_ne_ub a b c d e f hn
    obtain ⟨l, hlist⟩ := isList d
    have key := (Ctor.listed (k := spring6) (o := Spec.springPy) (ts := [none, none, none, some .list, none, none])
      (by decide) rfl rfl (by decide) (noNone_asList hn) (by rw [hlist]; rfl)).1
    have hsp : Spec.springs [a, b, c, d, e, f] = [a, b, c, Spec.asList d, e, f] := rfl
    refine ⟨fun k => ?_, hu.2, hu.1⟩
    rw [spring_six _ _ _ _ _ _ (hn e (by simp)).1]
    simp only [h4, false_or]
    constructor
    · rintro ⟨a0, a1, a2, a3, a4, a5, h, rfl⟩
      rw [spring6_asList] at h
      exact ⟨rfl, a0, a1, a2, a3, a4, a5, hsp ▸ ((key _).1 h).2, rfl⟩
    · rintro ⟨hf, a0, a1, a2, a3, a4, a5, h, hk⟩
      refine ⟨a0, a1, a2, a3, a4, a5, ?_, ?_⟩
      · rw [spring6_asList]
        exact (key _).2 ⟨rfl, hsp ▸ h⟩
      · cases k
        cases hf
        cases hk
        rfl
  | _ :: _ :: _ :: _ :: _ :: _ :: _ :: _, h => exact absurd h (by simp)

/-- **C113, disagreement.** The arguments of the second C++ constructor of `MotionSpringConstr`, in the order of
the header, raise an exception in Python. -/
theorem C113_spring_order_counterexample {vs : List PyVal} {as : List CArg} (hn : NoNone vs)
    (hA : Accepts Spec.springDot vs as) : motionSpringConstr vs = .raises := by
  have hl : vs.length = 6 := by
    obtain ⟨k, hk, h⟩ := args_length hA
    simp [Spec.springDot] at hk h
    omega
  have h := C113_spring_partial hn hl.le
  cases hr : motionSpringConstr vs with
  | raises => rfl
  | ub => exact absurd hr h.2.2
  | ok m =>
    cases m with
    | empty => exact absurd hr h.2.1
    | built c =>
      exfalso
      rcases ((h.1 c).1 hr).2 with h4 | ⟨b0, b1, b2, b3, b4, b5, h6, -⟩
      · obtain ⟨k, hk, h⟩ := args_length h4
        simp [Spec.spring, Spec.springs] at hk h
        omega
      · simp only [Accepts, Spec.springDot, List.cons_append, List.nil_append] at hA
        cases hA with | req _ _ _ _ _ _ _ _ hA =>
        cases hA with | req _ _ _ _ _ _ _ _ hA =>
        cases hA with | req _ _ _ _ _ _ _ _ hA =>
        cases hA with | req _ _ _ _ _ _ _ h3 hA =>
        simp only [Accepts, Spec.springPy, Spec.springs, List.modify_succ_cons, List.modify_zero_cons] at h6
        cases h6 with | req _ _ _ _ _ _ _ _ h6 =>
        cases h6 with | req _ _ _ _ _ _ _ _ h6 =>
        cases h6 with | req _ _ _ _ _ _ _ _ h6 =>
        cases h6 with | req _ _ _ _ _ _ _ h3' h6 =>
        cases h3 with | ref _ d i hd =>
        generalize hw : Spec.asList (.obj d i) = w at h3'
        simp only [Spec.asList] at hw
        subst hw
        generalize hw : PyVal.list [.obj d i] = w at h3'
        cases h3' with | vec _ l hl' =>
        simp only [PyVal.list.injEq] at hw
        match l, hl', hw with
        | [(d', i')], hl', hw =>
          simp only [List.map_cons, List.map_nil, List.cons.injEq, PyVal.obj.injEq, and_true] at hw
          obtain ⟨rfl, rfl⟩ := hw
          have := hl' _ (List.mem_singleton.2 rfl)
          cases d <;> simp [PyClass.base] at hd this

/-! ## `GazeTask` without a solver -/

/-- The constructor with a point in the world, the last parameter with its default value. -/
private def gazeM3 : Method where
  params := [⟨.ext .multiBody, none⟩, ⟨.any, none⟩, ⟨.ext .vector3d, none⟩, ⟨.ext .ptransformd, none⟩,
    ⟨.ext .vector2d, some zero2⟩]
  fn := .tGazeTask
  uses := inOrder [.impl .multiBody, .rawName, .impl .vector3d, .impl .ptransformd, .impl .vector2d]

/-- The constructor with a point of the image. -/
private def gazeM2 : Method where
  params := [⟨.ext .multiBody, none⟩, ⟨.any, none⟩, ⟨.ext .vector2d, none⟩, ⟨.cdouble, none⟩,
    ⟨.ext .ptransformd, none⟩, ⟨.ext .vector2d, some zero2⟩]
  fn := .tGazeTask
  uses := inOrder [.impl .multiBody, .rawName, .impl .vector2d, .dbl, .impl .ptransformd, .impl .vector2d]

/-- The tests of the constructor in one list. -/
private def gazeEntry : Entry where
  fixed := [⟨.ext .multiBody, none⟩, ⟨.any, none⟩]
  zero := none
  branches := [
    ⟨[[some (.cls .vector3d), some (.cls .ptransformd), some (.cls .vector2d)],
      [some (.cls .vector3d), some (.cls .ptransformd)]], gazeM3⟩,
    ⟨[[some (.cls .vector2d), none, some (.cls .ptransformd)],
      [some (.cls .vector2d), none, some (.cls .ptransformd), some (.cls .vector2d)]], gazeM2⟩]
  otherwise := .raise

private theorem gaze3_given (a b p q r : PyVal) : gazeV3.run [a, b, p, q, r] = gazeM3.run [a, b, p, q, r] := rfl

private theorem gaze3_dflt (a b p q : PyVal) : gazeV3.run [a, b, p, q, zero2] = gazeM3.run [a, b, p, q] := by
  simp only [Method.run, gazeV3, gazeM3, bindParams, show ParamTy.accepts (.ext .vector2d) zero2 = true from rfl,
    if_true]

private theorem gaze2_given (a b p q r s : PyVal) :
    gazeV2.run [a, b, p, q, r, s] = gazeM2.run [a, b, p, q, r, s] := rfl

private theorem gaze2_dflt (a b p q r : PyVal) : gazeV2.run [a, b, p, q, r, zero2] = gazeM2.run [a, b, p, q, r] := by
  simp only [Method.run, gazeV2, gazeM2, bindParams, show ParamTy.accepts (.ext .vector2d) zero2 = true from rfl,
    if_true]

private theorem gaze_excl {p : PyVal} (h : isinstance p (.cls .vector3d) = true) :
    isinstance p (.cls .vector2d) = false := by
  cases p with
  | obj d i => revert h; cases d <;> simp [isinstance, PyClass.isA, PyClass.base]
  | _ => simp [isinstance] at h

private theorem build_iff {p q : Py CCall} (h : p = q) (c : CCall) :
    (build p = .ok (.built c) ↔ q = .ok c) ∧ (build p = .ub → q = .ub) := by
  subst h
  cases p <;> simp [build]

private theorem gaze_run (vs : List PyVal) (c : CCall) :
    (tGazeTask vs = .ok (.built c) ↔ gazeEntry.run vs = .ok c) ∧ (tGazeTask vs = .ub → gazeEntry.run vs = .ub) := by
  have acc : ∀ v, ParamTy.accepts .any v = true := fun _ => rfl
  match vs with
  | [] => simp [tGazeTask, gazeEntry, Entry.run, bindParams]
  | [a] =>
    simp only [tGazeTask, gazeEntry, Entry.run, bindParams, List.take, List.drop, List.length_cons, List.length_nil]
    split <;> simp
  | [a, b] =>
    simp only [tGazeTask, gazeEntry, Entry.run, bindParams, List.take, List.drop, List.length_cons, List.length_nil, acc]
    split <;> simp [runBranches, checkArgs]
  | a :: b :: p :: rest =>
    simp only [tGazeTask, gazeEntry, Entry.run, bindParams, List.take, List.drop, List.length_cons, List.length_nil, acc,
      if_true, runBranches, List.any_cons, List.any_nil, checkArgs_cons, checkOne, Bool.or_false]
    by_cases ha : ParamTy.accepts (.ext .multiBody) a = true
    swap
    · simp [ha]
    simp only [ha, if_true, Py.ok_bind, Py.pure_eq]
    by_cases h3 : isinstance p (.cls .vector3d) = true
    · have h2 := gaze_excl h3
      simp only [h3, h2, if_true, Bool.true_and, Bool.false_and, Bool.or_false, Bool.false_eq_true, if_false]
      by_cases hA : checkArgs rest [some (.cls .ptransformd), some (.cls .vector2d)] = true
      · simp only [hA, if_true, Bool.true_or]
        match rest, checkArgs_length hA with
        | [q, r], _ => exact build_iff (gaze3_given a b p q r) c
      · simp only [hA, Bool.false_or, Bool.false_eq_true, if_false]
        by_cases hB : checkArgs rest [some (.cls .ptransformd)] = true
        · simp only [hB, if_true]
          match rest, checkArgs_length hB with
          | [q], _ => exact build_iff (gaze3_dflt a b p q) c
        · simp [hB]
    · simp only [h3, Bool.false_and, Bool.or_false, Bool.false_eq_true, if_false]
      by_cases h2 : isinstance p (.cls .vector2d) = true
      · simp only [h2, if_true, Bool.true_and]
        by_cases hA : checkArgs rest [none, some (.cls .ptransformd)] = true
        · simp only [hA, if_true, Bool.true_or]
          match rest, checkArgs_length hA with
          | [q, r], _ => exact build_iff (gaze2_dflt a b p q r) c
        · simp only [hA, Bool.false_or, Bool.false_eq_true, if_false]
          by_cases hB : checkArgs rest [none, some (.cls .ptransformd), some (.cls .vector2d)] = true
          · simp only [hB, if_true]
            match rest, checkArgs_length hB with
            | [q, r, s], _ => exact build_iff (gaze2_given a b p q r s) c
          · simp [hB]
      · simp [h2]

/-- **C113.** `GazeTask` without a solver: the calls that reach C++ are those of the two constructors, with the name
given as `bytes`, and no call without `None` reads a null pointer. -/
theorem C113_plain_gaze_partial {vs : List PyVal} (hn : NoNone vs) :
    (∀ c, tGazeTask vs = .ok (.built c) ↔
      c.fn = .tGazeTask ∧ ∃ o ∈ [Spec.tGaze2 .byteString, Spec.tGaze3 .byteString], Accepts o vs c.args) ∧
    tGazeTask vs ≠ .ub := by
  have h := Entry.exact (e := gazeEntry) (fn := .tGazeTask)
    (os := [Spec.tGaze2 .byteString, Spec.tGaze3 .byteString]) (by decide) rfl vs hn
  exact ⟨fun c => (gaze_run vs c).1.trans (h.1 c), fun hu => h.2 ((gaze_run vs ⟨.tGazeTask, []⟩).2 hu)⟩

/-- The value is an object of the class. -/
def Spec.IsA (v : PyVal) (c : PyClass) : Prop := ∃ d i, v = .obj d i ∧ (d = c ∨ d.base = some c)

private theorem isinstance_iff {v : PyVal} {c : PyClass} : isinstance v (.cls c) = true ↔ Spec.IsA v c := by
  cases v with
  | obj d i =>
    simp only [isinstance, isA_iff, Spec.IsA, PyVal.obj.injEq]
    constructor
    · intro h
      exact ⟨d, i, ⟨rfl, rfl⟩, h⟩
    · rintro ⟨d', i', ⟨rfl, rfl⟩, h⟩
      exact h
  | _ => simp [isinstance, Spec.IsA]

/-- The arguments after the point, in a call with a point in the world. -/
def Spec.Rest3 (rest : List PyVal) : Prop :=
  (∃ X, rest = [X] ∧ IsA X .ptransformd) ∨ ∃ X r, rest = [X, r] ∧ IsA X .ptransformd ∧ IsA r .vector2d

/-- The arguments after the point, in a call with a point of the image. -/
def Spec.Rest2 (rest : List PyVal) : Prop :=
  (∃ z X, rest = [z, X] ∧ IsA X .ptransformd) ∨
    ∃ z X r, rest = [z, X, r] ∧ IsA X .ptransformd ∧ IsA r .vector2d

/-- **C113, disagreement.** `GazeTask` without a solver: when the point is right and the arguments after it are not,
there is no exception; the object exists and its pointer is null. -/
theorem C113_plain_gaze_counterexample (mb name point : PyVal) (rest : List PyVal) (hmb : Spec.IsA mb .multiBody)
    (h : Spec.IsA point .vector3d ∧ ¬ Spec.Rest3 rest ∨ Spec.IsA point .vector2d ∧ ¬ Spec.Rest2 rest) :
    tGazeTask (mb :: name :: point :: rest) = .ok .empty := by
  have acc : ∀ v, ParamTy.accepts .any v = true := fun _ => rfl
  have hacc : ParamTy.accepts (.ext .multiBody) mb = true := by
    obtain ⟨d, i, rfl, hd⟩ := hmb
    exact isA_iff.2 hd
  simp only [tGazeTask, bindParams, List.take, List.drop, acc, hacc, if_true, Py.ok_bind, Py.pure_eq]
  rcases h with ⟨hp, hr⟩ | ⟨hp, hr⟩
  · have h1 : checkArgs rest [some (.cls .ptransformd)] = false := by
      rw [Bool.eq_false_iff]
      intro hc
      match rest, checkArgs_length hc with
      | [q], _ =>
        simp only [checkArgs_cons, checkOne, checkArgs, Bool.and_true] at hc
        exact hr (.inl ⟨q, rfl, isinstance_iff.1 hc⟩)
    have h2 : checkArgs rest [some (.cls .ptransformd), some (.cls .vector2d)] = false := by
      rw [Bool.eq_false_iff]
      intro hc
      match rest, checkArgs_length hc with
      | [q, r], _ =>
        simp only [checkArgs_cons, checkOne, checkArgs, Bool.and_true, Bool.and_eq_true] at hc
        exact hr (.inr ⟨q, r, rfl, isinstance_iff.1 hc.1, isinstance_iff.1 hc.2⟩)
    simp [isinstance_iff.2 hp, h1, h2]
  · have h3 : isinstance point (.cls .vector3d) = false := by
      rw [Bool.eq_false_iff]
      intro h3
      have := gaze_excl h3
      rw [isinstance_iff.2 hp] at this
      exact absurd this (by simp)
    have h1 : checkArgs rest [none, some (.cls .ptransformd)] = false := by
      rw [Bool.eq_false_iff]
      intro hc
      match rest, checkArgs_length hc with
      | [z, q], _ =>
        simp only [checkArgs_cons, checkOne, checkArgs, Bool.and_true, Bool.true_and] at hc
        exact hr (.inl ⟨z, q, rfl, isinstance_iff.1 hc⟩)
    have h2 : checkArgs rest [none, some (.cls .ptransformd), some (.cls .vector2d)] = false := by
      rw [Bool.eq_false_iff]
      intro hc
      match rest, checkArgs_length hc with
      | [z, q, r], _ =>
        simp only [checkArgs_cons, checkOne, checkArgs, Bool.and_true, Bool.and_eq_true, Bool.true_and] at hc
        exact hr (.inr ⟨z, q, r, rfl, isinstance_iff.1 hc.1, isinstance_iff.1 hc.2⟩)
    simp [isinstance_iff.2 hp, h1, h2, h3]

/-! ## Objects without a C++ object, names as `str` -/

/-- **C113, disagreement.** An object made with a true `skip_alloc`, by `JointsSelector()` or by a `GazeTask` call as
above has no C++ object, and every method that uses it reads a null pointer. -/
theorem C113_empty_ub {α : Type} (f : CCall → Py α) :
    jointsSelectorNoArgs = .ok .empty ∧ Made.empty.use f = .ub := ⟨rfl, rfl⟩

theorem args_at {rs : List CType} {os : List (CType × CArg)} {vs : List PyVal} {as : List CArg}
    (h : Args rs os vs as) {i : ℕ} {t : CType} (ht : rs[i]? = some t) : ∃ v a, vs[i]? = some v ∧ Means t v a := by
  induction h generalizing i with
  | nil => simp at ht
  | dflt => simp at ht
  | opt => simp at ht
  | req t' a v rs os vs as hm _ ih =>
    cases i with
    | zero =>
      simp only [List.getElem?_cons_zero, Option.some.injEq] at ht
      subst ht
      exact ⟨v, a, rfl, hm⟩
    | succ i => simpa using ih (by simpa using ht)

/-- The parameter number `i` is a name that has to be given as `bytes`, in every overload that has it. -/
def Spec.RawName (os : List Overload) (i : ℕ) : Prop :=
  ∀ o ∈ os, o.req[i]? = some .byteString ∨ o.req.length + o.opt.length ≤ i

theorem rawName_not_str {os : List Overload} {i : ℕ} (h : Spec.RawName os i) {vs : List PyVal} {cs : List Char}
    (hs : vs[i]? = some (.str cs)) {o : Overload} (ho : o ∈ os) {as : List CArg} : ¬ Accepts o vs as := by
  intro hA
  rcases h o ho with h | h
  · obtain ⟨v, a, hv, hm⟩ := args_at hA h
    rw [hs] at hv
    obtain rfl := Option.some.inj hv
    cases hm
  · obtain ⟨k, hk, hl⟩ := args_length hA
    have : i < vs.length := by
      by_contra hc
      rw [List.getElem?_eq_none (by omega)] at hs
      exact absurd hs (by simp)
    omega

/-- **C113, disagreement.** A body name given as `str` raises an exception in the constructors of the tasks without
a solver and of `ImageConstr`. -/
theorem C113_str_body_counterexample :
    ∀ p ∈ (PyCtor.imageConstr, Spec.imageConstr .byteString) :: Spec.plainTasks, ∀ i : ℕ,
      p.2.req[i]? = some .byteString → ∀ (vs : List PyVal) (cs : List Char), NoNone vs → vs.length ≤ p.1.params.length →
      vs[i]? = some (.str cs) → p.1.run vs = .raises := by
  intro p hp i hi vs cs hn hl hs
  have hp' : p ∈ Spec.tasks ++ Spec.constraints ++ Spec.plainTasks := by
    rcases List.mem_cons.1 hp with rfl | hp
    · simp [Spec.constraints]
    · exact List.mem_append_right _ hp
  have h := (C113_one_overload_partial p hp').1 vs hn hl
  have hraw : Spec.RawName [p.2] i := by
    intro o ho
    rw [List.mem_singleton.1 ho]
    exact .inl hi
  cases hr : p.1.run vs with
  | raises => rfl
  | ub => exact absurd hr h.2.2
  | ok m =>
    cases m with
    | empty => exact absurd hr h.2.1
    | built c =>
      obtain ⟨-, o, ho, hA⟩ := (h.1 c).1 hr
      exact absurd hA (rawName_not_str hraw hs ho)

/-- **C113, disagreement.** The same for the joint names of `JointGains` and `SpringJoint`; `JointStiffness` takes
both. -/
theorem C113_str_joint_counterexample {vs : List PyVal} {cs : List Char} (hn : NoNone (.str cs :: vs)) :
    jointGains.run (.str cs :: vs) = .raises ∧ springJoint.run (.str cs :: vs) = .raises := by
  have key : ∀ (run : List PyVal → Py CCall) (fn : CFn) (os : List Overload), Exact run fn os → Spec.RawName os 0 →
      run (.str cs :: vs) = .raises := by
    intro run fn os he hraw
    have h := he _ hn
    cases hr : run (.str cs :: vs) with
    | raises => rfl
    | ub => exact absurd hr h.2
    | ok c =>
      obtain ⟨-, o, ho, hA⟩ := (h.1 c).1 hr
      exact absurd hA (rawName_not_str hraw rfl ho)
  exact ⟨key _ _ _ C113_joint_values_partial.2.1 (by simp [Spec.RawName, Spec.jointGains]),
    key _ _ _ C113_joint_values_partial.2.2 (by simp [Spec.RawName, Spec.springJoint])⟩

/-- src/Tasks/QPConstr.h:503-511 -/
def Spec.addMovingPlane : Overload :=
  { req := [.int, .ref .vector3d, .double, .double, .double, .double, .ref .vector3d, .ref .vector3d],
    opt := [(.double, .dbl 0)] }

/-- src/Tasks/QPConstr.h:704-709 -/
def Spec.addSpeedRange : Overload :=
  { req := [.ref .multiBodyVector, .string, .ref .vector3d, .ref .matrixXd, .ref .vectorXd, .ref .vectorXd] }

/-- **C113, disagreement.** A moving plane for `CoMIncPlaneConstr` and a range of speeds for `BoundedSpeedConstr` cannot
be given from Python. -/
theorem C113_unreachable_counterexample {vs : List PyVal} {as : List CArg} :
    (Accepts Spec.addMovingPlane vs as → addPlane.run vs = .raises) ∧
    (Accepts Spec.addSpeedRange vs as → addBoundedSpeed.run vs = .raises) := by
  constructor <;> intro hA <;> obtain ⟨k, hk, hl⟩ := args_length hA
  · simp only [Spec.addMovingPlane, List.length_cons, List.length_nil] at hk hl
    unfold Ctor.run
    rw [bindParams_more (by simp [addPlane]; omega)]
    rfl
  · simp only [Spec.addSpeedRange, List.length_cons, List.length_nil] at hk hl
    unfold Ctor.run
    rw [bindParams_more (by simp [addBoundedSpeed]; omega)]
    rfl

/-! ## Examples -/

/-- A position task: the default body point, and the string as `str`. -/
example : positionTask.run [.obj .multiBodyVector 7, .int 0, .str ['b'], .obj .vector3d 3] =
    .ok (.built ⟨.positionTask, [.ref .multiBodyVector 7, .int 0, .str ['b'], .ref .vector3d 3, .ref .vector3d 0]⟩) := by
  decide

/-- Joint limits, with `skip_alloc`. -/
example : jointLimitsConstr.run [.obj .multiBodyVector 7, .int 0, .obj .qBound 1, .float 2] =
      .ok (.built ⟨.jointLimitsConstr, [.ref .multiBodyVector 7, .int 0, .ref .qBound 1, .dbl 2]⟩) ∧
    jointLimitsConstr.run [.obj .multiBodyVector 7, .int 0, .obj .qBound 1, .float 2, .int 1] = .ok .empty ∧
    jointLimitsConstr.run [.obj .multiBodyVector 7, .int 0, .obj .alphaBound 1, .float 2] = .raises := by
  decide

/-- The springs are given fourth and passed last. -/
example : motionSpringConstr [.obj .multiBodyVector 7, .int 0, .obj .torqueBound 1, .obj .springJoint 4,
      .obj .torqueDBound 2, .float 3] =
    .ok (.built ⟨.motionSpringConstr, [.ref .multiBodyVector 7, .int 0, .ref .torqueBound 1, .ref .torqueDBound 2,
      .dbl 3, .vec .springJoint [4]]⟩) := by decide

/-- A gaze task without the frame of the camera: no exception. -/
example : tGazeTask [.obj .multiBody 0, .bytes ['b'], .obj .vector3d 1] = .ok .empty := by decide

end Verif.PyCtor
