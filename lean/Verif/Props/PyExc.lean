import Verif.Model.PyExc
import Verif.Props.Contacts
import Verif.Props.CoM
import Verif.Props.Solver
import Verif.Props.Throwing

/-!
# C112: what a Python program sees of a C++ exception
-/

set_option autoImplicit false
set_option linter.unusedSectionVars false

namespace Verif.PyExc

open Binding

namespace Spec

/-- The call neither ends the process nor raises anything but the given exception. -/
def RaisesOnly {α : Type} (x : PyRes α) (es : List PyErr) : Prop :=
  x ≠ .terminated ∧ ∀ e, x = .raises e → e ∈ es

/-- The points of a contact a Python program can name: no negative index from the end. -/
def IsPoint {α : Type} (l : List α) (point : ℤ) : Prop := 0 ≤ point ∧ point < l.length

end Spec

open Verif.PyExc.Spec

/-- **C112**: a function declared `except +` never ends the process; one declared without ends it
exactly when the C++ function throws. -/
theorem C112_cross {α : Type} (x : Out α) :
    cross true x ≠ .terminated ∧ (cross false x = .terminated ↔ ∃ e, x = .throws e) ∧
    (∀ e, cross false x ≠ .raises e) ∧
    (∀ d a, cross d x = .ok a ↔ x = .ok a) ∧ ∀ d, cross d x = .ub ↔ x = .ub := by
  refine ⟨?_, ?_, ?_, ?_, ?_⟩
  · cases x <;> simp [cross]
  · cases x <;> simp [cross]
  · cases x <;> simp [cross]
  · rintro (_ | _) a <;> cases x <;> simp [cross]
  · rintro (_ | _) <;> cases x <;> simp [cross]

/-- Only `std::domain_error` is thrown. -/
def DomOnly {α : Type} (x : Out α) : Prop := ∀ e, x = .throws e → e = .domainError

namespace DomOnly

variable {α β : Type}

theorem of {x : Out α} (h : NoThrow x) : DomOnly x := fun e he => absurd he (h e)

theorem bind {x : Out α} {f : α → Out β} (hx : DomOnly x) (hf : ∀ a, DomOnly (f a)) :
    DomOnly (x >>= f) := by
  cases x with
  | ok a => exact hf a
  | throws e' =>
    intro e h
    cases h
    exact hx _ rfl
  | ub => intro e h; cases h

theorem ite {p : Prop} [Decidable p] {x : Out α} (hx : DomOnly x) :
    DomOnly (if p then .throws .domainError else x) := by
  split
  · intro e h; cases h; rfl
  · exact hx

theorem raisesOnly {x : Out α} (h : DomOnly x) : RaisesOnly (cross true x) [.valueError] := by
  refine ⟨(C112_cross x).1, fun e he => ?_⟩
  cases x with
  | ok a => cases he
  | ub => cases he
  | throws e' =>
    cases h _ rfl
    simpa [cross, translate] using he.symm

end DomOnly

theorem withInt_raisesOnly {α : Type} {n : ℤ} {f : ℤ → PyRes α} (h : RaisesOnly (f n) [.valueError]) :
    RaisesOnly (withInt n f) [.valueError, .overflowError] := by
  unfold withInt
  split
  · exact ⟨h.1, fun e he => by
      have := h.2 e he
      simp at this
      simp [this]⟩
  · exact ⟨by simp, fun e he => by cases he; simp⟩

section
variable {K : Type} [CommRing K]

theorem checkRange_dom (p : ℤ) (pts : List (V3 K)) : DomOnly (checkRange p pts) := by
  unfold checkRange
  exact DomOnly.ite (DomOnly.of (NoThrow.ok _))

theorem genLoop_noThrow (gs : List (V3 K)) (i : ℕ) (l : Vec K) (F : V3 K) :
    NoThrow (genLoop gs i l F) := by
  induction gs generalizing i F with
  | nil => exact NoThrow.ok _
  | cons g gs ih => exact (NoThrow.at' l i).bind fun _ => ih _ _

theorem uni_forceAt (c : UniContact K) (l : Vec K) (p : ℤ) (co : FrictionCone K) :
    NoThrow (c.forceAt l p co) := genLoop_noThrow _ _ _ _

theorem uni_forceTotal_nt (c : UniContact K) (l : Vec K) (co : FrictionCone K) :
    NoThrow (c.forceTotal l co) :=
  (NoThrow.forRange fun _ _ => (NoThrow.ok _).bind fun _ => (NoThrow.segment _ _ _).bind fun _ =>
    (uni_forceAt _ _ _ _).bind fun _ => NoThrow.pure' _).bind fun _ => NoThrow.pure' _

theorem uni_forceWrench_nt (c : UniContact K) (l : Vec K) (p : List (V3 K)) (co : FrictionCone K) :
    NoThrow (c.forceWrench l p co) :=
  (NoThrow.forRange fun _ _ => (NoThrow.ok _).bind fun _ => (NoThrow.segment _ _ _).bind fun _ =>
    (uni_forceAt _ _ _ _).bind fun _ => (NoThrow.vecAt _ _).bind fun _ => NoThrow.pure' _).bind
      fun _ => NoThrow.pure' _

theorem uni_nrLambda_nt (c : UniContact K) : NoThrow c.nrLambda :=
  NoThrow.forRange fun _ _ => (NoThrow.ok _).bind fun _ => NoThrow.pure' _

theorem bi_nrLambdaAt_nt (c : BiContact K) (p : ℤ) : NoThrow (c.nrLambdaAt p) :=
  (NoThrow.vecAtI _ _).bind fun _ => NoThrow.pure' _

theorem bi_nrLambda_nt (c : BiContact K) : NoThrow c.nrLambda :=
  NoThrow.forRange fun _ _ => (bi_nrLambdaAt_nt _ _).bind fun _ => NoThrow.pure' _

theorem bi_forceAt_nt (c : BiContact K) (l : Vec K) (p : ℤ) (co : List (FrictionCone K)) :
    NoThrow (c.forceAt l p co) :=
  (NoThrow.vecAtI _ _).bind fun _ => genLoop_noThrow _ _ _ _

theorem bi_forceTotal_nt (c : BiContact K) (l : Vec K) (co : List (FrictionCone K)) :
    NoThrow (c.forceTotal l co) :=
  (NoThrow.forRange fun _ _ => (bi_nrLambdaAt_nt _ _).bind fun _ => (NoThrow.segment _ _ _).bind fun _ =>
    (bi_forceAt_nt _ _ _ _).bind fun _ => NoThrow.pure' _).bind fun _ => NoThrow.pure' _

theorem bi_forceWrench_nt (c : BiContact K) (l : Vec K) (p : List (V3 K))
    (co : List (FrictionCone K)) : NoThrow (c.forceWrench l p co) :=
  (NoThrow.forRange fun _ _ => (bi_nrLambdaAt_nt _ _).bind fun _ => (NoThrow.segment _ _ _).bind fun _ =>
    (bi_forceAt_nt _ _ _ _).bind fun _ => (NoThrow.vecAt _ _).bind fun _ => NoThrow.pure' _).bind
      fun _ => NoThrow.pure' _

theorem fits_of_point {α : Type} {l : List α} {point : ℤ} (hl : l.length ≤ 2147483648)
    (h : IsPoint l point) : fitsInt point = true := by
  unfold IsPoint at h
  simp only [fitsInt, Bool.and_eq_true, decide_eq_true_eq]
  omega

/-- **C112** (unilateral contact): for an index that is not one of the points, and for a lambda of the
wrong size, `force` and `nrLambda` raise; otherwise they return the force of the C++ library.  No
argument ends the process. -/
theorem C112_unilateral (c : UniContact K) (hl : c.r1Points.length ≤ 2147483648) (lambda : Vec K)
    (point : ℤ) (cone : FrictionCone K) (p : List (V3 K)) :
    RaisesOnly (uniForceAt c lambda point cone) [.valueError, .overflowError] ∧
    RaisesOnly (uniForce c lambda cone) [.valueError] ∧
    RaisesOnly (uniWrench c lambda p cone) [.valueError] ∧
    RaisesOnly (uniNrLambda c (some point)) [.valueError, .overflowError] ∧
    uniNrLambda c none = .ok (c.r1Points.length * c.r1Cone.generators.length) ∧
    (¬ IsPoint c.r1Points point →
      (∃ e, uniForceAt c lambda point cone = .raises e) ∧
      ∃ e, uniNrLambda c (some point) = .raises e) ∧
    (IsPoint c.r1Points point →
      uniNrLambda c (some point) = .ok c.r1Cone.generators.length ∧
      (lambda.size ≠ c.r1Cone.generators.length →
        uniForceAt c lambda point cone = .raises .valueError) ∧
      (lambda.size = c.r1Cone.generators.length →
        cone.generators.length ≤ c.r1Cone.generators.length →
        ∃ F, c.forceAt lambda point cone = .ok F ∧ uniForceAt c lambda point cone = .ok F)) ∧
    (lambda.size ≠ c.r1Points.length * c.r1Cone.generators.length →
      uniForce c lambda cone = .raises .valueError ∧
      uniWrench c lambda p cone = .raises .valueError) ∧
    (lambda.size = c.r1Points.length * c.r1Cone.generators.length →
      cone.generators.length ≤ c.r1Cone.generators.length →
      (∃ F, c.forceTotal lambda cone = .ok F ∧ uniForce c lambda cone = .ok F) ∧
      (p.length ≤ c.r1Points.length →
        ∃ W, c.forceWrench lambda p cone = .ok W ∧ uniWrench c lambda p cone = .ok W)) := by
  obtain ⟨a1, a2, a3, a4⟩ := C23_uni_checked_partial c lambda point cone p
  have out : ¬ IsPoint c.r1Points point → point < 0 ∨ (c.r1Points.length : ℤ) ≤ point := by
    unfold IsPoint; omega
  have outR : ∀ {α : Type} {x : Out α}, x = .throws .domainError →
      ∃ e, withInt point (fun _ => cross true x) = .raises e := by
    rintro α x rfl
    unfold withInt
    split <;> exact ⟨_, rfl⟩
  refine ⟨?_, ?_, ?_, ?_, ?_, ?_, ?_, ?_, ?_⟩
  · refine withInt_raisesOnly (f := fun point => cross true _) (DomOnly.raisesOnly ((checkRange_dom _ _).bind fun _ =>
      (DomOnly.of (NoThrow.ok _)).bind fun _ => DomOnly.ite (DomOnly.of (uni_forceAt _ _ _ _))))
  · exact DomOnly.raisesOnly ((DomOnly.of (uni_nrLambda_nt c)).bind fun _ =>
      DomOnly.ite (DomOnly.of (uni_forceTotal_nt _ _ _)))
  · exact DomOnly.raisesOnly ((DomOnly.of (uni_nrLambda_nt c)).bind fun _ =>
      DomOnly.ite (DomOnly.of (uni_forceWrench_nt _ _ _ _)))
  · refine withInt_raisesOnly (f := fun point => cross true _) (DomOnly.raisesOnly ((checkRange_dom _ _).bind fun _ =>
      DomOnly.of (NoThrow.ok _)))
  · simp [uniNrLambda, cross, uni_nrLambda]
  · intro h
    obtain ⟨h1, h2⟩ := a1 (out h)
    exact ⟨outR h1, outR h2⟩
  · intro h
    have hf := fits_of_point hl h
    obtain ⟨h1, h2, h3⟩ := a2 h
    refine ⟨by simp [uniNrLambda, withInt, hf, h1, UniContact.nrLambdaAt, cross], fun hs => ?_,
      fun hs hc => ?_⟩
    · simp [uniForceAt, withInt, hf, h2 hs, cross, translate]
    · obtain ⟨h4, h5⟩ := h3 hs
      obtain ⟨F, hF⟩ := h5 hc
      exact ⟨F, h4.symm.trans hF, by simp [uniForceAt, withInt, hf, hF, cross]⟩
  · intro h
    obtain ⟨h1, h2⟩ := a3 h
    exact ⟨by simp [uniForce, h1, cross, translate], by simp [uniWrench, h2, cross, translate]⟩
  · intro h hc
    obtain ⟨h1, h2, h3⟩ := a4 h
    obtain ⟨⟨F, hF⟩, h4⟩ := h3 hc
    refine ⟨⟨F, h1.symm.trans hF, by simp [uniForce, hF, cross]⟩, fun hp => ?_⟩
    obtain ⟨W, hW⟩ := h4 hp
    exact ⟨W, h2.symm.trans hW, by simp [uniWrench, hW, cross]⟩

/-- **C112** (bilateral contact), for the contacts the constructors make. -/
theorem C112_bilateral (c : BiContact K) (hc : Verif.Spec.BiShaped c)
    (hl : c.r1Points.length ≤ 2147483648) (lambda : Vec K) (point : ℤ)
    (cones : List (FrictionCone K)) (p : List (V3 K)) :
    RaisesOnly (biForceAt c lambda point cones) [.valueError, .overflowError] ∧
    RaisesOnly (biForce c lambda cones) [.valueError] ∧
    RaisesOnly (biWrench c lambda p cones) [.valueError] ∧
    RaisesOnly (biNrLambda c (some point)) [.valueError, .overflowError] ∧
    (¬ IsPoint c.r1Points point →
      (∃ e, biForceAt c lambda point cones = .raises e) ∧
      ∃ e, biNrLambda c (some point) = .raises e) ∧
    (IsPoint c.r1Points point → ∃ n, biNrLambda c (some point) = .ok n ∧
      (lambda.size ≠ n → biForceAt c lambda point cones = .raises .valueError) ∧
      (lambda.size = n → (∀ co, cones[point.toNat]? = some co → co.generators.length ≤ n →
        ∃ F, c.forceAt lambda point cones = .ok F ∧ biForceAt c lambda point cones = .ok F))) ∧
    ∃ n, biNrLambda c none = .ok n ∧
    (lambda.size ≠ n →
      biForce c lambda cones = .raises .valueError ∧
      biWrench c lambda p cones = .raises .valueError) ∧
    (lambda.size = n → c.r1Points.length ≤ cones.length →
      (∀ i < c.r1Points.length, (cones.getD i ⟨[]⟩).generators.length
          ≤ (c.r1Cones.getD i ⟨[]⟩).generators.length) →
      (∃ F, c.forceTotal lambda cones = .ok F ∧ biForce c lambda cones = .ok F) ∧
      (p.length ≤ c.r1Points.length →
        ∃ W, c.forceWrench lambda p cones = .ok W ∧ biWrench c lambda p cones = .ok W)) := by
  obtain ⟨a1, a2, n, a3, a4, a5⟩ := C23_bi_checked_partial c hc lambda point cones p
  have out : ¬ IsPoint c.r1Points point → point < 0 ∨ (c.r1Points.length : ℤ) ≤ point := by
    unfold IsPoint; omega
  have outR : ∀ {α : Type} {x : Out α}, x = .throws .domainError →
      ∃ e, withInt point (fun _ => cross true x) = .raises e := by
    rintro α x rfl
    unfold withInt
    split <;> exact ⟨_, rfl⟩
  refine ⟨?_, ?_, ?_, ?_, ?_, ?_, n, by simp [biNrLambda, a3, cross], ?_, ?_⟩
  · refine withInt_raisesOnly (f := fun point => cross true _) (DomOnly.raisesOnly ((checkRange_dom _ _).bind fun _ =>
      (DomOnly.of (bi_nrLambdaAt_nt _ _)).bind fun _ =>
        DomOnly.ite (DomOnly.of (bi_forceAt_nt _ _ _ _))))
  · exact DomOnly.raisesOnly ((DomOnly.of (bi_nrLambda_nt c)).bind fun _ =>
      DomOnly.ite (DomOnly.of (bi_forceTotal_nt _ _ _)))
  · exact DomOnly.raisesOnly ((DomOnly.of (bi_nrLambda_nt c)).bind fun _ =>
      DomOnly.ite (DomOnly.of (bi_forceWrench_nt _ _ _ _)))
  · refine withInt_raisesOnly (f := fun point => cross true _) (DomOnly.raisesOnly ((checkRange_dom _ _).bind fun _ =>
      DomOnly.of (bi_nrLambdaAt_nt _ _)))
  · intro h
    obtain ⟨h1, h2⟩ := a1 (out h)
    exact ⟨outR h1, outR h2⟩
  · intro h
    have hf := fits_of_point hl h
    obtain ⟨i, rfl⟩ := Int.eq_ofNat_of_zero_le h.1
    obtain ⟨m, -, h2, h3, h4⟩ := a2 i rfl (by have := h.2; omega)
    refine ⟨m, by simp [biNrLambda, withInt, hf, h2, cross], fun hs => ?_, fun hs co hco hle => ?_⟩
    · simp [biForceAt, withInt, hf, h3 hs, cross, translate]
    · obtain ⟨h5, h6⟩ := h4 hs
      obtain ⟨F, hF⟩ := h6 co (by simpa using hco) hle
      exact ⟨F, h5.symm.trans hF, by simp [biForceAt, withInt, hf, hF, cross]⟩
  · intro h
    obtain ⟨h1, h2⟩ := a4 h
    exact ⟨by simp [biForce, h1, cross, translate], by simp [biWrench, h2, cross, translate]⟩
  · intro h q1 q2
    obtain ⟨h1, h2, h3⟩ := a5 h
    obtain ⟨⟨F, hF⟩, h4⟩ := h3 q1 q2
    refine ⟨⟨F, h1.symm.trans hF, by simp [biForce, hF, cross]⟩, fun hp => ?_⟩
    obtain ⟨W, hW⟩ := h4 hp
    exact ⟨W, h2.symm.trans hW, by simp [biWrench, hW, cross]⟩

end

section
variable {K : Type} [Field K] [LinearOrder K] [IsStrictOrderedRing K]

/-- **C112** (CoM task): a weight vector of the wrong size raises `ValueError`; a robot with mass and
one weight per body, or none given, gives a task. -/
theorem C112_comTask {bs : List (BodyM K)} (com : V3 K) (jA : V3 K) (j : Out3 K) :
    (∀ w : List K, w.length ≠ bs.length → comTask bs com (some w) jA j = .raises .valueError) ∧
    (∀ w : List K, w.length = bs.length → Verif.Spec.massSum bs ≠ 0 →
      ∃ s, CoMT.makeW bs com w jA j = .ok s ∧ comTask bs com (some w) jA j = .ok s) ∧
    (Verif.Spec.massSum bs ≠ 0 → ∃ s, CoMT.make bs com jA j = .ok s ∧ comTask bs com none jA j = .ok s) := by
  refine ⟨fun w h => ?_, fun w h hM => ?_, fun hM => ?_⟩
  · simp [comTask, (C61_rejected (bs := bs) com w jA j).1 h, cross, translate]
  · obtain ⟨s, hs⟩ := (C61_rejected (bs := bs) com w jA j).2.1 h hM
    exact ⟨s, hs, by simp [comTask, hs, cross]⟩
  · obtain ⟨s, hs⟩ := (C61_rejected (bs := bs) com (List.replicate bs.length 1) jA j).2.1 (by simp) hM
    exact ⟨s, hs, by simp [comTask, CoMT.make, hs, cross]⟩

variable {Ob : Type} [DecidableEq Ob]

/-- **C112** (choosing the numerical solver; full property minus the unknown names, see
`C112_solver_terminated`): a `str` or `bytes` that names a compiled backend makes it the backend, as
`solver()` then tells; anything that is not a name raises and leaves the solver as it was. -/
theorem C112_solver_partial (hasLssol : Bool) (s : Solver K Ob) (v : PyVal) :
    (∀ cs, (v = .bytes cs ∨ v = .str cs ∧ isAscii cs = true) →
      String.ofList cs ∈ Verif.Spec.compiled hasLssol → ∃ s', solver hasLssol v s = (.ok none, s') ∧
        s' = { s with backend := s'.backend } ∧
        (solver hasLssol .none s').1 = .ok (some (String.ofList cs))) ∧
    (∀ cs, v = .str cs → isAscii cs = false → solver hasLssol v s = (.raises .valueError, s)) ∧
    ((∀ cs, v ≠ .bytes cs) → (∀ cs, v ≠ .str cs) → v ≠ .none →
      solver hasLssol v s = (.raises .typeError, s)) ∧
    solver hasLssol .none s = (.ok (some s.backend.name), s) := by
  refine ⟨?_, ?_, ?_, rfl⟩
  · intro cs hv hm
    obtain ⟨-, s', h1, h2, -, h3⟩ := (C15_backend_selection hasLssol (String.ofList cs) s).1 hm
    refine ⟨s', ?_, h3, by simp [solver, h2]⟩
    rcases hv with rfl | ⟨rfl, ha⟩
    · simp [solver, pyName, h1, cross]
    · simp [solver, pyName, ha, h1, cross]
  · rintro cs rfl h
    simp [solver, pyName, h]
  · intro h1 h2 h3
    cases v with
    | none => exact absurd rfl h3
    | str cs => exact absurd rfl (h2 cs)
    | bytes cs => exact absurd rfl (h1 cs)
    | int n => rfl
    | float q => rfl
    | list l => rfl
    | obj c i => rfl

/-- **C112** (violation): the name of a backend that is not compiled ends the Python process, where the
C++ function throws an exception the program could catch. -/
theorem C112_solver_terminated (hasLssol : Bool) (s : Solver K Ob) (cs : List Char)
    (h : String.ofList cs ∉ Verif.Spec.compiled hasLssol) :
    (solver hasLssol (.bytes cs) s).1 = .terminated ∧
    (isAscii cs = true → (solver hasLssol (.str cs) s).1 = .terminated) := by
  obtain ⟨-, h1⟩ := (C15_backend_selection hasLssol (String.ofList cs) s).2 h
  exact ⟨by simp [solver, pyName, h1, cross], fun ha => by simp [solver, pyName, ha, h1, cross]⟩

end

/-! ## Examples -/

namespace Ex

/-- The contact of C23 with two points and one generator each: a lambda of size two is right, one of
size three raises; point `-1` is not the last point. -/
example : uniNrLambda exContact (some (-1)) = .raises .valueError ∧
    uniNrLambda exContact (some 1) = .ok 1 ∧ uniNrLambda exContact none = .ok 2 ∧
    uniNrLambda exContact (some 4294967296) = .raises .overflowError := by decide

/-- Misspelling a solver. -/
example : "qld" ∉ Verif.Spec.compiled true ∧ "LSSOL" ∉ Verif.Spec.compiled false := by decide

example (s : Solver ℚ Unit) : (solver false (.str ['L', 'S', 'S', 'O', 'L']) s).1 = .terminated :=
  (C112_solver_terminated false s _ (by decide)).2 (by decide)

example (s : Solver ℚ Unit) : ∃ s', solver false (.str ['Q', 'L', 'D']) s = (.ok none, s') ∧
    (solver false .none s').1 = .ok (some "QLD") := by
  obtain ⟨s', h1, -, h2⟩ := (C112_solver_partial false s (.str ['Q', 'L', 'D'])).1 _
    (.inr ⟨rfl, by decide⟩) (by decide)
  exact ⟨s', h1, h2⟩

end Ex

end Verif.PyExc
