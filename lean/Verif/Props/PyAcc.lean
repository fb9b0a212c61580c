import Verif.Model.PyAcc
import Verif.Props.Getters

/-!
# C115: the accessors of the Python classes are the getters and setters of C++
-/

set_option autoImplicit false
set_option linter.unusedSectionVars false

namespace Verif.PyAcc

open Verif.Spec

variable {K : Type}

/-! ### Specifications -/

namespace Spec

/-- The C++ getter of the same name. -/
def getterOf : Meth → Option HLGet
  | .position => some .position
  | .bodyPoint => some .bodyPoint
  | .orientation => some .orientation
  | .target => some .target
  | .X_b_p => some .X_b_p
  | .E_0_c => some .E_0_c
  | .com => some .com
  | .momentum => some .momentum
  | .velocity => some .velocity
  | .trackedPoint => some .trackedPoint
  | .bodyAxis => some .bodyAxis
  | .error => none

/-- The C++ setter of the same name for an argument of its class, with its argument. -/
def setterFor : Meth → PV K → Option (HLSet K)
  | .position, .v3 v => some (.position v)
  | .bodyPoint, .v3 v => some (.bodyPoint v)
  | .orientation, .m3 m => some (.orientation m)
  | .orientation, .quat m => some (.orientation m)
  | .target, .pt X => some (.target X)
  | .X_b_p, .pt X => some (.X_b_p X)
  | .E_0_c, .m3 m => some (.E_0_c m)
  | .com, .v3 v => some (.com v)
  | .momentum, .fv f => some (.momentum f)
  | .velocity, .v3 v => some (.velocity v)
  | .trackedPoint, .v3 v => some (.trackedPoint v)
  | .bodyAxis, .v3 v => some (.bodyAxis v)
  | _, _ => none

/-- What a statement asks the task to store. -/
def askedBy : Stmt K → Option (HLSet K)
  | .call m [x] => setterFor m x
  | _ => none

/-- No argument, or `None`. -/
def NoArg : List (PV K) → Prop
  | [] => True
  | [.none] => True
  | _ => False

/-- The two-dimensional error, with the reference point of the image or its default. -/
def errorFor [Zero K] : List (PV K) → Option (HLSet K)
  | [.v2 p] => some (.error2 p (0, 0))
  | [.v2 p, .v2 q] => some (.error2 p q)
  | [.v3 p] => some (.error3 p (0, 0))
  | [.v3 p, .v2 q] => some (.error3 p q)
  | _ => none

end Spec

open Spec

/-! ### The high-level tasks -/

section
variable [Field K] [LinearOrder K]

/-- Read without argument: `t.m()` and `t.m(None)` return what the C++ getter returns, and change nothing. -/
theorem C115_get (mod : Mod) (r : ℕ) {t : HLTask K} {m : Meth} {g : HLGet} {v : HLVal K} (hm : getterOf m = some g)
    (hg : t.get g = some v) {args : List (PV K)} (ha : NoArg args) : call mod r t m args = .ret (some v) t := by
  have key : ∀ {A : Type} (w : HLVal K) (conv : PV K → Option A) (set : A → Out (HLTask K)), w = v →
      accessor w conv set t args = .ret (some v) t := by
    intro A w conv set hw
    subst hw
    match args, ha with
    | [], _ => rfl
    | [.none], _ => rfl
  cases t <;> cases m <;> cases hm <;> cases hg <;> exact key _ _ _ rfl

/-- A method whose getter the class does not have raises, whatever the arguments. -/
theorem C115_missing (mod : Mod) (r : ℕ) {t : HLTask K} {m : Meth} {g : HLGet} (hm : getterOf m = some g)
    (hg : t.get g = none) (args : List (PV K)) : call mod r t m args = .raises := by
  cases t <;> cases m <;> cases hm <;> first | rfl | cases hg

/-- Given an argument of the class of the setter, `t.m(x)` does what the C++ setter does and returns `None`: the
getter of the same name gives the argument from then on, and every other getter what it gave. -/
theorem C115_set (mod : Mod) (r : ℕ) {t : HLTask K} {m : Meth} {g : HLGet} {v : HLVal K} {x : PV K} {o : HLSet K}
    (hm : getterOf m = some g) (hg : t.get g = some v) (hx : setterFor m x = some o) :
    ∃ t', t.set r o = .ok t' ∧ call mod r t m [x] = .ret none t' ∧ t'.get g = gives o g ∧ (gives o g).isSome ∧
      ∀ g', g' ≠ g → t'.get g' = t.get g' := by
  cases t <;> cases m <;> cases hm <;> cases hg <;> cases x <;> cases hx <;>
    exact ⟨_, rfl, rfl, rfl, rfl, fun g' h => by cases g' <;> first | rfl | exact absurd rfl h⟩

/-- Any other arguments raise: an object of another class, or more than one argument. -/
theorem C115_raises (mod : Mod) (r : ℕ) {t : HLTask K} {m : Meth} {g : HLGet} (hm : getterOf m = some g)
    {args : List (PV K)} (hn : ¬ NoArg args) (hx : ∀ x, args = [x] → setterFor m x = none) :
    call mod r t m args = .raises := by
  match args with
  | [] => exact absurd trivial hn
  | [x] =>
    have hx := hx x rfl
    cases x <;> first
      | exact absurd trivial hn
      | (cases t <;> cases m <;> first | rfl | (cases hm <;> cases hx))
  | x :: y :: l => cases x <;> cases t <;> cases m <;> first | rfl | cases hm

/-- The errors of the two visual tasks. -/
theorem C115_error_partial (mod : Mod) (r : ℕ) (t : HLTask K) {args : List (PV K)} (hn : .none ∉ args) :
    (∀ s, t = .gaze s → call mod r t .error args =
      match errorFor args with
      | some o => .ofOut (t.set r o)
      | none => .raises) ∧
    (∀ s, t = .pbvs s → call mod r t .error args =
      match args with
      | [.pt X] => .ofOut (t.set r (.errorX X))
      | _ => .raises) := by
  constructor
  · rintro s rfl
    match args with
    | [] => rfl
    | [x] => cases x <;> first | rfl | simp at hn
    | [x, y] => cases x <;> cases y <;> first | rfl | simp at hn
    | x :: y :: z :: l => cases x <;> cases y <;> rfl
  · rintro s rfl
    match args with
    | [] => rfl
    | [x] => cases x <;> first | rfl | simp at hn
    | x :: y :: l => cases x <;> rfl

theorem ofOut_ret {S V : Type} {x : Out S} {v : Option V} {s : S} (h : Res.ofOut x = .ret v s) : x = .ok s ∧ v = none := by
  cases x <;> cases h
  exact ⟨rfl, rfl⟩

theorem error_set {mod : Mod} {r : ℕ} {t t' : HLTask K} {args : List (PV K)} {v : Option (HLVal K)}
    (h : call mod r t .error args = .ret v t') : (∀ g, t.get g = none) ∧ ∃ o, t.set r o = .ok t' := by
  have key : ∀ p ref, ∀ set : HLSet K → Out (HLTask K), gazeError2 mod p ref set = .ret v t' → ∃ o, set o = .ok t' := by
    intro p ref set h
    cases p <;> cases ref <;> simp only [gazeError2] at h <;> first
      | exact ⟨_, (ofOut_ret h).1⟩
      | (cases mod <;> cases h)
      | cases h
  cases t <;> first | cases h | skip
  · refine ⟨fun g => by cases g <;> rfl, ?_⟩
    simp only [call, gazeError] at h
    split at h <;> first | exact key _ _ _ h | cases h
  · refine ⟨fun g => by cases g <;> rfl, ?_⟩
    simp only [call, pbvsError] at h
    split at h <;> first | exact ⟨_, (ofOut_ret h).1⟩ | cases h

theorem call_get {mod : Mod} {r : ℕ} {t t' : HLTask K} {m : Meth} {args : List (PV K)} {v : Option (HLVal K)}
    (h : call mod r t m args = .ret v t') (g : HLGet) :
    t'.get g = (t.get g).map fun w => ((askedBy (.call m args)).bind fun o => gives o g).getD w := by
  cases hm : getterOf m with
  | none =>
    have : m = .error := by cases m <;> first | rfl | cases hm
    subst this
    obtain ⟨hg, o, ho⟩ := error_set h
    rw [set_get ho g, hg g]
    rfl
  | some g0 =>
    cases hg : t.get g0 with
    | none => rw [C115_missing mod r hm hg] at h; cases h
    | some w0 =>
      by_cases hn : NoArg args
      · rw [C115_get mod r hm hg hn] at h
        cases h
        have : askedBy (.call m args) = none := by
          match args, hn with
          | [], _ => rfl
          | [.none], _ => cases m <;> rfl
        rw [this]
        cases t.get g <;> rfl
      · by_cases hx : ∀ x, args = [x] → setterFor m x = none
        · rw [C115_raises mod r hm hn hx] at h
          cases h
        · push Not at hx
          obtain ⟨x, rfl, hx⟩ := hx
          obtain ⟨o, ho⟩ := Option.ne_none_iff_exists'.1 hx
          obtain ⟨t1, h1, h2, -⟩ := C115_set mod r hm hg ho
          rw [h2] at h
          cases h
          rw [set_get h1 g]
          simp only [askedBy, ho, Option.bind_some]

theorem setterFor_gives {m : Meth} {x : PV K} {o : HLSet K} {g : HLGet} (h : setterFor m x = some o)
    (hg : gives o g ≠ none) : getterOf m = some g := by
  cases m <;> cases x <;> cases h <;> cases g <;> first | rfl | exact absurd rfl hg

theorem exec_get {f : Fns K} {mod : Mod} (g : HLGet) : ∀ {prog : List (Stmt K)} {q q' : QPTask K},
    exec f mod prog q = some q' →
    q'.task.get g = (q.task.get g).map (lastGiven g (prog.filterMap askedBy))
  | [], q, q', h => by
    cases h
    cases q.task.get g <;> rfl
  | .call m args :: l, q, q', h => by
    simp only [exec, Option.bind_eq_bind, Option.bind_eq_some_iff] at h
    obtain ⟨q1, h1, h⟩ := h
    rw [exec_get g h]
    cases hc : call mod q.robotIndex q.task m args with
    | ret v t =>
      simp only [Stmt.run, hc, Option.some.injEq] at h1
      subst h1
      rw [call_get hc g, Option.map_map]
      cases ha : askedBy (.call m args) with
      | none => simp [List.filterMap_cons, ha, Function.comp_def]
      | some o => simp [List.filterMap_cons, ha, lastGiven, Function.comp_def]
    | raises =>
      simp only [Stmt.run, hc, Option.some.injEq] at h1
      subst h1
      cases hg : q.task.get g with
      | none => rfl
      | some w =>
        cases ha : askedBy (.call m args) with
        | none => simp [List.filterMap_cons, ha]
        | some o =>
          match args, ha with
          | [x], ha =>
            have : gives o g = none := by
              by_contra hne
              have hm : getterOf m = some g := setterFor_gives ha hne
              obtain ⟨t1, -, h2, -⟩ := C115_set mod q.robotIndex hm hg ha
              rw [hc] at h2
              cases h2
            have ha' : askedBy (.call m [x]) = some o := ha
            simp [List.filterMap_cons, ha', lastGiven, this]
    | ub =>
      simp only [Stmt.run, hc] at h1
      cases h1
  | .update mbs mbcs na j :: l, q, q', h => by
    simp only [exec, Option.bind_eq_bind, Option.bind_eq_some_iff] at h
    obtain ⟨q1, h1, h⟩ := h
    rw [exec_get g h]
    cases hu : q.update f mbs mbcs na j with
    | ok q2 =>
      simp only [Stmt.run, hu, Option.some.injEq] at h1
      subst h1
      simp only [QPTask.update, Out.bind_eq_ok] at hu
      obtain ⟨R1, _, st, _, n, _, t1, ht1, h1⟩ := hu
      cases h1
      rw [updateOn_get ht1 g]
      rfl
    | ub => simp only [Stmt.run, hu] at h1; cases h1
    | throws e => simp only [Stmt.run, hu] at h1; cases h1

/-- **C115, programs.**  After any program that uses a task, whose calls may raise, a method without argument gives
the last argument of the right class it was called with, and the value of the constructor if there is none; it raises
if the class does not have it. -/
theorem C115_history {f : Fns K} {mbs : List (RobotDesc K)} {rI : ℕ} {junk : ℕ → ℕ → ℕ → K} {a : HLArgs K}
    {q q' : QPTask K} {prog : List (Stmt K)} {mod : Mod} (hq : QPTask.make mbs rI junk a = .ok q)
    (h : exec f mod prog q = some q') {m : Meth} {g : HLGet} (hm : getterOf m = some g) :
    call mod q'.robotIndex q'.task m [] =
      match firstGiven a g with
      | some v => .ret (some (lastGiven g (prog.filterMap askedBy) v)) q'.task
      | none => .raises := by
  simp only [QPTask.make, Out.bind_eq_ok] at hq
  obtain ⟨R, _, t, ht, hq⟩ := hq
  cases hq
  have hg := exec_get g h
  rw [make_get ht g] at hg
  cases hf : firstGiven a g with
  | none =>
    rw [hf] at hg
    exact C115_missing mod _ hm hg []
  | some v =>
    rw [hf] at hg
    exact C115_get mod _ hm hg trivial

end

/-! ### The weighted tasks -/

namespace Spec

/-- The number an argument stands for. -/
def number [IntCast K] : PV K → Option K
  | .float x => some x
  | .int n => some n
  | _ => none

/-- An integer that a C `int` holds. -/
def smallInt : PV K → Option ℤ
  | .int n => if -(2 ^ 31) ≤ n ∧ n < 2 ^ 31 then some n else none
  | _ => none

/-- A vector. -/
def vector : PV K → Option (Vec K)
  | .vec v => some v
  | _ => none

/-- How a method that reads and writes a value of type `A` (`inj` makes it a Python value) behaves: without argument it
returns the value and changes nothing; with an argument that `conv` understands it sets it and returns `None`; any
other arguments raise. -/
structure Accessor {S A : Type} (run : S → List (PV K) → Res S (WVal K)) (get : S → A) (inj : A → WVal K)
    (conv : PV K → Option A) (set : A → S → Out S) : Prop where
  read : ∀ s args, NoArg args → run s args = .ret (some (inj (get s))) s
  write : ∀ s x a, conv x = some a → run s [x] = .ofOut (set a s)
  wrong : ∀ s args, ¬ NoArg args → (∀ x, args = [x] → conv x = none) → run s args = .raises

end Spec

theorem accessor_spec {S A : Type} {run : S → List (PV K) → Res S (WVal K)} {get : S → A} {inj : A → WVal K}
    {conv : PV K → Option A} {set : A → S → Out S} (hc : conv .none = none)
    (h : ∀ s args, run s args = accessor (inj (get s)) conv (fun a => set a s) s args) :
    Accessor run get inj conv set := by
  refine ⟨fun s args hn => ?_, fun s x a hx => ?_, fun s args hn hx => ?_⟩
  · rw [h]
    match args, hn with
    | [], _ => rfl
    | [.none], _ => rfl
  · rw [h]
    cases x <;> first
      | (rw [hc] at hx; cases hx; done)
      | simp only [accessor, hx]
  · rw [h]
    match args with
    | [] => exact absurd trivial hn
    | [x] =>
      have hx := hx x rfl
      cases x <;> first
        | exact absurd trivial hn
        | simp only [accessor, hx]
    | x :: y :: l => cases x <;> rfl

section
variable [CommRing K]

/-- `SetPointTask`: `weight`, `dimWeight`, `stiffness`. -/
theorem C115_set_point (sqrt : K → Out K) :
    Accessor (fun s => callSetPoint sqrt s .weight) (fun s => s.c.weight) .num number
      (fun w s => .ok { s with c := { s.c with weight := w } }) ∧
    Accessor (fun s => callSetPoint sqrt s .dimWeight) (fun s => s.c.dimWeight) .vec vector
      (fun w s => .ok { s with c := s.c.setDimWeight w }) ∧
    Accessor (fun s => callSetPoint sqrt s .stiffness) (fun s => s.stiffness) .num number
      (fun k s => s.setStiffness sqrt k) := by
  have e : (number : PV K → Option K) = asDouble := by funext x; cases x <;> rfl
  have ev : (vector : PV K → Option (Vec K)) = asVec := by funext x; cases x <;> rfl
  rw [e, ev]
  exact ⟨accessor_spec rfl fun _ _ => rfl, accessor_spec rfl fun _ _ => rfl, accessor_spec rfl fun _ _ => rfl⟩

/-- `PIDTask`: `weight`, `dimWeight` and the three gains. -/
theorem C115_pid :
    Accessor (fun s : Pid K => callPid s .weight) (fun s => s.c.weight) .num number
      (fun w s => .ok { s with c := { s.c with weight := w } }) ∧
    Accessor (fun s : Pid K => callPid s .dimWeight) (fun s => s.c.dimWeight) .vec vector
      (fun w s => .ok { s with c := s.c.setDimWeight w }) ∧
    Accessor (fun s : Pid K => callPid s .P) (fun s => s.P) .num number (fun x s => .ok { s with P := x }) ∧
    Accessor (fun s : Pid K => callPid s .I) (fun s => s.I) .num number (fun x s => .ok { s with I := x }) ∧
    Accessor (fun s : Pid K => callPid s .D) (fun s => s.D) .num number (fun x s => .ok { s with D := x }) := by
  have e : (number : PV K → Option K) = asDouble := by funext x; cases x <;> rfl
  have ev : (vector : PV K → Option (Vec K)) = asVec := by funext x; cases x <;> rfl
  rw [e, ev]
  exact ⟨accessor_spec rfl fun _ _ => rfl, accessor_spec rfl fun _ _ => rfl, accessor_spec rfl fun _ _ => rfl,
    accessor_spec rfl fun _ _ => rfl, accessor_spec rfl fun _ _ => rfl⟩

end

section
variable [Field K] [LinearOrder K]

/-- `TargetObjectiveTask`: the values a user sets, the counters, and the two that are only read. -/
theorem C115_target (round : K → Out ℤ) :
    Accessor (fun s => callTarget round s .weight) (fun s => s.weight) .num number
      (fun w s => .ok { s with weight := w }) ∧
    Accessor (fun s => callTarget round s .dimWeight) (fun s => s.dimWeight) .vec vector
      (fun w s => .ok { s with dimWeight := w }) ∧
    Accessor (fun s => callTarget round s .duration) (fun s => ((s.nrIter - s.iter : ℤ) : K) * s.dt) .num number
      (fun d s => s.setDuration round d) ∧
    Accessor (fun s => callTarget round s .iter) (fun s => s.iter) .int smallInt
      (fun n s => .ok { s with iter := n }) ∧
    Accessor (fun s => callTarget round s .nrIter) (fun s => s.nrIter) .int smallInt
      (fun n s => .ok { s with nrIter := n }) ∧
    Accessor (fun s => callTarget round s .objDot) (fun s => s.objDot) .vec vector
      (fun v s => .ok { s with objDot := v }) ∧
    ∀ s, callTarget round s .phi [] = .ret (some (.vec s.phi)) s ∧
      callTarget round s .psi [] = .ret (some (.vec s.psi)) s := by
  have e : (number : PV K → Option K) = asDouble := by funext x; cases x <;> rfl
  have ev : (vector : PV K → Option (Vec K)) = asVec := by funext x; cases x <;> rfl
  have ei : (smallInt : PV K → Option ℤ) = asInt := by
    funext x
    cases x <;> simp [smallInt, asInt]
  rw [e, ev, ei]
  exact ⟨accessor_spec rfl fun _ _ => rfl, accessor_spec rfl fun _ _ => rfl, accessor_spec rfl fun _ _ => rfl,
    accessor_spec rfl fun _ _ => rfl, accessor_spec rfl fun _ _ => rfl, accessor_spec rfl fun _ _ => rfl,
    fun _ => ⟨rfl, rfl⟩⟩

/-- Methods of another weighted task raise `AttributeError`. -/
theorem C115_other_class (sqrt : K → Out K) (round : K → Out ℤ) (args : List (PV K)) :
    (∀ s m, m ∉ [WMeth.weight, .dimWeight, .stiffness] → callSetPoint sqrt s m args = .raises) ∧
    (∀ s : Pid K, ∀ m, m ∉ [WMeth.weight, .dimWeight, .P, .I, .D] → callPid s m args = .raises) ∧
    ∀ s m, m ∈ [WMeth.stiffness, .P, .I, .D] → callTarget round s m args = .raises := by
  refine ⟨fun s m h => ?_, fun s m h => ?_, fun s m h => ?_⟩ <;> cases m <;> first | rfl | simp at h

end

/-! ### Disagreements -/

/-- **C115, disagreement.**  `c.torque()` of the three motion constraints is `None`, whatever the torques are: the
getter is called without `return`. -/
theorem C115_torque_counterexample (s : MotionCommon K) : callTorque s [] = .ret none s := rfl

/-- Whatever the arguments, the call does not change the constraint and gives no torques: it returns `None` or
raises. -/
theorem C115_torque_none (s : MotionCommon K) (args : List (PV K)) :
    callTorque s args = .ret none s ∨ callTorque s args = .raises := by
  unfold callTorque
  split <;> simp

/-- **C115, disagreement.**  C++ has `alphaDBegin()` and `alphaDBegin(robot)`, `lambdaBegin()` and
`lambdaBegin(contact)`; whichever of the two definitions the Python class keeps, the other form raises, always. -/
theorem C115_data_counterexample (k : Keeps) (m : DMeth) :
    (∀ d : SolverData K, callData k d m [] = .raises) ∨ ∀ (d : SolverData K) (x : PV K), callData k d m [x] = .raises := by
  cases k
  · right
    intro d x
    cases m <;> rfl
  · left
    intro d
    rfl

theorem callData_second {d : SolverData K} {m : DMeth} {x : PV K} {i b : ℕ} (hx : asInt x = some (i : ℤ))
    (hb : (match m with | .alphaDBegin => d.alphaDBegin | .lambdaBegin => d.lambdaBegin)[i]? = some b) :
    callData .second d m [x] = .ret (some b) d := by
  have hn : ¬ (i : ℤ) < 0 := not_lt.2 (Int.natCast_nonneg i)
  cases m <;> simp only at hb <;> simp only [callData, hx, Int.toNat_natCast, hb, if_neg hn]

theorem asInt_small (i : ℕ) (h : i < 2147483648) : asInt (.int i : PV K) = some (i : ℤ) := by
  have h1 : (-2147483648 : ℤ) ≤ i ∧ (i : ℤ) < 2147483648 := ⟨by omega, by exact_mod_cast h⟩
  simp only [asInt]
  rw [if_pos h1]

/-- The form the class keeps is that of C++. -/
theorem C115_data (d : SolverData K) :
    callData .first d .alphaDBegin ([] : List (PV K)) = .ret (some 0) d ∧
    callData .first d .lambdaBegin ([] : List (PV K)) = .ret (some d.totalAlphaD) d ∧
    (∀ (i b : ℕ), i < 2147483648 → d.alphaDBegin[i]? = some b →
      callData .second d .alphaDBegin ([.int i] : List (PV K)) = .ret (some b) d) ∧
    ∀ (i b : ℕ), i < 2147483648 → d.lambdaBegin[i]? = some b →
      callData .second d .lambdaBegin ([.int i] : List (PV K)) = .ret (some b) d :=
  ⟨rfl, rfl, fun i _ h hb => callData_second (m := .alphaDBegin) (asInt_small i h) hb,
    fun i _ h hb => callData_second (m := .lambdaBegin) (asInt_small i h) hb⟩

theorem callData_none {d : SolverData K} {m : DMeth} {x : PV K} {i : ℕ} (hx : asInt x = some (i : ℤ))
    (hb : (match m with | .alphaDBegin => d.alphaDBegin | .lambdaBegin => d.lambdaBegin)[i]? = none) :
    callData .second d m [x] = .ub := by
  have hn : ¬ (i : ℤ) < 0 := not_lt.2 (Int.natCast_nonneg i)
  cases m <;> simp only at hb <;> simp only [callData, hx, Int.toNat_natCast, hb, if_neg hn]

/-- **C115, disagreement.**  A robot or contact that does not exist is not looked for: the vector is read behind
its end. -/
theorem C115_data_ub (d : SolverData K) (i : ℕ) (h : i < 2147483648) :
    (d.alphaDBegin.length ≤ i → callData .second d .alphaDBegin ([.int i] : List (PV K)) = .ub) ∧
    (d.lambdaBegin.length ≤ i → callData .second d .lambdaBegin ([.int i] : List (PV K)) = .ub) := by
  exact ⟨fun hl => callData_none (m := .alphaDBegin) (asInt_small i h) (List.getElem?_eq_none hl),
    fun hl => callData_none (m := .lambdaBegin) (asInt_small i h) (List.getElem?_eq_none hl)⟩

section
variable [Field K] [LinearOrder K]

/-- **C115, disagreement.**  `None` for the reference point of `GazeTask.error`, for the point in module `tasks`, or for
the transform of `PositionBasedVisServoTask.error` is not refused: the C++ value of `None` is read. -/
theorem C115_error_ub (mod : Mod) (r : ℕ) (s : GazeT K) (b : PbvsT K) (p : K × K) :
    call mod r (.gaze s) .error [.v2 p, .none] = .ub ∧ call .tasks r (.gaze s) .error [.none] = .ub ∧
      call .qp r (.gaze s) .error [.none] = .raises ∧ call mod r (.pbvs b) .error [.none] = .ub :=
  ⟨rfl, rfl, rfl, rfl⟩

end

/-! ### Example -/

namespace PyAccEx

/-- A `CoMTask` with the target (1, 2, 3). -/
def com0 : QPTask ℚ :=
  ⟨0, .com ⟨⟨1, 2, 3⟩, ⟨0, 0, 0⟩, ⟨[], [], []⟩, ⟨⟨0, 0, 0⟩, ⟨0, 0, 0⟩, ⟨0, 0, 0⟩, ⟨0, 0, fun _ _ => 0⟩⟩⟩⟩

/-- `t.com(Vector3d(4, 5, 6))`, `t.com(7)`, `t.position(Vector3d(8, 8, 8))`, `t.com(None)`: the second and the third
raise, and `t.com()` is (4, 5, 6). -/
example (f : Fns ℚ) (mod : Mod) :
    ∃ q, exec f mod [.call .com [.v3 ⟨4, 5, 6⟩], .call .com [.int 7], .call .position [.v3 ⟨8, 8, 8⟩],
        .call .com [.none]] com0 = some q ∧
      call mod 0 q.task .com [] = .ret (some (.v3 ⟨4, 5, 6⟩)) q.task ∧
      call mod 0 com0.task .com [] = .ret (some (.v3 ⟨1, 2, 3⟩)) com0.task ∧
      call mod 0 com0.task .com [.v3 ⟨4, 5, 6⟩, .v3 ⟨4, 5, 6⟩] = .raises :=
  ⟨_, rfl, rfl, rfl, rfl⟩

end PyAccEx

end Verif.PyAcc
