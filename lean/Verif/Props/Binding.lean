import Verif.Model.Binding

/-!
# C107: a Python call reaches the C++ overload that its arguments name

The specification reads the C++ headers, not the binding: `Spec.Overload` is a list of C++ parameter
types with the default arguments, and `Spec.Accepts` says which Python values stand for the
arguments of a call of that overload.
-/

set_option autoImplicit false

namespace Verif.Binding

namespace Spec

/-- The type of a C++ parameter, as seen from Python. -/
inductive CType where
  | int
  | double
  | string
  /-- a string given as `bytes` -/
  | byteString
  /-- a reference or pointer to an object wrapped by the class -/
  | ref (c : PyClass)
  /-- `std::vector` of such objects -/
  | vec (c : PyClass)
  deriving DecidableEq, Repr

/-- The Python value `v` stands for the C++ value `a` of type `t`. -/
inductive Means : CType → PyVal → CArg → Prop where
  | int (n : ℤ) : -2147483648 ≤ n → n < 2147483648 → Means .int (.int n) (.int n)
  | dblInt (n : ℤ) : Means .double (.int n) (.dbl n)
  | dbl (q : ℚ) : Means .double (.float q) (.dbl q)
  | str (cs : List Char) : (∀ ch ∈ cs, ch.toNat < 128) → Means .string (.str cs) (.str cs)
  | bytes (cs : List Char) : Means .string (.bytes cs) (.str cs)
  | raw (cs : List Char) : Means .byteString (.bytes cs) (.str cs)
  | ref (c d : PyClass) (i : ℕ) : d = c ∨ d.base = some c → Means (.ref c) (.obj d i) (.ref c i)
  | vec (c : PyClass) (l : List (PyClass × ℕ)) : (∀ x ∈ l, x.1 = c ∨ x.1.base = some c) →
      Means (.vec c) (.list (l.map fun x => .obj x.1 x.2)) (.vec c (l.map Prod.snd))

/-- A C++ overload: the parameters, and the trailing parameters with default arguments. -/
structure Overload where
  req : List CType
  opt : List (CType × CArg) := []
  deriving DecidableEq, Repr

/-- The Python arguments stand for the C++ arguments, one by one; the arguments that are not given
have their default values. -/
inductive Args : List CType → List (CType × CArg) → List PyVal → List CArg → Prop where
  | nil : Args [] [] [] []
  | dflt (t : CType) (a : CArg) (os : List (CType × CArg)) (as : List CArg) :
      Args [] os [] as → Args [] ((t, a) :: os) [] (a :: as)
  | opt (t : CType) (d a : CArg) (v : PyVal) (os : List (CType × CArg)) (vs : List PyVal)
      (as : List CArg) : Means t v a → Args [] os vs as → Args [] ((t, d) :: os) (v :: vs) (a :: as)
  | req (t : CType) (a : CArg) (v : PyVal) (rs : List CType) (os : List (CType × CArg))
      (vs : List PyVal) (as : List CArg) : Means t v a → Args rs os vs as →
      Args (t :: rs) os (v :: vs) (a :: as)

/-- The Python arguments are arguments of the overload, and these are the C++ arguments. -/
def Accepts (o : Overload) (vs : List PyVal) (as : List CArg) : Prop := Args o.req o.opt vs as

/-- `None` is neither an argument nor an element of a list that is an argument. -/
def NoNone (vs : List PyVal) : Prop :=
  ∀ v ∈ vs, v ≠ .none ∧ ∀ l, v = .list l → PyVal.none ∉ l

end Spec

open Spec

/-! ## Conversions -/

namespace Py

variable {α β : Type}

theorem bind_eq_ok {x : Py α} {f : α → Py β} {b : β} :
    (x >>= f) = ok b ↔ ∃ a, x = ok a ∧ f a = ok b := by
  cases x <;> simp

theorem ite_ok {b : Bool} {x y : α} :
    (if b = true then ok x else raises) = ok y ↔ b = true ∧ x = y := by
  cases b <;> simp

theorem bind_ne_ub {x : Py α} {f : α → Py β} (hx : x ≠ ub) (hf : ∀ a, x = ok a → f a ≠ ub) :
    (x >>= f) ≠ ub := by
  cases x with
  | ok a => simpa using hf a rfl
  | raises => simp
  | ub => exact absurd rfl hx

end Py

theorem isA_iff {d c : PyClass} : d.isA c = true ↔ d = c ∨ d.base = some c := by
  simp [PyClass.isA]

theorem element_eq_ok {c : PyClass} {v : PyVal} {i : ℕ} :
    element c v = .ok i ↔ ∃ d, v = .obj d i ∧ d.isA c = true := by
  cases v <;> simp [element, Py.ite_ok]
  exact and_comm

theorem elements_eq_ok {c : PyClass} {l : List PyVal} {is : List ℕ} :
    elements c l = .ok is ↔ ∃ xs : List (PyClass × ℕ), (∀ x ∈ xs, x.1.isA c = true) ∧
      l = xs.map (fun x => .obj x.1 x.2) ∧ is = xs.map Prod.snd := by
  induction l generalizing is with
  | nil =>
    simp only [elements, Py.ok.injEq]
    constructor
    · rintro rfl
      exact ⟨[], by simp⟩
    · rintro ⟨xs, -, h1, h2⟩
      cases xs <;> simp_all
  | cons v l ih =>
    simp only [elements, Py.bind_eq_ok, element_eq_ok, Py.pure_eq, Py.ok.injEq, ih]
    constructor
    · rintro ⟨i, ⟨d, rfl, hd⟩, is', ⟨xs, hxs, rfl, rfl⟩, rfl⟩
      refine ⟨(d, i) :: xs, ?_, rfl, rfl⟩
      intro x hx
      rcases List.mem_cons.1 hx with rfl | hx
      · exact hd
      · exact hxs x hx
    · rintro ⟨xs, hxs, h1, rfl⟩
      cases xs with
      | nil => simp at h1
      | cons x xs =>
        simp only [List.map_cons, List.cons.injEq] at h1
        refine ⟨x.2, ⟨x.1, h1.1, hxs x (by simp)⟩, xs.map Prod.snd, ⟨xs, ?_, h1.2, rfl⟩, rfl⟩
        exact fun y hy => hxs y (by simp [hy])

theorem elements_ne_ub {c : PyClass} {l : List PyVal} (h : PyVal.none ∉ l) :
    elements c l ≠ .ub := by
  induction l with
  | nil => simp [elements]
  | cons v l ih =>
    simp only [List.mem_cons, not_or] at h
    refine Py.bind_ne_ub ?_ fun i _ => Py.bind_ne_ub (ih h.2) fun is _ => by simp
    cases v with
    | none => exact absurd rfl h.1
    | obj d i => simp only [element]; split <;> simp
    | _ => simp [element]

theorem pass_ne_ub {u : Use} {v : PyVal} (h : v ≠ .none) (hl : ∀ l, v = .list l → PyVal.none ∉ l) :
    u.pass v ≠ .ub := by
  cases u <;> cases v <;> simp only [Use.pass, toVector] <;> try (split <;> simp)
  all_goals try simp
  all_goals try exact absurd rfl h
  all_goals
    refine Py.bind_ne_ub (elements_ne_ub ?_) fun is _ => by simp
  all_goals first
    | exact hl _ rfl
    | simp

/-- The test, the declared type and the way of passing of a parameter agree with a C++ type. -/
def okPos (t : Option PyTy) (p : ParamTy) (u : Use) : CType → Bool
  | .int => t = none && (p = .cint || p = .any) && u = .int
  | .double => t = none && (p = .cdouble || p = .any) && u = .dbl
  | .string => t = none && p = .any && u = .name
  | .byteString => t = none && p = .any && u = .rawName
  | .ref c => (t = none || t = some (.cls c)) && p = .ext c && u = .impl c
  | .vec c => t = some .list && p = .any && u = .vec c

/-- One test of `check_args`. -/
def checkOne (t : Option PyTy) (v : PyVal) : Bool :=
  match t with
  | some ty => isinstance v ty
  | none => true

theorem checkArgs_cons (v : PyVal) (vs : List PyVal) (t : Option PyTy) (ts : List (Option PyTy)) :
    checkArgs (v :: vs) (t :: ts) = (checkOne t v && checkArgs vs ts) := rfl

theorem okPos_iff {t : Option PyTy} {p : ParamTy} {u : Use} {ct : CType} (h : okPos t p u ct = true)
    {v : PyVal} (hv : v ≠ .none) {a : CArg} :
    (checkOne t v = true ∧ p.accepts v = true ∧ u.pass v = .ok a) ↔ Means ct v a := by
  constructor
  · rintro ⟨h1, h2, h3⟩
    cases ct with
    | int =>
      simp only [okPos, Bool.and_eq_true, decide_eq_true_eq, Bool.or_eq_true] at h
      obtain ⟨⟨rfl, -⟩, rfl⟩ := h
      cases v <;> simp [Use.pass, Py.ite_ok] at h3
      obtain ⟨h3, rfl⟩ := h3
      simp only [fitsInt, Bool.and_eq_true, decide_eq_true_eq] at h3
      exact .int _ h3.1 h3.2
    | double =>
      simp only [okPos, Bool.and_eq_true, decide_eq_true_eq, Bool.or_eq_true] at h
      obtain ⟨⟨rfl, -⟩, rfl⟩ := h
      cases v <;> simp [Use.pass] at h3
      · subst h3; exact .dblInt _
      · subst h3; exact .dbl _
    | string =>
      simp only [okPos, Bool.and_eq_true, decide_eq_true_eq] at h
      obtain ⟨⟨rfl, rfl⟩, rfl⟩ := h
      cases v <;> simp [Use.pass, Py.ite_ok] at h3
      · obtain ⟨h3, rfl⟩ := h3
        refine .str _ ?_
        simpa [isAscii] using h3
      · subst h3; exact .bytes _
    | byteString =>
      simp only [okPos, Bool.and_eq_true, decide_eq_true_eq] at h
      obtain ⟨⟨rfl, rfl⟩, rfl⟩ := h
      cases v <;> simp [Use.pass] at h3
      subst h3; exact .raw _
    | ref c =>
      simp only [okPos, Bool.and_eq_true, decide_eq_true_eq, Bool.or_eq_true] at h
      obtain ⟨⟨-, rfl⟩, rfl⟩ := h
      cases v <;> simp [Use.pass, Py.ite_ok] at h3
      obtain ⟨h3, rfl⟩ := h3
      exact .ref _ _ _ (isA_iff.1 h3)
    | vec c =>
      simp only [okPos, Bool.and_eq_true, decide_eq_true_eq] at h
      obtain ⟨⟨rfl, rfl⟩, rfl⟩ := h
      cases v <;> simp [checkOne, isinstance] at h1
      simp only [Use.pass, toVector, Py.bind_eq_ok, elements_eq_ok, Py.pure_eq, Py.ok.injEq] at h3
      obtain ⟨is, ⟨xs, hxs, rfl, rfl⟩, rfl⟩ := h3
      exact .vec _ _ fun x hx => isA_iff.1 (hxs x hx)
  · intro hm
    cases hm with
    | int n h1 h2 =>
      simp only [okPos, Bool.and_eq_true, decide_eq_true_eq, Bool.or_eq_true] at h
      obtain ⟨⟨rfl, hp⟩, rfl⟩ := h
      have : fitsInt n = true := by simp [fitsInt, h1, h2]
      rcases hp with rfl | rfl <;> simp [checkOne, ParamTy.accepts, Use.pass, this]
    | dblInt n =>
      simp only [okPos, Bool.and_eq_true, decide_eq_true_eq, Bool.or_eq_true] at h
      obtain ⟨⟨rfl, hp⟩, rfl⟩ := h
      rcases hp with rfl | rfl <;> simp [checkOne, ParamTy.accepts, Use.pass]
    | dbl q =>
      simp only [okPos, Bool.and_eq_true, decide_eq_true_eq, Bool.or_eq_true] at h
      obtain ⟨⟨rfl, hp⟩, rfl⟩ := h
      rcases hp with rfl | rfl <;> simp [checkOne, ParamTy.accepts, Use.pass]
    | str cs hcs =>
      simp only [okPos, Bool.and_eq_true, decide_eq_true_eq] at h
      obtain ⟨⟨rfl, rfl⟩, rfl⟩ := h
      have : isAscii cs = true := by simpa [isAscii] using hcs
      simp [checkOne, ParamTy.accepts, Use.pass, this]
    | bytes cs =>
      simp only [okPos, Bool.and_eq_true, decide_eq_true_eq] at h
      obtain ⟨⟨rfl, rfl⟩, rfl⟩ := h
      simp [checkOne, ParamTy.accepts, Use.pass]
    | raw cs =>
      simp only [okPos, Bool.and_eq_true, decide_eq_true_eq] at h
      obtain ⟨⟨rfl, rfl⟩, rfl⟩ := h
      simp [checkOne, ParamTy.accepts, Use.pass]
    | ref c d i hd =>
      simp only [okPos, Bool.and_eq_true, decide_eq_true_eq, Bool.or_eq_true] at h
      obtain ⟨⟨ht, rfl⟩, rfl⟩ := h
      have hd' : d.isA c = true := isA_iff.2 hd
      rcases ht with rfl | rfl <;> simp [checkOne, isinstance, ParamTy.accepts, Use.pass, hd']
    | vec c l hl =>
      simp only [okPos, Bool.and_eq_true, decide_eq_true_eq] at h
      obtain ⟨⟨rfl, rfl⟩, rfl⟩ := h
      refine ⟨rfl, rfl, ?_⟩
      simp only [Use.pass, toVector, Py.bind_eq_ok, elements_eq_ok, Py.pure_eq, Py.ok.injEq]
      exact ⟨_, ⟨l, fun x hx => isA_iff.2 (hl x hx), rfl, rfl⟩, rfl⟩

/-! ## Methods whose parameters are passed in the order of their declaration -/

/-- The C++ arguments, parameter by parameter. -/
def zipPass : List PyVal → List Use → Py (List CArg)
  | _, [] => .ok []
  | [], _ :: _ => .raises
  | v :: vs, u :: us => do
    let a ← u.pass v
    let as ← zipPass vs us
    return a :: as

theorem passAll_zipIdx (us : List Use) (pre vs : List PyVal) :
    passAll (pre ++ vs) ((us.zipIdx pre.length).map fun p => (p.2, p.1)) = zipPass vs us := by
  induction us generalizing pre vs with
  | nil => cases vs <;> rfl
  | cons u us ih =>
    simp only [List.zipIdx_cons, List.map_cons, passAll]
    cases vs with
    | nil => simp [zipPass]
    | cons v vs =>
      have := ih (pre ++ [v]) vs
      simp only [List.append_assoc, List.cons_append, List.nil_append, List.length_append,
        List.length_cons, List.length_nil, zero_add] at this
      simp [zipPass, this]

theorem passAll_inOrder (us : List Use) (vs : List PyVal) :
    passAll vs (inOrder us) = zipPass vs us := by
  simpa [inOrder] using passAll_zipIdx us [] vs

/-- The default value is accepted and passed as the C++ default argument. -/
def okDflt (p : Param) (u : Use) (a : CArg) : Bool :=
  match p.dflt with
  | none => false
  | some d => u.pass d = .ok a

/-- A list of tests (padded with "no test" for the parameters before `*args`), the declared
parameters and the uses agree with an overload. -/
def okAlt : List (Option PyTy) → List Param → List Use → List CType → List (CType × CArg) → Bool
  | [], [], [], [], [] => true
  | [], p :: ps, u :: us, [], (_, a) :: os => okDflt p u a && okAlt [] ps us [] os
  | t :: ts, p :: ps, u :: us, [], (ct, _) :: os => okPos t p.ty u ct && okAlt ts ps us [] os
  | t :: ts, p :: ps, u :: us, ct :: rs, os => okPos t p.ty u ct && okAlt ts ps us rs os
  | _, _, _, _, _ => false

theorem okAlt_iff {ts : List (Option PyTy)} {ps : List Param} {us : List Use} {rs : List CType}
    {os : List (CType × CArg)} (h : okAlt ts ps us rs os = true) {vs : List PyVal}
    (hv : ∀ v ∈ vs, v ≠ .none) {as : List CArg} (hlen : vs.length = ts.length) :
    (checkArgs vs ts = true ∧ (bindParams ps vs >>= fun ws => zipPass ws us) = .ok as) ↔
      Args rs os vs as := by
  induction ps generalizing ts us rs os vs as with
  | nil =>
    cases ts <;> cases us <;> cases rs <;> cases os <;> simp [okAlt] at h
    cases vs with
    | nil =>
      simp only [checkArgs, bindParams, Py.ok_bind, zipPass, Py.ok.injEq, true_and]
      constructor
      · rintro rfl; exact .nil
      · intro h; cases h; rfl
    | cons v vs => simp at hlen
  | cons p ps ih =>
    cases ts with
    | nil =>
      have hvs : vs = [] := by simpa using hlen
      subst hvs
      cases us with
      | nil => cases rs <;> cases os <;> simp [okAlt] at h
      | cons u us =>
      cases rs with
      | cons r rs => simp [okAlt] at h
      | nil =>
      cases os with
      | nil => simp [okAlt] at h
      | cons o os =>
      obtain ⟨ct, a⟩ := o
      simp only [okAlt, Bool.and_eq_true] at h
      obtain ⟨hd, h⟩ := h
      have := fun as' => ih h (vs := []) (by simp) (as := as') rfl
      unfold okDflt at hd
      cases hp : p.dflt with
      | none => simp [hp] at hd
      | some d =>
      simp only [hp, decide_eq_true_eq] at hd
      simp only [bindParams, hp, Py.bind_eq_ok, Py.pure_eq, Py.ok.injEq]
      constructor
      · rintro ⟨_, ws, ⟨ws', hws', rfl⟩, hz⟩
        simp only [zipPass, hd, Py.ok_bind, Py.bind_eq_ok, Py.pure_eq, Py.ok.injEq] at hz
        obtain ⟨as', hz, rfl⟩ := hz
        exact .dflt _ _ _ _ ((this as').1 ⟨rfl, by simp [hws', hz]⟩)
      · intro hA
        cases hA with
        | dflt _ _ _ as' hA =>
          obtain ⟨-, hz⟩ := (this as').2 hA
          obtain ⟨ws', hws', hz⟩ := Py.bind_eq_ok.1 hz
          refine ⟨rfl, d :: ws', ⟨ws', hws', rfl⟩, ?_⟩
          simp [zipPass, hd, hz]
    | cons t ts =>
      cases vs with
      | nil => simp at hlen
      | cons v vs =>
      simp only [List.length_cons, Nat.add_right_cancel_iff] at hlen
      have hv0 : v ≠ .none := hv v (by simp)
      have hvs : ∀ w ∈ vs, w ≠ .none := fun w hw => hv w (by simp [hw])
      cases us with
      | nil => cases rs <;> cases os <;> simp [okAlt] at h
      | cons u us =>
      have key : ∀ {ct : CType} {rs' : List CType} {os' : List (CType × CArg)},
          okPos t p.ty u ct = true → okAlt ts ps us rs' os' = true →
          ((checkArgs (v :: vs) (t :: ts) = true ∧
            (bindParams (p :: ps) (v :: vs) >>= fun ws => zipPass ws (u :: us)) = .ok as) ↔
            ∃ a as', as = a :: as' ∧ Means ct v a ∧ Args rs' os' vs as') := by
        intro ct rs' os' h1 h2
        have IH := fun as' => ih h2 (vs := vs) hvs (as := as') hlen
        simp only [checkArgs_cons, Bool.and_eq_true, bindParams]
        constructor
        · rintro ⟨⟨hc, hcs⟩, hb⟩
          by_cases hacc : p.ty.accepts v = true
          · simp only [hacc, if_true, Py.bind_eq_ok, Py.pure_eq, Py.ok.injEq] at hb
            obtain ⟨ws, ⟨ws', hws', rfl⟩, hz⟩ := hb
            simp only [zipPass, Py.bind_eq_ok, Py.pure_eq, Py.ok.injEq] at hz
            obtain ⟨a, ha, as', hz, rfl⟩ := hz
            exact ⟨a, as', rfl, (okPos_iff h1 hv0).1 ⟨hc, hacc, ha⟩,
              (IH as').1 ⟨hcs, by simp [hws', hz]⟩⟩
          · simp [hacc] at hb
        · rintro ⟨a, as', rfl, hm, hA⟩
          obtain ⟨hc, hacc, ha⟩ := (okPos_iff h1 hv0).2 hm
          obtain ⟨hcs, hz⟩ := (IH as').2 hA
          obtain ⟨ws', hws', hz⟩ := Py.bind_eq_ok.1 hz
          refine ⟨⟨hc, hcs⟩, ?_⟩
          simp [hacc, hws', zipPass, ha, hz]
      cases rs with
      | nil =>
        cases os with
        | nil => simp [okAlt] at h
        | cons o os =>
        obtain ⟨ct, d⟩ := o
        simp only [okAlt, Bool.and_eq_true] at h
        rw [key h.1 h.2]
        constructor
        · rintro ⟨a, as', rfl, hm, hA⟩
          exact .opt _ _ _ _ _ _ _ hm hA
        · intro hA
          cases hA with
          | opt _ _ a _ _ _ as' hm hA => exact ⟨a, as', rfl, hm, hA⟩
      | cons r rs =>
        simp only [okAlt, Bool.and_eq_true] at h
        rw [key h.1 h.2]
        constructor
        · rintro ⟨a, as', rfl, hm, hA⟩
          exact .req _ _ _ _ _ _ _ hm hA
        · intro hA
          cases hA with
          | req _ a _ _ _ _ as' hm hA => exact ⟨a, as', rfl, hm, hA⟩

/-! ## Methods that choose an overload -/

/-- A list of tests of the method, with the private method it leads to, agrees with an overload. -/
def okCase (e : Entry) (fn : CFn) (alt : List (Option PyTy)) (m : Method) (o : Overload) : Bool :=
  okAlt (List.replicate e.fixed.length none ++ alt) m.params (m.uses.map Prod.snd) o.req o.opt
    && m.uses = inOrder (m.uses.map Prod.snd) && m.fn = fn
    && (m.params.take e.fixed.length).map Param.ty = e.fixed.map Param.ty

/-- The parameters before `*args` have no default values. -/
def Entry.fixedReq (e : Entry) : Bool := e.fixed.all fun p => p.dflt.isNone

/-- The call without arguments is the default constructor. -/
def Entry.okZero (e : Entry) (fn : CFn) (os : List Overload) : Bool :=
  match e.zero with
  | none => true
  | some c => c = ⟨fn, []⟩ && e.fixed.isEmpty && os.contains ⟨[], []⟩

/-- A test and a declared parameter that no object satisfies together. -/
def deadPos (t : Option PyTy) (p : ParamTy) : Bool :=
  match t, p with
  | some (.cls c), .ext d => c ≠ d && c.base ≠ some d && d.base ≠ some c
  | _, _ => false

/-- The private method raises an exception whenever the tests succeed. -/
def deadAlt : List (Option PyTy) → List Param → Bool
  | t :: ts, p :: ps => deadPos t p.ty || deadAlt ts ps
  | _, _ => false

/-- Every list of tests agrees with one of the overloads, or repeats an earlier one, or leads to a
method that raises an exception. -/
def okB (e : Entry) (fn : CFn) (os : List Overload) (seen : List (List (Option PyTy))) :
    List Branch → Bool
  | [] => true
  | b :: bs =>
    (b.alts.all fun alt => (os.any fun o => okCase e fn alt b.body o) || seen.contains alt
      || deadAlt (List.replicate e.fixed.length none ++ alt) b.body.params)
      && okB e fn os (seen ++ b.alts) bs

/-- The same, for all branches of the method. -/
def Entry.okBranches (e : Entry) (fn : CFn) (os : List Overload) : Bool :=
  okB e fn os [] e.branches

theorem bindParams_req_length {ps : List Param} (h : ps.all (fun p => p.dflt.isNone) = true)
    {vs ws : List PyVal} (hb : bindParams ps vs = .ok ws) : vs.length = ps.length := by
  induction ps generalizing vs ws with
  | nil => cases vs <;> simp_all [bindParams]
  | cons p ps ih =>
    simp only [List.all_cons, Bool.and_eq_true, Option.isNone_iff_eq_none] at h
    cases vs with
    | nil => simp [bindParams, h.1] at hb
    | cons v vs =>
      simp only [bindParams] at hb
      split at hb
      · obtain ⟨ws', hw, -⟩ := Py.bind_eq_ok.1 hb
        simp [ih h.2 hw]
      · exact absurd hb (by simp)

theorem bindParams_ne_ub (ps : List Param) (vs : List PyVal) : bindParams ps vs ≠ .ub := by
  induction ps generalizing vs with
  | nil => cases vs <;> simp [bindParams]
  | cons p ps ih =>
    cases vs with
    | nil =>
      simp only [bindParams]
      split
      · simp
      · exact Py.bind_ne_ub (ih _) fun _ _ => by simp
    | cons v vs =>
      simp only [bindParams]
      split
      · exact Py.bind_ne_ub (ih _) fun _ _ => by simp
      · simp

theorem bindParams_mem {ps : List Param} {vs ws : List PyVal} (hb : bindParams ps vs = .ok ws) :
    ∀ w ∈ ws, w ∈ vs ∨ ∃ p ∈ ps, p.dflt = some w := by
  induction ps generalizing vs ws with
  | nil => cases vs <;> simp_all [bindParams]
  | cons p ps ih =>
    cases vs with
    | nil =>
      simp only [bindParams] at hb
      split at hb
      · exact absurd hb (by simp)
      · rename_i d hd
        obtain ⟨ws', hw, h⟩ := Py.bind_eq_ok.1 hb
        simp only [Py.pure_eq, Py.ok.injEq] at h
        subst h
        intro w hw'
        rcases List.mem_cons.1 hw' with rfl | hw'
        · exact .inr ⟨p, by simp, hd⟩
        · rcases ih hw w hw' with h | ⟨q, hq, h⟩
          · simp at h
          · exact .inr ⟨q, by simp [hq], h⟩
    | cons v vs =>
      simp only [bindParams] at hb
      split at hb
      · obtain ⟨ws', hw, h⟩ := Py.bind_eq_ok.1 hb
        simp only [Py.pure_eq, Py.ok.injEq] at h
        subst h
        intro w hw'
        rcases List.mem_cons.1 hw' with rfl | hw'
        · exact .inl (by simp)
        · rcases ih hw w hw' with h | ⟨q, hq, h⟩
          · exact .inl (by simp [h])
          · exact .inr ⟨q, by simp [hq], h⟩
      · exact absurd hb (by simp)

theorem bindParams_take {ps qs : List Param} {vs ws : List PyVal} (hb : bindParams ps vs = .ok ws)
    (hq : (ps.take qs.length).map Param.ty = qs.map Param.ty) (hl : qs.length ≤ vs.length) :
    ∃ ws', bindParams qs (vs.take qs.length) = .ok ws' := by
  induction qs generalizing ps vs ws with
  | nil => exact ⟨[], by simp [bindParams]⟩
  | cons q qs ih =>
    cases ps with
    | nil => simp at hq
    | cons p ps =>
    cases vs with
    | nil => simp at hl
    | cons v vs =>
    simp only [List.length_cons, List.take_succ_cons, List.map_cons, List.cons.injEq] at hq
    simp only [bindParams] at hb
    split at hb
    · rename_i hacc
      obtain ⟨ws', hw, -⟩ := Py.bind_eq_ok.1 hb
      obtain ⟨ws'', h⟩ := ih hw hq.2 (by simpa using hl)
      refine ⟨v :: ws'', ?_⟩
      simp only [List.length_cons, List.take_succ_cons, bindParams, ← hq.1, hacc, if_true, h]
      rfl
    · exact absurd hb (by simp)

theorem checkArgs_length {vs : List PyVal} {ts : List (Option PyTy)} (h : checkArgs vs ts = true) :
    vs.length = ts.length := by
  induction vs generalizing ts with
  | nil => cases ts <;> simp_all [checkArgs]
  | cons v vs ih =>
    cases ts with
    | nil => simp [checkArgs] at h
    | cons t ts =>
      rw [checkArgs_cons, Bool.and_eq_true] at h
      simp [ih h.2]

theorem checkArgs_pad (vs : List PyVal) (k : ℕ) (hk : k ≤ vs.length) (ts : List (Option PyTy)) :
    checkArgs vs (List.replicate k none ++ ts) = checkArgs (vs.drop k) ts := by
  induction k generalizing vs with
  | zero => simp
  | succ k ih =>
    cases vs with
    | nil => simp at hk
    | cons v vs =>
      rw [List.replicate_succ, List.cons_append, checkArgs_cons]
      simp [checkOne, ih vs (by simpa using hk)]

theorem Method.run_inOrder {m : Method} (h : m.uses = inOrder (m.uses.map Prod.snd))
    (vs : List PyVal) {c : CCall} : m.run vs = .ok c ↔ c.fn = m.fn ∧
      (bindParams m.params vs >>= fun ws => zipPass ws (m.uses.map Prod.snd)) = .ok c.args := by
  unfold Method.run
  rw [h]
  simp only [passAll_inOrder, Py.bind_eq_ok, Py.pure_eq, Py.ok.injEq]
  rw [← h]
  constructor
  · rintro ⟨ws, hw, as, hz, rfl⟩
    exact ⟨rfl, ws, hw, hz⟩
  · rintro ⟨hf, ws, hw, hz⟩
    refine ⟨ws, hw, c.args, hz, ?_⟩
    cases c
    cases hf
    rfl

/-- A case that agrees with an overload makes the calls of that overload. -/
theorem okCase_iff {e : Entry} {fn : CFn} {alt : List (Option PyTy)} {m : Method} {o : Overload}
    (h : okCase e fn alt m o = true) {vs : List PyVal} (hv : ∀ v ∈ vs, v ≠ .none)
    (hlen : vs.length = e.fixed.length + alt.length) {c : CCall} :
    (checkArgs (vs.drop e.fixed.length) alt = true ∧ m.run vs = .ok c) ↔
      (c.fn = fn ∧ Accepts o vs c.args) := by
  simp only [okCase, Bool.and_eq_true, decide_eq_true_eq] at h
  obtain ⟨⟨⟨h1, h2⟩, rfl⟩, -⟩ := h
  rw [Method.run_inOrder h2, ← checkArgs_pad _ _ (by omega)]
  have := okAlt_iff h1 hv (as := c.args) (by simp [hlen])
  unfold Accepts
  rw [← this]
  tauto

theorem deadAlt_spec {ts : List (Option PyTy)} {ps : List Param} (h : deadAlt ts ps = true)
    {vs : List PyVal} (hv : ∀ v ∈ vs, v ≠ .none) (hc : checkArgs vs ts = true) :
    bindParams ps vs = .raises := by
  induction ts generalizing ps vs with
  | nil => simp [deadAlt] at h
  | cons t ts ih =>
    cases ps with
    | nil => simp [deadAlt] at h
    | cons p ps =>
    cases vs with
    | nil => simp [checkArgs] at hc
    | cons v vs =>
    rw [checkArgs_cons, Bool.and_eq_true] at hc
    simp only [deadAlt, Bool.or_eq_true] at h
    rw [bindParams]
    rcases h with h | h
    · have : p.ty.accepts v = false := by
        unfold deadPos at h
        split at h
        · rename_i c d hp
          simp only [Bool.and_eq_true, decide_eq_true_eq] at h
          have hv0 := hv v (by simp)
          rw [hp]
          cases v <;> simp [checkOne, isinstance, PyClass.isA] at hc <;>
            simp [ParamTy.accepts, PyClass.isA] at hv0 ⊢
          rename_i x i
          obtain ⟨⟨h1, h2⟩, h3⟩ := h
          rcases hc.1 with rfl | hx
          · exact ⟨h1, h2⟩
          · refine ⟨fun h => h3 (h ▸ hx), fun h => h1 ?_⟩
            rw [hx] at h
            exact Option.some.inj h
        · simp at h
      simp [this]
    · rw [ih h (fun w hw => hv w (by simp [hw])) hc.2]
      split <;> rfl

/-- Every call that the method makes is a call of one of the overloads with the arguments in their
places, or is made by the last `else`. -/
theorem Entry.sound {e : Entry} {fn : CFn} {os : List Overload} (hf : e.fixedReq = true)
    (hz : e.okZero fn os = true) (hb : e.okBranches fn os = true)
    {vs : List PyVal} (hv : ∀ v ∈ vs, v ≠ .none) {c : CCall} (h : e.run vs = .ok c) :
    (c.fn = fn ∧ ∃ o ∈ os, Accepts o vs c.args) ∨
      runBranches e.otherwise vs (vs.drop e.fixed.length) [] = .ok c := by
  unfold Entry.run at h
  obtain ⟨ws, hw, h⟩ := Py.bind_eq_ok.1 h
  have hlen := bindParams_req_length hf hw
  rw [List.length_take] at hlen
  dsimp only at h
  split at h
  · rename_i c' hc hr
    simp only [Entry.okZero, hc, Bool.and_eq_true, decide_eq_true_eq, List.isEmpty_iff,
      List.contains_iff_mem] at hz
    obtain ⟨⟨rfl, hfix⟩, hmem⟩ := hz
    simp only [Py.pure_eq, Py.ok.injEq] at h
    subst h
    rw [hfix] at hr
    have : vs = [] := by simpa using hr
    subst this
    exact .inl ⟨rfl, _, hmem, .nil⟩
  · rw [Entry.okBranches] at hb
    have key : ∀ bs seen, okB e fn os seen bs = true →
        (∀ alt ∈ seen, checkArgs (vs.drop e.fixed.length) alt = false) →
        runBranches e.otherwise vs (vs.drop e.fixed.length) bs = .ok c →
        (c.fn = fn ∧ ∃ o ∈ os, Accepts o vs c.args) ∨
          runBranches e.otherwise vs (vs.drop e.fixed.length) [] = .ok c := by
      intro bs
      induction bs with
      | nil => exact fun _ _ _ h => .inr h
      | cons b bs ih =>
        intro seen hb hs h
        rw [okB, Bool.and_eq_true] at hb
        rw [runBranches] at h
        split at h
        · rename_i hany
          obtain ⟨alt, halt, hc⟩ := List.any_eq_true.1 hany
          have hl := checkArgs_length hc
          rw [List.length_drop] at hl
          have hcase := List.all_eq_true.1 hb.1 alt halt
          simp only [Bool.or_eq_true] at hcase
          rcases hcase with (hok | hseen) | hdead
          · obtain ⟨o, ho, hok⟩ := List.any_eq_true.1 hok
            have := (okCase_iff hok hv (by omega)).1 ⟨hc, h⟩
            exact .inl ⟨this.1, o, ho, this.2⟩
          · have := hs alt (List.contains_iff_mem.1 hseen)
            simp [this] at hc
          · rw [← checkArgs_pad _ _ (by omega)] at hc
            have := deadAlt_spec hdead hv hc
            simp [Method.run, this] at h
        · rename_i hany
          refine ih (seen ++ b.alts) hb.2 ?_ h
          intro alt halt
          rcases List.mem_append.1 halt with halt | halt
          · exact hs alt halt
          · by_contra hc
            exact hany (List.any_eq_true.2 ⟨alt, halt, by simpa using hc⟩)
    exact key _ [] hb (by simp) h

/-- The test fails on every value that stands for a C++ value of the type. -/
def excl : Option PyTy → CType → Bool
  | none, _ => false
  | some .list, .vec _ => false
  | some .list, _ => true
  | some (.cls c), .ref d => c ≠ d && c.base ≠ some d && d.base ≠ some c
  | some (.cls _), _ => true

theorem excl_spec {t : Option PyTy} {ct : CType} (h : excl t ct = true) {v : PyVal} {a : CArg}
    (hm : Means ct v a) : checkOne t v = false := by
  cases t with
  | none => simp [excl] at h
  | some ty =>
    cases ty with
    | list => cases hm <;> simp_all [excl, checkOne, isinstance]
    | cls c =>
      cases hm with
      | ref c' d i hd =>
        simp only [excl, Bool.and_eq_true, decide_eq_true_eq] at h
        simp only [checkOne, isinstance, PyClass.isA, Bool.or_eq_false_iff, decide_eq_false_iff_not]
        obtain ⟨⟨h1, h2⟩, h3⟩ := h
        rcases hd with rfl | hd
        · exact ⟨fun h => h1 h.symm, h3⟩
        · refine ⟨fun h => h2 (h ▸ hd), fun h => h1 ?_⟩
          rw [hd] at h
          exact (Option.some.inj h).symm
      | _ => simp [checkOne, isinstance]

/-- The list of tests fails on every list of arguments of the types. -/
def exclAlt : List (Option PyTy) → List CType → Bool
  | [], [] => false
  | t :: ts, ct :: cs => excl t ct || exclAlt ts cs
  | _, _ => true

theorem exclAlt_spec {ts : List (Option PyTy)} {cs : List CType} (h : exclAlt ts cs = true)
    {vs : List PyVal} (hm : List.Forall₂ (fun ct v => ∃ a, Means ct v a) cs vs) :
    checkArgs vs ts = false := by
  induction hm generalizing ts with
  | nil => cases ts <;> simp_all [exclAlt, checkArgs]
  | cons hv _ ih =>
    cases ts with
    | nil => simp [checkArgs]
    | cons t ts =>
      obtain ⟨a, hv⟩ := hv
      simp only [exclAlt, Bool.or_eq_true] at h
      rw [checkArgs_cons]
      rcases h with h | h
      · simp [excl_spec h hv]
      · simp [ih h]

/-- The types of the first arguments of an overload. -/
def Spec.Overload.sig (o : Overload) (n : ℕ) : List CType := (o.req ++ o.opt.map Prod.fst).take n

theorem args_forall {rs : List CType} {os : List (CType × CArg)} {vs : List PyVal}
    {as : List CArg} (h : Args rs os vs as) :
    List.Forall₂ (fun ct v => ∃ a, Means ct v a) ((rs ++ os.map Prod.fst).take vs.length) vs := by
  induction h with
  | nil => simp
  | dflt => simp
  | opt t d a v os vs as hm _ ih =>
    simpa using ⟨⟨a, hm⟩, by simpa using ih⟩
  | req t a v rs os vs as hm _ ih =>
    simpa using ⟨⟨a, hm⟩, by simpa using ih⟩

theorem forall₂_drop {α β : Type} {R : α → β → Prop} {l : List α} {m : List β}
    (h : List.Forall₂ R l m) (k : ℕ) : List.Forall₂ R (l.drop k) (m.drop k) := by
  induction h generalizing k with
  | nil => simp
  | cons hx hl ih =>
    cases k with
    | zero => exact .cons hx hl
    | succ k => simpa using ih k

/-- The tests, in order, lead the calls of an overload with a given number of arguments to a case
that agrees with it. -/
def reachB (e : Entry) (fn : CFn) (o : Overload) (n : ℕ) : List Branch → Bool
  | [] => false
  | b :: bs =>
    (b.alts.any fun alt => okCase e fn alt b.body o && n = e.fixed.length + alt.length)
      || (b.alts.all (fun alt => exclAlt alt ((o.sig n).drop e.fixed.length)) && reachB e fn o n bs)

/-- The calls of the overload with `n` arguments are made. -/
def Entry.reach (e : Entry) (fn : CFn) (o : Overload) (n : ℕ) : Bool :=
  if n = e.fixed.length && e.zero.isSome then
    e.zero = some ⟨fn, []⟩ && e.fixed.isEmpty && o = ⟨[], []⟩
  else reachB e fn o n e.branches

theorem Entry.reaches {e : Entry} {fn : CFn} {o : Overload} {vs : List PyVal} {as : List CArg}
    (hr : e.reach fn o vs.length = true) (hv : ∀ v ∈ vs, v ≠ .none) (hA : Accepts o vs as) :
    e.run vs = .ok ⟨fn, as⟩ := by
  unfold Entry.reach at hr
  split at hr
  · rename_i hz
    simp only [Bool.and_eq_true, decide_eq_true_eq, List.isEmpty_iff] at hr hz
    obtain ⟨⟨hzero, hfix⟩, rfl⟩ := hr
    have hvs : vs = [] := by
      have := hz.1
      rw [hfix] at this
      simpa using this
    subst hvs
    cases hA
    simp [Entry.run, hfix, hzero, bindParams]
  · rename_i hz
    have key : ∀ bs, reachB e fn o vs.length bs = true →
        runBranches e.otherwise vs (vs.drop e.fixed.length) bs = .ok ⟨fn, as⟩ ∧
        e.fixed.length ≤ vs.length ∧
        ∃ ws, bindParams e.fixed (vs.take e.fixed.length) = .ok ws := by
      intro bs hb
      induction bs with
      | nil => simp [reachB] at hb
      | cons b bs ih =>
        simp only [reachB, Bool.or_eq_true, Bool.and_eq_true] at hb
        rcases hb with hb | ⟨hall, hb⟩
        · obtain ⟨alt, halt, hok⟩ := List.any_eq_true.1 hb
          simp only [Bool.and_eq_true, decide_eq_true_eq] at hok
          have h := (okCase_iff hok.1 hv hok.2 (c := ⟨fn, as⟩)).2 ⟨rfl, hA⟩
          have hany : b.alts.any (checkArgs (vs.drop e.fixed.length)) = true :=
            List.any_eq_true.2 ⟨alt, halt, h.1⟩
          refine ⟨by rw [runBranches, if_pos hany]; exact h.2, by omega, ?_⟩
          obtain ⟨ws, hw, -⟩ := Py.bind_eq_ok.1 h.2
          have ho := hok.1
          simp only [okCase, Bool.and_eq_true, decide_eq_true_eq] at ho
          exact bindParams_take hw ho.2 (by omega)
        · obtain ⟨h1, h2⟩ := ih hb
          refine ⟨?_, h2⟩
          have hany : ¬ b.alts.any (checkArgs (vs.drop e.fixed.length)) = true := by
            intro hany
            obtain ⟨alt, halt, hc⟩ := List.any_eq_true.1 hany
            have := exclAlt_spec (List.all_eq_true.1 hall alt halt)
              (forall₂_drop (args_forall hA) e.fixed.length)
            simp [this] at hc
          rw [runBranches, if_neg hany, h1]
    obtain ⟨h1, h2, ws, hw⟩ := key _ hr
    unfold Entry.run
    rw [hw]
    simp only [Py.ok_bind]
    split
    · rename_i c hc hnil
      exfalso
      apply hz
      have : vs.length ≤ e.fixed.length := by simpa using hnil
      have : vs.length = e.fixed.length := by omega
      simp [this, hc]
    · exact h1

/-- A default value that is neither `None` nor a list. -/
def plain : PyVal → Bool
  | .none => false
  | .list _ => false
  | _ => true

/-- The default values of the method are plain. -/
def Method.plainDflts (m : Method) : Bool :=
  m.params.all fun p => match p.dflt with
    | none => true
    | some d => plain d

theorem zipPass_ne_ub {ws : List PyVal} (h : NoNone ws) (us : List Use) : zipPass ws us ≠ .ub := by
  induction us generalizing ws with
  | nil => cases ws <;> simp [zipPass]
  | cons u us ih =>
    cases ws with
    | nil => simp [zipPass]
    | cons w ws =>
      have hw := h w (by simp)
      exact Py.bind_ne_ub (pass_ne_ub hw.1 hw.2) fun _ _ =>
        Py.bind_ne_ub (ih fun x hx => h x (by simp [hx])) fun _ _ => by simp

theorem passAll_ne_ub {ws : List PyVal} (h : NoNone ws) (us : List (ℕ × Use)) :
    passAll ws us ≠ .ub := by
  induction us with
  | nil => simp [passAll]
  | cons u us ih =>
    obtain ⟨i, u⟩ := u
    rw [passAll]
    split
    · rename_i v hv
      have := h v (List.mem_of_getElem? hv)
      exact Py.bind_ne_ub (pass_ne_ub this.1 this.2) fun _ _ =>
        Py.bind_ne_ub ih fun _ _ => by simp
    · simp

theorem Method.run_ne_ub {m : Method} (hm : m.plainDflts = true) {vs : List PyVal}
    (h : NoNone vs) : m.run vs ≠ .ub := by
  refine Py.bind_ne_ub (bindParams_ne_ub _ _) fun ws hw =>
    Py.bind_ne_ub (passAll_ne_ub ?_ _) fun _ _ => by simp
  intro w hw'
  rcases bindParams_mem hw w hw' with hv | ⟨p, hp, hd⟩
  · exact h w hv
  · have := List.all_eq_true.1 hm p hp
    rw [hd] at this
    cases w <;> simp_all [plain]

/-- The last `else` does not read attributes of `None`. -/
def Otherwise.plainDflts : Otherwise → Bool
  | .first m => m.plainDflts
  | _ => true

/-- Without `None` among the arguments the method never reads an attribute of something else than
an object of the class. -/
theorem Entry.run_ne_ub {e : Entry} (hm : e.branches.all (fun b => b.body.plainDflts) = true)
    (ho : e.otherwise.plainDflts = true) {vs : List PyVal} (h : NoNone vs) : e.run vs ≠ .ub := by
  refine Py.bind_ne_ub (bindParams_ne_ub _ _) fun ws hw => ?_
  dsimp only
  split
  · simp
  · generalize e.branches = bs at hm
    induction bs with
    | nil =>
      unfold runBranches
      split
      · simp
      · simp
      · rename_i m hot
        rw [hot] at ho
        split
        · simp
        · rename_i a l hd
          refine Method.run_ne_ub ho fun v hv => h v ?_
          have : v = a := by simpa using hv
          subst this
          exact List.mem_of_mem_drop (hd ▸ List.mem_cons_self)
    | cons b bs ih =>
      rw [List.all_cons, Bool.and_eq_true] at hm
      rw [runBranches]
      split
      · exact Method.run_ne_ub hm.1 h
      · exact ih hm.2

/-- The method makes exactly the calls of the overloads. -/
def Entry.good (e : Entry) (fn : CFn) (os : List Overload) : Bool :=
  e.fixedReq && e.okZero fn os && e.okBranches fn os
    && os.all (fun o => (List.range (o.opt.length + 1)).all fun k => e.reach fn o (o.req.length + k))
    && e.branches.all (fun b => b.body.plainDflts)

theorem args_length {rs : List CType} {os : List (CType × CArg)} {vs : List PyVal}
    {as : List CArg} (h : Args rs os vs as) : ∃ k < os.length + 1, vs.length = rs.length + k := by
  induction h with
  | nil => exact ⟨0, by simp⟩
  | dflt t a os as h ih => exact ⟨0, by simp⟩
  | opt t d a v os vs as _ _ ih =>
    obtain ⟨k, hk, h⟩ := ih
    simp only [List.length_nil, zero_add] at h
    exact ⟨k + 1, by simpa using hk, by simp [h]⟩
  | req t a v rs os vs as _ _ ih =>
    obtain ⟨k, hk, h⟩ := ih
    exact ⟨k, hk, by simp [h]; omega⟩

/-- What the property says of one method of the binding: for all arguments without `None`, it makes
the call of a C++ overload exactly when the arguments are arguments of that overload, with every
argument in its place, and raises a Python exception otherwise. -/
def Spec.Exact (run : List PyVal → Py CCall) (fn : CFn) (os : List Overload) : Prop :=
  ∀ vs, NoNone vs →
    (∀ c, run vs = .ok c ↔ c.fn = fn ∧ ∃ o ∈ os, Accepts o vs c.args) ∧ run vs ≠ .ub

theorem Entry.exact {e : Entry} {fn : CFn} {os : List Overload} (h : e.good fn os = true)
    (ho : e.otherwise = .raise) : Exact e.run fn os := by
  simp only [Entry.good, Bool.and_eq_true] at h
  obtain ⟨⟨⟨⟨h1, h2⟩, h3⟩, h4⟩, h5⟩ := h
  intro vs hn
  have hv : ∀ v ∈ vs, v ≠ .none := fun v hv => (hn v hv).1
  refine ⟨fun c => ⟨fun h => ?_, ?_⟩,
    Entry.run_ne_ub h5 (by simp [ho, Otherwise.plainDflts]) hn⟩
  · rcases Entry.sound h1 h2 h3 hv h with h | h
    · exact h
    · simp [runBranches, ho] at h
  rintro ⟨rfl, o, ho', hA⟩
  obtain ⟨k, hk, hl⟩ := args_length hA
  have := List.all_eq_true.1 (List.all_eq_true.1 h4 o ho') k (List.mem_range.2 hk)
  rw [← hl] at this
  exact Entry.reaches this hv hA

/-- When every list of tests fails on the arguments of an overload, the last `else` is taken. -/
theorem Entry.missed {e : Entry} {o : Overload} {vs : List PyVal} {as : List CArg}
    (hf : e.fixed = []) (hv : vs ≠ [])
    (hm : e.branches.all (fun b => b.alts.all fun alt => exclAlt alt (o.sig vs.length)) = true)
    (hA : Accepts o vs as) : e.run vs = runBranches e.otherwise vs vs [] := by
  have key : ∀ bs : List Branch,
      bs.all (fun b => b.alts.all fun alt => exclAlt alt (o.sig vs.length)) = true →
      runBranches e.otherwise vs vs bs = runBranches e.otherwise vs vs [] := by
    intro bs hb
    induction bs with
    | nil => rfl
    | cons b bs ih =>
      rw [List.all_cons, Bool.and_eq_true] at hb
      have hany : ¬ b.alts.any (checkArgs vs) = true := by
        intro hany
        obtain ⟨alt, halt, hc⟩ := List.any_eq_true.1 hany
        have := exclAlt_spec (List.all_eq_true.1 hb.1 alt halt) (args_forall hA)
        simp [this] at hc
      rw [runBranches, if_neg hany, ih hb.2]
  unfold Entry.run
  rw [hf]
  simp only [List.length_nil, List.take_zero, List.drop_zero, bindParams, Py.ok_bind]
  split
  · contradiction
  · exact key _ hm

/-! ## The overloads of the C++ headers -/

namespace Spec

/-- src/Tasks/QPContacts.h:31, 40 -/
def frictionCone : List Overload :=
  [{ req := [] },
   { req := [.ref .matrix3d, .int, .double], opt := [(.double, .dbl 1)] }]

/-- src/Tasks/QPContacts.h:51, 60-64 -/
def contactId : List Overload :=
  [{ req := [] },
   { req := [.int, .int, .string, .string], opt := [(.int, .int (-1))] }]

/-- `X_b1_cf = sva::PTransformd::Identity()` -/
def cfDefault : List (CType × CArg) := [(.ref .ptransformd, .ref .ptransformd 0)]

/-- src/Tasks/QPContacts.h:82 -/
def uniDefault : Overload := { req := [] }
/-- src/Tasks/QPContacts.h:98-107 -/
def uniBodies : Overload :=
  { req := [.int, .int, .string, .string, .vec .vector3d, .ref .matrix3d, .ref .ptransformd, .int,
      .double], opt := cfDefault }
/-- src/Tasks/QPContacts.h:125-135 -/
def uniAmbiguity : Overload :=
  { req := [.int, .int, .string, .string, .int, .vec .vector3d, .ref .matrix3d, .ref .ptransformd,
      .int, .double], opt := cfDefault }
/-- src/Tasks/QPContacts.h:148-154 -/
def uniId : Overload :=
  { req := [.ref .contactId, .vec .vector3d, .ref .matrix3d, .ref .ptransformd, .int, .double],
    opt := cfDefault }

/-- src/Tasks/QPContacts.h:187 -/
def uniForceCone : Overload := { req := [.ref .vectorXd, .ref .frictionCone] }
/-- src/Tasks/QPContacts.h:182 -/
def uniForcePoint : Overload := { req := [.ref .vectorXd, .int, .ref .frictionCone] }
/-- src/Tasks/QPContacts.h:192-194 -/
def uniForceWrench : Overload := { req := [.ref .vectorXd, .vec .vector3d, .ref .frictionCone] }

/-- src/Tasks/QPContacts.h:218 -/
def biDefault : Overload := { req := [] }
/-- src/Tasks/QPContacts.h:234-243 -/
def biBodies : Overload :=
  { req := [.int, .int, .string, .string, .vec .vector3d, .vec .matrix3d, .ref .ptransformd, .int,
      .double], opt := cfDefault }
/-- src/Tasks/QPContacts.h:261-271 -/
def biAmbiguity : Overload :=
  { req := [.int, .int, .string, .string, .int, .vec .vector3d, .vec .matrix3d, .ref .ptransformd,
      .int, .double], opt := cfDefault }
/-- src/Tasks/QPContacts.h:284-290 -/
def biId : Overload :=
  { req := [.ref .contactId, .vec .vector3d, .vec .matrix3d, .ref .ptransformd, .int, .double],
    opt := cfDefault }

/-- src/Tasks/QPContacts.h:323, 328, 333-335 -/
def bilateralForce : List Overload :=
  [{ req := [.ref .vectorXd, .int, .vec .frictionCone] },
   { req := [.ref .vectorXd, .vec .frictionCone] },
   { req := [.ref .vectorXd, .vec .vector3d, .vec .frictionCone] }]

/-- src/Tasks/QPTasks.h:527-534 -/
def orientationTask : List Overload :=
  [{ req := [.ref .multiBodyVector, .int, .string, .ref .quaterniond] },
   { req := [.ref .multiBodyVector, .int, .string, .ref .matrix3d] }]

/-- src/Tasks/QPTasks.h:634-643 -/
def surfaceOrientationTask : List Overload :=
  [{ req := [.ref .multiBodyVector, .int, .string, .ref .quaterniond, .ref .ptransformd] },
   { req := [.ref .multiBodyVector, .int, .string, .ref .matrix3d, .ref .ptransformd] }]

/-- src/Tasks/QPTasks.h:671-677, with the type of the body name as a parameter -/
def gaze2 (s : CType) : Overload :=
  { req := [.ref .multiBodyVector, .int, s, .ref .vector2d, .double, .ref .ptransformd],
    opt := [(.ref .vector2d, .ref .vector2d 0)] }
/-- src/Tasks/QPTasks.h:678-683 -/
def gaze3 (s : CType) : Overload :=
  { req := [.ref .multiBodyVector, .int, s, .ref .vector3d, .ref .ptransformd],
    opt := [(.ref .vector2d, .ref .vector2d 0)] }

/-- src/Tasks/QPConstr.h:840, 841 -/
def imagePoint : List Overload :=
  [{ req := [.ref .vector2d, .double] }, { req := [.ref .vector3d] }]
/-- src/Tasks/QPConstr.h:849-851, with the type of the body name as a parameter -/
def imageSelfPoint (s : CType) : Overload :=
  { req := [.ref .multiBodyVector, s], opt := [(.ref .ptransformd, .ref .ptransformd 0)] }

/-- src/Tasks/QPConstr.h:853-855 -/
def imageUpdatePoint : List Overload :=
  [{ req := [.int, .ref .vector2d] }, { req := [.int, .ref .vector2d, .double] },
   { req := [.int, .ref .vector3d] }]

/-- src/Tasks/QPSolver.h:100-101 -/
def addConstraint : List Overload :=
  [{ req := [.ref .constraint] }, { req := [.ref .multiBodyVector, .ref .constraint] }]

/-- src/Tasks/QPSolver.h:105-106 -/
def addTask : List Overload :=
  [{ req := [.ref .task] }, { req := [.ref .multiBodyVector, .ref .task] }]

/-- src/Tasks/QPSolver.h:168-178 -/
def addToSolver : List Overload :=
  [{ req := [.ref .qpSolver] }, { req := [.ref .multiBodyVector, .ref .qpSolver] }]

/-- The type of a gain. -/
def gainType : Gain → CType
  | .dbl => .double
  | .vec => .ref .vectorXd

/-- src/Tasks/QPTasks.h:76-87, 104-117, 137-150, 179-194, 219-234: the two constructors of a task that
holds a high-level task of class `k`, without and with weights of the dimensions. -/
def held (gains : List Gain) (k : PyClass) : List Overload :=
  [{ req := [.ref .multiBodyVector, .int, .ref k] ++ gains.map gainType ++ [.double] },
   { req := [.ref .multiBodyVector, .int, .ref k] ++ gains.map gainType
      ++ [.ref .vectorXd, .double] }]

/-- The classes of high-level tasks of the binding (binding/python/tasks/qp/qp.pxd:83-130). -/
def IsHeld (k : PyClass) : Prop := k.base = some .highLevelTask

/-- src/Tasks/QPTasks.h:773-783, without the list of robot indices -/
def multiCoM : Overload :=
  { req := [.ref .multiBodyVector, .ref .vector3d, .double, .double] }
/-- The same with weights of the dimensions -/
def multiCoMWeights : Overload :=
  { req := [.ref .multiBodyVector, .ref .vector3d, .double, .ref .vector3d, .double] }

end Spec

/-- **C107.** `FrictionCone` and `ContactId`: all overloads, the default arguments of the headers,
and a `TypeError` for anything else. -/
theorem C107_cone_and_id :
    Exact frictionCone.run .frictionCone Spec.frictionCone ∧
    Exact contactId.run .contactId Spec.contactId :=
  ⟨Entry.exact (by decide) rfl, Entry.exact (by decide) rfl⟩

/-- **C107.** `UnilateralContact`: the four constructors, with or without the frame of the contact. -/
theorem C107_unilateral :
    Exact unilateralContact.run .unilateralContact [uniDefault, uniBodies, uniAmbiguity, uniId] :=
  Entry.exact (by decide) rfl

/-- **C107.** `UnilateralContact.force`: a cone, or a point and a cone. -/
theorem C107_unilateral_force_partial :
    Exact unilateralForce.run .unilateralForce [uniForceCone, uniForcePoint] := by
  intro vs hn
  have hv : ∀ v ∈ vs, v ≠ .none := fun v hv => (hn v hv).1
  refine ⟨fun c => ⟨fun h => ?_, ?_⟩, Entry.run_ne_ub (by decide) (by decide) hn⟩
  · rcases Entry.sound (fn := .unilateralForce)
      (os := [uniForceCone, uniForcePoint, uniForceWrench]) (by decide) (by decide) (by decide) hv h
      with ⟨hf, o, ho, hA⟩ | h
    · refine ⟨hf, ?_⟩
      simp only [List.mem_cons, List.not_mem_nil, or_false] at ho
      rcases ho with rfl | rfl | rfl
      · exact ⟨_, by simp, hA⟩
      · exact ⟨_, by simp, hA⟩
      · exfalso
        obtain ⟨f, args⟩ := c
        simp only [Accepts, uniForceWrench] at hA
        cases hA with | req _ _ _ _ _ _ _ h1 hA =>
        cases hA with | req _ _ _ _ _ _ _ h2 hA =>
        cases hA with | req _ _ _ _ _ _ _ h3 hA =>
        cases hA
        cases h1 with | ref _ d1 i1 hd1 =>
        cases h2 with | vec _ l hl =>
        cases h3 with | ref _ d3 i3 hd3 =>
        have h1 : d1.isA .vectorXd = true := isA_iff.2 hd1
        have h3 : d3.isA .frictionCone = true := isA_iff.2 hd3
        simp [Entry.run, unilateralForce, runBranches, checkArgs, isinstance, bindParams,
          ParamTy.accepts, h1, h3, Method.run] at h
    · simp [runBranches, unilateralForce] at h
  · rintro ⟨hf, o, ho, hA⟩
    have : c = ⟨.unilateralForce, c.args⟩ := by cases c; simp_all
    rw [this]
    refine Entry.reaches ?_ hv hA
    obtain ⟨k, hk, hl⟩ := args_length hA
    simp only [List.mem_cons, List.not_mem_nil, or_false] at ho
    rcases ho with rfl | rfl <;> simp [uniForceCone, uniForcePoint] at hk hl <;> subst hk <;>
      rw [hl] <;> decide

/-- **C107, disagreement.** The force of a unilateral contact applied at the body origin cannot be
computed from Python: whatever the contact forces, the points and the cone, the call raises an
exception, because the test for a point number comes first and accepts a list. -/
theorem C107_unilateral_wrench_counterexample {vs : List PyVal} {as : List CArg} (hn : NoNone vs)
    (hA : Accepts uniForceWrench vs as) : unilateralForce.run vs = .raises := by
  have h := C107_unilateral_force_partial vs hn
  cases hr : unilateralForce.run vs with
  | raises => rfl
  | ub => exact absurd hr h.2
  | ok c =>
    exfalso
    simp only [Accepts, uniForceWrench] at hA
    cases hA with | req _ _ _ _ _ _ _ h1 hA =>
    cases hA with | req _ _ _ _ _ _ _ h2 hA =>
    cases hA with | req _ _ _ _ _ _ _ h3 hA =>
    cases hA
    obtain ⟨-, o, ho, hA⟩ := (h.1 c).1 hr
    obtain ⟨f, args⟩ := c
    simp only [List.mem_cons, List.not_mem_nil, or_false] at ho
    rcases ho with rfl | rfl
    · obtain ⟨k, hk, hl⟩ := args_length hA
      simp [uniForceCone] at hk hl
      omega
    · simp only [Accepts, uniForcePoint] at hA
      cases hA with | req _ _ _ _ _ _ _ g1 hA =>
      cases hA with | req _ _ _ _ _ _ _ g2 hA =>
      cases h2
      cases g2

/-- **C107.** `BilateralContact`: the constructors from the bodies and from the identifier, with or
without the frame of the contact, and the one with the ambiguity number without the frame, are
called with the arguments in their places. -/
theorem C107_bilateral_partial {vs : List PyVal} (hn : NoNone vs) {as : List CArg}
    (h : Accepts biDefault vs as ∨ Accepts biBodies vs as ∨ Accepts biId vs as ∨
      (Accepts biAmbiguity vs as ∧ vs.length = 10)) :
    bilateralContact.run vs = .ok ⟨.bilateralContact, as⟩ := by
  have hv : ∀ v ∈ vs, v ≠ .none := fun v hv => (hn v hv).1
  rcases h with hA | hA | hA | ⟨hA, hl⟩
  · refine Entry.reaches ?_ hv hA
    obtain ⟨k, hk, hl⟩ := args_length hA
    simp only [biDefault, List.length_nil, zero_add, Nat.lt_one_iff] at hk hl
    rw [hl, hk]
    decide
  · refine Entry.reaches ?_ hv hA
    obtain ⟨k, hk, hl⟩ := args_length hA
    simp [biBodies, cfDefault] at hk hl
    rw [hl]
    interval_cases k <;> decide
  · refine Entry.reaches ?_ hv hA
    obtain ⟨k, hk, hl⟩ := args_length hA
    simp [biId, cfDefault] at hk hl
    rw [hl]
    interval_cases k <;> decide
  · refine Entry.reaches ?_ hv hA
    rw [hl]
    decide

/-- **C107.** Any other call of `BilateralContact` gives the object of the default constructor
without an exception, unless a conversion raises one. -/
theorem C107_bilateral_others_partial {vs : List PyVal} (hn : NoNone vs) {c : CCall}
    (h : bilateralContact.run vs = .ok c) :
    (c.fn = .bilateralContact ∧
      ∃ o ∈ [biDefault, biBodies, biAmbiguity, biId], Accepts o vs c.args) ∨
    c = ⟨.bilateralContact, []⟩ := by
  rcases Entry.sound (fn := .bilateralContact) (os := [biDefault, biBodies, biAmbiguity, biId])
    (by decide) (by decide) (by decide) (fun v hv => (hn v hv).1) h with h | h
  · exact .inl h
  · right
    simpa [runBranches, bilateralContact] using h.symm

/-- **C107, disagreement.** The constructor of `BilateralContact` with an ambiguity number and a
frame of the contact is never called: the arguments are dropped and the contact made is the default
one (no points, robots `-1`), without an exception. -/
theorem C107_bilateral_frame_counterexample {vs : List PyVal} {as : List CArg}
    (hA : Accepts biAmbiguity vs as) (hl : vs.length = 11) :
    bilateralContact.run vs = .ok ⟨.bilateralContact, []⟩ := by
  rw [Entry.missed rfl (by rintro rfl; simp at hl) (by rw [hl]; decide) hA]
  rfl

/-- **C107.** `BilateralContact.force`: the three overloads. -/
theorem C107_bilateral_force :
    Exact bilateralForce.run .bilateralForce Spec.bilateralForce :=
  Entry.exact (by decide) rfl

/-- **C107.** The constructors of the orientation tasks: a rotation given as a matrix or as a
quaternion. -/
theorem C107_orientation :
    Exact orientationTask.run .orientationTask Spec.orientationTask ∧
    Exact surfaceOrientationTask.run .surfaceOrientationTask Spec.surfaceOrientationTask :=
  ⟨Entry.exact (by decide) rfl, Entry.exact (by decide) rfl⟩

/-- When every list of tests fails on the arguments of an overload, an exception is raised. -/
theorem Entry.missed_raises {e : Entry} {o : Overload} {vs : List PyVal} {as : List CArg}
    (hz : e.zero = none) (ho : e.otherwise = .raise) (hn : e.run vs ≠ .ub)
    (hm : e.branches.all (fun b => b.alts.all fun alt =>
      exclAlt alt ((o.sig vs.length).drop e.fixed.length)) = true)
    (hA : Accepts o vs as) : e.run vs = .raises := by
  cases hr : e.run vs with
  | raises => rfl
  | ub => exact absurd hr hn
  | ok c =>
    exfalso
    unfold Entry.run at hr
    obtain ⟨ws, -, hr⟩ := Py.bind_eq_ok.1 hr
    rw [hz] at hr
    dsimp only at hr
    have hF := forall₂_drop (args_forall hA) e.fixed.length
    generalize e.branches = bs at hm hr
    induction bs with
    | nil => simp [runBranches, ho] at hr
    | cons b bs ih =>
      rw [List.all_cons, Bool.and_eq_true] at hm
      have hany : ¬ b.alts.any (checkArgs (vs.drop e.fixed.length)) = true := by
        intro hany
        obtain ⟨alt, halt, hc⟩ := List.any_eq_true.1 hany
        have := exclAlt_spec (List.all_eq_true.1 hm.1 alt halt) hF
        simp [this] at hc
      rw [runBranches, if_neg hany] at hr
      exact ih hm.2 hr

/-- **C107, disagreement.** The constructor of `GazeTask` from a point in space cannot be given a
reference point: the test wants a `Vector3d` and the method it leads to a `Vector2d`. -/
theorem C107_gaze_reference_counterexample {vs : List PyVal} {as : List CArg} (hn : NoNone vs)
    (hA : Accepts (gaze3 .string) vs as) (hl : vs.length = 6) : gazeTask.run vs = .raises :=
  Entry.missed_raises rfl rfl (Entry.run_ne_ub (by decide) (by decide) hn)
    (by rw [hl]; decide) hA

/-- **C107.** `GazeTask`: the two constructors, for a body name given as `bytes` and, for the second
one, without a reference point. -/
theorem C107_gaze_partial {vs : List PyVal} (hn : NoNone vs) :
    (∀ c, gazeTask.run vs = .ok c ↔ c.fn = .gazeTask ∧
      (Accepts (gaze2 .byteString) vs c.args ∨
        (Accepts (gaze3 .byteString) vs c.args ∧ vs.length = 5))) ∧ gazeTask.run vs ≠ .ub := by
  have hv : ∀ v ∈ vs, v ≠ .none := fun v hv => (hn v hv).1
  have hub : gazeTask.run vs ≠ .ub := Entry.run_ne_ub (by decide) (by decide) hn
  refine ⟨fun c => ⟨fun h => ?_, ?_⟩, hub⟩
  · rcases Entry.sound (fn := .gazeTask) (os := [gaze2 .byteString, gaze3 .byteString]) (by decide)
      (by decide) (by decide) hv h with ⟨hf, o, ho, hA⟩ | h
    · refine ⟨hf, ?_⟩
      simp only [List.mem_cons, List.not_mem_nil, or_false] at ho
      rcases ho with rfl | rfl
      · exact .inl hA
      · obtain ⟨k, hk, hl⟩ := args_length hA
        simp [gaze3] at hk hl
        refine .inr ⟨hA, ?_⟩
        by_contra hne
        have hl6 : vs.length = 6 := by omega
        have := Entry.missed_raises (e := gazeTask) rfl rfl hub (by rw [hl6]; decide) hA
        rw [this] at h
        cases h
    · simp [runBranches, gazeTask] at h
  · obtain ⟨f, args⟩ := c
    rintro ⟨rfl, hA | ⟨hA, hl⟩⟩
    · refine Entry.reaches ?_ hv hA
      obtain ⟨k, hk, hl⟩ := args_length hA
      simp [gaze2] at hk hl
      rw [hl]
      interval_cases k <;> decide
    · refine Entry.reaches ?_ hv hA
      rw [hl]
      decide

/-- **C107.** `ImageConstr.addPoint`: the points given by coordinates, and the points of the robot
itself with a body name given as `bytes` and an explicit frame. -/
theorem C107_image_add_partial {vs : List PyVal} (hn : NoNone vs) :
    (∀ c, imageAddPoint.run vs = .ok c ↔ c.fn = .imageAddPoint ∧
      ((∃ o ∈ imagePoint, Accepts o vs c.args) ∨
        (Accepts (imageSelfPoint .byteString) vs c.args ∧ vs.length = 3))) ∧
    imageAddPoint.run vs ≠ .ub := by
  have hv : ∀ v ∈ vs, v ≠ .none := fun v hv => (hn v hv).1
  have hub : imageAddPoint.run vs ≠ .ub := Entry.run_ne_ub (by decide) (by decide) hn
  refine ⟨fun c => ⟨fun h => ?_, ?_⟩, hub⟩
  · rcases Entry.sound (fn := .imageAddPoint) (os := imagePoint ++ [imageSelfPoint .byteString])
      (by decide) (by decide) (by decide) hv h with ⟨hf, o, ho, hA⟩ | h
    · refine ⟨hf, ?_⟩
      rcases List.mem_append.1 ho with ho | ho
      · exact .inl ⟨o, ho, hA⟩
      · simp only [List.mem_cons, List.not_mem_nil, or_false] at ho
        subst ho
        obtain ⟨k, hk, hl⟩ := args_length hA
        simp [imageSelfPoint] at hk hl
        refine .inr ⟨hA, ?_⟩
        by_contra hne
        have hl2 : vs.length = 2 := by omega
        have := Entry.missed_raises (e := imageAddPoint) rfl rfl hub (by rw [hl2]; decide) hA
        rw [this] at h
        cases h
    · simp [runBranches, imageAddPoint] at h
  · obtain ⟨f, args⟩ := c
    rintro ⟨rfl, ⟨o, ho, hA⟩ | ⟨hA, hl⟩⟩
    · refine Entry.reaches ?_ hv hA
      simp only [imagePoint, List.mem_cons, List.not_mem_nil, or_false] at ho
      rcases ho with rfl | rfl
      all_goals
        obtain ⟨k, hk, hl⟩ := args_length hA
        simp at hk hl
        rw [hl]
        subst hk
        decide
    · refine Entry.reaches ?_ hv hA
      rw [hl]
      decide

/-- **C107, disagreement.** The default frame of a point of the robot itself, that the header and
the method behind `ImageConstr.addPoint` declare, cannot be used: the call raises an exception. -/
theorem C107_image_default_counterexample {vs : List PyVal} {as : List CArg} (hn : NoNone vs)
    (hA : Accepts (imageSelfPoint .string) vs as) (hl : vs.length = 2) :
    imageAddPoint.run vs = .raises :=
  Entry.missed_raises rfl rfl (Entry.run_ne_ub (by decide) (by decide) hn)
    (by rw [hl]; decide) hA

/-- **C107.** `ImageConstr.updatePoint`, `QPSolver.addConstraint` and `QPSolver.addTask`. -/
theorem C107_solver_and_points :
    Exact imageUpdatePoint.run .imageUpdatePoint Spec.imageUpdatePoint ∧
    Exact addConstraint.run .addConstraint Spec.addConstraint ∧
    Exact addTask.run .addTask Spec.addTask :=
  ⟨Entry.exact (by decide) rfl, Entry.exact (by decide) rfl, Entry.exact (by decide) rfl⟩

/-- **C107.** `addToSolver` of a constraint: both overloads are reached. -/
theorem C107_add_to_solver_partial {vs : List PyVal} (hn : NoNone vs) {as : List CArg}
    {o : Overload} (ho : o ∈ Spec.addToSolver) (hA : Accepts o vs as) :
    addToSolver.run vs = .ok ⟨.addToSolver, as⟩ := by
  have hv : ∀ v ∈ vs, v ≠ .none := fun v hv => (hn v hv).1
  simp only [Spec.addToSolver, List.mem_cons, List.not_mem_nil, or_false] at ho
  rcases ho with rfl | rfl
  · -- the call is made by the last `else`
    simp only [Accepts] at hA
    cases hA with | req _ _ _ _ _ _ _ h1 hA =>
    cases hA
    cases h1 with | ref _ d i hd =>
    have hd' : d.isA .qpSolver = true := isA_iff.2 hd
    simp [addToSolver, Entry.run, bindParams, runBranches, checkArgs, Method.run, inOrder, passAll,
      ParamTy.accepts, Use.pass, hd']
  · refine Entry.reaches ?_ hv hA
    obtain ⟨k, hk, hl⟩ := args_length hA
    simp at hk hl
    rw [hl]
    subst hk
    decide

/-- **C107, disagreement.** `addToSolver` of a constraint does not look at what follows the solver:
with any further arguments it is added as if there were none. -/
theorem C107_add_to_solver_counterexample (i : ℕ) (v : PyVal) (vs : List PyVal) :
    addToSolver.run (.obj .qpSolver i :: v :: vs) = .ok ⟨.addToSolver, [.ref .qpSolver i]⟩ := by
  have h : checkArgs (.obj .qpSolver i :: v :: vs)
      [some (.cls .multiBodyVector), some (.cls .qpSolver)] = false := rfl
  simp [addToSolver, Entry.run, bindParams, runBranches, h, Method.run, inOrder, passAll,
    ParamTy.accepts, Use.pass, PyClass.isA]

/-! ## Tasks that hold a high-level task -/

theorem bindParams_full {ps : List Param} {vs ws : List PyVal} (hl : vs.length = ps.length) :
    bindParams ps vs = .ok ws ↔
      ws = vs ∧ List.Forall₂ (fun p v => Param.ty p |>.accepts v) ps vs := by
  induction ps generalizing vs ws with
  | nil =>
    cases vs with
    | nil =>
      simp only [bindParams, Py.ok.injEq, List.forall₂_nil_left_iff, and_true]
      exact eq_comm
    | cons v vs => simp at hl
  | cons p ps ih =>
    cases vs with
    | nil => simp at hl
    | cons v vs =>
      simp only [List.length_cons, Nat.add_right_cancel_iff] at hl
      rw [bindParams, List.forall₂_cons]
      by_cases h : p.ty.accepts v = true
      · rw [if_pos h]
        simp only [Py.bind_eq_ok, ih hl, Py.pure_eq, Py.ok.injEq]
        constructor
        · rintro ⟨_, ⟨rfl, h2⟩, rfl⟩
          exact ⟨rfl, h, h2⟩
        · rintro ⟨rfl, -, h2⟩
          exact ⟨vs, ⟨rfl, h2⟩, rfl⟩
      · rw [if_neg h]
        simp [h]

theorem bindParams_none_eq {ps : List Param} (h : ps.all (fun p => p.dflt.isNone) = true)
    {vs ws : List PyVal} :
    bindParams ps vs = .ok ws ↔
      ws = vs ∧ List.Forall₂ (fun p v => Param.ty p |>.accepts v) ps vs := by
  constructor
  · intro hb
    exact (bindParams_full (bindParams_req_length h hb)).1 hb
  · rintro ⟨rfl, hF⟩
    exact (bindParams_full hF.length_eq.symm).2 ⟨rfl, hF⟩

theorem passAll_append (vs : List PyVal) (us us' : List (ℕ × Use)) :
    passAll vs (us ++ us') = (do
      let as ← passAll vs us
      let as' ← passAll vs us'
      return as ++ as') := by
  induction us with
  | nil =>
    simp only [List.nil_append, passAll, Py.ok_bind]
    cases passAll vs us' <;> rfl
  | cons u us ih =>
    obtain ⟨i, u⟩ := u
    simp only [List.cons_append, passAll, ih]
    cases vs[i]? with
    | none => rfl
    | some v =>
      dsimp only
      cases u.pass v <;> cases passAll vs us <;> cases passAll vs us' <;> simp

theorem zipPass_take (us : List Use) (vs vs' : List PyVal) (h : vs.length = us.length) :
    zipPass (vs ++ vs') us = zipPass vs us := by
  induction us generalizing vs with
  | nil => cases vs <;> cases vs' <;> simp_all [zipPass]
  | cons u us ih =>
    cases vs with
    | nil => simp at h
    | cons v vs =>
      simp only [List.cons_append, zipPass]
      rw [ih vs (by simpa using h)]

theorem passAll_gains (gains : List Gain) (m r t : PyVal) (gs rest : List PyVal)
    (h : gs.length = gains.length) :
    passAll (m :: r :: t :: (gs ++ rest)) (gains.zipIdx.map fun g => (3 + g.2, g.1.use)) =
      zipPass gs (gains.map Gain.use) := by
  have := passAll_zipIdx (gains.map Gain.use) [m, r, t] (gs ++ rest)
  rw [zipPass_take _ _ _ (by simpa using h)] at this
  rw [← this]
  simp only [List.cons_append, List.nil_append, List.length_cons, List.length_nil, zero_add]
  congr 1
  rw [List.zipIdx_map, List.map_map]
  apply List.ext_getElem
  · simp
  · intro i h1 h2
    simp [List.getElem_zipIdx]

theorem gains_iff (gains : List Gain) {gs : List PyVal} (hv : ∀ v ∈ gs, v ≠ .none)
    {as : List CArg} :
    (List.Forall₂ (fun p v => Param.ty p |>.accepts v) (gains.map Gain.param) gs ∧
      zipPass gs (gains.map Gain.use) = .ok as) ↔ Args (gains.map gainType) [] gs as := by
  induction gains generalizing gs as with
  | nil =>
    simp only [List.map_nil, List.forall₂_nil_left_iff]
    constructor
    · rintro ⟨rfl, h⟩
      simp only [zipPass, Py.ok.injEq] at h
      subst h
      exact .nil
    · rintro ⟨⟩
      simp [zipPass]
  | cons g gains ih =>
    cases gs with
    | nil =>
      constructor
      · rintro ⟨h, -⟩
        cases h
      · intro h
        cases h
    | cons v gs =>
      have hp := fun a => okPos_iff (t := none) (p := g.param.ty) (u := g.use) (ct := gainType g)
        (by cases g <;> decide) (hv v (by simp)) (a := a)
      have ih' := fun as => ih (gs := gs) (as := as) (fun v' h' => hv v' (by simp [h']))
      simp only [List.map_cons, List.forall₂_cons, zipPass, Py.bind_eq_ok, Py.pure_eq, Py.ok.injEq]
      constructor
      · rintro ⟨⟨h1, h2⟩, a, h3, as', h4, rfl⟩
        exact .req _ _ _ _ _ _ _ ((hp a).1 ⟨rfl, h1, h3⟩) ((ih' as').1 ⟨h2, h4⟩)
      · intro h
        cases h with | req _ a _ _ _ _ as' h1 h2 =>
        obtain ⟨-, g1, g2⟩ := (hp a).2 h1
        obtain ⟨g3, g4⟩ := (ih' as').2 h2
        exact ⟨⟨g1, g3⟩, a, g2, as', g4, rfl⟩

theorem args_append {r1 r2 : List CType} {vs : List PyVal} {as : List CArg} :
    Args (r1 ++ r2) [] vs as ↔ ∃ v1 v2 a1 a2, vs = v1 ++ v2 ∧ as = a1 ++ a2 ∧ Args r1 [] v1 a1 ∧
      Args r2 [] v2 a2 := by
  induction r1 generalizing vs as with
  | nil =>
    constructor
    · intro h
      exact ⟨[], vs, [], as, rfl, rfl, .nil, h⟩
    · rintro ⟨v1, v2, a1, a2, rfl, rfl, h1, h2⟩
      cases h1
      exact h2
  | cons t r1 ih =>
    constructor
    · intro h
      cases h with | req _ a v _ _ vs as h1 h2 =>
      obtain ⟨v1, v2, a1, a2, rfl, rfl, h3, h4⟩ := ih.1 h2
      exact ⟨v :: v1, v2, a :: a1, a2, rfl, rfl, .req _ _ _ _ _ _ _ h1 h3, h4⟩
    · rintro ⟨v1, v2, a1, a2, rfl, rfl, h1, h2⟩
      cases h1 with | req _ a v _ _ vs as h1 h3 =>
      exact .req _ _ _ _ _ _ _ h1 (ih.2 ⟨_, _, _, _, rfl, rfl, h3, h2⟩)

/-- An object is of a class of high-level tasks of the binding only if it is of that very class. -/
theorem isA_held {d k : PyClass} (hk : k.base = some .highLevelTask) : d.isA k = true ↔ d = k := by
  rw [isA_iff]
  constructor
  · rintro (h | h)
    · exact h
    · exfalso
      cases d <;> simp [PyClass.base] at h <;> subst h <;> simp [PyClass.base] at hk
  · exact .inl

theorem mem_heldKinds {k : PyClass} : k ∈ heldKinds ↔ IsHeld k := by
  cases k <;> simp [heldKinds, IsHeld, PyClass.base]

theorem heldChoose_eq {fn : CFn} {gains : List Gain} {task : PyVal} {args : List PyVal}
    {ks : List PyClass} (hks : ∀ k ∈ ks, IsHeld k) {c : CCall} :
    heldChoose fn gains task args ks = .ok c ↔
      ∃ k ∈ ks, (∃ i, task = .obj k i) ∧ heldCtor fn gains k args = .ok c := by
  induction ks with
  | nil => simp [heldChoose]
  | cons k ks ih =>
    have ih := ih fun k' h => hks k' (by simp [h])
    rw [heldChoose]
    by_cases h : isinstance task (.cls k) = true
    · rw [if_pos h]
      cases task with
      | obj d i =>
        have hd : d = k := (isA_held (hks k (by simp))).1 h
        subst hd
        constructor
        · exact fun hc => ⟨d, by simp, ⟨i, rfl⟩, hc⟩
        · rintro ⟨k', -, ⟨j, hj⟩, hc⟩
          cases hj
          exact hc
      | _ => simp [isinstance] at h
    · rw [if_neg h, ih]
      constructor
      · rintro ⟨k', hk', ht, hc⟩
        exact ⟨k', by simp [hk'], ht, hc⟩
      · rintro ⟨k', hk', ⟨i, rfl⟩, hc⟩
        rcases List.mem_cons.1 hk' with rfl | hk'
        · simp [isinstance, PyClass.isA] at h
        · exact ⟨k', hk', ⟨i, rfl⟩, hc⟩


theorem heldWeights_eq {rest : List PyVal} {d w : PyVal} :
    heldWeights rest = .ok (d, w) ↔ ParamTy.cdouble.accepts w = true ∧
      ((rest = [d, w] ∧ isinstance d (.cls .vectorXd) = true) ∨ (rest = [w] ∧ d = .none)) := by
  rcases rest with _ | ⟨a, _ | ⟨b, _ | ⟨e, rest⟩⟩⟩
  · simp [heldWeights, checkArgs]
  · simp only [heldWeights, checkArgs, Bool.and_false, Bool.false_eq_true, if_false, Bool.and_true,
      if_true, Py.ite_ok, Prod.mk.injEq]
    constructor
    · rintro ⟨h, rfl, rfl⟩
      exact ⟨h, .inr ⟨rfl, rfl⟩⟩
    · rintro ⟨h, ⟨h2, -⟩ | ⟨h2, rfl⟩⟩
      · cases h2
      · cases h2
        exact ⟨h, rfl, rfl⟩
  · simp only [heldWeights, checkArgs, Bool.and_true, Bool.and_false, Bool.false_eq_true, if_false]
    by_cases ha : isinstance a (.cls .vectorXd) = true
    · rw [if_pos ha]
      simp only [Py.ite_ok, Prod.mk.injEq]
      constructor
      · rintro ⟨h, rfl, rfl⟩
        exact ⟨h, .inl ⟨rfl, ha⟩⟩
      · rintro ⟨h, ⟨h2, -⟩ | ⟨h2, rfl⟩⟩
        · cases h2
          exact ⟨h, rfl, rfl⟩
        · cases h2
    · rw [if_neg ha]
      constructor
      · intro h
        cases h
      · rintro ⟨h, ⟨h2, h3⟩ | ⟨h2, rfl⟩⟩
        · cases h2
          exact absurd h3 ha
        · cases h2
  · simp only [heldWeights, checkArgs, Bool.and_false, Bool.false_eq_true, if_false]
    simp

theorem forall₂_append_split {α β : Type} {R : α → β → Prop} {l1 l2 : List α} {m1 m2 : List β}
    (hl : l1.length = m1.length) (h : List.Forall₂ R (l1 ++ l2) (m1 ++ m2)) :
    List.Forall₂ R l1 m1 ∧ List.Forall₂ R l2 m2 := by
  induction l1 generalizing m1 with
  | nil =>
    cases m1 with
    | nil => exact ⟨.nil, h⟩
    | cons => simp at hl
  | cons a l1 ih =>
    cases m1 with
    | nil => simp at hl
    | cons b m1 =>
      simp only [List.cons_append, List.forall₂_cons] at h
      obtain ⟨h1, h2⟩ := ih (by simpa using hl) h.2
      exact ⟨.cons h.1 h1, h2⟩

/-- The three first parameters and the gains, bound and passed. -/
theorem heldFront {gains : List Gain} {k : PyClass} {m r t : PyVal}
    {gs rest : List PyVal} (hl : gs.length = gains.length) (hm : m ≠ .none) (hr : r ≠ .none)
    (ht : t ≠ .none) (hg : ∀ v ∈ gs, v ≠ .none) {as : List CArg} :
    (List.Forall₂ (fun p v => Param.ty p |>.accepts v)
        ([⟨.ext .multiBodyVector, none⟩, ⟨.cint, none⟩, ⟨.ext k, none⟩] ++ gains.map Gain.param)
        (m :: r :: t :: gs) ∧
      passAll (m :: r :: t :: (gs ++ rest))
        ([(0, Use.impl .multiBodyVector), (1, Use.int), (2, Use.impl k)]
          ++ gains.zipIdx.map fun g => (3 + g.2, g.1.use)) = .ok as) ↔
      Args ([.ref .multiBodyVector, .int, .ref k] ++ gains.map gainType) [] (m :: r :: t :: gs) as
        := by
  have hp1 := fun a => okPos_iff (t := none) (p := .ext .multiBodyVector)
    (u := .impl .multiBodyVector) (ct := .ref .multiBodyVector) (by decide) hm (a := a)
  have hp2 := fun a => okPos_iff (t := none) (p := .cint) (u := .int) (ct := .int) (by decide) hr
    (a := a)
  have hp3 := fun a => okPos_iff (t := none) (p := .ext k) (u := .impl k) (ct := .ref k)
    (by simp [okPos]) ht (a := a)
  have hgi := fun as => gains_iff gains hg (as := as)
  have hgain := passAll_gains gains m r t gs rest hl
  simp only [hgain, passAll, List.getElem?_cons_zero, List.getElem?_cons_succ, List.cons_append,
    List.nil_append, List.forall₂_cons, Py.bind_eq_ok, Py.pure_eq, Py.ok.injEq]
  constructor
  · rintro ⟨⟨f1, f2, f3, fg⟩, a1, e1, _, ⟨a2, e2, _, ⟨a3, e3, ag, eg, rfl⟩, rfl⟩, rfl⟩
    exact .req _ _ _ _ _ _ _ ((hp1 a1).1 ⟨rfl, f1, e1⟩) (.req _ _ _ _ _ _ _
      ((hp2 a2).1 ⟨rfl, f2, e2⟩) (.req _ _ _ _ _ _ _ ((hp3 a3).1 ⟨rfl, f3, e3⟩)
        ((hgi ag).1 ⟨fg, eg⟩)))
  · intro h
    cases h with | req _ a1 _ _ _ _ _ h1 h =>
    cases h with | req _ a2 _ _ _ _ _ h2 h =>
    cases h with | req _ a3 _ _ _ _ ag h3 h =>
    obtain ⟨-, f1, e1⟩ := (hp1 a1).2 h1
    obtain ⟨-, f2, e2⟩ := (hp2 a2).2 h2
    obtain ⟨-, f3, e3⟩ := (hp3 a3).2 h3
    obtain ⟨fg, eg⟩ := (hgi ag).2 h
    exact ⟨⟨f1, f2, f3, fg⟩, a1, e1, _, ⟨a2, e2, _, ⟨a3, e3, ag, eg, rfl⟩, rfl⟩, rfl⟩

theorem args_one {t : CType} {v : PyVal} {as : List CArg} :
    Args [t] [] [v] as ↔ ∃ a, Means t v a ∧ as = [a] := by
  constructor
  · intro h
    cases h with | req _ a _ _ _ _ _ h1 h =>
    cases h
    exact ⟨a, h1, rfl⟩
  · rintro ⟨a, h, rfl⟩
    exact .req _ _ _ _ _ _ _ h .nil

theorem args_two {t t' : CType} {v v' : PyVal} {as : List CArg} :
    Args [t, t'] [] [v, v'] as ↔ ∃ a a', Means t v a ∧ Means t' v' a' ∧ as = [a, a'] := by
  constructor
  · intro h
    cases h with | req _ a _ _ _ _ _ h1 h =>
    obtain ⟨a', h2, rfl⟩ := args_one.1 h
    exact ⟨a, a', h1, h2, rfl⟩
  · rintro ⟨a, a', h, h', rfl⟩
    exact .req _ _ _ _ _ _ _ h (args_one.2 ⟨a', h', rfl⟩)

theorem args_append_split {r1 r2 : List CType} {v1 v2 : List PyVal} {as : List CArg}
    (hl : r1.length = v1.length) :
    Args (r1 ++ r2) [] (v1 ++ v2) as ↔ ∃ a1 a2, as = a1 ++ a2 ∧ Args r1 [] v1 a1 ∧
      Args r2 [] v2 a2 := by
  rw [args_append]
  constructor
  · rintro ⟨w1, w2, a1, a2, hw, rfl, h1, h2⟩
    obtain ⟨k, hk, hl1⟩ := args_length h1
    simp only [List.length_nil, zero_add, Nat.lt_one_iff] at hk
    subst hk
    obtain ⟨rfl, rfl⟩ := List.append_inj hw (by omega)
    exact ⟨a1, a2, rfl, h1, h2⟩
  · rintro ⟨a1, a2, rfl, h1, h2⟩
    exact ⟨v1, v2, a1, a2, rfl, rfl, h1, h2⟩

theorem heldCtor_none {fn : CFn} {gains : List Gain} {k : PyClass} {m r t w : PyVal}
    {gs : List PyVal} (hl : gs.length = gains.length) (hm : m ≠ .none) (hr : r ≠ .none)
    (ht : t ≠ .none) (hw : w ≠ .none) (hg : ∀ v ∈ gs, v ≠ .none) {c : CCall} :
    heldCtor fn gains k (m :: r :: t :: (gs ++ [w, .none])) = .ok c ↔
      c.fn = fn ∧ Args ([.ref .multiBodyVector, .int, .ref k] ++ gains.map gainType ++ [.double]) []
        (m :: r :: t :: gs ++ [w]) c.args := by
  obtain ⟨f, as⟩ := c
  have hp4 := fun a => okPos_iff (t := none) (p := .cdouble) (u := .dbl) (ct := .double)
    (by decide) hw (a := a)
  have hlast : (m :: r :: t :: (gs ++ [w, PyVal.none]))[gains.length + 4]? = some .none := by
    simp [← hl]
  have hlw : (m :: r :: t :: (gs ++ [w, PyVal.none]))[gains.length + 3]? = some w := by
    simp [← hl]
  have hfr := fun as => heldFront (k := k) (rest := [w, .none]) hl hm hr ht hg (as := as)
  unfold heldCtor
  simp only [Py.bind_eq_ok]
  rw [args_append_split (by simp [hl])]
  constructor
  · rintro ⟨vs, hb, h⟩
    obtain ⟨rfl, hF⟩ := (bindParams_full (by simp [hl])).1 hb
    rw [hlast] at h
    obtain ⟨as', hp, h⟩ := Py.bind_eq_ok.1 h
    cases h
    rw [passAll_append] at hp
    obtain ⟨a1, h1, hp⟩ := Py.bind_eq_ok.1 hp
    obtain ⟨a2, h2, hp⟩ := Py.bind_eq_ok.1 hp
    cases hp
    obtain ⟨hF1, hF2⟩ := forall₂_append_split (m1 := m :: r :: t :: gs) (by simp [hl]) hF
    refine ⟨rfl, a1, a2, rfl, (hfr a1).1 ⟨hF1, h1⟩, ?_⟩
    simp only [passAll, hlw, Py.bind_eq_ok, Py.pure_eq, Py.ok.injEq] at h2
    obtain ⟨a, h2, _, rfl, rfl⟩ := h2
    rw [List.forall₂_cons] at hF2
    exact args_one.2 ⟨a, (hp4 a).1 ⟨rfl, hF2.1, h2⟩, rfl⟩
  · rintro ⟨rfl, a1, a2, rfl, h1, h2⟩
    obtain ⟨a, h3, rfl⟩ := args_one.1 h2
    obtain ⟨hF1, hp1⟩ := (hfr a1).2 h1
    obtain ⟨-, hF2, hp2⟩ := (hp4 a).2 h3
    refine ⟨_, (bindParams_full (by simp [hl])).2 ⟨rfl, ?_⟩, ?_⟩
    · exact List.rel_append hF1 (.cons hF2 (.cons rfl .nil))
    · rw [hlast]
      dsimp only
      rw [passAll_append, hp1]
      simp [passAll, hlw, hp2]

theorem heldCtor_some {fn : CFn} {gains : List Gain} {k : PyClass} {m r t w d : PyVal}
    {gs : List PyVal} (hl : gs.length = gains.length) (hm : m ≠ .none) (hr : r ≠ .none)
    (ht : t ≠ .none) (hw : w ≠ .none) (hd : d ≠ .none) (hg : ∀ v ∈ gs, v ≠ .none) {c : CCall} :
    heldCtor fn gains k (m :: r :: t :: (gs ++ [w, d])) = .ok c ↔
      c.fn = fn ∧ Args ([.ref .multiBodyVector, .int, .ref k] ++ gains.map gainType
        ++ [.ref .vectorXd, .double]) [] (m :: r :: t :: gs ++ [d, w]) c.args := by
  obtain ⟨f, as⟩ := c
  have hp4 := fun a => okPos_iff (t := none) (p := .cdouble) (u := .dbl) (ct := .double)
    (by decide) hw (a := a)
  have hp5 := fun a => okPos_iff (t := none) (p := .ext .vectorXd) (u := .impl .vectorXd)
    (ct := .ref .vectorXd) (by decide) hd (a := a)
  have hlast : (m :: r :: t :: (gs ++ [w, d]))[gains.length + 4]? = some d := by
    simp [← hl]
  have hlw : (m :: r :: t :: (gs ++ [w, d]))[gains.length + 3]? = some w := by
    simp [← hl]
  have hfr := fun as => heldFront (k := k) (rest := [w, d]) hl hm hr ht hg (as := as)
  unfold heldCtor
  simp only [Py.bind_eq_ok]
  rw [args_append_split (by simp [hl])]
  constructor
  · rintro ⟨vs, hb, h⟩
    obtain ⟨rfl, hF⟩ := (bindParams_full (by simp [hl])).1 hb
    rw [hlast] at h
    split at h
    · rename_i heq
      cases heq
      exact absurd rfl hd
    obtain ⟨as', hp, h⟩ := Py.bind_eq_ok.1 h
    cases h
    rw [passAll_append] at hp
    obtain ⟨a1, h1, hp⟩ := Py.bind_eq_ok.1 hp
    obtain ⟨a2, h2, hp⟩ := Py.bind_eq_ok.1 hp
    cases hp
    obtain ⟨hF1, hF2⟩ := forall₂_append_split (m1 := m :: r :: t :: gs) (by simp [hl]) hF
    refine ⟨rfl, a1, a2, rfl, (hfr a1).1 ⟨hF1, h1⟩, ?_⟩
    simp only [passAll, hlw, hlast, Py.bind_eq_ok, Py.pure_eq, Py.ok.injEq] at h2
    obtain ⟨a, h2, _, ⟨b, h3, _, rfl, rfl⟩, rfl⟩ := h2
    rw [List.forall₂_cons, List.forall₂_cons] at hF2
    exact args_two.2 ⟨a, b, (hp5 a).1 ⟨rfl, hF2.2.1, h2⟩, (hp4 b).1 ⟨rfl, hF2.1, h3⟩, rfl⟩
  · rintro ⟨rfl, a1, a2, rfl, h1, h2⟩
    obtain ⟨a, b, h4, h3, rfl⟩ := args_two.1 h2
    obtain ⟨hF1, hp1⟩ := (hfr a1).2 h1
    obtain ⟨-, hF2, hp2⟩ := (hp5 a).2 h4
    obtain ⟨-, hF3, hp3⟩ := (hp4 b).2 h3
    refine ⟨_, (bindParams_full (by simp [hl])).2 ⟨rfl, ?_⟩, ?_⟩
    · exact List.rel_append hF1 (.cons hF3 (.cons hF2 .nil))
    · rw [hlast]
      split
      · rename_i heq
        cases heq
        exact absurd rfl hd
      · rw [passAll_append, hp1]
        simp [passAll, hlw, hlast, hp2, hp3]

theorem forall₂_front {gains : List Gain} {vs : List PyVal}
    (hF : List.Forall₂ (fun p v => Param.ty p |>.accepts v)
      ([⟨.ext .multiBodyVector, none⟩, ⟨.cint, none⟩, ⟨.any, none⟩] ++ gains.map Gain.param) vs) :
    ∃ m r t gs, vs = m :: r :: t :: gs ∧ gs.length = gains.length := by
  simp only [List.cons_append, List.nil_append] at hF
  cases hF with | cons _ hF =>
  cases hF with | cons _ hF =>
  cases hF with | cons _ hF =>
  exact ⟨_, _, _, _, rfl, by simpa using hF.length_eq.symm⟩

theorem heldTask_iff (fn : CFn) (gains : List Gain) {vs : List PyVal} (hn : NoNone vs) {c : CCall} :
    heldTask fn gains vs = .ok c ↔
      c.fn = fn ∧ ∃ k, IsHeld k ∧ ∃ o ∈ held gains k, Accepts o vs c.args := by
  have hv : ∀ v ∈ vs, v ≠ .none := fun v hv => (hn v hv).1
  have hps : (([⟨.ext .multiBodyVector, none⟩, ⟨.cint, none⟩, ⟨.any, none⟩] : List Param)
      ++ gains.map Gain.param).all (fun p => p.dflt.isNone) = true := by
    simp only [List.all_append, List.all_map, Bool.and_eq_true]
    refine ⟨rfl, List.all_eq_true.2 fun g _ => ?_⟩
    cases g <;> rfl
  unfold heldTask
  simp only [Py.bind_eq_ok]
  constructor
  · rintro ⟨ws, hb, ⟨d, w⟩, hw, h⟩
    obtain ⟨rfl, hF⟩ := (bindParams_none_eq hps).1 hb
    obtain ⟨m, r, t, gs, hvs, hl⟩ := forall₂_front hF
    have hsplit : vs = (m :: r :: t :: gs) ++ vs.drop (3 + gains.length) := by
      rw [← hvs, List.take_append_drop]
    generalize vs.drop (3 + gains.length) = rest at hsplit hw
    rw [hvs] at h
    simp only [List.getElem?_cons_succ, List.getElem?_cons_zero] at h
    obtain ⟨k, hk, ⟨i, rfl⟩, h⟩ := (heldChoose_eq fun k hk => mem_heldKinds.1 hk).1 h
    subst hsplit
    have hm : m ≠ .none := hv _ (by simp)
    have hr : r ≠ .none := hv _ (by simp)
    have hg : ∀ v ∈ gs, v ≠ .none := fun v h => hv v (by simp [h])
    obtain ⟨hwd, ⟨rfl, hd⟩ | ⟨rfl, rfl⟩⟩ := heldWeights_eq.1 hw
    · obtain ⟨hfn, hA⟩ := (heldCtor_some hl hm hr (by simp) (hv w (by simp)) (hv d (by simp)) hg).1 h
      exact ⟨hfn, k, mem_heldKinds.1 hk, _, List.mem_cons_of_mem _ (List.mem_singleton_self _), hA⟩
    · obtain ⟨hfn, hA⟩ := (heldCtor_none hl hm hr (by simp) (hv w (by simp)) hg).1 h
      exact ⟨hfn, k, mem_heldKinds.1 hk, _, List.mem_cons_self, hA⟩
  · rintro ⟨rfl, k, hk, o, ho, hA⟩
    have hfront : ∃ m r i gs rest a, vs = (m :: r :: .obj k i :: gs) ++ rest ∧
        Args ([.ref .multiBodyVector, .int, .ref k] ++ gains.map gainType) []
          (m :: r :: .obj k i :: gs) a ∧
        ((∃ w x, rest = [w] ∧ Means .double w x) ∨
          (∃ d w x y, rest = [d, w] ∧ Means (.ref .vectorXd) d x ∧ Means .double w y)) := by
      simp only [held, List.mem_cons, List.not_mem_nil, or_false] at ho
      rcases ho with rfl | rfl
      · obtain ⟨v1, rest, a1, a2, rfl, hc, h1, h2⟩ := args_append.1 hA
        have h1' := h1
        cases h1 with | req _ _ m _ _ _ _ g1 h1 =>
        cases h1 with | req _ _ r _ _ _ _ g2 h1 =>
        cases h1 with | req _ _ t _ _ gs _ g3 h1 =>
        cases g3 with | ref _ d i hd =>
        have := (isA_held hk).1 (isA_iff.2 hd)
        subst this
        refine ⟨m, r, i, gs, rest, _, rfl, h1', .inl ?_⟩
        cases h2 with | req _ x w _ _ _ _ g1 h2 =>
        cases h2
        exact ⟨w, x, rfl, g1⟩
      · obtain ⟨v1, rest, a1, a2, rfl, hc, h1, h2⟩ := args_append.1 hA
        have h1' := h1
        cases h1 with | req _ _ m _ _ _ _ g1 h1 =>
        cases h1 with | req _ _ r _ _ _ _ g2 h1 =>
        cases h1 with | req _ _ t _ _ gs _ g3 h1 =>
        cases g3 with | ref _ d i hd =>
        have := (isA_held hk).1 (isA_iff.2 hd)
        subst this
        refine ⟨m, r, i, gs, rest, _, rfl, h1', .inr ?_⟩
        cases h2 with | req _ x w _ _ _ _ g1 h2 =>
        cases h2 with | req _ y w' _ _ _ _ g2 h2 =>
        cases h2
        exact ⟨w, w', x, y, rfl, g1, g2⟩
    obtain ⟨m, r, i, gs, rest, a, rfl, hfr, hrest⟩ := hfront
    have hl : gs.length = gains.length := by
      obtain ⟨j, hj, hlen⟩ := args_length hfr
      simp at hj hlen
      omega
    have hm : m ≠ .none := hv _ (by simp)
    have hr : r ≠ .none := hv _ (by simp)
    have hg : ∀ v ∈ gs, v ≠ .none := fun v h => hv v (by simp [h])
    obtain ⟨hF, -⟩ := (heldFront (rest := rest) hl hm hr (by simp) hg).2 hfr
    have htake : ((m :: r :: .obj k i :: gs) ++ rest).take (3 + gains.length)
        = m :: r :: .obj k i :: gs := by
      rw [List.take_append_of_le_length (by simp; omega), List.take_of_length_le (by simp; omega)]
    have hdrop : ((m :: r :: .obj k i :: gs) ++ rest).drop (3 + gains.length) = rest := by
      rw [List.drop_append_of_le_length (by simp; omega), List.drop_of_length_le (by simp; omega)]
      rfl
    rw [htake, hdrop]
    refine ⟨_, (bindParams_none_eq hps).2 ⟨rfl, ?_⟩, ?_⟩
    · simp only [List.cons_append, List.nil_append, List.forall₂_cons] at hF ⊢
      exact ⟨hF.1, hF.2.1, rfl, hF.2.2.2⟩
    · simp only [held, List.mem_cons, List.not_mem_nil, or_false] at ho
      rcases hrest with ⟨w, x, rfl, hw⟩ | ⟨d, w, x, y, rfl, hd, hw⟩
      · rcases ho with rfl | rfl
        · refine ⟨(.none, w), heldWeights_eq.2 ⟨?_, .inr ⟨rfl, rfl⟩⟩, ?_⟩
          · cases hw <;> rfl
          · refine (heldChoose_eq fun k hk => mem_heldKinds.1 hk).2
              ⟨k, mem_heldKinds.2 hk, ⟨i, rfl⟩, ?_⟩
            exact (heldCtor_none hl hm hr (by simp) (hv w (by simp)) hg).2 ⟨rfl, hA⟩
        · exfalso
          obtain ⟨j, hj, hlen⟩ := args_length hA
          simp at hj hlen
          omega
      · rcases ho with rfl | rfl
        · exfalso
          obtain ⟨j, hj, hlen⟩ := args_length hA
          simp at hj hlen
          omega
        · refine ⟨(d, w), heldWeights_eq.2 ⟨?_, .inl ⟨rfl, ?_⟩⟩, ?_⟩
          · cases hw <;> rfl
          · cases hd with | ref _ e _ he => exact isA_iff.2 he
          · refine (heldChoose_eq fun k hk => mem_heldKinds.1 hk).2
              ⟨k, mem_heldKinds.2 hk, ⟨i, rfl⟩, ?_⟩
            exact (heldCtor_some hl hm hr (by simp) (hv w (by simp)) (hv d (by simp)) hg).2
              ⟨rfl, hA⟩

theorem passAll_ne_ub_of {vs : List PyVal} {us : List (ℕ × Use)}
    (h : ∀ x ∈ us, ∀ v, vs[x.1]? = some v → x.2.pass v ≠ .ub) : passAll vs us ≠ .ub := by
  induction us with
  | nil => simp [passAll]
  | cons x us ih =>
    obtain ⟨i, u⟩ := x
    rw [passAll]
    have ih := ih fun x hx => h x (by simp [hx])
    cases hi : vs[i]? with
    | none => simp
    | some v =>
      exact Py.bind_ne_ub (h (i, u) (by simp) v hi) fun a _ => Py.bind_ne_ub ih fun as _ => by simp

theorem heldCtor_ne_ub {fn : CFn} {gains : List Gain} {k : PyClass} {ws : List PyVal} {w d : PyVal}
    (hl : ws.length = 3 + gains.length) (hw : NoNone ws) (hwd : ParamTy.cdouble.accepts w = true)
    (hd : ∀ l, d ≠ .list l) : heldCtor fn gains k (ws ++ [w, d]) ≠ .ub := by
  have hfront : ∀ x ∈ ([(0, Use.impl .multiBodyVector), (1, Use.int), (2, Use.impl k)]
      ++ gains.zipIdx.map fun g => (3 + g.2, g.1.use) : List (ℕ × Use)),
      ∀ v, (ws ++ [w, d])[x.1]? = some v → x.2.pass v ≠ .ub := by
    intro x hx v hv
    have hlt : x.1 < ws.length := by
      rcases List.mem_append.1 hx with hx | hx
      · simp only [List.mem_cons, List.not_mem_nil, or_false] at hx
        rcases hx with rfl | rfl | rfl <;> simp <;> omega
      · obtain ⟨⟨g, i⟩, hg, rfl⟩ := List.mem_map.1 hx
        have := (List.mem_zipIdx hg).2.1
        dsimp only
        omega
    rw [List.getElem?_append_left hlt] at hv
    have hmem := List.mem_of_getElem? hv
    exact pass_ne_ub (hw v hmem).1 (hw v hmem).2
  have hw' : ∀ v, (ws ++ [w, d])[gains.length + 3]? = some v → v = w := by
    intro v hv
    rw [List.getElem?_append_right (by omega)] at hv
    have : gains.length + 3 - ws.length = 0 := by omega
    rw [this] at hv
    simpa using hv.symm
  have hwp : Use.dbl.pass w ≠ .ub := by
    cases w <;> simp [Use.pass]
  refine Py.bind_ne_ub (bindParams_ne_ub _ _) fun vs hb => ?_
  obtain ⟨rfl, -⟩ := (bindParams_full (by simp [hl]; omega)).1 hb
  have hlast : (ws ++ [w, d])[gains.length + 4]? = some d := by
    rw [List.getElem?_append_right (by omega)]
    have : gains.length + 4 - ws.length = 1 := by omega
    rw [this]
    rfl
  rw [hlast]
  split
  · refine Py.bind_ne_ub (passAll_ne_ub_of fun x hx v hv => ?_) fun as _ => by simp
    rcases List.mem_append.1 hx with hx | hx
    · exact hfront x hx v hv
    · simp only [List.mem_cons, List.not_mem_nil, or_false] at hx
      subst hx
      rw [hw' v hv]
      exact hwp
  · rename_i hne
    refine Py.bind_ne_ub (passAll_ne_ub_of fun x hx v hv => ?_) fun as _ => by simp
    rcases List.mem_append.1 hx with hx | hx
    · exact hfront x hx v hv
    · simp only [List.mem_cons, List.not_mem_nil, or_false] at hx
      rcases hx with rfl | rfl
      · dsimp only at hv
        rw [hlast] at hv
        cases hv
        refine pass_ne_ub (fun h => ?_) fun l h => absurd h (hd l)
        exact hne (by rw [h])
      · rw [hw' v hv]
        exact hwp

theorem heldTask_ne_ub (fn : CFn) (gains : List Gain) {vs : List PyVal} (hn : NoNone vs) :
    heldTask fn gains vs ≠ .ub := by
  have hps : (([⟨.ext .multiBodyVector, none⟩, ⟨.cint, none⟩, ⟨.any, none⟩] : List Param)
      ++ gains.map Gain.param).all (fun p => p.dflt.isNone) = true := by
    simp only [List.all_append, List.all_map, Bool.and_eq_true]
    refine ⟨rfl, List.all_eq_true.2 fun g _ => ?_⟩
    cases g <;> rfl
  refine Py.bind_ne_ub (bindParams_ne_ub _ _) fun ws hb => Py.bind_ne_ub ?_ fun p hp => ?_
  · dsimp only [heldWeights]
    split
    · split
      · split <;> simp
      · simp
    · split
      · split
        · split <;> simp
        · simp
      · simp
  · obtain ⟨d, w⟩ := p
    obtain ⟨rfl, hF⟩ := (bindParams_none_eq hps).1 hb
    dsimp only
    split
    · rename_i task _
      have hw := heldWeights_eq.1 hp
      have hlen := hF.length_eq
      have hch : ∀ ks, heldChoose fn gains task (List.take (3 + gains.length) vs ++ [w, d]) ks ≠ .ub
          := by
        intro ks
        induction ks with
        | nil => simp [heldChoose]
        | cons k ks ih =>
          rw [heldChoose]
          split
          · refine heldCtor_ne_ub ?_ (fun v hv => hn v (List.mem_of_mem_take hv)) hw.1 ?_
            · rw [← hlen]; simp; omega
            · rintro l rfl
              rcases hw.2 with ⟨-, h⟩ | ⟨-, h⟩
              · simp [isinstance] at h
              · cases h
          · exact ih
      exact hch _
    · simp

/-- **C107.** The tasks that hold a high-level task: for every class of high-level task and with or
without weights of the dimensions, the constructor for that class is called with the gains, the
weights of the dimensions and the weight in their places; for anything else an exception is
raised. -/
theorem C107_held_tasks :
    Exact setPointTask .setPointTask (heldKinds.flatMap (held [.dbl])) ∧
    Exact trackingTask .trackingTask (heldKinds.flatMap (held [.dbl, .dbl])) ∧
    Exact trajectoryTask .trajectoryTask (heldKinds.flatMap (held [.dbl, .dbl])) ∧
    Exact targetObjectiveTask .targetObjectiveTask (heldKinds.flatMap (held [.dbl, .dbl, .vec])) ∧
    Exact pidTask .pidTask (heldKinds.flatMap (held [.dbl, .dbl, .dbl])) ∧
    (∀ k, k ∈ heldKinds ↔ IsHeld k) := by
  have key : ∀ fn gains, Exact (heldTask fn gains) fn (heldKinds.flatMap (held gains)) := by
    intro fn gains vs hn
    refine ⟨fun c => ?_, heldTask_ne_ub fn gains hn⟩
    rw [heldTask_iff fn gains hn]
    simp only [List.mem_flatMap, mem_heldKinds]
    constructor
    · rintro ⟨h, k, hk, o, ho, hA⟩
      exact ⟨h, o, ⟨k, hk, ho⟩, hA⟩
    · rintro ⟨h, o, ⟨k, hk, ho⟩, hA⟩
      exact ⟨h, k, hk, o, ho, hA⟩
  exact ⟨key _ _, key _ _, key _ _, key _ _, key _ _, fun _ => mem_heldKinds⟩

/-- **C107.** `MultiCoMTask` without weights of the dimensions. -/
theorem C107_multi_com_partial {vs : List PyVal} (hn : NoNone vs) {c : CCall} :
    multiCoMTask vs = .ok c ↔ c.fn = .multiCoMTask ∧ Accepts multiCoM vs c.args := by
  have hv : ∀ v ∈ vs, v ≠ .none := fun v hv => (hn v hv).1
  have hps : (([⟨.ext .multiBodyVector, none⟩, ⟨.ext .vector3d, none⟩, ⟨.cdouble, none⟩] :
      List Param)).all (fun p => p.dflt.isNone) = true := rfl
  have hd1 : okPos none (.ext .multiBodyVector) (.impl .multiBodyVector) (.ref .multiBodyVector)
    = true := by decide
  have hd2 : okPos none (.ext .vector3d) (.impl .vector3d) (.ref .vector3d) = true := by decide
  have hd3 : okPos none .cdouble .dbl .double = true := by decide
  obtain ⟨f, as⟩ := c
  unfold multiCoMTask
  simp only [Py.bind_eq_ok]
  constructor
  · rintro ⟨ws, hb, ⟨d, w⟩, hw, us, hb2, h⟩
    obtain ⟨rfl, hF⟩ := (bindParams_none_eq hps).1 hb
    obtain ⟨hwd, hw⟩ := heldWeights_eq.1 hw
    have hsplit := List.take_append_drop 3 vs
    generalize hws : vs.take 3 = ws at *
    generalize hrest : vs.drop 3 = rest at *
    cases hF with | cons f1 hF =>
    cases hF with | cons f2 hF =>
    cases hF with | cons f3 hF =>
    cases hF
    rename_i m x y
    obtain ⟨rfl, hF2⟩ := (bindParams_full (by simp)).1 hb2
    simp only [List.cons_append, List.nil_append, List.forall₂_cons] at hF2
    rcases hw with ⟨rfl, hd⟩ | ⟨rfl, rfl⟩
    · exfalso
      cases d <;> simp [isinstance] at hd
      rename_i e i
      have h5 := hF2.2.2.2.2.1
      simp only [ParamTy.accepts, isA_iff] at h5
      rw [isA_iff] at hd
      rcases hd with rfl | hd
      · rcases h5 with h5 | h5
        · cases h5
        · simp [PyClass.base] at h5
      · rcases h5 with rfl | h5
        · simp [PyClass.base] at hd
        · rw [hd] at h5
          cases h5
    · simp only [List.cons_append, List.nil_append, List.getElem?_cons_succ,
        List.getElem?_cons_zero, passAll, Py.bind_eq_ok, Py.pure_eq, Py.ok.injEq,
        CCall.mk.injEq] at h
      obtain ⟨_, ⟨a1, e1, _, ⟨a2, e2, _, ⟨a3, e3, _, ⟨a4, e4, _, rfl, rfl⟩, rfl⟩, rfl⟩, rfl⟩, rfl,
        rfl⟩ := h
      subst hsplit
      have n1 := hv m (by simp)
      have n2 := hv x (by simp)
      have n3 := hv y (by simp)
      have n4 := hv w (by simp)
      refine ⟨rfl, ?_⟩
      exact .req _ _ _ _ _ _ _ ((okPos_iff hd1 n1).1 ⟨rfl, f1, e1⟩) <|
        .req _ _ _ _ _ _ _ ((okPos_iff hd2 n2).1 ⟨rfl, f2, e2⟩) <|
        .req _ _ _ _ _ _ _ ((okPos_iff hd3 n3).1 ⟨rfl, f3, e3⟩) <|
        .req _ _ _ _ _ _ _ ((okPos_iff hd3 n4).1 ⟨rfl, hwd, e4⟩) .nil
  · rintro ⟨rfl, hA⟩
    simp only [Accepts, multiCoM] at hA
    cases hA with | req _ a1 m _ _ _ _ h1 hA =>
    cases hA with | req _ a2 x _ _ _ _ h2 hA =>
    cases hA with | req _ a3 y _ _ _ _ h3 hA =>
    cases hA with | req _ a4 w _ _ _ _ h4 hA =>
    cases hA
    obtain ⟨-, f1, e1⟩ := (okPos_iff hd1 (hv m (by simp))).2 h1
    obtain ⟨-, f2, e2⟩ := (okPos_iff hd2 (hv x (by simp))).2 h2
    obtain ⟨-, f3, e3⟩ := (okPos_iff hd3 (hv y (by simp))).2 h3
    obtain ⟨-, f4, e4⟩ := (okPos_iff hd3 (hv w (by simp))).2 h4
    refine ⟨[m, x, y], (bindParams_none_eq hps).2 ⟨rfl, ?_⟩, (.none, w),
      heldWeights_eq.2 ⟨f4, .inr ⟨rfl, rfl⟩⟩, [m, x, y, w, .none],
      (bindParams_full (by simp)).2 ⟨rfl, ?_⟩, ?_⟩
    · exact .cons f1 (.cons f2 (.cons f3 .nil))
    · exact .cons f1 (.cons f2 (.cons f3 (.cons f4 (.cons rfl .nil))))
    · simp [passAll, e1, e2, e3, e4]

/-- **C107, disagreement.** `MultiCoMTask` cannot be made with weights of the dimensions: the method
looks for a `VectorXd`, and hands what it finds to a parameter that takes a `Vector3d`. -/
theorem C107_multi_com_weights_counterexample (i j k l : ℕ) (q r : ℚ) :
    multiCoMTask [.obj .multiBodyVector i, .obj .vector3d j, .float q, .obj .vector3d k, .float r]
      = .raises ∧
    multiCoMTask [.obj .multiBodyVector i, .obj .vector3d j, .float q, .obj .vectorXd l, .float r]
      = .raises := ⟨rfl, rfl⟩

/-- **C107, disagreement.** `None` is accepted for every parameter declared with a class, and the
C++ object behind it is then read from something that has none. -/
theorem C107_none_ub (i : ℕ) (q : ℚ) :
    orientationTask.run [.none, .int 0, .str "body".toList, .obj .matrix3d i] = .ub ∧
    frictionCone.run [.none, .int 4, .float q] = .raises ∧
    setPointTask [.none, .int 0, .obj .comTask i, .float q, .float q] = .ub ∧
    addTask.run [.none, .obj .task i] = .ub ∧
    bilateralForce.run [.obj .vectorXd i, .list [.none]] = .ub := by
  refine ⟨rfl, rfl, rfl, rfl, rfl⟩

/-! ### `None` for an argument that is tested -/

/-- The calls that choose an overload and raise when there is none: the method, the number of arguments
after the fixed ones, and the positions of those whose class every overload with that number of arguments
asks for. -/
def testedArgs : List (Entry × ℕ × List ℕ) :=
  [(frictionCone, 3, [0]), (frictionCone, 4, [0]),
    (unilateralContact, 6, [0, 1, 2, 3]), (unilateralContact, 7, [0, 1, 2, 3, 6]),
    (unilateralContact, 9, [4, 5, 6]), (unilateralContact, 10, [5, 6]),
    (unilateralContact, 11, [5, 6, 7, 10]),
    (unilateralForce, 1, [0]), (unilateralForce, 2, [1]),
    (bilateralForce, 1, [0]), (bilateralForce, 2, [1]),
    (orientationTask, 1, [0]), (surfaceOrientationTask, 2, [0]),
    (gazeTask, 2, [0, 1]), (gazeTask, 3, [0, 2]), (gazeTask, 4, [0, 2, 3]),
    (imageAddPoint, 1, [0]), (imageAddPoint, 2, [0]), (imageAddPoint, 3, [0, 2]),
    (imageUpdatePoint, 1, [0]), (imageUpdatePoint, 2, [0]),
    (addConstraint, 1, [0]), (addConstraint, 2, [1]), (addTask, 1, [0]), (addTask, 2, [1])]

/-- The same for the constructor of `BilateralContact`. -/
def testedBilateral : List (ℕ × List ℕ) :=
  [(6, [0, 1, 2, 3]), (7, [0, 1, 2, 3, 6]), (9, [4, 5, 6]), (10, [5, 6])]

/-- Every alternative of that length has a test at that position. -/
def alwaysTested (e : Entry) (n k : ℕ) : Bool :=
  e.branches.all fun b => b.alts.all fun ts =>
    ts.length ≠ n || (match ts[k]? with | some (some _) => true | _ => false)

theorem checkArgs_none {as : List PyVal} {ts : List (Option PyTy)} {k : ℕ} {t : PyTy}
    (ha : as[k]? = some .none) (ht : ts[k]? = some (some t)) : checkArgs as ts = false := by
  induction as generalizing ts k with
  | nil => simp at ha
  | cons a as ih =>
    cases ts with
    | nil => simp at ht
    | cons u ts =>
      cases k with
      | zero =>
        simp only [List.getElem?_cons_zero, Option.some.injEq] at ha ht
        subst ha; subst ht
        cases t <;> simp [checkArgs, isinstance]
      | succ k =>
        simp only [List.getElem?_cons_succ] at ha ht
        simp [checkArgs, ih ha ht]

theorem runBranches_none {o : Otherwise} {args rest : List PyVal} {k : ℕ} (ha : rest[k]? = some .none)
    (bs : List Branch) (h : (bs.all fun b => b.alts.all fun ts =>
      ts.length ≠ rest.length || (match ts[k]? with | some (some _) => true | _ => false)) = true) :
    runBranches o args rest bs = runBranches o args rest [] := by
  induction bs with
  | nil => rfl
  | cons b bs ih =>
    rw [List.all_cons, Bool.and_eq_true] at h
    have hb : b.alts.any (checkArgs rest) = false := by
      rw [List.any_eq_false]
      intro ts hts hc
      have h1 := List.all_eq_true.1 h.1 ts hts
      rw [← checkArgs_length hc] at h1
      simp only [ne_eq, not_true_eq_false, decide_false, Bool.false_or] at h1
      split at h1
      · rename_i t ht
        rw [checkArgs_none ha ht] at hc
        cases hc
      · cases h1
    rw [runBranches, hb]
    exact ih h.2

/-- **C107.** `None` for an argument whose class is tested raises, whatever the other arguments are. -/
theorem C107_none_tested {e : Entry} {n : ℕ} {ks : List ℕ} (he : (e, n, ks) ∈ testedArgs) {k : ℕ}
    (hk : k ∈ ks) {args : List PyVal} (hn : args.length = e.fixed.length + n)
    (h : args[e.fixed.length + k]? = some .none) : e.run args = .raises := by
  have ht : ∀ x ∈ testedArgs, ∀ k ∈ x.2.2, alwaysTested x.1 x.2.1 k = true := by decide
  have ho : ∀ x ∈ testedArgs, (match x.1.otherwise with | .raise => true | _ => false) = true := by
    decide
  have ho := ho _ he
  have ht := ht _ he k hk
  have hr : (args.drop e.fixed.length)[k]? = some .none := by rw [List.getElem?_drop, h]
  have hl : (args.drop e.fixed.length).length = n := by simp [hn]
  unfold Entry.run
  cases hb : bindParams e.fixed (args.take e.fixed.length) with
  | raises => rfl
  | ub => exact absurd hb (bindParams_ne_ub _ _)
  | ok vs =>
    have hrun : runBranches e.otherwise args (args.drop e.fixed.length) e.branches = .raises := by
      rw [runBranches_none hr e.branches (by rw [hl]; exact ht)]
      dsimp only at ho
      split at ho
      · rename_i hE; rw [hE]; rfl
      · cases ho
    simp only [Py.ok_bind]
    split
    · rename_i hd; rw [hd] at hr; simp at hr
    · exact hrun

/-- **C107, disagreement.** The constructor of `BilateralContact` tests the classes of its arguments, but
with `None` in such a place it makes an empty contact and says nothing. -/
theorem C107_none_bilateral_counterexample {n : ℕ} {ks : List ℕ} (he : (n, ks) ∈ testedBilateral)
    {k : ℕ} (hk : k ∈ ks) {args : List PyVal} (hn : args.length = n) (h : args[k]? = some .none) :
    bilateralContact.run args = .ok ⟨.bilateralContact, []⟩ := by
  have ht : ∀ x ∈ testedBilateral, ∀ k ∈ x.2, alwaysTested bilateralContact x.1 k = true := by decide
  have ht := ht _ he k hk
  have hrun : runBranches bilateralContact.otherwise args args bilateralContact.branches
      = .ok ⟨.bilateralContact, []⟩ := by
    rw [runBranches_none h _ (by rw [hn]; exact ht)]
    rfl
  cases args with
  | nil => simp at h
  | cons a as => exact hrun

/-! ## Examples -/

/-- A contact identifier with four arguments takes the ambiguity number `-1` of the header. -/
example : contactId.run [.int 0, .int 1, .str "l_foot".toList, .bytes "ground".toList] =
    .ok ⟨.contactId, [.int 0, .int 1, .str "l_foot".toList, .str "ground".toList, .int (-1)]⟩ := by
  decide

/-- The arguments of the example are arguments of the second overload. -/
example : Accepts { req := [.int, .int, .string, .string], opt := [(.int, .int (-1))] }
    [.int 0, .int 1, .str "l_foot".toList, .bytes "ground".toList]
    [.int 0, .int 1, .str "l_foot".toList, .str "ground".toList, .int (-1)] :=
  .req _ _ _ _ _ _ _ (.int 0 (by norm_num) (by norm_num)) <|
    .req _ _ _ _ _ _ _ (.int 1 (by norm_num) (by norm_num)) <|
    .req _ _ _ _ _ _ _ (.str _ (by decide)) <|
    .req _ _ _ _ _ _ _ (.bytes _) <| .dflt _ _ _ _ .nil

/-- A unilateral contact with two points, from an identifier and with a frame. -/
example : unilateralContact.run [.obj .contactId 5, .list [.obj .vector3d 1, .obj .vector3d 2],
      .obj .matrix3d 3, .obj .ptransformd 4, .int 4, .float (7 / 10), .obj .ptransformd 9] =
    .ok ⟨.unilateralContact, [.ref .contactId 5, .vec .vector3d [1, 2], .ref .matrix3d 3,
      .ref .ptransformd 4, .int 4, .dbl (7 / 10), .ref .ptransformd 9]⟩ := by
  decide +kernel

/-- A name that is not ASCII, an integer that does not fit and a number of another class raise. -/
example : contactId.run [.int 0, .int 1, .str ['é'], .bytes []] = .raises ∧
    contactId.run [.int 0, .int 2147483648, .str ['a'], .bytes []] = .raises ∧
    contactId.run [.float 0, .int 1, .str ['a'], .bytes []] = .raises := by decide

/-- The eleven arguments of a bilateral contact with ambiguity and frame make an empty contact,
and ten of them the contact that is asked for. -/
example : bilateralContact.run [.int 0, .int 1, .bytes ['a'], .bytes ['b'], .int 3,
      .list [.obj .vector3d 1], .list [.obj .matrix3d 2], .obj .ptransformd 4, .int 4, .int 1,
      .obj .ptransformd 8] = .ok ⟨.bilateralContact, []⟩ ∧
    bilateralContact.run [.int 0, .int 1, .bytes ['a'], .bytes ['b'], .int 3,
      .list [.obj .vector3d 1], .list [.obj .matrix3d 2], .obj .ptransformd 4, .int 4, .int 1] =
      .ok ⟨.bilateralContact, [.int 0, .int 1, .str ['a'], .str ['b'], .int 3,
        .vec .vector3d [1], .vec .matrix3d [2], .ref .ptransformd 4, .int 4, .dbl 1,
        .ref .ptransformd 0]⟩ := by
  decide +kernel

/-- The contact without an ambiguity number and without a class of its own arguments is the default
one as well. -/
example : bilateralContact.run [.int 0] = .ok ⟨.bilateralContact, []⟩ := by decide

/-- A gaze task with a name given as `str` raises, with `bytes` it is made. -/
example : gazeTask.run [.obj .multiBodyVector 1, .int 0, .str ['h'], .obj .vector3d 2,
      .obj .ptransformd 3] = .raises ∧
    gazeTask.run [.obj .multiBodyVector 1, .int 0, .bytes ['h'], .obj .vector3d 2,
      .obj .ptransformd 3] =
      .ok ⟨.gazeTask, [.ref .multiBodyVector 1, .int 0, .str ['h'], .ref .vector3d 2,
        .ref .ptransformd 3, .ref .vector2d 0]⟩ := by decide

/-- Gains, weights of the dimensions and weight in their places. -/
example : targetObjectiveTask [.obj .multiBodyVector 1, .int 0, .obj .comTask 6, .float 2, .int 3,
      .obj .vectorXd 4, .obj .vectorXd 5, .int 10] =
    .ok ⟨.targetObjectiveTask, [.ref .multiBodyVector 1, .int 0, .ref .comTask 6, .dbl 2, .dbl 3,
      .ref .vectorXd 4, .ref .vectorXd 5, .dbl 10]⟩ := by
  decide +kernel

/-- A high-level task of no known class, and a missing weight. -/
example : pidTask [.obj .multiBodyVector 1, .int 0, .obj .highLevelTask 6, .int 2, .int 3, .int 4,
      .int 10] = .raises ∧
    pidTask [.obj .multiBodyVector 1, .int 0, .obj .comTask 6, .int 2, .int 3, .int 4] =
      .raises := by
  decide +kernel

end Verif.Binding
