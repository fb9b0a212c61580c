import Verif.Model.PyPosture
import Verif.Props.Posture
import Mathlib.Data.List.Forall2

/-!
# C117: the posture task and lists of joint names in Python
-/

set_option autoImplicit false

namespace Verif.PyPosture

open PyAcc (Res)

section
variable {K : Type} [CommRing K]

namespace Spec

/-- `for x in v` goes over these values. -/
inductive Items : PyV K → List (PyV K) → Prop
  | list (l) : Items (.list l) l
  | tuple (l) : Items (.tuple l) l
  | str (cs) : Items (.str cs) (cs.map fun c => .str [c])
  | bytes (cs) : Items (.bytes cs) (cs.map fun c => .num c.toNat)

/-- The value lists these numbers. -/
def IsRow (v : PyV K) (x : List K) : Prop := ∃ l, Items v l ∧ List.Forall₂ (fun e y => e = .num y) l x

/-- The value is a sequence of sequences of numbers. -/
def IsPosture (v : PyV K) (q : List (List K)) : Prop := ∃ l, Items v l ∧ List.Forall₂ IsRow l q

/-- What an argument that should be a list of objects goes over: the elements of a `list`, or itself. -/
def elems : PyV K → List (PyV K)
  | .list l => l
  | v => [v]

/-- The C++ call, if a Python call with these arguments asks for one. -/
inductive Asks : Meth → List (PyV K) → PostureOp K → Prop
  | stiffness (k) : Asks .stiffness [.num k] (.stiffness k)
  | gain (k) : Asks .gains [.num k] (.stiffness k)
  | gainNone (k) : Asks .gains [.num k, .none] (.stiffness k)
  | gains (k d) : Asks .gains [.num k, .num d] (.gains k d)
  | posture (v q) : IsPosture v q → Asks .posture [v] (.posture q)
  | jointsStiffness (v) (l : List (String × K)) : elems v = l.map (fun e => .js e.1 e.2) →
      Asks .jointsStiffness [.mbs, v] (.jointsStiffness l)
  | jointsGains (v) (l : List (String × K × K)) : elems v = l.map (fun e => .jg e.1 e.2.1 e.2.2) →
      Asks .jointsGains [.mbs, v] (.jointsGains l)

/-- What a call that only reads returns. -/
inductive Reads (s : Posture K) : Meth → List (PyV K) → Val K → Prop
  | weight : Reads s .weight [] (.num s.weight)
  | weightNone : Reads s .weight [.none] (.num s.weight)
  | stiffness : Reads s .stiffness [] (.num s.stiffness)
  | stiffnessNone : Reads s .stiffness [.none] (.num s.stiffness)
  | damping : Reads s .damping [] (.num s.damping)
  | posture : Reads s .posture [] (.posture s.pt.q)
  | postureNone : Reads s .posture [.none] (.posture s.pt.q)

/-- `None` among the objects, none of another class before it, or good objects and `None` for the robots. -/
inductive NoneRead : Meth → List (PyV K) → Prop
  | jsElem (v) (l : List (String × K)) (t) : elems v = l.map (fun e => .js e.1 e.2) ++ .none :: t →
      NoneRead .jointsStiffness [.mbs, v]
  | jgElem (v) (l : List (String × K × K)) (t) : elems v = l.map (fun e => .jg e.1 e.2.1 e.2.2) ++ .none :: t →
      NoneRead .jointsGains [.mbs, v]
  | jsElem' (v) (l : List (String × K)) (t) : elems v = l.map (fun e => .js e.1 e.2) ++ .none :: t →
      NoneRead .jointsStiffness [.none, v]
  | jgElem' (v) (l : List (String × K × K)) (t) : elems v = l.map (fun e => .jg e.1 e.2.1 e.2.2) ++ .none :: t →
      NoneRead .jointsGains [.none, v]
  | jsMbs (v) (l : List (String × K)) : elems v = l.map (fun e => .js e.1 e.2) → NoneRead .jointsStiffness [.none, v]
  | jgMbs (v) (l : List (String × K × K)) : elems v = l.map (fun e => .jg e.1 e.2.1 e.2.2) →
      NoneRead .jointsGains [.none, v]

end Spec

open PyPosture.Spec

/-! ## Conversions -/

theorem items_iff (v : PyV K) (l : List (PyV K)) : items v = some l ↔ Items v l := by
  constructor
  · intro h
    cases v <;> simp only [items, Option.some.injEq, reduceCtorEq] at h <;> subst h <;> constructor
  · rintro (_ | _ | _ | _) <;> rfl

theorem mapM_iff {A B : Type} {f : A → Option B} {R : A → B → Prop} (h : ∀ a b, f a = some b ↔ R a b) :
    ∀ (l : List A) (r : List B), l.mapM f = some r ↔ List.Forall₂ R l r := by
  intro l
  induction l with
  | nil => intro r; cases r <;> simp
  | cons a l ih =>
    intro r
    rw [List.mapM_cons]
    cases r with
    | nil =>
      have e : ¬ List.Forall₂ R (a :: l) [] := by rintro ⟨⟩
      simp only [Option.bind_eq_bind, Option.pure_def, e, iff_false]
      cases f a
      · simp
      · cases l.mapM f <;> simp
    | cons b r =>
      rw [List.forall₂_cons, ← h a b, ← ih r]
      cases f a <;> simp
      cases l.mapM f <;> simp

omit [CommRing K] in
theorem asDouble_iff (v : PyV K) (x : K) : asDouble v = some x ↔ v = .num x := by
  cases v <;> simp [asDouble]

theorem asDoubles_iff (v : PyV K) (x : List K) : asDoubles v = some x ↔ IsRow v x := by
  simp only [asDoubles, IsRow, Option.bind_eq_bind, Option.bind_eq_some_iff, items_iff, mapM_iff asDouble_iff]

theorem asPosture_iff (v : PyV K) (q : List (List K)) : asPosture v = some q ↔ IsPosture v q := by
  simp only [asPosture, IsPosture, Option.bind_eq_bind, Option.bind_eq_some_iff, items_iff, mapM_iff asDoubles_iff]

omit [CommRing K] in
theorem addAll_ok {A : Type} {impl : PyV K → Option A} {mk : A → PyV K} (h : ∀ v a, impl v = some a ↔ v = mk a)
    (l : List (PyV K)) (as : List A) : addAll impl l = .ok as ↔ l = as.map mk := by
  induction l generalizing as with
  | nil => cases as <;> simp [addAll]
  | cons v l ih =>
    cases hv : impl v with
    | none =>
      have : ∀ a, v ≠ mk a := fun a ha => by simp [(h v a).2 ha] at hv
      constructor
      · intro H
        simp only [addAll, hv] at H
        cases v <;> simp at H
      · intro H
        cases as with
        | nil => simp at H
        | cons a as =>
          simp only [List.map_cons, List.cons.injEq] at H
          exact absurd H.1 (this a)
    | some a =>
      have ha := (h v a).1 hv
      have inj : ∀ b, mk a = mk b → a = b := by
        intro b hb
        have h1 := (h v a).2 ha
        have h2 := (h v b).2 (ha.trans hb)
        rw [h1] at h2
        exact Option.some.inj h2
      cases as with
      | nil =>
        simp only [addAll, hv, List.map_nil, reduceCtorEq, iff_false]
        cases addAll impl l <;> simp
      | cons b bs =>
        simp only [addAll, hv, List.map_cons, List.cons.injEq]
        rw [← ih bs, ha]
        cases hl : addAll impl l with
        | ok as =>
          simp only [Conv.ok.injEq, List.cons.injEq]
          exact and_congr_left fun _ => ⟨fun e => by rw [e], inj b⟩
        | raises => simp
        | ub => simp

omit [CommRing K] in
theorem addAll_ub {A : Type} {impl : PyV K → Option A} {mk : A → PyV K} (h : ∀ v a, impl v = some a ↔ v = mk a)
    (hn : impl .none = none) (l : List (PyV K)) :
    addAll impl l = .ub ↔ ∃ (as : List A) (t : List (PyV K)), l = as.map mk ++ .none :: t := by
  induction l with
  | nil => simp [addAll]
  | cons v l ih =>
    cases hv : impl v with
    | none =>
      have hne : ∀ a, v ≠ mk a := fun a ha => by simp [(h v a).2 ha] at hv
      constructor
      · intro H
        simp only [addAll, hv] at H
        refine ⟨[], l, ?_⟩
        cases v <;> simp at H ⊢
      · rintro ⟨as, t, H⟩
        cases as with
        | nil =>
          simp only [List.map_nil, List.nil_append, List.cons.injEq] at H
          obtain ⟨rfl, -⟩ := H
          simp [addAll, hv]
        | cons a as =>
          simp only [List.map_cons, List.cons_append, List.cons.injEq] at H
          exact absurd H.1 (hne a)
    | some a =>
      have ha := (h v a).1 hv
      have hnone : v ≠ .none := by rintro rfl; simp [hn] at hv
      have e : addAll impl (v :: l) = .ub ↔ addAll impl l = .ub := by
        simp only [addAll, hv]
        cases addAll impl l <;> simp
      rw [e, ih]
      constructor
      · rintro ⟨as, t, rfl⟩
        exact ⟨a :: as, t, by simp [ha]⟩
      · rintro ⟨as, t, H⟩
        cases as with
        | nil =>
          simp only [List.map_nil, List.nil_append, List.cons.injEq] at H
          exact absurd H.1 hnone
        | cons b as =>
          simp only [List.map_cons, List.cons_append, List.cons.injEq] at H
          exact ⟨as, t, H.2⟩

omit [CommRing K] in
theorem toVector_elems {A : Type} (impl : PyV K → Option A) (v : PyV K) : toVector impl v = addAll impl (elems v) := by
  cases v <;> rfl

omit [CommRing K] in
theorem jsImpl_iff (v : PyV K) (a : String × K) : jsImpl v = some a ↔ v = .js a.1 a.2 := by
  cases v <;> simp [jsImpl, Prod.ext_iff]

omit [CommRing K] in
theorem jgImpl_iff (v : PyV K) (a : String × K × K) : jgImpl v = some a ↔ v = .jg a.1 a.2.1 a.2.2 := by
  cases v <;> simp [jgImpl, Prod.ext_iff]

/-! ## Calls -/

/-- **C117**: a call of a method of a Python `PostureTask` that asks for a C++ call does what that call does, and returns
`None`. -/
theorem C117_asks (sqrt : K → Out K) (mb : MultiBody K) (s : Posture K) {m : Meth} {args : List (PyV K)}
    {o : PostureOp K} (h : Asks m args o) : call sqrt mb s m args = .ofOut (s.step sqrt mb o) := by
  cases h with
  | stiffness k => rfl
  | gain k => rfl
  | gainNone k => rfl
  | gains k d => rfl
  | posture v q hq =>
    have hv := (asPosture_iff v q).2 hq
    have hn : v ≠ .none := by rintro rfl; simp [asPosture, items] at hv
    cases v <;> first | exact absurd rfl hn | simp only [call, hv]
  | jointsStiffness v l hl =>
    have := (addAll_ok jsImpl_iff (elems v) l).2 hl
    simp only [call, withVector, toVector_elems, this]
  | jointsGains v l hl =>
    have := (addAll_ok jgImpl_iff (elems v) l).2 hl
    simp only [call, withVector, toVector_elems, this]

/-- **C117**: a reading call returns the value of the C++ getter and changes nothing. -/
theorem C117_reads (sqrt : K → Out K) (mb : MultiBody K) (s : Posture K) {m : Meth} {args : List (PyV K)} {v : Val K}
    (h : Reads s m args v) : call sqrt mb s m args = .ret (some v) s := by
  cases h <;> rfl

/-- **C117**: `weight(w)` sets the weight and nothing else. -/
theorem C117_weight (sqrt : K → Out K) (mb : MultiBody K) (s : Posture K) (w : K) :
    call sqrt mb s .weight [.num w] = .ret none { s with weight := w } := rfl

/-- **C117**: any other call raises an exception, and changes nothing, unless it reads an object of C++ from `None`. -/
theorem C117_raises (sqrt : K → Out K) (mb : MultiBody K) (s : Posture K) (m : Meth) (args : List (PyV K))
    (h1 : ∀ o, ¬ Asks m args o) (h2 : ∀ v, ¬ Reads s m args v) (h3 : ∀ w, ¬ (m = .weight ∧ args = [.num w]))
    (h4 : ¬ NoneRead m args) : call sqrt mb s m args = .raises := by
  have hdbl : ∀ v : PyV K, (∀ x, v ≠ .num x) → asDouble v = none := by
    intro v hv
    cases hd : asDouble v with
    | none => rfl
    | some x => exact absurd ((asDouble_iff v x).1 hd) (hv x)
  have hvec : ∀ {A : Type} (impl : PyV K → Option A) (mk : A → PyV K) (_ : ∀ v a, impl v = some a ↔ v = mk a)
      (_ : impl .none = none) (set : List A → Out (Posture K))
      (_ : ∀ v (as : List A), args = [.mbs, v] → elems v ≠ as.map mk)
      (_ : ∀ v (as : List A) t, args = [.mbs, v] → elems v ≠ as.map mk ++ .none :: t)
      (_ : ∀ v (as : List A), args = [.none, v] → elems v ≠ as.map mk)
      (_ : ∀ v (as : List A) t, args = [.none, v] → elems v ≠ as.map mk ++ .none :: t),
      withVector impl set args = (.raises : Res (Posture K) (Val K)) := by
    intro A impl mk hi hn set a1 a2 a3 a4
    match args, a1, a2, a3, a4 with
    | [], _, _, _, _ => rfl
    | [_], _, _, _, _ => rfl
    | [m0, l], a1, a2, a3, a4 =>
      have key : (m0 = .mbs ∨ m0 = .none) → addAll impl (elems l) = .raises := by
        intro hm
        cases hr : addAll impl (elems l) with
        | raises => rfl
        | ok as =>
          rw [addAll_ok hi] at hr
          rcases hm with rfl | rfl
          · exact absurd hr (a1 l as rfl)
          · exact absurd hr (a3 l as rfl)
        | ub =>
          rw [addAll_ub hi hn] at hr
          obtain ⟨as, t, hr⟩ := hr
          rcases hm with rfl | rfl
          · exact absurd hr (a2 l as t rfl)
          · exact absurd hr (a4 l as t rfl)
      cases m0 <;> simp only [withVector, toVector_elems]
      · rw [key (.inr rfl)]
      · rw [key (.inl rfl)]
    | _ :: _ :: _ :: _, _, _, _, _ => rfl
  cases m with
  | weight =>
    match args, h2, h3 with
    | [], h2, _ => exact absurd .weight (h2 _)
    | [v], h2, h3 =>
      cases v with
      | none => exact absurd .weightNone (h2 _)
      | num x => exact absurd ⟨rfl, rfl⟩ (h3 x)
      | _ => rfl
    | a :: _ :: _, _, _ => cases a <;> rfl
  | stiffness =>
    match args, h1, h2 with
    | [], _, h2 => exact absurd .stiffness (h2 _)
    | [v], h1, h2 =>
      cases v with
      | none => exact absurd .stiffnessNone (h2 _)
      | num x => exact absurd (.stiffness x) (h1 _)
      | _ => rfl
    | a :: _ :: _, _, _ => cases a <;> rfl
  | damping =>
    match args, h2 with
    | [], h2 => exact absurd .damping (h2 _)
    | _ :: _, _ => rfl
  | gains =>
    match args, h1 with
    | [], _ => rfl
    | [v], h1 =>
      cases v with
      | num x => exact absurd (.gain x) (h1 _)
      | _ => rfl
    | [v, w], h1 =>
      cases v with
      | num x =>
        cases w with
        | none => exact absurd (.gainNone x) (h1 _)
        | num y => exact absurd (.gains x y) (h1 _)
        | _ => rfl
      | _ => cases w <;> rfl
    | _ :: b :: _ :: _, _ => cases b <;> rfl
  | posture =>
    match args, h1, h2 with
    | [], _, h2 => exact absurd .posture (h2 _)
    | [v], h1, h2 =>
      have hp : asPosture v = none := by
        cases hd : asPosture v with
        | none => rfl
        | some q => exact absurd (.posture v q ((asPosture_iff v q).1 hd)) (h1 _)
      cases v with
      | none => exact absurd .postureNone (h2 _)
      | _ => simp only [call, hp]
    | a :: _ :: _, _, _ => cases a <;> rfl
  | jointsStiffness =>
    refine hvec jsImpl (fun e => .js e.1 e.2) jsImpl_iff rfl _ ?_ ?_ ?_ ?_
    · rintro v as rfl e; exact h1 _ (.jointsStiffness v as e)
    · rintro v as t rfl e; exact h4 (.jsElem v as t e)
    · rintro v as rfl e; exact h4 (.jsMbs v as e)
    · rintro v as t rfl e; exact h4 (.jsElem' v as t e)
  | jointsGains =>
    refine hvec jgImpl (fun e => .jg e.1 e.2.1 e.2.2) jgImpl_iff rfl _ ?_ ?_ ?_ ?_
    · rintro v as rfl e; exact h1 _ (.jointsGains v as e)
    · rintro v as t rfl e; exact h4 (.jgElem v as t e)
    · rintro v as rfl e; exact h4 (.jgMbs v as e)
    · rintro v as t rfl e; exact h4 (.jgElem' v as t e)

/-- **C117**, where the code does not do what is expected: `None` for the robots or for one of the gains is
dereferenced. -/
theorem C117_none_ub (sqrt : K → Out K) (mb : MultiBody K) (s : Posture K) {m : Meth} {args : List (PyV K)}
    (h : NoneRead m args) : call sqrt mb s m args = .ub := by
  cases h with
  | jsElem v l t e =>
    have := (addAll_ub jsImpl_iff rfl (elems v)).2 ⟨l, t, e⟩
    simp only [call, withVector, toVector_elems, this]
  | jgElem v l t e =>
    have := (addAll_ub jgImpl_iff rfl (elems v)).2 ⟨l, t, e⟩
    simp only [call, withVector, toVector_elems, this]
  | jsElem' v l t e =>
    have := (addAll_ub jsImpl_iff rfl (elems v)).2 ⟨l, t, e⟩
    simp only [call, withVector, toVector_elems, this]
  | jgElem' v l t e =>
    have := (addAll_ub jgImpl_iff rfl (elems v)).2 ⟨l, t, e⟩
    simp only [call, withVector, toVector_elems, this]
  | jsMbs v l e =>
    have := (addAll_ok jsImpl_iff (elems v) l).2 e
    simp only [call, withVector, toVector_elems, this]
  | jgMbs v l e =>
    have := (addAll_ok jgImpl_iff (elems v) l).2 e
    simp only [call, withVector, toVector_elems, this]

/-! ## Programs -/

namespace Spec

/-- The C++ calls that a program asks for, in order. -/
inductive Trace : List (Stmt K) → List (PostureOp K) → Prop
  | nil : Trace [] []
  | asks {m args o l ops} : Asks m args o → Trace l ops → Trace (.call m args :: l) (o :: ops)
  | other {m args l ops} : (∀ o, ¬ Asks m args o) → Trace l ops → Trace (.call m args :: l) ops
  | updateNrVars {d l ops} : Trace l ops → Trace (.updateNrVars d :: l) (.updateNrVars d :: ops)
  | update {env l ops} : Trace l ops → Trace (.update env :: l) (.update env :: ops)

/-- The last number given to `weight`. -/
def lastWeight : List (Stmt K) → K → K
  | [], w => w
  | .call .weight [.num w] :: l, _ => lastWeight l w
  | _ :: l, w => lastWeight l w

/-- The last posture asked for. -/
def lastPosture : List (PostureOp K) → List (List K) → List (List K)
  | [], q => q
  | .posture q :: l, _ => lastPosture l q
  | _ :: l, q => lastPosture l q

/-- The gains after the calls: the last ones asked for, the damping given or twice the root of the stiffness. -/
inductive LastGains (sqrt : K → Out K) : List (PostureOp K) → K × K → K × K → Prop
  | nil (g) : LastGains sqrt [] g g
  | stiffness {k r l g g'} : sqrt k = .ok r → LastGains sqrt l (k, 2 * r) g' → LastGains sqrt (.stiffness k :: l) g g'
  | gains {k d l g g'} : LastGains sqrt l (k, d) g' → LastGains sqrt (.gains k d :: l) g g'
  | other {o l g g'} : (∀ k, o ≠ .stiffness k) → (∀ k d, o ≠ .gains k d) → LastGains sqrt l g g' →
      LastGains sqrt (o :: l) g g'

end Spec

theorem bind_ok {A B : Type} {x : Out A} {a : A} (f : A → Out B) (h : x = .ok a) : (x >>= f) = f a := by
  subst h; rfl

/-- The weight takes no part in the other calls. -/
theorem step_weight {sqrt : K → Out K} {mb : MultiBody K} {o : PostureOp K} {s s' : Posture K} (w : K)
    (h : s.step sqrt mb o = .ok s') : s'.weight = s.weight ∧
    ({ s with
      weight := w } : Posture K).step sqrt mb o = .ok { s' with
        weight := w } := by
  cases o with
  | posture q => cases h; exact ⟨rfl, rfl⟩
  | stiffness k =>
    simp only [Posture.step] at h ⊢
    obtain ⟨r, hr, h⟩ := Out.bind_eq_ok.1 h
    cases h
    exact ⟨rfl, bind_ok _ hr⟩
  | gains k d => cases h; exact ⟨rfl, rfl⟩
  | jointsStiffness l =>
    simp only [Posture.step] at h ⊢
    obtain ⟨r, hr, h⟩ := Out.bind_eq_ok.1 h
    cases h
    exact ⟨rfl, bind_ok _ hr⟩
  | jointsGains l =>
    simp only [Posture.step] at h ⊢
    obtain ⟨r, hr, h⟩ := Out.bind_eq_ok.1 h
    cases h
    exact ⟨rfl, bind_ok _ hr⟩
  | refVel v => cases h; exact ⟨rfl, rfl⟩
  | refAccel a =>
    simp only [Posture.step] at h ⊢
    split at h
    · cases h; rename_i hh; rw [if_pos hh]; exact ⟨rfl, rfl⟩
    · cases h
  | dimWeight a =>
    simp only [Posture.step] at h ⊢
    split at h
    · cases h; rename_i hh; rw [if_pos hh]; exact ⟨rfl, rfl⟩
    · cases h
  | updateNrVars d =>
    simp only [Posture.step] at h ⊢
    obtain ⟨r, hr, h⟩ := Out.bind_eq_ok.1 h
    cases h
    exact ⟨rfl, bind_ok _ hr⟩
  | update env =>
    simp only [Posture.step] at h ⊢
    unfold Posture.update at h
    obtain ⟨pt, h1, h⟩ := Out.bind_eq_ok.1 h
    obtain ⟨alpha, h2, h⟩ := Out.bind_eq_ok.1 h
    obtain ⟨Q, h3, h⟩ := Out.bind_eq_ok.1 h
    obtain ⟨deb, h4, h⟩ := Out.bind_eq_ok.1 h
    obtain ⟨g, h5, h⟩ := Out.bind_eq_ok.1 h
    obtain ⟨C1, h6, h⟩ := Out.bind_eq_ok.1 h
    obtain ⟨C2, h7, h⟩ := Out.bind_eq_ok.1 h
    obtain ⟨C, h8, h⟩ := Out.bind_eq_ok.1 h
    cases h
    refine ⟨rfl, ?_⟩
    unfold Posture.update
    exact (bind_ok _ h1).trans <| (bind_ok _ h2).trans <| (bind_ok _ h3).trans <| (bind_ok _ h4).trans <|
      (bind_ok _ h5).trans <| (bind_ok _ h6).trans <| (bind_ok _ h7).trans <| bind_ok _ h8

theorem run_weight {sqrt : K → Out K} {mb : MultiBody K} (w : K) {ops : List (PostureOp K)} {a b : Posture K}
    (h : forEach ops (Posture.step sqrt mb) a = .ok b) :
    forEach ops (Posture.step sqrt mb) { a with
      weight := w } = .ok { b with
        weight := w } := by
  induction ops generalizing a with
  | nil => cases h; rfl
  | cons o ops iho =>
    simp only [forEach] at h ⊢
    obtain ⟨c, h1, h2⟩ := Out.bind_eq_ok.1 h
    rw [bind_ok _ (step_weight w h1).2]
    exact iho h2

theorem trace_exists (prog : List (Stmt K)) : ∃ ops, Trace prog ops := by
  induction prog with
  | nil => exact ⟨[], .nil⟩
  | cons c l ih =>
    obtain ⟨ops, h⟩ := ih
    cases c with
    | call m args =>
      by_cases ho : ∃ o, Asks m args o
      · obtain ⟨o, ho⟩ := ho
        exact ⟨_, .asks ho h⟩
      · exact ⟨_, .other (fun o he => ho ⟨o, he⟩) h⟩
    | updateNrVars d => exact ⟨_, .updateNrVars h⟩
    | update env => exact ⟨_, .update h⟩

omit [CommRing K] in
theorem lastWeight_call {m : Meth} {args : List (PyV K)} (h : ∀ w, ¬ (m = .weight ∧ args = [.num w]))
    (l : List (Stmt K)) (w : K) : lastWeight (.call m args :: l) w = lastWeight l w := by
  conv_lhs => unfold lastWeight
  split
  · rename_i e; cases e
  · rename_i e
    simp only [List.cons.injEq, Stmt.call.injEq] at e
    exact absurd e.1 (h _)
  · rename_i e
    simp only [List.cons.injEq] at e
    obtain ⟨-, rfl⟩ := e
    rfl

theorem asks_ne_weight {m : Meth} {args : List (PyV K)} {o : PostureOp K} (h : Asks m args o) :
    m ≠ .weight := by
  cases h <;> simp

/-- **C117**: a program with a Python `PostureTask` leaves it as the C++ calls it asks for do, with the last weight it
gave.  Calls that raise an exception and calls that read change nothing. -/
theorem C117_history (sqrt : K → Out K) (mb : MultiBody K) {prog : List (Stmt K)} {ops : List (PostureOp K)}
    {s s' : Posture K} (ht : Trace prog ops) (h : exec sqrt mb prog s = some s') :
    s'.weight = lastWeight prog s.weight ∧
      forEach ops (Posture.step sqrt mb) s = .ok { s' with
        weight := s.weight } := by
  induction ht generalizing s with
  | nil =>
    cases h
    exact ⟨rfl, rfl⟩
  | @asks m args o l ops ha _ ih =>
    simp only [exec, Stmt.run, C117_asks sqrt mb s ha] at h
    cases ho : s.step sqrt mb o with
    | ub => rw [ho] at h; simp [Res.ofOut] at h
    | throws e => rw [ho] at h; simp [Res.ofOut] at h
    | ok s1 =>
      rw [ho] at h
      obtain ⟨i1, i2⟩ := ih h
      obtain ⟨w1, -⟩ := step_weight 0 ho
      rw [lastWeight_call (fun w e => asks_ne_weight ha e.1), ← w1]
      refine ⟨i1, ?_⟩
      simp only [forEach]
      rw [bind_ok _ ho]
      exact i2
  | @other m args l ops ha _ ih =>
    simp only [exec, Stmt.run] at h
    by_cases hw : ∃ w, m = .weight ∧ args = [.num w]
    · obtain ⟨w, rfl, rfl⟩ := hw
      obtain ⟨i1, i2⟩ := ih h
      refine ⟨i1, ?_⟩
      have := run_weight s.weight i2
      exact this
    · have hw' : ∀ w, ¬ (m = .weight ∧ args = [.num w]) := fun w e => hw ⟨w, e⟩
      rw [lastWeight_call hw']
      by_cases hn : NoneRead m args
      · rw [C117_none_ub sqrt mb s hn] at h; simp at h
      · by_cases hr : ∃ v, Reads s m args v
        · obtain ⟨v, hv⟩ := hr
          rw [C117_reads sqrt mb s hv] at h
          exact ih h
        · rw [C117_raises sqrt mb s m args ha (fun v hv => hr ⟨v, hv⟩) hw' hn] at h
          exact ih h
  | @updateNrVars d l ops _ ih =>
    simp only [exec, Stmt.run] at h
    cases ho : s.step sqrt mb (.updateNrVars d) with
    | ub => rw [ho] at h; simp at h
    | throws e => rw [ho] at h; simp at h
    | ok s1 =>
      rw [ho] at h
      obtain ⟨i1, i2⟩ := ih h
      obtain ⟨w1, -⟩ := step_weight 0 ho
      simp only [lastWeight]
      rw [← w1]
      refine ⟨i1, ?_⟩
      simp only [forEach]
      rw [bind_ok _ ho]
      exact i2
  | @update env l ops _ ih =>
    simp only [exec, Stmt.run] at h
    cases ho : s.step sqrt mb (.update env) with
    | ub => rw [ho] at h; simp at h
    | throws e => rw [ho] at h; simp at h
    | ok s1 =>
      rw [ho] at h
      obtain ⟨i1, i2⟩ := ih h
      obtain ⟨w1, -⟩ := step_weight 0 ho
      simp only [lastWeight]
      rw [← w1]
      refine ⟨i1, ?_⟩
      simp only [forEach]
      rw [bind_ok _ ho]
      exact i2

theorem update_frame {mb : MultiBody K} {env : PostureEnv K} {s s' : Posture K} (h : s.update mb env = .ok s') :
    s'.pt.q = s.pt.q ∧ s'.stiffness = s.stiffness ∧ s'.damping = s.damping := by
  unfold Posture.update at h
  obtain ⟨pt, h1, h⟩ := Out.bind_eq_ok.1 h
  obtain ⟨alpha, -, h⟩ := Out.bind_eq_ok.1 h
  obtain ⟨Q, -, h⟩ := Out.bind_eq_ok.1 h
  obtain ⟨deb, -, h⟩ := Out.bind_eq_ok.1 h
  obtain ⟨g, -, h⟩ := Out.bind_eq_ok.1 h
  obtain ⟨C1, -, h⟩ := Out.bind_eq_ok.1 h
  obtain ⟨C2, -, h⟩ := Out.bind_eq_ok.1 h
  obtain ⟨C, -, h⟩ := Out.bind_eq_ok.1 h
  cases h
  unfold PostureHL.update at h1
  obtain ⟨pos, -, h1⟩ := Out.bind_eq_ok.1 h1
  obtain ⟨r, -, h1⟩ := Out.bind_eq_ok.1 h1
  cases h1
  exact ⟨rfl, rfl, rfl⟩

theorem run_readings {sqrt : K → Out K} {mb : MultiBody K} {ops : List (PostureOp K)} {s s' : Posture K}
    (h : forEach ops (Posture.step sqrt mb) s = .ok s') :
    s'.pt.q = lastPosture ops s.pt.q ∧
      LastGains sqrt ops (s.stiffness, s.damping) (s'.stiffness, s'.damping) := by
  induction ops generalizing s with
  | nil => cases h; exact ⟨rfl, .nil _⟩
  | cons o ops ih =>
    simp only [forEach] at h
    obtain ⟨c, h1, h2⟩ := Out.bind_eq_ok.1 h
    obtain ⟨i1, i2⟩ := ih h2
    cases o with
    | posture q => cases h1; exact ⟨i1, .other (by simp) (by simp) i2⟩
    | stiffness k =>
      simp only [Posture.step] at h1
      obtain ⟨r, hr, h1⟩ := Out.bind_eq_ok.1 h1
      cases h1
      exact ⟨i1, .stiffness hr i2⟩
    | gains k d => cases h1; exact ⟨i1, .gains i2⟩
    | jointsStiffness l =>
      simp only [Posture.step] at h1
      obtain ⟨r, hr, h1⟩ := Out.bind_eq_ok.1 h1
      cases h1
      exact ⟨i1, .other (by simp) (by simp) i2⟩
    | jointsGains l =>
      simp only [Posture.step] at h1
      obtain ⟨r, hr, h1⟩ := Out.bind_eq_ok.1 h1
      cases h1
      exact ⟨i1, .other (by simp) (by simp) i2⟩
    | refVel v => cases h1; exact ⟨i1, .other (by simp) (by simp) i2⟩
    | refAccel a =>
      simp only [Posture.step] at h1
      split at h1
      · cases h1; exact ⟨i1, .other (by simp) (by simp) i2⟩
      · cases h1
    | dimWeight a =>
      simp only [Posture.step] at h1
      split at h1
      · cases h1; exact ⟨i1, .other (by simp) (by simp) i2⟩
      · cases h1
    | updateNrVars d =>
      simp only [Posture.step] at h1
      obtain ⟨r, hr, h1⟩ := Out.bind_eq_ok.1 h1
      cases h1
      exact ⟨i1, .other (by simp) (by simp) i2⟩
    | update env =>
      obtain ⟨e1, e2, e3⟩ := update_frame h1
      rw [e1] at i1
      rw [e2, e3] at i2
      exact ⟨i1, .other (by simp) (by simp) i2⟩

/-- **C117**: after a program, the reading calls return what was given last: the weight, the posture, the stiffness, and
the damping that was given or twice the root of the stiffness. -/
theorem C117_readings (sqrt : K → Out K) (mb : MultiBody K) {prog : List (Stmt K)} {ops : List (PostureOp K)}
    {s s' : Posture K} (ht : Trace prog ops) (h : exec sqrt mb prog s = some s') :
    call sqrt mb s' .weight [] = .ret (some (.num (lastWeight prog s.weight))) s' ∧
    call sqrt mb s' .posture [] = .ret (some (.posture (lastPosture ops s.pt.q))) s' ∧
    ∃ k d, LastGains sqrt ops (s.stiffness, s.damping) (k, d) ∧
      call sqrt mb s' .stiffness [] = .ret (some (.num k)) s' ∧
      call sqrt mb s' .damping [] = .ret (some (.num d)) s' := by
  obtain ⟨h1, h2⟩ := C117_history sqrt mb ht h
  obtain ⟨h3, h4⟩ := run_readings h2
  refine ⟨?_, ?_, s'.stiffness, s'.damping, h4, rfl, rfl⟩
  · rw [← h1]; rfl
  · rw [← h3]; rfl

end

section
variable {K : Type} [Field K] [LinearOrder K] [IsStrictOrderedRing K]

open PyPosture.Spec Verif.Spec

/-- **C117**: the objective of the task of a program is the one of C47 for the calls it asks for, times the last weight it
gave. -/
theorem C117_objective_partial {sqrt : K → Out K} (hs : SqrtOK sqrt) {mb : MultiBody K} (hdof : PostureDofs mb)
    {free : Bool} (hfree : free = true → jdof mb 0 = 6) {w k : K} {rI : ℕ} {q : List (List K)} {junk : ℕ → ℕ → K}
    {s0 s s' : Posture K} {prog : List (Stmt K)} {ops : List (PostureOp K)} {env : PostureEnv K}
    (halpha : mb.nrDof ≤ env.alpha.flatten.length) (h0 : Posture.make sqrt mb free rI q k w junk = .ok s0)
    (ht : Trace prog ops) (h1 : PyPosture.exec sqrt mb prog s0 = some s) (h2 : s.update mb env = .ok s')
    (v : Verif.Spec.PostureSet K) (hv : v = ops.foldl (·.apply rI) (initPosture mb q k))
    (hroot : ∀ e ∈ v.js, ∀ c < jpos mb 1, ¬ ColOf mb e.1 c) :
    s'.task.begin' = (v.b, v.b) ∧ s'.task.weight = lastWeight prog w ∧ s'.task.Q.rows = mb.nrDof ∧
    s'.task.Q.cols = mb.nrDof ∧ s'.task.C.size = mb.nrDof ∧
    ∃ err tgt, IsPostureErr mb v.q env err ∧ IsPostureTarget mb v env err tgt ∧
    ∃ const, ∀ x : ℕ → K, s'.task.obj x = lastWeight prog w * (∑ c ∈ Finset.range mb.nrDof,
      v.W.get c * (if jpos mb 1 ≤ c then (x (v.b + c) - tgt c) ^ 2
        else if free = true then 0 else x (v.b + c) ^ 2)) / 2 - const := by
  obtain ⟨e1, e2⟩ := C117_history sqrt mb ht h1
  have h0' : Posture.make sqrt mb free rI q k (lastWeight prog w) junk = .ok { s0 with
      weight := lastWeight prog w } ∧ s0.weight = w := by
    unfold Posture.make at h0 ⊢
    obtain ⟨pt, a1, h0⟩ := Out.bind_eq_ok.1 h0
    obtain ⟨r, a2, h0⟩ := Out.bind_eq_ok.1 h0
    cases h0
    exact ⟨(bind_ok _ a1).trans (bind_ok _ a2), rfl⟩
  have e3 := run_weight (lastWeight prog w) e2
  rw [h0'.2] at e1
  have e4 : forEach ops (Posture.step sqrt mb) { s0 with
      weight := lastWeight prog w } = .ok s := by
    rw [e3, ← e1]
  exact C47_objective_partial hs hdof hfree halpha h0'.1 e4 h2 v hv hroot

end

/-! ## Names -/

section
variable {K : Type}

namespace Spec

/-- ASCII text. -/
def Ascii (cs : List Char) : Prop := ∀ c ∈ cs, c.toNat < 128

/-- The value is this name: an ASCII `str`, or `bytes`. -/
inductive IsName : PyV K → String → Prop
  | str (cs) : Ascii cs → IsName (.str cs) (String.ofList cs)
  | bytes (cs) : IsName (.bytes cs) (String.ofList cs)

/-- What the first call leaves at the place of a name. -/
inductive Encoded : PyV K → PyV K → Prop
  | str (cs) : Encoded (.str cs) (.bytes cs)
  | same (v) : (∀ cs, v ≠ .str cs) → Encoded v v

end Spec

open PyPosture.Spec

theorem all_ascii (cs : List Char) : cs.all (fun c => c.toNat < 128) = true ↔ Ascii cs := by
  simp [Ascii]

/-- **C117**: the names reach C++ in the order of the list if and only if each is an ASCII `str` or `bytes`; otherwise the
call raises. -/
theorem C117_names (l : List (PyV K)) (ns : List String) :
    (selectorNames .list l).2 = some ns ↔ List.Forall₂ IsName l ns := by
  induction l generalizing ns with
  | nil => cases ns <;> simp [selectorNames, encodeAll]
  | cons v l ih =>
    simp only [selectorNames] at ih ⊢
    have hcons : ∀ (u : PyV K), (∀ n, asName u = some n ↔ IsName v n) →
        ((if (encodeAll .list l).2 then (u :: (encodeAll .list l).1).mapM asName else none) = some ns ↔
          List.Forall₂ IsName (v :: l) ns) := by
      intro u hu
      cases he : (encodeAll SeqKind.list l).2 with
      | false =>
        simp only [he, Bool.false_eq_true, if_false, reduceCtorEq, false_iff] at ih ⊢
        intro hf
        cases ns with
        | nil => cases hf
        | cons n ns => exact ih ns (List.forall₂_cons.1 hf).2
      | true =>
        simp only [he, if_true] at ih ⊢
        rw [List.mapM_cons]
        cases ns with
        | nil =>
          have : ¬ List.Forall₂ IsName (v :: l) [] := by rintro ⟨⟩
          simp only [this, iff_false]
          cases asName u
          · simp
          · cases (encodeAll SeqKind.list l).1.mapM asName <;> simp
        | cons n ns =>
          rw [List.forall₂_cons, ← hu n, ← ih ns]
          cases asName u <;> simp
          cases (encodeAll SeqKind.list l).1.mapM asName <;> simp
    cases v with
    | str cs =>
      by_cases hc : Ascii cs
      · have : cs.all (fun c => decide (c.toNat < 128)) = true := (all_ascii cs).2 hc
        simp only [encodeAll, this, and_self, if_true]
        apply hcons
        intro n
        constructor
        · intro h; cases h; exact .str cs hc
        · rintro (_ | _); rfl
      · have : ¬ cs.all (fun c => decide (c.toNat < 128)) = true := fun h => hc ((all_ascii cs).1 h)
        simp only [encodeAll, this, and_false, if_false, Bool.false_eq_true, reduceCtorEq, false_iff]
        intro hf
        cases hf with
        | cons h _ => cases h with | str _ h => exact hc h
    | bytes cs =>
      simp only [encodeAll]
      apply hcons
      intro n
      constructor
      · intro h; cases h; exact .bytes cs
      · rintro (_ | _); rfl
    | _ =>
      simp only [encodeAll]
      apply hcons
      intro n
      simp only [asName, reduceCtorEq, false_iff]
      rintro ⟨⟩

/-- **C117**: after a call that did not raise, each `str` of the list is the `bytes` of its characters, and the rest of
the list is as it was. -/
theorem C117_names_list (l : List (PyV K)) (ns : List String) (h : (selectorNames .list l).2 = some ns) :
    List.Forall₂ Encoded l (selectorNames .list l).1 := by
  simp only [selectorNames] at h ⊢
  have h' : (encodeAll .list l).2 = true := by
    by_contra hc
    rw [if_neg hc] at h
    simp at h
  clear h
  induction l with
  | nil => exact .nil
  | cons v l ih =>
    cases v with
    | str cs =>
      simp only [encodeAll] at h' ⊢
      split at h'
      · rename_i hc
        rw [if_pos hc]
        exact .cons (.str cs) (ih h')
      · simp at h'
    | _ =>
      simp only [encodeAll] at h' ⊢
      exact .cons (.same _ (by simp)) (ih h')

theorem encodeAll_again (l : List (PyV K)) : encodeAll .list (encodeAll .list l).1 = encodeAll .list l := by
  induction l with
  | nil => rfl
  | cons v l ih =>
    cases v with
    | str cs =>
      by_cases hc : cs.all (fun c => decide (c.toNat < 128)) = true
      · simp only [encodeAll, hc, and_self, if_true, ih]
      · have hc' : ¬ (True ∧ cs.all (fun c => decide (c.toNat < 128)) = true) := fun h => hc h.2
        simp only [encodeAll, if_neg hc']
    | _ => simp only [encodeAll, ih]

/-- **C117**: a second call with the same list, which the first one may have changed, gives C++ the same names, or raises
as the first did. -/
theorem C117_names_again (l : List (PyV K)) :
    selectorNames .list (selectorNames .list l).1 = selectorNames .list l := by
  simp only [selectorNames, encodeAll_again]

/-- **C117**, where the code does not do what is expected: the list of the caller is changed as soon as it has an ASCII
`str` before any other `str`, also when the call then raises. -/
theorem C117_names_counterexample (a t : List (PyV K)) (cs : List Char) (ha : ∀ v ∈ a, ∀ c, v ≠ .str c)
    (hc : Ascii cs) : ∃ t', (selectorNames .list (a ++ .str cs :: t)).1 = a ++ .bytes cs :: t' := by
  simp only [selectorNames]
  induction a with
  | nil =>
    have : cs.all (fun c => decide (c.toNat < 128)) = true := (all_ascii cs).2 hc
    exact ⟨(encodeAll .list t).1, by simp only [List.nil_append, encodeAll, this, and_self, if_true]⟩
  | cons v a ih =>
    obtain ⟨t', ht⟩ := ih fun u hu => ha u (List.mem_cons_of_mem _ hu)
    refine ⟨t', ?_⟩
    have hv := ha v List.mem_cons_self
    cases v with
    | str c => exact absurd rfl (hv c)
    | _ => simp only [List.cons_append, encodeAll, ht]

/-- **C117**, where the code does not do what is expected: a tuple with a `str` raises, whatever the text, while a tuple
of `bytes` does not. -/
theorem C117_names_tuple_counterexample (l : List (PyV K)) :
    (selectorNames .tuple l).1 = l ∧
    ((∃ cs, .str cs ∈ l) → (selectorNames .tuple l).2 = none) ∧
    ∀ ns : List (List Char), l = ns.map .bytes → (selectorNames .tuple l).2 = some (ns.map String.ofList) := by
  refine ⟨?_, ?_, ?_⟩
  · simp only [selectorNames]
    induction l with
    | nil => rfl
    | cons v l ih =>
      cases v <;> simp [encodeAll, ih]
  · rintro ⟨cs, hcs⟩
    have : (encodeAll .tuple l).2 = false := by
      induction l with
      | nil => simp at hcs
      | cons v l ih =>
        rcases List.mem_cons.1 hcs with rfl | h
        · simp [encodeAll]
        · cases v <;> simp [encodeAll, ih h]
    simp [selectorNames, this]
  · rintro ns rfl
    induction ns with
    | nil => simp [selectorNames, encodeAll]
    | cons n ns ih =>
      simp only [selectorNames] at ih
      have h2 : (encodeAll (K := K) .tuple (ns.map .bytes)).2 = true := by
        by_contra hc
        rw [if_neg hc] at ih
        simp at ih
      rw [if_pos h2] at ih
      simp [selectorNames, encodeAll, h2, List.mapM_cons, asName, ih]

/-- **C117**, where the code does not do what is expected: the constructor takes `bytes` only, and only in a `list`;
`ActiveJoints` and `UnactiveJoints` take `str` as well. -/
theorem C117_ctor_counterexample (l : List (PyV K)) (ns : List String) :
    (ctorNames .list l = some ns → (selectorNames .list l) = (l, some ns)) ∧
    ((∃ cs, .str cs ∈ l) → ctorNames .list l = none) ∧ ctorNames .tuple l = none := by
  refine ⟨?_, ?_, rfl⟩
  · intro h
    have hf := (mapM_iff (R := fun v n => asName v = some n) (fun _ _ => Iff.rfl) l ns).1 h
    have hall : encodeAll .list l = (l, true) := by
      clear h
      induction hf with
      | nil => rfl
      | @cons v n l ns h1 _ ih =>
        cases v with
        | str cs => simp [asName] at h1
        | _ => simp [encodeAll, ih]
    simp only [selectorNames, hall, if_true]
    exact congrArg _ h
  · rintro ⟨cs, hcs⟩
    cases hm : ctorNames .list l with
    | none => rfl
    | some ns =>
      have hf := (mapM_iff (R := fun v n => asName v = some n) (fun _ _ => Iff.rfl) l ns).1 hm
      exfalso
      clear hm
      induction hf with
      | nil => simp at hcs
      | cons h1 _ ih =>
        rcases List.mem_cons.1 hcs with rfl | h
        · simp [asName] at h1
        · exact ih h

end

namespace Ex

open PyPosture.Spec

/-- `t.weight(3)`, `t.gains(4)`, `t.posture((['x'],))`, `t.posture([(), [5], b"", (7,)])`, `t.stiffness("4")`, `t.posture()`,
`t.jointsGains(mbs, JointGains("b", 1, 0))`. -/
def prog : List (Stmt ℚ) :=
  [.call .weight [.num 3], .call .gains [.num 4], .call .posture [.tuple [.list [.str ['x']]]],
    .call .posture [.list [.tuple [], .list [.num 5], .bytes [], .tuple [.num 7]]],
    .call .stiffness [.str ['4']], .call .posture [], .call .jointsGains [.mbs, .jg "b" 1 0]]

/-- Three C++ calls. -/
def ops : List (PostureOp ℚ) := [.stiffness 4, .posture [[], [5], [], [7]], .jointsGains [("b", 1, 0)]]

example : Trace prog ops := by
  refine .other (by rintro o ⟨⟩) (.asks (.gain 4) (.other ?_ (.asks (.posture _ _ ?_) (.other (by rintro o ⟨⟩)
    (.other (by rintro o ⟨⟩) (.asks (.jointsGains _ [("b", 1, 0)] rfl) .nil))))))
  · rintro o h
    cases h with
    | posture v q h =>
      have := (asPosture_iff _ _).2 h
      simp [asPosture, items, asDoubles, asDouble] at this
  · exact (asPosture_iff _ _).1 rfl

example : ∃ s0 s, Posture.make SetPointEx.sq PostureEx.mb false 0 [[], [0], [1, 0, 0, 0], [0]] 1 10 (fun _ _ => 7) = .ok s0 ∧
    exec SetPointEx.sq PostureEx.mb prog s0 = some s ∧ s.weight = 3 ∧ s.stiffness = 4 ∧ s.damping = 2 * 2 ∧
    s.pt.q = [[], [5], [], [7]] ∧ s.jd.map (fun g => (g.stiffness, g.damping, g.start, g.size)) = [(1, 0, 4, 1)] := by
  refine ⟨_, _, rfl, rfl, rfl, rfl, rfl, rfl, rfl⟩

/-- `None` in the list of gains. -/
example (s : Posture ℚ) : call SetPointEx.sq PostureEx.mb s .jointsStiffness [.mbs, .list [.js "b" 4, .none]] = .ub := rfl

/-- An object that is no gain before `None`. -/
example (s : Posture ℚ) : call SetPointEx.sq PostureEx.mb s .jointsStiffness [.mbs, .list [.num 4, .none]] = .raises := rfl

/-- Two calls with one list of names; the second name is not ASCII. -/
example : selectorNames (K := ℚ) .list [.str ['a'], .bytes ['b']] = ([.bytes ['a'], .bytes ['b']], some ["a", "b"]) := by
  simp [selectorNames, encodeAll, asName]

example : selectorNames (K := ℚ) .list [.str ['a'], .str ['é'], .str ['b']] =
    ([.bytes ['a'], .str ['é'], .str ['b']], none) := by
  simp [selectorNames, encodeAll]

end Ex

end Verif.PyPosture
