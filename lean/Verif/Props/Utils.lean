import Verif.Model.Utils

/-!
# C17: the joint named in a constraint description

`findJointFromVector` is meant to return the joint owning dof `line`.  It compares with `<=` instead
of `<` and, without the base, starts the dof count at 1.  The theorems say where it is right, and
that it is wrong on the first dof of every joint but the first.
-/

set_option autoImplicit false

namespace Verif

namespace Spec
variable {K : Type}

/-- Number of dofs of the joints before `j`. -/
def dofsBefore (mb : MultiBody K) (j : ℕ) : ℕ := ((mb.joints.map Joint.dof).take j).sum

/-- Joint `j` owns dof number `line` of the robot. -/
def Owns (mb : MultiBody K) (line j : ℕ) : Prop :=
  ∃ J, mb.joints[j]? = some J ∧ dofsBefore mb j ≤ line ∧ line < dofsBefore mb j + J.dof

end Spec

open Spec

/-- What the loop returns: the first joint whose closed dof interval contains `line`. -/
theorem findJointLoop_spec (ds : List ℕ) (j : ℕ) (start line : ℤ) :
    (∃ i, i < ds.length ∧ findJointLoop ds j start line = ((j + i : ℕ) : ℤ) ∧
      start + ((ds.take i).sum : ℕ) ≤ line ∧ line ≤ start + ((ds.take (i + 1)).sum : ℕ) ∧
      ∀ i' < i, ¬ (start + ((ds.take i').sum : ℕ) ≤ line ∧
        line ≤ start + ((ds.take (i' + 1)).sum : ℕ))) ∨
    (findJointLoop ds j start line = -1 ∧ ∀ i < ds.length,
      ¬ (start + ((ds.take i).sum : ℕ) ≤ line ∧ line ≤ start + ((ds.take (i + 1)).sum : ℕ))) := by
  induction ds generalizing j start with
  | nil => right; simp [findJointLoop]
  | cons d ds ih =>
    unfold findJointLoop
    by_cases h : line ≥ start ∧ line ≤ start + d
    · left
      refine ⟨0, by simp, by simp [h], by simpa using h.1, by simpa using h.2, by simp⟩
    · rw [if_neg h]
      rcases ih (j + 1) (start + d) with ⟨i, hi, e, h1, h2, h3⟩ | ⟨e, h1⟩
      · left
        refine ⟨i + 1, by simpa using hi, by rw [e]; push_cast; ring, ?_, ?_, ?_⟩
        · simp only [List.take_succ_cons, List.sum_cons]; omega
        · rw [List.take_succ_cons, List.sum_cons]; omega
        · intro i' hi' hc
          cases i' with
          | zero =>
            apply h
            simpa using hc
          | succ k =>
            apply h3 k (by omega)
            rw [List.take_succ_cons, List.take_succ_cons, List.sum_cons, List.sum_cons] at hc
            omega
      · right
        refine ⟨e, ?_⟩
        intro i hi hc
        cases i with
        | zero => apply h; simpa using hc
        | succ k =>
          apply h1 k (by simpa using hi)
          rw [List.take_succ_cons, List.take_succ_cons, List.sum_cons, List.sum_cons] at hc
          omega

theorem dofsBefore_succ {K : Type} (mb : MultiBody K) {j : ℕ} {J : Joint K}
    (h : mb.joints[j]? = some J) : dofsBefore mb (j + 1) = dofsBefore mb j + J.dof := by
  have hj : j < mb.joints.length := by
    by_contra hn
    rw [List.getElem?_eq_none (by omega)] at h
    cases h
  have hJ : mb.joints[j] = J := by
    rw [List.getElem?_eq_getElem hj] at h; exact Option.some.inj h
  unfold dofsBefore
  rw [List.take_add_one, List.getElem?_eq_getElem (by simpa using hj)]
  simp [hJ]

theorem dofsBefore_mono {K : Type} (mb : MultiBody K) {i j : ℕ} (h : i ≤ j) :
    dofsBefore mb i ≤ dofsBefore mb j := by
  unfold dofsBefore
  generalize mb.joints.map Joint.dof = l
  rw [show j = i + (j - i) by omega, List.take_add]
  simp

/-- With the base: the result is the first joint `k` with
`dofsBefore k ≤ line ≤ dofsBefore (k+1)`, or -1 past the last dof. -/
theorem findJoint_base {K : Type} (mb : MultiBody K) (line : ℕ) :
    (∃ k, k < mb.joints.length ∧ findJointFromVector mb line true = (k : ℤ) ∧
      dofsBefore mb k ≤ line ∧ line ≤ dofsBefore mb (k + 1) ∧
      ∀ k' < k, ¬ (dofsBefore mb k' ≤ line ∧ line ≤ dofsBefore mb (k' + 1))) ∨
    (findJointFromVector mb line true = -1 ∧ ∀ k < mb.joints.length,
      ¬ (dofsBefore mb k ≤ line ∧ line ≤ dofsBefore mb (k + 1))) := by
  rcases findJointLoop_spec (mb.joints.map Joint.dof) 0 0 line with
    ⟨i, hi, e, h1, h2, h3⟩ | ⟨e, h1⟩
  · left
    refine ⟨i, by simpa using hi, by simpa [findJointFromVector] using e, ?_, ?_, ?_⟩
    · have : (((mb.joints.map Joint.dof).take i).sum : ℤ) ≤ line := by simpa using h1
      exact_mod_cast this
    · have : (line : ℤ) ≤ (((mb.joints.map Joint.dof).take (i + 1)).sum : ℕ) := by simpa using h2
      exact_mod_cast this
    · intro k' hk' ⟨a, b⟩
      apply h3 k' hk'
      unfold dofsBefore at a b
      constructor
      · rw [zero_add]; exact_mod_cast a
      · rw [zero_add]; exact_mod_cast b
  · right
    refine ⟨by simpa [findJointFromVector] using e, ?_⟩
    intro k hk ⟨a, b⟩
    apply h1 k (by simpa using hk)
    unfold dofsBefore at a b
    constructor
    · rw [zero_add]; exact_mod_cast a
    · rw [zero_add]; exact_mod_cast b

/-- The full property: the joint returned for `line` owns that dof. -/
def C17_full : Prop :=
  ∀ (mb : MultiBody ℚ) (line j : ℕ), Owns mb line j →
    findJointFromVector mb line true = j ∧ findJointFromVector mb line false = j

/-- **C17** (what holds, with the base): a dof that is not the first dof of its joint, or belongs to
the first joint, is attributed to the right joint.  Missing: the first dof of every later joint (see
`C17_first_dof_wrong`) and the variant without base (`C17_no_base_partial`). -/
theorem C17_with_base_partial {K : Type} (mb : MultiBody K) (line j : ℕ)
    (hown : Owns mb line j) (hin : dofsBefore mb j < line ∨ j = 0) :
    findJointFromVector mb line true = j := by
  obtain ⟨J, hJ, h1, h2⟩ := hown
  have hs := dofsBefore_succ mb hJ
  have hj : j < mb.joints.length := by
    by_contra hn; rw [List.getElem?_eq_none (by omega)] at hJ; cases hJ
  rcases findJoint_base mb line with ⟨k, hk, e, a, b, c⟩ | ⟨_, c⟩
  · rw [e]
    rcases Nat.lt_trichotomy k j with h | h | h
    · exfalso
      have := dofsBefore_mono mb (show k + 1 ≤ j by omega)
      rcases hin with hin | hin <;> omega
    · rw [h]
    · exact absurd ⟨h1, by omega⟩ (c j h)
  · exact absurd ⟨h1, by omega⟩ (c j hj)

/-- **C17** (violation, every robot): the first dof of every joint but the first is attributed to an
earlier joint. -/
theorem C17_first_dof_wrong {K : Type} (mb : MultiBody K) (line j : ℕ)
    (hown : Owns mb line j) (hfirst : line = dofsBefore mb j) (hj0 : 0 < j) :
    ∃ k : ℕ, k < j ∧ findJointFromVector mb line true = k := by
  obtain ⟨J, hJ, h1, h2⟩ := hown
  have hj : j < mb.joints.length := by
    by_contra hn; rw [List.getElem?_eq_none (by omega)] at hJ; cases hJ
  have hle := dofsBefore_mono mb (show j - 1 ≤ j by omega)
  have e1 : j - 1 + 1 = j := by omega
  rcases findJoint_base mb line with ⟨k, hk, e, a, b, c⟩ | ⟨_, c⟩
  · refine ⟨k, ?_, e⟩
    by_contra hn
    exact c (j - 1) (by omega) ⟨by omega, by rw [e1]; omega⟩
  · exact absurd ⟨by omega, by rw [e1]; omega⟩ (c (j - 1) (by omega))

/-- **C17** (range): with the base, an existing dof always gets some joint, and every line past the
end gives -1, hence undefined behaviour in the callers. -/
theorem C17_with_base_range {K : Type} (mb : MultiBody K) (line : ℕ) :
    (mb.joints ≠ [] → line ≤ mb.nrDof → ∃ s, descJoint mb line true = .ok s) ∧
    (mb.nrDof < line → findJointFromVector mb line true = -1 ∧ descJoint mb line true = .ub) := by
  have hlast : dofsBefore mb mb.joints.length = mb.nrDof := by
    unfold dofsBefore MultiBody.nrDof
    rw [List.take_of_length_le (by simp)]
  constructor
  · intro hne hl
    rcases findJoint_base mb line with ⟨k, hk, e, a, b, c⟩ | ⟨e, c⟩
    · refine ⟨mb.joints[k].name, ?_⟩
      simp only [descJoint, e, vecAtI_natCast, vecAt_ok hk]
      rfl
    · exfalso
      have : ∀ n ≤ mb.joints.length, dofsBefore mb n ≤ line → n < mb.joints.length →
          dofsBefore mb (n + 1) < line := by
        intro n _ h1 h2
        by_contra h3
        exact c n h2 ⟨h1, by omega⟩
      have key : ∀ n ≤ mb.joints.length, dofsBefore mb n ≤ line ∧ (0 < n → dofsBefore mb n < line) := by
        intro n
        induction n with
        | zero => intro _; exact ⟨by simp [dofsBefore], by simp⟩
        | succ n ih =>
          intro hn
          have := this n (by omega) (ih (by omega)).1 (by omega)
          exact ⟨by omega, fun _ => this⟩
      have h2 := (key _ le_rfl).2 (by
        cases h : mb.joints with
        | nil => exact absurd h hne
        | cons a t => simp)
      omega
  · intro hl
    have : findJointFromVector mb line true = -1 := by
      rcases findJoint_base mb line with ⟨k, hk, e, a, b, c⟩ | ⟨e, _⟩
      · have := dofsBefore_mono mb (show k + 1 ≤ mb.joints.length by omega)
        omega
      · exact e
    exact ⟨this, by simp [descJoint, this, vecAtI]⟩

/-- Without the base: first joint `k ≥ 1` with `1 + dofs(1..k-1) ≤ line ≤ 1 + dofs(1..k)`. -/
theorem findJoint_noBase {K : Type} (J0 : Joint K) (rest : List (Joint K)) (nb : ℕ)
    (mb : MultiBody K) (hmb : mb.joints = J0 :: rest) (_ : mb.nrBodies = nb) (line : ℕ) :
    (∃ k, 1 ≤ k ∧ k < mb.joints.length ∧ findJointFromVector mb line false = (k : ℤ) ∧
      1 + dofsBefore mb k ≤ line + J0.dof ∧ line + J0.dof ≤ 1 + dofsBefore mb (k + 1) ∧
      ∀ k' < k, 1 ≤ k' → ¬ (1 + dofsBefore mb k' ≤ line + J0.dof ∧
        line + J0.dof ≤ 1 + dofsBefore mb (k' + 1))) ∨
    (findJointFromVector mb line false = -1 ∧ ∀ k < mb.joints.length, 1 ≤ k →
      ¬ (1 + dofsBefore mb k ≤ line + J0.dof ∧ line + J0.dof ≤ 1 + dofsBefore mb (k + 1))) := by
  have hb : ∀ i, dofsBefore mb (i + 1) = J0.dof + ((rest.map Joint.dof).take i).sum := by
    intro i; simp [dofsBefore, hmb]
  have hf : findJointFromVector mb line false = findJointLoop (rest.map Joint.dof) 1 1 line := by
    simp [findJointFromVector, hmb]
  rw [hf]
  rcases findJointLoop_spec (rest.map Joint.dof) 1 1 line with ⟨i, hi, e, h1, h2, h3⟩ | ⟨e, h1⟩
  · left
    refine ⟨i + 1, by omega, by simpa [hmb] using hi, by rw [e]; push_cast; ring, ?_, ?_, ?_⟩
    · rw [hb]; omega
    · rw [hb]; omega
    · intro k' hk' h1' ⟨a, b⟩
      obtain ⟨m, rfl⟩ : ∃ m, k' = m + 1 := ⟨k' - 1, by omega⟩
      apply h3 m (by omega)
      rw [hb] at a b
      omega
  · right
    refine ⟨e, ?_⟩
    intro k hk h1' ⟨a, b⟩
    obtain ⟨m, rfl⟩ : ∃ m, k = m + 1 := ⟨k - 1, by omega⟩
    apply h1 m (by simpa [hmb] using hk)
    rw [hb] at a b
    omega

/-- **C17** (what holds, without the base): the answer is right when the first joint has exactly one
dof and the dof is not the first of its joint.  Missing: everything else (see the theorems below). -/
theorem C17_no_base_partial {K : Type} (mb : MultiBody K) (J0 : Joint K) (rest : List (Joint K))
    (hmb : mb.joints = J0 :: rest) (hdof : J0.dof = 1) (line j : ℕ)
    (hown : Owns mb line j) (hj1 : 1 ≤ j) (hin : dofsBefore mb j < line ∨ j = 1) :
    findJointFromVector mb line false = j := by
  obtain ⟨J, hJ, h1, h2⟩ := hown
  have hs := dofsBefore_succ mb hJ
  have hj : j < mb.joints.length := by
    by_contra hn; rw [List.getElem?_eq_none (by omega)] at hJ; cases hJ
  rcases findJoint_noBase J0 rest _ mb hmb rfl line with ⟨k, hk1, hk, e, a, b, c⟩ | ⟨_, c⟩
  · rw [e]
    rcases Nat.lt_trichotomy k j with h | h | h
    · exfalso
      have := dofsBefore_mono mb (show k + 1 ≤ j by omega)
      rcases hin with hin | hin <;> omega
    · rw [h]
    · exact absurd ⟨by omega, by omega⟩ (c j h hj1)
  · exact absurd ⟨by omega, by omega⟩ (c j hj hj1)

/-- **C17** (violation, every robot): without the base, line 0 gives -1 and the description of the
first line of a joint limit constraint is undefined behaviour. -/
theorem C17_no_base_line_zero {K : Type} (mb : MultiBody K) :
    findJointFromVector mb 0 false = -1 ∧ descJoint mb 0 false = .ub := by
  have : findJointFromVector mb 0 false = -1 := by
    rcases findJointLoop_spec ((mb.joints.map Joint.dof).drop 1) 1 1 0 with
      ⟨i, hi, e, h1, h2, h3⟩ | ⟨e, h1⟩
    · exfalso
      have : (0 : ℤ) ≤ ((((mb.joints.map Joint.dof).drop 1).take i).sum : ℕ) := by positivity
      linarith
    · simpa [findJointFromVector] using e
  exact ⟨this, by simp [descJoint, this, vecAtI]⟩

/-- **C17** (violation, every fixed-base robot with one-dof joints): without the base the joint
returned never owns the line. -/
theorem C17_no_base_fixed_wrong {K : Type} (mb : MultiBody K) (J0 : Joint K)
    (rest : List (Joint K)) (hmb : mb.joints = J0 :: rest) (hdof : J0.dof = 0)
    (hone : ∀ J ∈ rest, J.dof ≤ 1) (line k : ℕ) (h : findJointFromVector mb line false = k) :
    ¬ Owns mb line k := by
  rintro ⟨J, hJ, h1, h2⟩
  have hs := dofsBefore_succ mb hJ
  rcases findJoint_noBase J0 rest _ mb hmb rfl line with ⟨k', hk1, hk, e, a, b, c⟩ | ⟨e, _⟩
  · have : k = k' := by
      have := h.symm.trans e; exact_mod_cast this
    subst this
    have hJ1 : J.dof ≤ 1 := by
      apply hone
      rw [hmb] at hJ
      obtain ⟨m, rfl⟩ : ∃ m, k = m + 1 := ⟨k - 1, by omega⟩
      exact List.mem_of_getElem? (by simpa using hJ)
    omega
  · rw [e] at h
    have : (0 : ℤ) ≤ (k : ℤ) := by positivity
    omega

/-- The property as stated does not hold. -/
theorem C17_counterexample : ¬ C17_full := by
  intro h
  have := h ⟨[⟨"a", 1, none⟩, ⟨"b", 1, none⟩], 2, [], []⟩ 1 1 ⟨⟨"b", 1, none⟩, rfl, by decide, by decide⟩
  exact absurd this.1 (by decide)

/-! Non-trivial cases: a free-flyer (6 dofs), a spherical joint and a revolute joint. -/

/-- A floating-base robot used in the examples. -/
def exFloat : MultiBody ℚ :=
  ⟨[⟨"root", 6, none⟩, ⟨"ball", 3, none⟩, ⟨"knee", 1, none⟩], 3, [], []⟩

example : Owns exFloat 7 1 ∧ dofsBefore exFloat 1 < 7 :=
  ⟨⟨⟨"ball", 3, none⟩, rfl, by decide, by decide⟩, by decide⟩
example : findJointFromVector exFloat 7 true = 1 := by decide
example : Owns exFloat 9 2 ∧ 9 = dofsBefore exFloat 2 ∧ findJointFromVector exFloat 9 true = 1 :=
  ⟨⟨⟨"knee", 1, none⟩, rfl, by decide, by decide⟩, by decide, by decide⟩
example : exFloat.nrDof < 11 ∧ descJoint exFloat 11 true = .ub := by decide
/-- Without base, one-dof first joint, dof strictly inside a spherical joint. -/
example : ∃ mb : MultiBody ℚ, mb.joints = [⟨"a", 1, none⟩, ⟨"b", 3, none⟩] ∧ Owns mb 2 1 ∧
    findJointFromVector mb 2 false = 1 :=
  ⟨⟨_, 2, [], []⟩, rfl, ⟨⟨"b", 3, none⟩, rfl, by decide, by decide⟩, by decide⟩
/-- Without base, fixed base, one-dof joints: line 1 belongs to joint 2 but joint 1 is named. -/
example : ∃ mb : MultiBody ℚ, mb.joints = [⟨"root", 0, none⟩, ⟨"a", 1, none⟩, ⟨"b", 1, none⟩] ∧
    Owns mb 1 2 ∧ findJointFromVector mb 1 false = 1 ∧ descJoint mb 1 false = .ok "a" :=
  ⟨⟨_, 3, [], []⟩, rfl, ⟨⟨"b", 1, none⟩, rfl, by decide, by decide⟩, by decide, by decide⟩

end Verif
