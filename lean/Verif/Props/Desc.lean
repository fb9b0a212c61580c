import Verif.Props.Utils
import Verif.Model.Limits
import Verif.Model.Motion

/-!
# C17 in terms of the names printed

What the descriptions of joint limits, damped joint limits and torque limits print, from the index
theorems of `Props/Utils`.
-/

set_option autoImplicit false

namespace Verif

open Spec

section
variable {K : Type} [Field K] [LinearOrder K] [IsStrictOrderedRing K]

namespace Spec

/-- The name of the joint that owns dof `line`. -/
def OwnerName (mb : MultiBody K) (line : ℕ) (n : String) : Prop :=
  ∃ j J, Owns mb line j ∧ mb.joints[j]? = some J ∧ J.name = n

end Spec

theorem descJoint_of {mb : MultiBody K} {line j : ℕ} {b : Bool} {J : Joint K}
    (h : findJointFromVector mb line b = j) (hJ : mb.joints[j]? = some J) :
    descJoint mb line b = .ok J.name := by
  unfold descJoint
  rw [h, vecAtI_natCast]
  unfold vecAt
  rw [hJ]
  rfl

/-- A torque limit violated on a dof that is not the first of its joint, or on the first joint, is reported
under the name of that joint. -/
theorem C17_torque_name_partial {mb : MultiBody K} {line j : ℕ} (hown : Owns mb line j)
    (hin : dofsBefore mb j < line ∨ j = 0) :
    ∃ n, MotionCommon.descGenInEq mb line = .ok n ∧ OwnerName mb line n := by
  obtain ⟨J, hJ, h⟩ := id hown
  exact ⟨J.name, descJoint_of (C17_with_base_partial mb line j hown hin) hJ, j, J, hown, hJ, rfl⟩

/-- On every robot with distinct joint names, a torque limit violated on the first dof of a joint other
than the first is reported under the name of another joint. -/
theorem C17_torque_name_wrong {mb : MultiBody K} (hnames : (mb.joints.map Joint.name).Nodup)
    {line j : ℕ} (hown : Owns mb line j) (hfirst : line = dofsBefore mb j) (hj0 : 0 < j) :
    ∃ n, MotionCommon.descGenInEq mb line = .ok n ∧ ¬ OwnerName mb line n := by
  obtain ⟨k, hk, e⟩ := C17_first_dof_wrong mb line j hown hfirst hj0
  obtain ⟨J, hJ, h1, h2⟩ := id hown
  have hj : j < mb.joints.length := by
    by_contra hn
    rw [List.getElem?_eq_none (by omega)] at hJ
    cases hJ
  refine ⟨mb.joints[k].name, descJoint_of e (List.getElem?_eq_getElem (by omega)), ?_⟩
  rintro ⟨i, I, ⟨I', hI', i1, i2⟩, hI, hn⟩
  rw [hI] at hI'
  obtain rfl := Option.some.inj hI'
  have hij : i = j := by
    rcases Nat.lt_trichotomy i j with h | h | h
    · have := dofsBefore_mono mb (show i + 1 ≤ j by omega)
      rw [dofsBefore_succ mb hI] at this
      omega
    · exact h
    · have := dofsBefore_mono mb (show j + 1 ≤ i by omega)
      rw [dofsBefore_succ mb hJ] at this
      omega
  subst hij
  rw [hJ] at hI
  obtain rfl := Option.some.inj hI
  have hJe : mb.joints[i] = J := by
    rw [List.getElem?_eq_getElem hj] at hJ
    exact Option.some.inj hJ
  have hinj := (List.nodup_iff_injective_getElem.1 hnames) (a₁ := ⟨i, by simpa using hj⟩)
    (a₂ := ⟨k, by simpa using hk.trans hj⟩) (by simp [hJe, hn])
  have := congrArg Fin.val hinj
  simp only at this
  omega

/-- On every fixed-base robot with joints of at most one dof and distinct names, the description of a
violated joint limit never names the joint that owns the line. -/
theorem C17_limits_name_wrong {mb : MultiBody K} (hnames : (mb.joints.map Joint.name).Nodup)
    {J0 : Joint K} {rest : List (Joint K)} (hmb : mb.joints = J0 :: rest) (hdof : J0.dof = 0)
    (hone : ∀ J ∈ rest, J.dof ≤ 1) (line : ℕ) :
    ∀ n, JointLimits.descBound mb line = .ok n → ¬ OwnerName mb line n := by
  intro n h
  unfold JointLimits.descBound descJoint at h
  obtain ⟨I, hI, h⟩ := Out.bind_eq_ok.1 h
  obtain rfl := Out.ok.inj h
  obtain ⟨k, hk⟩ : ∃ k : ℕ, findJointFromVector mb line false = k := by
    unfold vecAtI at hI
    split_ifs at hI with h0
    exact ⟨_, (Int.toNat_of_nonneg (by omega)).symm⟩
  rw [hk, vecAtI_natCast] at hI
  have hIk : mb.joints[k]? = some I := by
    unfold vecAt at hI
    cases e : mb.joints[k]? with
    | none => rw [e] at hI; cases hI
    | some _ => rw [e] at hI; exact congrArg some (Out.ok.inj hI)
  have hno := C17_no_base_fixed_wrong mb J0 rest hmb hdof hone line k hk
  rintro ⟨i, I', hown, hI', hn⟩
  have hl : i < mb.joints.length := (List.getElem?_eq_some_iff.1 hI').1
  have hl' : k < mb.joints.length := (List.getElem?_eq_some_iff.1 hIk).1
  have hinj := (List.nodup_iff_injective_getElem.1 hnames) (a₁ := ⟨i, by simpa using hl⟩)
    (a₂ := ⟨k, by simpa using hl'⟩)
    (by simp [(List.getElem?_eq_some_iff.1 hI').2, (List.getElem?_eq_some_iff.1 hIk).2, hn])
  have := congrArg Fin.val hinj
  simp only at this
  subst this
  exact hno hown

/-- On every robot whose first joint has one dof, the limits of the other joints are reported under the
right name, except on the first dof of the third joint and later ones. -/
theorem C17_limits_name_partial {mb : MultiBody K} {J0 : Joint K} {rest : List (Joint K)}
    (hmb : mb.joints = J0 :: rest) (hdof : J0.dof = 1) {line j : ℕ} (hown : Owns mb line j)
    (hj1 : 1 ≤ j) (hin : dofsBefore mb j < line ∨ j = 1) :
    ∃ n, JointLimits.descBound mb line = .ok n ∧ OwnerName mb line n := by
  obtain ⟨J, hJ, h⟩ := id hown
  exact ⟨J.name, descJoint_of (C17_no_base_partial mb J0 rest hmb hdof line j hown hj1 hin) hJ,
    j, J, hown, hJ, rfl⟩

end

/-- The hypotheses hold on a fixed-base arm; the second joint violates its limit and "a" is printed. -/
example : ∃ mb : MultiBody ℚ, mb.joints = [⟨"root", 0, none⟩, ⟨"a", 1, none⟩, ⟨"b", 1, none⟩] ∧
    (mb.joints.map Joint.name).Nodup ∧ OwnerName mb 1 "b" ∧ JointLimits.descBound mb 1 = .ok "a" ∧
    MotionCommon.descGenInEq mb 1 = .ok "a" :=
  ⟨⟨_, 3, [], []⟩, rfl, by decide, ⟨2, _, ⟨⟨"b", 1, none⟩, rfl, by decide, by decide⟩, rfl, rfl⟩,
    by decide, by decide⟩

end Verif
