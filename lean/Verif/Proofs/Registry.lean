import Verif.Model.Registry
import Mathlib.Data.List.Nodup

/-! # Helper lemmas about the registries -/

set_option autoImplicit false

namespace Verif

variable {Ob : Type} [DecidableEq Ob]

theorem addToSolver_constr (parts : Ob → List Part) (s : Regs Ob) (o : Ob) :
    (addToSolver parts s o).constr = regAdd s.constr o := by
  unfold addToSolver
  generalize hs : ({ s with constr := regAdd s.constr o } : Regs Ob) = s0
  have : s0.constr = regAdd s.constr o := by rw [← hs]
  rw [← this]
  clear hs this
  induction parts o generalizing s0 with
  | nil => rfl
  | cons p t ih => rw [List.foldl_cons, ih]; rfl

theorem addToSolver_rows (parts : Ob → List Part) (s : Regs Ob) (o : Ob) (p : Part) :
    (addToSolver parts s o).rows p = s.rows p ++ List.replicate ((parts o).count p) o := by
  unfold addToSolver
  generalize hs : ({ s with constr := regAdd s.constr o } : Regs Ob) = s0
  have : s0.rows p = s.rows p := by rw [← hs]
  rw [← this]
  clear hs this
  induction parts o generalizing s0 with
  | nil => simp
  | cons q t ih =>
    rw [List.foldl_cons, ih]
    by_cases h : p = q
    · subst h
      simp [addPart, List.replicate_succ]
    · simp [addPart, h, Ne.symm h]

theorem removePart_ok {o : Ob} {p : Part} {s : Regs Ob} (h : o ∈ s.rows p) :
    removePart o p s
      = .ok { s with rows := fun q => if q = p then (s.rows q).erase o else s.rows q } := by
  simp [removePart, h]

theorem removePart_ub {o : Ob} {p : Part} {s : Regs Ob} (h : o ∉ s.rows p) :
    removePart o p s = .ub := by
  simp [removePart, h]

/-- `removeFromSolver` with distinct parts: succeeds iff the object is in all its row lists. -/
theorem removeParts_ok (o : Ob) (ps : List Part) (hp : ps.Nodup) (s : Regs Ob)
    (h : ∀ p ∈ ps, o ∈ s.rows p) :
    forEach ps (fun p s => removePart o p s) s = .ok
      ⟨s.constr, fun q => if q ∈ ps then (s.rows q).erase o else s.rows q⟩ := by
  induction ps generalizing s with
  | nil => simp [forEach]
  | cons p t ih =>
    have hpt : p ∉ t := (List.nodup_cons.mp hp).1
    simp only [forEach, removePart_ok (h p (by simp)), Out.ok_bind]
    rw [ih (List.nodup_cons.mp hp).2]
    · simp only [Out.ok.injEq, Regs.mk.injEq, true_and]
      funext q
      by_cases hq : q = p
      · subst hq; simp [hpt]
      · simp [hq]
    · intro q hq
      have : q ≠ p := fun e => hpt (e ▸ hq)
      simp only [this, if_false]
      exact h q (by simp [hq])

theorem removeParts_ub (o : Ob) (ps : List Part) (s : Regs Ob)
    (p : Part) (hp : p ∈ ps) (h : o ∉ s.rows p) :
    forEach ps (fun p s => removePart o p s) s = .ub := by
  induction ps generalizing s with
  | nil => simp at hp
  | cons q t ih =>
    simp only [forEach]
    by_cases hq : o ∈ s.rows q
    · simp only [removePart_ok hq, Out.ok_bind]
      have hne : p ≠ q := fun e => h (e ▸ hq)
      apply ih
      · simpa [hne] using hp
      · simpa [hne] using h
    · simp [removePart_ub hq]

theorem regAdd_nodup {l : List Ob} (h : l.Nodup) (o : Ob) : (regAdd l o).Nodup := by
  unfold regAdd
  split
  · exact h
  · rename_i ho
    rw [List.nodup_append]
    exact ⟨h, by simp, by intro a ha b hb; simp at hb; subst hb; exact fun e => ho (e ▸ ha)⟩

theorem regRemove_nodup {l : List Ob} (h : l.Nodup) (o : Ob) : (regRemove l o).Nodup := by
  unfold regRemove
  split
  · exact h.erase o
  · exact h

end Verif
