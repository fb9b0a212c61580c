import Verif.Proofs.Layout
import Verif.Proofs.Mimic

/-! # The dependencies of well-formed robots are well-formed -/

set_option autoImplicit false
set_option linter.unusedSectionVars false

namespace Verif

namespace Spec
variable {K : Type}

/-- First degree of freedom of joint number `i`. -/
def dofBefore (mb : MultiBody K) (i : ℕ) : ℕ := ((mb.joints.take i).map Joint.dof).sum

/-- A robot as built by RBDyn: distinct joint names; a mimic joint and its leader have one degree of
freedom, the leader exists and is not itself a mimic joint. -/
def MimicOK (mb : MultiBody K) : Prop :=
  (mb.joints.map Joint.name).Nodup ∧
  ∀ j ∈ mb.joints, ∀ l m, j.mimic = some (l, m) →
    j.dof = 1 ∧ ∃ j' ∈ mb.joints, j'.name = l ∧ j'.mimic = none ∧ j'.dof = 1

end Spec

open Spec

variable {K : Type} [CommRing K]

theorem MimicOK.named {mb : MultiBody K} (h : MimicOK mb) : MimicNamed mb := by
  intro j hj l m hm
  obtain ⟨_, j', hj', hn, _⟩ := h.2 j hj l m hm
  exact ⟨j', hj', hn⟩

theorem findIdx_of_nodup {l : List (Joint K)} (h : (l.map Joint.name).Nodup) {i : ℕ} {j : Joint K}
    (hi : l[i]? = some j) : l.findIdx (fun k => k.name == j.name) = i := by
  obtain ⟨hlt, hget⟩ := List.getElem?_eq_some_iff.mp hi
  have hx : l.findIdx (fun k => k.name == j.name) < l.length :=
    List.findIdx_lt_length.mpr ⟨j, hget ▸ List.getElem_mem hlt, by simp⟩
  have hname := List.findIdx_getElem (w := hx)
  simp only [beq_iff_eq] at hname
  have := (List.Nodup.getElem_inj_iff h (i := l.findIdx (fun k => k.name == j.name)) (j := i)
    (hi := by simpa using hx) (hj := by simpa using hlt)).mp (by simp [hname, hget])
  exact this

theorem posOf_eq {mb : MultiBody K} (h : (mb.joints.map Joint.name).Nodup) {i : ℕ} {j : Joint K}
    (hi : mb.joints[i]? = some j) : posOf mb j.name = dofBefore mb i := by
  unfold posOf dofBefore
  rw [findIdx_of_nodup h hi]

theorem dofBefore_succ {mb : MultiBody K} {i : ℕ} {j : Joint K} (hi : mb.joints[i]? = some j) :
    dofBefore mb (i + 1) = dofBefore mb i + j.dof := by
  unfold dofBefore
  rw [List.take_add_one, hi]
  simp

theorem dofBefore_mono {mb : MultiBody K} {i k : ℕ} (h : i ≤ k) : dofBefore mb i ≤ dofBefore mb k := by
  unfold dofBefore
  have : mb.joints.take i <+: mb.joints.take k := List.take_prefix_take_left h
  obtain ⟨t, ht⟩ := this
  rw [← ht]
  simp

theorem dofBefore_le {mb : MultiBody K} {i : ℕ} : dofBefore mb i ≤ mb.nrDof := by
  unfold dofBefore MultiBody.nrDof
  obtain ⟨t, ht⟩ := List.take_prefix i mb.joints
  conv_rhs => rw [← ht]
  simp

theorem dofBefore_lt {mb : MultiBody K} {i : ℕ} {j : Joint K} (hi : mb.joints[i]? = some j)
    (hd : 0 < j.dof) : dofBefore mb i < mb.nrDof := by
  have := dofBefore_le (mb := mb) (i := i + 1)
  rw [dofBefore_succ hi] at this
  omega

/-- Joints with degrees of freedom start at different places. -/
theorem dofBefore_inj {mb : MultiBody K} {i k : ℕ} {j j' : Joint K} (hi : mb.joints[i]? = some j)
    (hk : mb.joints[k]? = some j') (hd : 0 < j.dof) (hd' : 0 < j'.dof)
    (h : dofBefore mb i = dofBefore mb k) : i = k := by
  rcases Nat.lt_trichotomy i k with hlt | rfl | hlt
  · have := dofBefore_mono (mb := mb) (show i + 1 ≤ k from hlt)
    rw [dofBefore_succ hi] at this
    omega
  · rfl
  · have := dofBefore_mono (mb := mb) (show k + 1 ≤ i from hlt)
    rw [dofBefore_succ hk] at this
    omega

/-- Dependencies of one robot. -/
theorem robotDeps_wf {mb : MultiBody K} (h : MimicOK mb) (b : ℕ) :
    ((robotDeps mb b).map fun d => d.2.1).Nodup ∧
    (∀ d ∈ robotDeps mb b, (b ≤ d.1 ∧ d.1 < b + mb.nrDof) ∧ (b ≤ d.2.1 ∧ d.2.1 < b + mb.nrDof)) ∧
    ∀ d ∈ robotDeps mb b, ∀ e ∈ robotDeps mb b, d.1 ≠ e.2.1 := by
  -- description of one dependency
  have desc : ∀ d ∈ robotDeps mb b, ∃ (i k : ℕ) (j j' : Joint K), mb.joints[i]? = some j ∧
      mb.joints[k]? = some j' ∧ j.dof = 1 ∧ j'.dof = 1 ∧ j.mimic ≠ none ∧ j'.mimic = none ∧
      d.1 = b + dofBefore mb k ∧ d.2.1 = b + dofBefore mb i := by
    intro d hd
    obtain ⟨j, hj, hm⟩ := List.mem_filterMap.mp hd
    obtain ⟨⟨l, m⟩, hlm, rfl⟩ := Option.map_eq_some_iff.mp hm
    obtain ⟨h1, j', hj', hn, hnm, hd'⟩ := h.2 j hj l m hlm
    obtain ⟨i, hi⟩ := List.mem_iff_getElem?.mp hj
    obtain ⟨k, hk⟩ := List.mem_iff_getElem?.mp hj'
    exact ⟨i, k, j, j', hi, hk, h1, hd', by simp [hlm], hnm, by simp [← hn, posOf_eq h.1 hk],
      by simp [posOf_eq h.1 hi]⟩
  refine ⟨?_, ?_, ?_⟩
  · unfold robotDeps
    rw [List.map_filterMap]
    rw [List.Nodup, List.pairwise_filterMap, List.pairwise_iff_getElem]
    intro i k hi hk hlt x hx y hy
    simp only [Option.map_map, Option.map_eq_some_iff, Function.comp] at hx hy
    obtain ⟨⟨l, m⟩, hl, rfl⟩ := hx
    obtain ⟨⟨l', m'⟩, hl', rfl⟩ := hy
    have ei : mb.joints[i]? = some mb.joints[i] := List.getElem?_eq_getElem hi
    have ek : mb.joints[k]? = some mb.joints[k] := List.getElem?_eq_getElem hk
    have d1 := (h.2 _ (List.getElem_mem hi) l m hl).1
    have d2 := (h.2 _ (List.getElem_mem hk) l' m' hl').1
    simp only [posOf_eq h.1 ei, posOf_eq h.1 ek]
    intro heq
    have := dofBefore_inj ei ek (by omega) (by omega) (by omega)
    omega
  · intro d hd
    obtain ⟨i, k, j, j', hi, hk, e1, e2, _, _, e3, e4⟩ := desc d hd
    have := dofBefore_lt hi (by omega)
    have := dofBefore_lt hk (by omega)
    omega
  · intro d hd e he heq
    obtain ⟨_, k, _, j', _, hk, _, e2, _, n1, e3, _⟩ := desc d hd
    obtain ⟨i, _, j, _, hi, _, e1, _, n2, _, _, e4⟩ := desc e he
    have := dofBefore_inj hk hi (by omega) (by omega) (by omega)
    subst this
    rw [hk] at hi
    cases hi
    exact n2 n1

/-- Dependencies of all the robots. -/
theorem allDeps_wf {mbs : List (MultiBody K)} (h : ∀ mb ∈ mbs, MimicOK mb) (b : ℕ) :
    ((allDeps mbs b).map fun d => d.2.1).Nodup ∧
    (∀ d ∈ allDeps mbs b, (b ≤ d.1 ∧ d.1 < b + (mbs.map MultiBody.nrDof).sum) ∧
      (b ≤ d.2.1 ∧ d.2.1 < b + (mbs.map MultiBody.nrDof).sum)) ∧
    ∀ d ∈ allDeps mbs b, ∀ e ∈ allDeps mbs b, d.1 ≠ e.2.1 := by
  induction mbs generalizing b with
  | nil => simp [allDeps]
  | cons mb t ih =>
    obtain ⟨a1, a2, a3⟩ := ih (fun m hm => h m (by simp [hm])) (b + mb.nrDof)
    obtain ⟨r1, r2, r3⟩ := robotDeps_wf (h mb (by simp)) b
    have r1' : ((if 0 < mb.nrDof then robotDeps mb b else []).map fun d : Dep K => d.2.1).Nodup := by
      split
      · exact r1
      · simp
    have sub : ∀ d, d ∈ (if 0 < mb.nrDof then robotDeps mb b else []) → d ∈ robotDeps mb b := by
      intro d hd
      split at hd
      · exact hd
      · simp at hd
    simp only [allDeps, List.map_append, List.map_cons, List.sum_cons]
    refine ⟨?_, ?_, ?_⟩
    · rw [List.nodup_append]
      refine ⟨r1', a1, ?_⟩
      intro x hx y hy
      obtain ⟨d, hd, rfl⟩ := List.mem_map.mp hx
      obtain ⟨e, he, rfl⟩ := List.mem_map.mp hy
      have := r2 d (sub d hd)
      have := a2 e he
      omega
    · intro d hd
      rcases List.mem_append.mp hd with hd | hd
      · have := r2 d (sub d hd); omega
      · have := a2 d hd; omega
    · intro d hd e he
      rcases List.mem_append.mp hd with hd | hd <;> rcases List.mem_append.mp he with he | he
      · exact r3 d (sub d hd) e (sub e he)
      · have := r2 d (sub d hd); have := a2 e he; omega
      · have := a2 d hd; have := r2 e (sub e he); omega
      · exact a3 d hd e he

theorem allDeps_DepsWF {mbs : List (MultiBody K)} (h : ∀ mb ∈ mbs, MimicOK mb) {n : ℕ}
    (hn : (mbs.map MultiBody.nrDof).sum ≤ n) : DepsWF n (allDeps mbs 0) := by
  obtain ⟨a1, a2, a3⟩ := allDeps_wf h 0
  exact ⟨a1, fun d hd => by have := a2 d hd; omega, a3⟩

/-- The dependency of a given mimic joint of a given robot. -/
theorem mem_allDeps {mbs : List (MultiBody K)} (h : ∀ mb ∈ mbs, MimicOK mb) {r : ℕ}
    {mb : MultiBody K} (hr : mbs[r]? = some mb) {i k : ℕ} {j j' : Joint K}
    (hi : mb.joints[i]? = some j) (hk : mb.joints[k]? = some j') {m : K}
    (hm : j.mimic = some (j'.name, m)) (b : ℕ) :
    (b + ((mbs.take r).map MultiBody.nrDof).sum + dofBefore mb k,
      b + ((mbs.take r).map MultiBody.nrDof).sum + dofBefore mb i, m) ∈ allDeps mbs b := by
  induction mbs generalizing r b with
  | nil => simp at hr
  | cons m0 t ih =>
    cases r with
    | zero =>
      simp at hr
      subst hr
      have hok := h m0 (by simp)
      have h1 := hok.2 j (List.mem_of_getElem? hi) _ _ hm
      have hpos := dofBefore_lt hi (by omega)
      simp only [allDeps, List.take_zero, List.map_nil, List.sum_nil, add_zero]
      rw [if_pos (by omega)]
      apply List.mem_append_left
      refine List.mem_filterMap.mpr ⟨j, List.mem_of_getElem? hi, ?_⟩
      rw [hm]
      simp [posOf_eq hok.1 hi, posOf_eq hok.1 hk]
    | succ r =>
      have := ih (fun m hm => h m (by simp [hm])) (r := r) (by simpa using hr) (b + m0.nrDof)
      simp only [allDeps, List.take_succ_cons, List.map_cons, List.sum_cons]
      apply List.mem_append_right
      convert this using 2
      · omega
      · congr 1; omega

/-- Every dependency is the one of some mimic joint. -/
theorem allDeps_desc {mbs : List (MultiBody K)} (h : ∀ mb ∈ mbs, MimicOK mb) (b : ℕ) :
    ∀ d ∈ allDeps mbs b, ∃ (r : ℕ) (mb : MultiBody K) (i k : ℕ) (j j' : Joint K) (m : K),
      mbs[r]? = some mb ∧ mb.joints[i]? = some j ∧ mb.joints[k]? = some j' ∧
      j.mimic = some (j'.name, m) ∧
      d = (b + ((mbs.take r).map MultiBody.nrDof).sum + dofBefore mb k,
        b + ((mbs.take r).map MultiBody.nrDof).sum + dofBefore mb i, m) := by
  induction mbs generalizing b with
  | nil => simp [allDeps]
  | cons m0 t ih =>
    intro d hd
    simp only [allDeps, List.mem_append] at hd
    rcases hd with hd | hd
    · split at hd
      · have hok := h m0 (by simp)
        obtain ⟨j, hj, hm⟩ := List.mem_filterMap.mp hd
        obtain ⟨⟨l, m⟩, hlm, rfl⟩ := Option.map_eq_some_iff.mp hm
        obtain ⟨_, j', hj', hn, _, _⟩ := hok.2 j hj l m hlm
        obtain ⟨i, hi⟩ := List.mem_iff_getElem?.mp hj
        obtain ⟨k, hk⟩ := List.mem_iff_getElem?.mp hj'
        refine ⟨0, m0, i, k, j, j', m, by simp, hi, hk, by rw [hn]; exact hlm, ?_⟩
        simp [← hn, posOf_eq hok.1 hk, posOf_eq hok.1 hi]
      · simp at hd
    · obtain ⟨r, mb, i, k, j, j', m, e1, e2, e3, e4, rfl⟩ :=
        ih (fun m hm => h m (by simp [hm])) (b + m0.nrDof) d hd
      refine ⟨r + 1, mb, i, k, j, j', m, by simpa using e1, e2, e3, e4, ?_⟩
      simp only [List.take_succ_cons, List.map_cons, List.sum_cons, Prod.mk.injEq, and_true]
      omega

end Verif
