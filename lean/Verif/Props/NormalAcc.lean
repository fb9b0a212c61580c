import Verif.Proofs.NormalAcc
import Verif.Proofs.Sizes
import Verif.Props.Layout

/-!
# C54: normal accelerations follow the kinematic recursion
-/

set_option autoImplicit false

namespace Verif

open Spec

variable {K R : Type} [CommRing K]

namespace Spec

/-- `d` is the data of a solver after `nrVars(mbs, uni, bi)`, whatever happened before, followed by
any number of control steps of the same robots. -/
inductive AfterNrVars (mbs : List (MultiBody K)) (uni : List (UniContact K))
    (bi : List (BiContact K)) : SolverData K → Prop where
  | nrVars {old d deps} (h : layout old mbs uni bi = .ok (d, deps)) : AfterNrVars mbs uni bi d
  | step {d d'} {R' : Type} (mbcs : List (Mbc K R')) (hd : AfterNrVars mbs uni bi d)
      (h : computeNormalAccB mbs mbcs d = .ok d') : AfterNrVars mbs uni bi d'

/-- Data of a solver after any history of `nrVars` calls and control steps. -/
inductive Reachable : SolverData K → Prop where
  | init : Reachable SolverData.init
  | nrVars {old d mbs uni bi deps} (hr : Reachable old)
      (h : layout old mbs uni bi = .ok (d, deps)) : Reachable d
  | step {d d'} {R' : Type} (mbs : List (MultiBody K)) (mbcs : List (Mbc K R'))
      (hr : Reachable d) (h : computeNormalAccB mbs mbcs d = .ok d') : Reachable d'

end Spec

theorem afterNrVars_inv {mbs : List (MultiBody K)} {uni : List (UniContact K)}
    {bi : List (BiContact K)} (hg : GoodInput mbs bi)
    (htree : ∀ mb ∈ mbs, 0 < mb.nrDof → Tree mb) {d : SolverData K}
    (h : AfterNrVars mbs uni bi d) :
    d.mobileRobotIndex = (List.range mbs.length).filter (isMobile mbs) ∧
    d.normalAccB.length = mbs.length ∧
    ∀ (r : ℕ) (mb : MultiBody K), mbs[r]? = some mb → ∃ acc, d.normalAccB[r]? = some acc ∧
      acc.length = mb.nrBodies := by
  induction h with
  | nrVars h =>
    obtain ⟨d', deps', e, s⟩ := layout_ok _ mbs uni bi hg.1 hg.2
    rw [h] at e
    cases e
    exact ⟨s.mobile, s.normLen, fun r mb hr => ⟨_, s.norm r mb hr, by simp [vecResize]; omega⟩⟩
  | step mbcs hd h ih =>
    obtain ⟨i1, i2, i3⟩ := ih
    rename_i d1 d2 R'
    -- one robot at a time
    have key : d2.mobileRobotIndex = d1.mobileRobotIndex ∧ d2.normalAccB.length = mbs.length ∧
        ∀ (r : ℕ) (mb : MultiBody K), mbs[r]? = some mb → ∃ acc, d2.normalAccB[r]? = some acc ∧
          acc.length = mb.nrBodies := by
      refine forEach_inv (fun t => t.mobileRobotIndex = d1.mobileRobotIndex ∧
        t.normalAccB.length = mbs.length ∧
        ∀ (r : ℕ) (mb : MultiBody K), mbs[r]? = some mb → ∃ acc, t.normalAccB[r]? = some acc ∧
          acc.length = mb.nrBodies) ⟨rfl, i2, i3⟩ ?_ h
      intro r _ t t' ⟨j1, j2, j3⟩ hstep
      simp only [normalAccRobot, Out.bind_eq_ok, Out.pure_eq, Out.ok.injEq] at hstep
      obtain ⟨mb, hmb, mbc, _, acc, hacc, acc', hacc', nB, hnB, rfl⟩ := hstep
      have hlen : acc'.length = acc.length := by
        refine forRange_pres (fun a : List (MV K) => a.length = acc.length) rfl ?_ hacc'
        intro i a a' ha hj
        simp only [normalAccJoint, Out.bind_eq_ok] at hj
        obtain ⟨X, _, vj, _, vb, _, p, _, s, _, hj⟩ := hj
        have hset : ∀ v, vecSet a s v = .ok a' → a'.length = acc.length := by
          intro v hv
          unfold vecSet at hv
          split at hv
          · cases hv; simpa using ha
          · cases hv
        split at hj
        · simp only [Out.bind_eq_ok] at hj
          obtain ⟨ap, _, hj⟩ := hj
          exact hset _ hj
        · exact hset _ hj
      have hr : r < t.normalAccB.length := by
        unfold vecSet at hnB
        split at hnB
        · assumption
        · cases hnB
      rw [vecSet_ok hr] at hnB
      cases hnB
      refine ⟨j1, by simpa using j2, fun k mb' hk => ?_⟩
      obtain ⟨acc0, ha0, hl0⟩ := j3 k mb' hk
      by_cases hkr : k = r
      · subst hkr
        refine ⟨acc', by simp [hr], ?_⟩
        rw [vecAt_eq_ok] at hacc hmb
        rw [ha0] at hacc
        cases hacc
        rw [hk] at hmb
        cases hmb
        omega
      · exact ⟨acc0, by simp only; rw [List.getElem?_set_ne (Ne.symm hkr)]; exact ha0, hl0⟩
    exact ⟨key.1.trans i1, key.2⟩

/-- **C54** (all but the last clause).  After `nrVars(mbs, ...)`, whatever the solver data held
before and after any number of earlier control steps, `computeNormalAccB` succeeds, and for every
movable robot and every joint `i` the normal acceleration of body `i` is
`X_p_i * a_pred + v_i × v_joint`, the world having normal acceleration zero.  The robots without
degrees of freedom are left as they were. -/
theorem C54_normal_recursion_partial {mbs : List (MultiBody K)} {uni : List (UniContact K)}
    {bi : List (BiContact K)} (hg : GoodInput mbs bi)
    (htree : ∀ mb ∈ mbs, 0 < mb.nrDof → Tree mb) {d : SolverData K}
    (h : AfterNrVars mbs uni bi d) (mbcs : List (Mbc K R))
    (hmbc : ∀ (r : ℕ) (mb : MultiBody K), mbs[r]? = some mb → 0 < mb.nrDof →
      ∃ mbc, mbcs[r]? = some mbc ∧ MbcSized mb mbc) :
    ∃ d', computeNormalAccB mbs mbcs d = .ok d' ∧ d' = { d with normalAccB := d'.normalAccB } ∧
      (∀ (r : ℕ) (mb : MultiBody K) (mbc : Mbc K R), mbs[r]? = some mb → mbcs[r]? = some mbc →
        0 < mb.nrDof → ∃ acc, d'.normalAccB[r]? = some acc ∧ acc.length = mb.nrBodies ∧
          ∀ i < mb.nrJoints, NormalRec mb mbc acc i) ∧
      ∀ (r : ℕ) (mb : MultiBody K), mbs[r]? = some mb → mb.nrDof = 0 →
        d'.normalAccB[r]? = d.normalAccB[r]? := by
  obtain ⟨i1, i2, i3⟩ := afterNrVars_inv hg htree h
  have mobile : ∀ r, r ∈ d.mobileRobotIndex ↔ ∃ mb, mbs[r]? = some mb ∧ 0 < mb.nrDof := by
    intro r
    rw [i1, List.mem_filter, List.mem_range]
    unfold isMobile
    constructor
    · rintro ⟨hr, hm⟩
      refine ⟨mbs[r], List.getElem?_eq_getElem hr, ?_⟩
      simpa [List.getElem?_eq_getElem hr] using hm
    · rintro ⟨mb, hmb, hpos⟩
      exact ⟨(List.getElem?_eq_some_iff.mp hmb).1, by simpa [hmb] using hpos⟩
  obtain ⟨nB, g1, g2, g3, g4⟩ := normalAcc_robots (mbs := mbs) (mbcs := mbcs)
    (l := d.mobileRobotIndex) (by rw [i1]; exact List.nodup_range.filter _) d (by
      intro r hr
      obtain ⟨mb, hmb, hpos⟩ := (mobile r).mp hr
      obtain ⟨mbc, hc, hs⟩ := hmbc r mb hmb hpos
      obtain ⟨acc, ha, hl⟩ := i3 r mb hmb
      exact ⟨mb, mbc, acc, hmb, hc, ha, htree mb (List.mem_of_getElem? hmb) hpos, hs, hl⟩)
  refine ⟨_, g1, rfl, ?_, ?_⟩
  · intro r mb mbc hmb hc hpos
    obtain ⟨acc, a1, a2, a3⟩ := g3 r ((mobile r).mpr ⟨mb, hmb, hpos⟩) mb mbc hmb hc
    exact ⟨acc, a1, by rw [a2, (htree mb (List.mem_of_getElem? hmb) hpos).bodies], a3⟩
  · intro r mb hmb h0
    refine g4 r (fun hr => ?_)
    obtain ⟨mb', hmb', hpos⟩ := (mobile r).mp hr
    rw [hmb] at hmb'
    cases hmb'
    omega

/-- **C54** (independence).  Two solvers configured for the same robots, with any two pasts, get the
same normal accelerations for every movable robot. -/
theorem C54_no_history_partial {mbs : List (MultiBody K)} {uni uni' : List (UniContact K)}
    {bi bi' : List (BiContact K)} (hg : GoodInput mbs bi) (hg' : GoodInput mbs bi')
    (htree : ∀ mb ∈ mbs, 0 < mb.nrDof → Tree mb) {d₁ d₂ : SolverData K}
    (h₁ : AfterNrVars mbs uni bi d₁) (h₂ : AfterNrVars mbs uni' bi' d₂) (mbcs : List (Mbc K R))
    (hmbc : ∀ (r : ℕ) (mb : MultiBody K), mbs[r]? = some mb → 0 < mb.nrDof →
      ∃ mbc, mbcs[r]? = some mbc ∧ MbcSized mb mbc) {d₁' d₂' : SolverData K}
    (e₁ : computeNormalAccB mbs mbcs d₁ = .ok d₁') (e₂ : computeNormalAccB mbs mbcs d₂ = .ok d₂')
    {r : ℕ} {mb : MultiBody K} (hr : mbs[r]? = some mb) (hpos : 0 < mb.nrDof) :
    d₁'.normalAccB[r]? = d₂'.normalAccB[r]? := by
  obtain ⟨a, ea, _, ra, _⟩ := C54_normal_recursion_partial hg htree h₁ mbcs hmbc
  obtain ⟨b, eb, _, rb, _⟩ := C54_normal_recursion_partial hg' htree h₂ mbcs hmbc
  rw [e₁] at ea; cases ea
  rw [e₂] at eb; cases eb
  obtain ⟨mbc, hc, _⟩ := hmbc r mb hr hpos
  obtain ⟨acc, p1, p2, p3⟩ := ra r mb mbc hr hc hpos
  obtain ⟨acc', q1, q2, q3⟩ := rb r mb mbc hr hc hpos
  have ht := htree mb (List.mem_of_getElem? hr) hpos
  rw [p1, q1, normalRec_unique ht (by rw [p2, ht.bodies]) (by rw [q2, ht.bodies]) p3 q3]

/-- What C54 claims of the robots without degrees of freedom: zero normal accelerations in every
reachable state. -/
def C54_fixed_full (K : Type) [CommRing K] : Prop :=
  ∀ (R : Type) (old d d' : SolverData K) (mbs : List (MultiBody K)) (uni : List (UniContact K))
    (bi : List (BiContact K)) (deps : List (Dep K)) (mbcs : List (Mbc K R)),
    Reachable old → layout old mbs uni bi = .ok (d, deps) → computeNormalAccB mbs mbcs d = .ok d' →
    ∀ (r : ℕ) (mb : MultiBody K) (acc : List (MV K)), mbs[r]? = some mb → mb.nrDof = 0 →
      d'.normalAccB[r]? = some acc → ∀ a ∈ acc, a = 0

/-- A robot index keeps zeros as long as it has never been used for a movable robot. -/
theorem C54_fixed_zero_partial {old d d' : SolverData K} {mbs : List (MultiBody K)}
    {uni : List (UniContact K)} {bi : List (BiContact K)} {deps : List (Dep K)}
    {mbcs : List (Mbc K R)} (hg : GoodInput mbs bi) (h : layout old mbs uni bi = .ok (d, deps))
    (htree : ∀ mb ∈ mbs, 0 < mb.nrDof → Tree mb)
    (hmbc : ∀ (r : ℕ) (mb : MultiBody K), mbs[r]? = some mb → 0 < mb.nrDof →
      ∃ mbc, mbcs[r]? = some mbc ∧ MbcSized mb mbc)
    (hc : computeNormalAccB mbs mbcs d = .ok d') {r : ℕ} {mb : MultiBody K} {acc : List (MV K)}
    (hr : mbs[r]? = some mb) (h0 : mb.nrDof = 0)
    (hold : ∀ acc₀, old.normalAccB[r]? = some acc₀ → ∀ a ∈ acc₀, a = 0)
    (ha : d'.normalAccB[r]? = some acc) : ∀ a ∈ acc, a = 0 := by
  obtain ⟨d1, e1, s⟩ := layout_ok old mbs uni bi hg.1 hg.2
  obtain ⟨e1, s⟩ := s
  rw [h] at e1
  cases e1
  obtain ⟨x, ex, _, _, hfix⟩ := C54_normal_recursion_partial hg htree (AfterNrVars.nrVars h) mbcs hmbc
  rw [hc] at ex
  cases ex
  rw [hfix r mb hr h0, s.norm r mb hr, Option.some.injEq] at ha
  intro a hmem
  rw [← ha] at hmem
  unfold vecResize at hmem
  rw [List.mem_append] at hmem
  rcases hmem with hmem | hmem
  · have hmem' := List.mem_of_mem_take hmem
    cases hq : old.normalAccB[r]? with
    | none => rw [hq] at hmem'; simp at hmem'
    | some acc₀ =>
      rw [hq] at hmem'
      exact hold acc₀ hq a (by simpa using hmem')
  · exact (List.mem_replicate.mp hmem).2

/-! ### A concrete case, and the stale values of a robot that stops being movable -/

/-- A two-link arm: the second body hangs on the first. -/
def exArm : MultiBody ℤ := ⟨[⟨"a", 1, none⟩, ⟨"b", 1, none⟩], 2, [-1, 0], [0, 1]⟩

/-- A moving configuration of it. -/
def exMoving : Mbc ℤ Unit :=
  ⟨[[0], [0]], [PT.one, PT.one], [⟨⟨1, 0, 0⟩, 0⟩, ⟨⟨0, 1, 0⟩, 0⟩],
    [⟨⟨0, 1, 0⟩, 0⟩, ⟨⟨1, 0, 0⟩, 0⟩], ()⟩

/-- Two fixed links. -/
def exFixed : MultiBody ℤ := ⟨[⟨"a", 0, none⟩, ⟨"b", 0, none⟩], 2, [-1, 0], [0, 1]⟩

theorem exArm_tree : Tree exArm := by
  refine ⟨rfl, rfl, rfl, ?_⟩
  intro i p h
  match i with
  | 0 => simp [exArm] at h; exact Or.inl h.symm
  | 1 => simp [exArm] at h; exact Or.inr ⟨0, by omega, h.symm⟩
  | n + 2 => simp [exArm] at h

example : GoodInput [exArm] ([] : List (BiContact ℤ)) := by
  refine ⟨?_, by simp⟩
  intro mb hmb j hj l m h
  simp only [List.mem_singleton] at hmb
  subst hmb
  simp [exArm] at hj
  rcases hj with rfl | rfl <;> simp at h

example : MbcSized exArm exMoving := ⟨rfl, rfl, rfl⟩

/-- Data after `nrVars` with the moving arm on a fresh solver. -/
def exD1 : SolverData ℤ := ((layout SolverData.init [exArm] [] []).val?.map Prod.fst).getD SolverData.init

example : layout SolverData.init [exArm] [] [] = .ok (exD1, []) := by rfl

/-- ... and after one control step. -/
def exD2 : SolverData ℤ := ((computeNormalAccB [exArm] [exMoving] exD1).val?).getD SolverData.init

example : exD2.normalAccB = [[⟨⟨0, 0, -1⟩, 0⟩, ⟨⟨0, 0, 0⟩, 0⟩]] := by rfl

/-- ... and after the robot was replaced by a fixed one. -/
def exD3 : SolverData ℤ := ((layout exD2 [exFixed] [] []).val?.map Prod.fst).getD SolverData.init

/-- **C54, disagreement.**  A robot index that was movable and becomes fixed keeps the last normal
accelerations of the old robot: `normalAccB_[r].resize(...)` (QPSolver.cpp:110) keeps the old
entries and `computeNormalAccB` skips fixed robots. -/
theorem C54_fixed_counterexample : ¬ C54_fixed_full ℤ := by
  intro h
  have r1 : Reachable exD2 := by
    refine .step [exArm] [exMoving] (.nrVars (mbs := [exArm]) (uni := []) (bi := []) (deps := [])
      .init (d := exD1) rfl) rfl
  have := h Unit exD2 exD3 exD3 [exFixed] [] [] [] [exMoving] r1 rfl rfl 0 exFixed
    [⟨⟨0, 0, -1⟩, 0⟩, ⟨⟨0, 0, 0⟩, 0⟩] rfl rfl rfl ⟨⟨0, 0, -1⟩, 0⟩ (by simp)
  have h2 := congrArg (fun m : MV ℤ => m.ang.z) this
  exact absurd h2 (by decide)

end Verif
