import Verif.Model.NormalAcc
import Verif.Proofs.Layout

/-! # Helper lemmas for `computeNormalAccB` -/

set_option autoImplicit false

namespace Verif

variable {K R : Type} [CommRing K]

namespace Spec

/-- A kinematic tree as RBDyn numbers it: body `i` is the successor of joint `i`, its predecessor is
the world (`-1`) or a body with a smaller number. -/
structure Tree (mb : MultiBody K) : Prop where
  bodies : mb.nrBodies = mb.nrJoints
  succ : mb.succ = List.range mb.nrJoints
  predLen : mb.pred.length = mb.nrJoints
  pred : ∀ (i : ℕ) (p : ℤ), mb.pred[i]? = some p → p = -1 ∨ ∃ q : ℕ, q < i ∧ p = q

/-- A configuration with one entry per joint and body. -/
structure MbcSized (mb : MultiBody K) (mbc : Mbc K R) : Prop where
  parentToSon : mbc.parentToSon.length = mb.nrJoints
  jointVelocity : mbc.jointVelocity.length = mb.nrJoints
  bodyVelB : mbc.bodyVelB.length = mb.nrJoints

/-- Normal acceleration of the predecessor of a joint: zero for the world. -/
def predAcc (acc : List (MV K)) (p : ℤ) : Option (MV K) :=
  if p = -1 then some 0 else acc[p.toNat]?

/-- The recursion: for joint number `i`, body `i` has normal acceleration
`X * a_pred + v_body × v_joint`. -/
def NormalRec (mb : MultiBody K) (mbc : Mbc K R) (acc : List (MV K)) (i : ℕ) : Prop :=
  ∃ p X vb vj a, mb.pred[i]? = some p ∧ mbc.parentToSon[i]? = some X ∧ mbc.bodyVelB[i]? = some vb ∧
    mbc.jointVelocity[i]? = some vj ∧ predAcc acc p = some a ∧
    acc[i]? = some (X.mulM a + vb.cross vj)

end Spec

open Spec

theorem mulM_zero (X : PT K) : X.mulM 0 = 0 := by
  rcases X with ⟨E, r⟩
  simp only [PT.mulM]
  have h1 : E.mulVec (0 : V3 K) = 0 := by ext <;> simp [M3.mulVec, V3.dot]
  have h2 : (0 : MV K).ang = 0 := rfl
  have h3 : (0 : MV K).lin = 0 := rfl
  have h4 : r.cross (0 : V3 K) = 0 := by ext <;> simp [V3.cross]
  rw [h2, h3, h4, sub_zero, h1]
  rfl

theorem MV.zero_add' (a : MV K) : 0 + a = a := by
  rcases a with ⟨x, y⟩
  change MV.mk ((0 : V3 K) + x) ((0 : V3 K) + y) = _
  rw [zero_add, zero_add]

/-- One joint. -/
theorem normalAccJoint_step {mb : MultiBody K} {mbc : Mbc K R} (ht : Tree mb) (hs : MbcSized mb mbc)
    {i : ℕ} (hi : i < mb.nrJoints) {acc : List (MV K)} (hl : acc.length = mb.nrJoints) :
    ∃ a p X vb vj, mb.pred[i]? = some p ∧ mbc.parentToSon[i]? = some X ∧
      mbc.bodyVelB[i]? = some vb ∧ mbc.jointVelocity[i]? = some vj ∧ predAcc acc p = some a ∧
      (∀ q : ℕ, p = q → q < i) ∧
      normalAccJoint mb mbc i acc = .ok (acc.set i (X.mulM a + vb.cross vj)) := by
  have h1 : i < mb.pred.length := by rw [ht.predLen]; exact hi
  have h2 : i < mbc.parentToSon.length := by rw [hs.parentToSon]; exact hi
  have h3 : i < mbc.bodyVelB.length := by rw [hs.bodyVelB]; exact hi
  have h4 : i < mbc.jointVelocity.length := by rw [hs.jointVelocity]; exact hi
  have h5 : vecAt mb.succ i = .ok i := by
    rw [vecAt_ok (by rw [ht.succ]; simpa using hi)]
    simp [ht.succ]
  have hp := ht.pred i mb.pred[i] (List.getElem?_eq_getElem h1)
  rcases hp with hp | ⟨q, hq, hp⟩
  · refine ⟨0, _, _, _, _, List.getElem?_eq_getElem h1, List.getElem?_eq_getElem h2,
      List.getElem?_eq_getElem h3, List.getElem?_eq_getElem h4, ?_, ?_, ?_⟩
    · simp [predAcc, hp]
    · intro q hq; rw [hp] at hq; omega
    · simp only [normalAccJoint, vecAt_ok h2, vecAt_ok h4, vecAt_ok h3, vecAt_ok h1, h5, Out.ok_bind]
      rw [if_neg (by simp [hp]), vecSet_ok (by omega)]
      rw [mulM_zero, MV.zero_add']
  · have hql : q < acc.length := by omega
    refine ⟨acc[q], _, _, _, _, List.getElem?_eq_getElem h1, List.getElem?_eq_getElem h2,
      List.getElem?_eq_getElem h3, List.getElem?_eq_getElem h4, ?_, ?_, ?_⟩
    · have : ¬ ((q : ℤ) = -1) := by omega
      simp [predAcc, hp, this, hql]
    · intro q' hq'; rw [hp] at hq'; omega
    · simp only [normalAccJoint, vecAt_ok h2, vecAt_ok h4, vecAt_ok h3, vecAt_ok h1, h5, Out.ok_bind]
      have hne : mb.pred[i] ≠ -1 := by rw [hp]; omega
      have hv : vecAtI acc mb.pred[i] = .ok acc[q] := by
        rw [hp]
        simp [vecAtI, vecAt_ok hql]
      rw [if_pos hne, hv, Out.ok_bind, vecSet_ok (by omega)]

theorem NormalRec.set {mb : MultiBody K} {mbc : Mbc K R} {acc : List (MV K)} {i k : ℕ} (hik : i < k)
    {a : MV K} (ht : Tree mb) (h : NormalRec mb mbc acc i) : NormalRec mb mbc (acc.set k a) i := by
  obtain ⟨p, X, vb, vj, b, h1, h2, h3, h4, h5, h6⟩ := h
  refine ⟨p, X, vb, vj, b, h1, h2, h3, h4, ?_, ?_⟩
  · rw [← h5]
    rcases ht.pred i p h1 with rfl | ⟨q, hq, rfl⟩
    · simp [predAcc]
    · have : ¬ ((q : ℤ) = -1) := by omega
      simp only [predAcc, if_neg this, Int.toNat_natCast]
      rw [List.getElem?_set_ne (by omega)]
  · rw [← h6, List.getElem?_set_ne (by omega)]

/-- All the joints of a robot. -/
theorem normalAcc_robot {mb : MultiBody K} {mbc : Mbc K R} (ht : Tree mb) (hs : MbcSized mb mbc)
    {acc : List (MV K)} (hl : acc.length = mb.nrJoints) :
    ∃ acc', forRange mb.nrJoints (normalAccJoint mb mbc) acc = .ok acc' ∧
      acc'.length = mb.nrJoints ∧ ∀ i < mb.nrJoints, NormalRec mb mbc acc' i := by
  have key : ∀ n ≤ mb.nrJoints, ∃ acc', forRange n (normalAccJoint mb mbc) acc = .ok acc' ∧
      acc'.length = mb.nrJoints ∧ ∀ i < n, NormalRec mb mbc acc' i := by
    intro n
    induction n with
    | zero => intro _; exact ⟨acc, rfl, hl, by intro i hi; omega⟩
    | succ n ih =>
      intro hn
      obtain ⟨acc1, e1, l1, r1⟩ := ih (by omega)
      obtain ⟨a, p, X, vb, vj, g1, g2, g3, g4, g5, g6, e2⟩ :=
        normalAccJoint_step ht hs (i := n) (by omega) l1
      refine ⟨acc1.set n (X.mulM a + vb.cross vj), ?_, by simp [l1], ?_⟩
      · simp only [forRange, e1, Out.ok_bind, e2]
      · intro i hi
        by_cases hin : i < n
        · exact NormalRec.set hin ht (r1 i hin)
        · have : i = n := by omega
          subst this
          refine ⟨p, X, vb, vj, a, g1, g2, g3, g4, ?_, ?_⟩
          · rw [← g5]
            rcases ht.pred i p g1 with rfl | ⟨q, hq, rfl⟩
            · simp [predAcc]
            · have : ¬ ((q : ℤ) = -1) := by omega
              simp only [predAcc, if_neg this, Int.toNat_natCast]
              rw [List.getElem?_set_ne (by omega)]
          · rw [List.getElem?_set_self (by omega)]
  exact key _ le_rfl

/-- The recursion has only one solution. -/
theorem normalRec_unique {mb : MultiBody K} {mbc : Mbc K R} (ht : Tree mb) {acc acc' : List (MV K)}
    (hl : acc.length = mb.nrJoints) (hl' : acc'.length = mb.nrJoints)
    (h : ∀ i < mb.nrJoints, NormalRec mb mbc acc i)
    (h' : ∀ i < mb.nrJoints, NormalRec mb mbc acc' i) : acc = acc' := by
  have key : ∀ i < mb.nrJoints, acc[i]? = acc'[i]? := by
    intro i
    induction i using Nat.strong_induction_on with
    | _ i ih =>
      intro hi
      obtain ⟨p, X, vb, vj, b, h1, h2, h3, h4, h5, h6⟩ := h i hi
      obtain ⟨p', X', vb', vj', b', h1', h2', h3', h4', h5', h6'⟩ := h' i hi
      rw [h1] at h1'; cases h1'
      rw [h2] at h2'; cases h2'
      rw [h3] at h3'; cases h3'
      rw [h4] at h4'; cases h4'
      have : predAcc acc p = predAcc acc' p := by
        rcases ht.pred i p h1 with rfl | ⟨q, hq, rfl⟩
        · rfl
        · have : ¬ ((q : ℤ) = -1) := by omega
          simp only [predAcc, if_neg this, Int.toNat_natCast]
          exact ih q hq (by omega)
      rw [h5, h5'] at this
      cases this
      rw [h6, h6']
  apply List.ext_getElem?
  intro i
  by_cases hi : i < mb.nrJoints
  · exact key i hi
  · rw [List.getElem?_eq_none (by omega), List.getElem?_eq_none (by omega)]

/-- The robot loop over any list of robots. -/
theorem normalAcc_robots {mbs : List (MultiBody K)} {mbcs : List (Mbc K R)} {l : List ℕ}
    (hn : l.Nodup) (d : SolverData K)
    (h : ∀ r ∈ l, ∃ mb mbc acc, mbs[r]? = some mb ∧ mbcs[r]? = some mbc ∧
      d.normalAccB[r]? = some acc ∧ Tree mb ∧ MbcSized mb mbc ∧ acc.length = mb.nrBodies) :
    ∃ nB, forEach l (normalAccRobot mbs mbcs) d = .ok { d with normalAccB := nB } ∧
      nB.length = d.normalAccB.length ∧
      (∀ r ∈ l, ∀ mb mbc, mbs[r]? = some mb → mbcs[r]? = some mbc →
        ∃ acc, nB[r]? = some acc ∧ acc.length = mb.nrJoints ∧
          ∀ i < mb.nrJoints, NormalRec mb mbc acc i) ∧
      ∀ r, r ∉ l → nB[r]? = d.normalAccB[r]? := by
  induction l generalizing d with
  | nil => exact ⟨d.normalAccB, rfl, rfl, by simp, by simp⟩
  | cons r t ih =>
    obtain ⟨mb, mbc, acc, e1, e2, e3, ht, hs, hl⟩ := h r (by simp)
    obtain ⟨acc', f1, f2, f3⟩ := normalAcc_robot ht hs (by rw [hl, ht.bodies] : acc.length = mb.nrJoints)
    have hrlt : r < d.normalAccB.length := (List.getElem?_eq_some_iff.mp e3).1
    have hstep : normalAccRobot mbs mbcs r d
        = .ok { d with normalAccB := d.normalAccB.set r acc' } := by
      unfold normalAccRobot
      rw [(vecAt_eq_ok).mpr e1, Out.ok_bind, (vecAt_eq_ok).mpr e2, Out.ok_bind, (vecAt_eq_ok).mpr e3,
        Out.ok_bind, f1, Out.ok_bind, vecSet_ok hrlt, Out.ok_bind, Out.pure_eq]
    have hrt : r ∉ t := (List.nodup_cons.mp hn).1
    obtain ⟨nB, g1, g2, g3, g4⟩ := ih (List.nodup_cons.mp hn).2
      { d with normalAccB := d.normalAccB.set r acc' } (by
        intro k hk
        obtain ⟨mb, mbc, acc, e1, e2, e3, e4⟩ := h k (by simp [hk])
        refine ⟨mb, mbc, acc, e1, e2, ?_, e4⟩
        have : r ≠ k := by rintro rfl; exact hrt hk
        simpa [List.getElem?_set_ne this] using e3)
    refine ⟨nB, ?_, ?_, ?_, ?_⟩
    · simp only [forEach, hstep, Out.ok_bind, g1]
    · simpa using g2
    · intro k hk mb' mbc' hmb hmbc
      by_cases hkr : k = r
      · subst hkr
        rw [e1] at hmb; cases hmb
        rw [e2] at hmbc; cases hmbc
        refine ⟨acc', ?_, f2, f3⟩
        rw [g4 k hrt]
        simp [hrlt]
      · exact g3 k (by simpa [hkr] using hk) mb' mbc' hmb hmbc
    · intro k hk
      simp only [List.mem_cons, not_or] at hk
      rw [g4 k hk.2]
      simp [List.getElem?_set_ne (Ne.symm hk.1)]

end Verif
