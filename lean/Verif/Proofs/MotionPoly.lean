import Verif.Proofs.MotionRun

/-!
# Helper lemmas for `MotionPolyConstr`
-/

set_option autoImplicit false
set_option linter.unusedSectionVars false

namespace Verif

open Finset Spec

namespace Spec
variable {K : Type} [Field K] [LinearOrder K] [IsStrictOrderedRing K]

/-- Value at `x` of the polynomial with coefficients `cs`, lowest degree first. -/
def polyVal (cs : List K) (x : K) : K := ∑ k ∈ range cs.length, cs.getD k 0 * x ^ k

/-- Executions of a `MotionPolyConstr`; the first index is the data of the last `updateNrVars`. -/
inductive PolyRun (rk : RobotKin K) (r : ℕ) (lP uP : List (List (List K))) :
    Option (SolverData K) → MotionPoly K → Prop
  | make (s : MotionPoly K) : MotionPoly.make rk.mb r lP uP = .ok s → PolyRun rk r lP uP none s
  | nrVars {od : Option (SolverData K)} {s : MotionPoly K} (d : SolverData K) (c : MotionCommon K) :
      PolyRun rk r lP uP od s → s.common.updateNrVars rk d = .ok c →
      PolyRun rk r lP uP (some d) { s with common := c }
  | update {od : Option (SolverData K)} {s : MotionPoly K} (env : MotionEnv K) (s' : MotionPoly K) :
      PolyRun rk r lP uP od s → EnvOK rk env → s.update rk.mb env = .ok s' →
      PolyRun rk r lP uP od s'
  | torque {od : Option (SolverData K)} {s : MotionPoly K} (aD lam : Vec K) (c : MotionCommon K) :
      PolyRun rk r lP uP od s → s.common.computeTorque aD lam = .ok c →
      PolyRun rk r lP uP od { s with common := c }

end Spec

variable {K : Type} [Field K] [LinearOrder K] [IsStrictOrderedRing K]

theorem horner_eq (cs : List K) (x : K) : hornerEval cs x = polyVal cs x := by
  induction cs with
  | nil => simp [hornerEval, polyVal]
  | cons c t ih =>
    have e : hornerEval (c :: t) x = hornerEval t x * x + c := rfl
    rw [e, ih]
    unfold polyVal
    rw [List.length_cons, Finset.sum_range_succ']
    simp only [List.getD_cons_succ, List.getD_cons_zero, pow_zero, mul_one, pow_succ]
    rw [Finset.sum_mul]
    congr 1
    refine Finset.sum_congr rfl fun k _ => by ring

theorem polyEval_ok (cs : List K) (x : K) (h : cs ≠ []) : polyEval cs x = .ok (polyVal cs x) := by
  unfold polyEval
  rw [if_neg h]
  split
  · rw [horner_eq]
  · rename_i hx
    have hx0 : x ≠ 0 := by rintro rfl; apply hx; simp
    have hn : 0 < cs.length := List.length_pos_iff.mpr h
    rw [horner_eq]
    congr 1
    unfold polyVal
    rw [List.length_reverse, Finset.mul_sum, ← Finset.sum_range_reflect]
    refine Finset.sum_congr rfl fun k hk => ?_
    have hk' : k < cs.length := Finset.mem_range.mp hk
    have e1 : cs.reverse.getD (cs.length - 1 - k) 0 = cs.getD k 0 := by
      simp only [List.getD_eq_getElem?_getD]
      rw [List.getElem?_reverse (by omega)]
      congr 2
      omega
    have e2 : cs.length - 1 = k + (cs.length - 1 - k) := by omega
    rw [e1]
    have e3 : x ^ (cs.length - 1) = x ^ k * x ^ (cs.length - 1 - k) := by
      rw [← pow_add, ← e2]
    rw [e3, one_div, inv_pow]
    have := pow_ne_zero (cs.length - 1 - k) hx0
    field_simp

theorem exists_joint (mb : MultiBody K) {a : ℕ} (h : a < mb.nrDof) :
    ∃ i, i < mb.joints.length ∧ jpos mb i ≤ a ∧ a < jpos mb i + jdof mb i := by
  rw [← jpos_length] at h
  have : ∀ n, n ≤ mb.joints.length → a < jpos mb n →
      ∃ i, i < n ∧ jpos mb i ≤ a ∧ a < jpos mb i + jdof mb i := by
    intro n
    induction n with
    | zero => intro _ h; simp [jpos] at h
    | succ n ih =>
      intro hn h
      by_cases hlt : a < jpos mb n
      · obtain ⟨i, h1, h2⟩ := ih (by omega) hlt
        exact ⟨i, by omega, h2⟩
      · rw [jpos_succ mb n (by omega)] at h
        exact ⟨n, by omega, by omega, h⟩
  exact this _ le_rfl h

/-- What every execution of a `MotionPolyConstr` maintains. -/
structure PolyInv (rk : RobotKin K) (r : ℕ) (lP uP : List (List (List K)))
    (od : Option (SolverData K)) (s : MotionPoly K) : Prop where
  robot : s.common.robotIndex = r
  n : s.common.nrDof = rk.mb.nrDof
  curSize : s.common.curTorque.size = rk.mb.nrDof
  idx : s.jointIndex = (List.range rk.mb.joints.length).filter fun i => decide (jdof rk.mb i = 1)
  lenL : s.torqueL.length = s.jointIndex.length
  lenU : s.torqueU.length = s.jointIndex.length
  coef : ∀ (t i : ℕ), s.jointIndex[t]? = some i →
    ∃ l u, nested lP i 0 = .ok l ∧ nested uP i 0 = .ok u ∧ s.torqueL[t]? = some l ∧
      s.torqueU[t]? = some u
  ready : ∀ d, od = some d → ∀ mbs, Setting rk r mbs d → MReady rk d r (aBegin mbs r) s.common

theorem polyMake_inv {rk : RobotKin K} {r : ℕ} {lP uP : List (List (List K))} {s : MotionPoly K}
    (h : MotionPoly.make rk.mb r lP uP = .ok s) : PolyInv rk r lP uP none s := by
  unfold MotionPoly.make at h
  have : ∀ m, m ≤ rk.mb.joints.length → ∀ s, forRange m (fun i (s : MotionPoly K) => do
      let j ← vecAt rk.mb.joints i
      if j.dof = 1 then do
        let l ← nested lP i 0
        let u ← nested uP i 0
        pure { s with
          torqueL := s.torqueL ++ [l], torqueU := s.torqueU ++ [u],
          jointIndex := s.jointIndex ++ [i] }
      else pure s) ⟨MotionCommon.make rk.mb r, [], [], []⟩ = .ok s →
      s.common = MotionCommon.make rk.mb r ∧
      s.jointIndex = (List.range m).filter (fun i => decide (jdof rk.mb i = 1)) ∧
      s.torqueL.length = s.jointIndex.length ∧ s.torqueU.length = s.jointIndex.length ∧
      ∀ (t i : ℕ), s.jointIndex[t]? = some i →
        ∃ l u, nested lP i 0 = .ok l ∧ nested uP i 0 = .ok u ∧ s.torqueL[t]? = some l ∧
          s.torqueU[t]? = some u := by
    intro m
    induction m with
    | zero =>
      intro _ s h
      simp only [forRange, Out.ok.injEq] at h
      subst h
      simp
    | succ m ih =>
      intro hm s h
      simp only [forRange, Out.bind_eq_ok] at h
      obtain ⟨s1, h1, j, hj, h2⟩ := h
      obtain ⟨g1, g2, g3, g4, g5⟩ := ih (by omega) s1 h1
      have hjd : jdof rk.mb m = j.dof := by
        unfold jdof; rw [vecAt_eq_ok.mp hj]; rfl
      rw [List.range_succ, List.filter_append]
      split at h2
      · rename_i h1d
        simp only [Out.bind_eq_ok, Out.pure_eq, Out.ok.injEq] at h2
        obtain ⟨l, hl, u, hu, rfl⟩ := h2
        refine ⟨g1, ?_, by simp [g3], by simp [g4], ?_⟩
        · rw [List.filter_cons_of_pos (by simp [hjd, h1d])]
          simp [g2]
        · intro t i hi
          dsimp only at hi ⊢
          rcases Nat.lt_or_ge t s1.jointIndex.length with ht | ht
          · rw [List.getElem?_append_left ht] at hi
            rw [List.getElem?_append_left (by omega), List.getElem?_append_left (by omega)]
            exact g5 t i hi
          · rw [List.getElem?_append_right ht] at hi
            have h0 : t - s1.jointIndex.length = 0 := by
              by_contra hne
              rw [List.getElem?_eq_none (by simp; omega)] at hi
              cases hi
            rw [h0] at hi
            simp only [List.getElem?_cons_zero, Option.some.injEq] at hi
            subst hi
            have ht' : t = s1.jointIndex.length := by omega
            subst ht'
            refine ⟨l, u, hl, hu, ?_, ?_⟩
            · rw [← g3]; simp
            · rw [← g4]; simp
      · rename_i h1d
        simp only [Out.pure_eq, Out.ok.injEq] at h2
        subst h2
        rw [List.filter_cons_of_neg (by simp [hjd, h1d])]
        exact ⟨g1, by simp [g2], g3, g4, g5⟩
  obtain ⟨g1, g2, g3, g4, g5⟩ := this _ le_rfl s h
  refine ⟨?_, ?_, ?_, g2, g3, g4, g5, fun d hd => by cases hd⟩
  · rw [g1]; rfl
  · rw [g1]; rfl
  · rw [g1]; rfl

theorem polyMake_ok (rk : RobotKin K) (r : ℕ) (lP uP : List (List (List K)))
    (h : ∀ i < rk.mb.joints.length, jdof rk.mb i = 1 →
      (∃ l, nested lP i 0 = .ok l) ∧ ∃ u, nested uP i 0 = .ok u) :
    ∃ s, MotionPoly.make rk.mb r lP uP = .ok s := by
  unfold MotionPoly.make
  obtain ⟨s, e, _⟩ := forRange_inv (n := rk.mb.nrJoints) (I := fun _ _ => True)
    (s := (⟨MotionCommon.make rk.mb r, [], [], []⟩ : MotionPoly K))
    (f := fun i (s : MotionPoly K) => do
      let j ← vecAt rk.mb.joints i
      if j.dof = 1 then do
        let l ← nested lP i 0
        let u ← nested uP i 0
        pure { s with
          torqueL := s.torqueL ++ [l], torqueU := s.torqueU ++ [u],
          jointIndex := s.jointIndex ++ [i] }
      else pure s) trivial (by
    intro i hi s _
    have hi' : i < rk.mb.joints.length := hi
    have e : vecAt rk.mb.joints i = .ok rk.mb.joints[i] := vecAt_eq_ok.mpr (List.getElem?_eq_getElem hi')
    rw [e, Out.ok_bind]
    split
    · rename_i hd
      obtain ⟨⟨l, hl⟩, ⟨u, hu⟩⟩ := h i hi' (by
        unfold jdof; rw [List.getElem?_eq_getElem hi']; exact hd)
      rw [hl, hu]
      exact ⟨_, rfl, trivial⟩
    · exact ⟨_, rfl, trivial⟩)
  exact ⟨s, e⟩

theorem polyStep_keeps {mb : MultiBody K} {env : MotionEnv K} (m : ℕ) {s s' : MotionPoly K}
    (h : forRange m (MotionPoly.step mb env) s = .ok s') :
    s'.common = { s.common with AL := s'.common.AL, AU := s'.common.AU } ∧
    s'.torqueL = s.torqueL ∧ s'.torqueU = s.torqueU ∧ s'.jointIndex = s.jointIndex := by
  induction m generalizing s' with
  | zero =>
    simp only [forRange, Out.ok.injEq] at h
    subst h
    exact ⟨rfl, rfl, rfl, rfl⟩
  | succ m ih =>
    simp only [forRange, Out.bind_eq_ok] at h
    obtain ⟨s1, h1, h2⟩ := h
    obtain ⟨g1, g2, g3, g4⟩ := ih h1
    unfold MotionPoly.step at h2
    simp only [Out.bind_eq_ok, Out.pure_eq, Out.ok.injEq] at h2
    obtain ⟨_, _, _, _, _, _, _, _, _, _, _, _, _, _, AL, _, AU, _, rfl⟩ := h2
    refine ⟨?_, g2, g3, g4⟩
    dsimp only
    rw [g1]

theorem polyInv {rk : RobotKin K} {r : ℕ} {lP uP : List (List (List K))}
    {od : Option (SolverData K)} {s : MotionPoly K} (R : PolyRun rk r lP uP od s) :
    PolyInv rk r lP uP od s := by
  induction R with
  | make s h => exact polyMake_inv h
  | @nrVars od s d c _ h I =>
    have hc : c.robotIndex = s.common.robotIndex ∧ c.nrDof = s.common.nrDof ∧
        c.curTorque = s.common.curTorque := by
      unfold MotionCommon.updateNrVars at h
      simp only [Out.bind_eq_ok, Out.pure_eq, Out.ok.injEq] at h
      obtain ⟨_, _, _, _, rfl⟩ := h
      exact ⟨rfl, rfl, rfl⟩
    refine ⟨hc.1.trans I.robot, hc.2.1.trans I.n, (congrArg Vec.size hc.2.2).trans I.curSize,
      I.idx, I.lenL, I.lenU, I.coef, ?_⟩
    rintro d' hd mbs S
    cases hd
    obtain ⟨s', e, R, _⟩ := updateNrVars_ready rk d r (aBegin mbs r) s.common (setting_data S)
      S.2.2.2 I.robot I.n I.curSize
    rw [h] at e
    cases e
    exact R
  | @update od s env s' _ E h I =>
    unfold MotionPoly.update at h
    simp only [Out.bind_eq_ok] at h
    obtain ⟨c, hc, h1⟩ := h
    have hk := computeMatrix_keeps hc
    obtain ⟨g1, g2, g3, g4⟩ := polyStep_keeps _ h1
    dsimp only at g1 g2 g3 g4
    refine ⟨?_, ?_, ?_, by rw [g4]; exact I.idx, by rw [g2, g4]; exact I.lenL,
      by rw [g3, g4]; exact I.lenU, by rw [g2, g3, g4]; exact I.coef, ?_⟩
    · rw [g1]; exact hk.1.trans I.robot
    · rw [g1]; exact hk.2.1.trans I.n
    · rw [g1]; exact (congrArg Vec.size hk.2.2.1).trans I.curSize
    · intro d hd mbs S
      obtain ⟨c', e, Cm⟩ := computeMatrix_ok rk env d r (aBegin mbs r) s.common (setting_data S)
        S.2.2.2 S.2.2.1 E (I.ready d hd mbs S)
      rw [hc] at e
      cases e
      rw [g1]
      exact ready_congr Cm.ready
  | @torque od s aD lam c _ h I =>
    have hh : s.common.fdH.rows = s.common.nrDof ∧
        ∃ t, c = { s.common with curTorque := t } ∧ t.size = s.common.fdH.rows := by
      unfold MotionCommon.computeTorque at h
      simp only [Out.bind_eq_ok] at h
      obtain ⟨_, _, h⟩ := h
      split at h
      · cases h
      · rename_i hn
        split at h
        · cases h
        · simp only [Out.pure_eq, Out.ok.injEq] at h
          exact ⟨by omega, _, h.symm, rfl⟩
    obtain ⟨h1, t, rfl, ht⟩ := hh
    refine ⟨I.robot, I.n, by dsimp only; rw [ht, h1, I.n], I.idx, I.lenL, I.lenU, I.coef, ?_⟩
    intro d hd mbs S
    have R := I.ready d hd mbs S
    exact ⟨R.robot, R.n, R.hB, R.lB, R.scr, R.cont, R.rows, R.cols,
      by dsimp only; rw [ht, h1, I.n], R.zero⟩

theorem addAt_ok (v : Vec (Ext K)) (i : ℕ) (c : K) (h : i < v.size) :
    addAt v i c = .ok ⟨v.size, fun j => if j = i then (v.get i).addFin c else v.get j⟩ := by
  unfold addAt Vec.at' Vec.set
  rw [if_pos h, Out.ok_bind, if_pos h]

/-- The lines after the loop of `MotionPolyConstr::update`. -/
theorem polyLoop_ok (rk : RobotKin K) (r : ℕ) (lP uP : List (List (List K)))
    (od : Option (SolverData K)) (s : MotionPoly K) (I : PolyInv rk r lP uP od s) (env : MotionEnv K)
    (c : MotionCommon K) (hC : env.C.size = rk.mb.nrDof)
    (hL : c.AL = ⟨env.C.size, fun i => .fin (-env.C.get i)⟩)
    (hU : c.AU = ⟨env.C.size, fun i => .fin (-env.C.get i)⟩)
    (hq : ∀ i < rk.mb.joints.length, jdof rk.mb i = 1 → ∃ q l u, nested env.q i 0 = .ok q ∧
      nested lP i 0 = .ok l ∧ l ≠ [] ∧ nested uP i 0 = .ok u ∧ u ≠ []) :
    ∃ s', forRange s.jointIndex.length (MotionPoly.step rk.mb env) { s with common := c } = .ok s' ∧
      (∀ i < rk.mb.joints.length, jdof rk.mb i = 1 → ∀ q l u, nested env.q i 0 = .ok q →
        nested lP i 0 = .ok l → nested uP i 0 = .ok u →
        s'.common.AL.get (jpos rk.mb i) = .fin (-env.C.get (jpos rk.mb i) + polyVal l q) ∧
        s'.common.AU.get (jpos rk.mb i) = .fin (-env.C.get (jpos rk.mb i) + polyVal u q)) ∧
      (∀ a, (∀ i < rk.mb.joints.length, jdof rk.mb i = 1 → jpos rk.mb i ≠ a) →
        s'.common.AL.get a = .fin (-env.C.get a) ∧ s'.common.AU.get a = .fin (-env.C.get a)) := by
  have hmem : ∀ (t i : ℕ), s.jointIndex[t]? = some i → i < rk.mb.joints.length ∧ jdof rk.mb i = 1 := by
    intro t i h
    have := List.mem_of_getElem? h
    rw [I.idx, List.mem_filter] at this
    exact ⟨by simpa using this.1, by simpa using this.2⟩
  have hnd : s.jointIndex.Nodup := by rw [I.idx]; exact List.nodup_range.filter _
  have hinj : ∀ (t t' i i' : ℕ), s.jointIndex[t]? = some i → s.jointIndex[t']? = some i' →
      jpos rk.mb i = jpos rk.mb i' → t = t' := by
    intro t t' i i' h h' e
    have h1 := hmem t i h
    have h2 := hmem t' i' h'
    have := jpos_inj h1.1 h2.1 (by omega) (by omega) e
    subst this
    exact (List.getElem?_inj (by
      by_contra hh; rw [List.getElem?_eq_none (not_lt.mp hh)] at h; cases h) hnd).mp (h.trans h'.symm)
  obtain ⟨s', e, hs'⟩ := forRange_inv (n := s.jointIndex.length)
    (s := ({ s with common := c } : MotionPoly K)) (f := MotionPoly.step rk.mb env)
    (I := fun m (s' : MotionPoly K) =>
      s'.jointIndex = s.jointIndex ∧ s'.torqueL = s.torqueL ∧ s'.torqueU = s.torqueU ∧
      s'.common.AL.size = rk.mb.nrDof ∧ s'.common.AU.size = rk.mb.nrDof ∧
      (∀ (t i : ℕ), t < m → s.jointIndex[t]? = some i → ∀ q l u, nested env.q i 0 = .ok q →
        nested lP i 0 = .ok l → nested uP i 0 = .ok u →
        s'.common.AL.get (jpos rk.mb i) = .fin (-env.C.get (jpos rk.mb i) + polyVal l q) ∧
        s'.common.AU.get (jpos rk.mb i) = .fin (-env.C.get (jpos rk.mb i) + polyVal u q)) ∧
      (∀ a, (∀ (t i : ℕ), t < m → s.jointIndex[t]? = some i → jpos rk.mb i ≠ a) →
        s'.common.AL.get a = .fin (-env.C.get a) ∧ s'.common.AU.get a = .fin (-env.C.get a)))
    ⟨rfl, rfl, rfl, by dsimp only; rw [hL]; exact hC, by dsimp only; rw [hU]; exact hC,
      fun t i h => by omega, fun a _ => by dsimp only; rw [hL, hU]; exact ⟨rfl, rfl⟩⟩ (by
    intro m hm s1 ⟨i1, i2, i3, i4, i5, i6, i7⟩
    have hget := List.getElem?_eq_getElem hm
    generalize s.jointIndex[m] = i at hget
    have hi := hmem m i hget
    obtain ⟨q, l, u, q1, q2, q3, q4, q5⟩ := hq i hi.1 hi.2
    obtain ⟨l', u', c1, c2, c3, c4⟩ := I.coef m i hget
    rw [q2] at c1; cases c1
    rw [q4] at c2; cases c2
    have hfit := jpos_fit rk.mb hi.1
    have e0 : rk.mb.jointPosInDof i = .ok (jpos rk.mb i) := by
      unfold MultiBody.jointPosInDof; rw [if_pos hi.1]; rfl
    have hold := i7 (jpos rk.mb i) (fun t i' ht h' e => by
      have := hinj t m i' i h' hget e; omega)
    unfold MotionPoly.step
    rw [i1, i2, i3, vecAt_eq_ok.mpr hget, Out.ok_bind, e0, Out.ok_bind, vecAt_eq_ok.mpr c3,
      Out.ok_bind, vecAt_eq_ok.mpr c4, Out.ok_bind, q1, Out.ok_bind, polyEval_ok l q q3, Out.ok_bind,
      polyEval_ok u q q5, Out.ok_bind, addAt_ok _ _ _ (by omega), Out.ok_bind,
      addAt_ok _ _ _ (by omega), Out.ok_bind]
    refine ⟨_, rfl, rfl, rfl, rfl, i4, i5, ?_, ?_⟩
    · intro t i' ht h' q' l' u' d1 d2 d3
      dsimp only
      by_cases htm : t = m
      · subst htm
        rw [hget] at h'; cases h'
        rw [q1] at d1; cases d1
        rw [q2] at d2; cases d2
        rw [q4] at d3; cases d3
        rw [if_pos rfl, if_pos rfl, hold.1, hold.2]
        simp only [Ext.addFin, add_comm]
        exact ⟨trivial, trivial⟩
      · have hne : jpos rk.mb i' ≠ jpos rk.mb i := fun e => htm (hinj t m i' i h' hget e)
        rw [if_neg hne, if_neg hne]
        exact i6 t i' (by omega) h' q' l' u' d1 d2 d3
    · intro a ha
      dsimp only
      have hne : a ≠ jpos rk.mb i := fun e => ha m i (by omega) hget e.symm
      rw [if_neg hne, if_neg hne]
      exact i7 a (fun t i' ht => ha t i' (by omega)))
  refine ⟨s', e, ?_, ?_⟩
  · intro i hi h1
    have : i ∈ s.jointIndex := by
      rw [I.idx, List.mem_filter]; exact ⟨by simpa using hi, by simpa using h1⟩
    obtain ⟨t, ht⟩ := List.mem_iff_getElem?.mp this
    refine hs'.2.2.2.2.2.1 t i ?_ ht
    by_contra hh; rw [List.getElem?_eq_none (not_lt.mp hh)] at ht; cases ht
  · intro a ha
    refine hs'.2.2.2.2.2.2 a fun t i _ h => ?_
    have := hmem t i h
    exact ha i this.1 this.2

end Verif
