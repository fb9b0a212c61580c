import Verif.Model.Layout

/-!
# Helper lemmas about the layout computation
-/

set_option linter.unusedSectionVars false

set_option autoImplicit false

namespace Verif

variable {K : Type} [CommRing K]

theorem forRange_add {n : ℕ} (f : ℕ → ℕ) (t : ℕ) :
    forRange n (fun i (t : ℕ) => (pure (t + f i) : Out ℕ)) t
      = .ok (t + ((List.range n).map f).sum) := by
  induction n with
  | zero => simp [forRange]
  | succ n ih =>
    simp only [Out.pure_eq] at ih
    simp [forRange, ih, List.range_succ, add_assoc]

theorem forRange_congr {σ : Type} {n : ℕ} {f g : ℕ → σ → Out σ} {s : σ}
    (h : ∀ i < n, ∀ s, f i s = g i s) : forRange n f s = forRange n g s := by
  induction n with
  | zero => rfl
  | succ n ih =>
    simp only [forRange]
    rw [ih (fun i hi => h i (by omega))]
    cases forRange n g s <;> simp [h n (by omega)]

/-- Number of generator weights of a unilateral contact. -/
def UniContact.nL (c : UniContact K) : ℕ := c.r1Points.length * c.r1Cone.generators.length

/-- Number of generator weights of a bilateral contact. -/
def BiContact.nL (c : BiContact K) : ℕ :=
  ((c.r1Cones.take c.r1Points.length).map fun k => k.generators.length).sum

theorem UniContact.nrLambda_ok (c : UniContact K) : c.nrLambda = .ok c.nL := by
  unfold UniContact.nrLambda UniContact.nL
  simp only [UniContact.nrLambdaAt, Out.ok_bind]
  rw [forRange_add (fun _ => c.r1Cone.generators.length)]
  simp

theorem sum_range_getD (l : List ℕ) (n : ℕ) (h : n ≤ l.length) :
    ((List.range n).map fun i => l.getD i 0).sum = (l.take n).sum := by
  induction n with
  | zero => simp
  | succ n ih =>
    rw [List.range_succ, List.map_append, List.sum_append, ih (by omega)]
    rw [List.take_add_one, List.sum_append]
    have : n < l.length := by omega
    simp [this]

theorem BiContact.nrLambda_ok (c : BiContact K) (h : c.r1Points.length ≤ c.r1Cones.length) :
    c.nrLambda = .ok c.nL := by
  unfold BiContact.nrLambda BiContact.nL
  have h1 : ∀ i < c.r1Points.length, ∀ t : ℕ,
      (do let n ← c.nrLambdaAt i; pure (t + n) : Out ℕ)
      = pure (t + (c.r1Cones.map fun k => k.generators.length).getD i 0) := by
    intro i hi t
    have : i < c.r1Cones.length := by omega
    simp [BiContact.nrLambdaAt, vecAt_ok this, this]
  rw [forRange_congr h1, forRange_add, sum_range_getD _ _ (by simpa using h), zero_add,
    List.map_take]

theorem BiContact.nrLambda_ub (c : BiContact K) (h : c.r1Cones.length < c.r1Points.length) :
    c.nrLambda = .ub := by
  have key : ∀ n, c.r1Cones.length < n →
      forRange n (fun i (t : ℕ) => (do let n ← c.nrLambdaAt i; pure (t + n) : Out ℕ)) 0 = .ub := by
    intro n hn
    induction n with
    | zero => omega
    | succ n ih =>
      simp only [forRange]
      by_cases hc : c.r1Cones.length < n
      · rw [ih hc]; rfl
      · have hl : c.r1Cones.length = n := by omega
        obtain ⟨s, hs, _⟩ := forRange_inv (n := n) (s := 0)
          (f := fun i (t : ℕ) => (do let n ← c.nrLambdaAt i; pure (t + n) : Out ℕ))
          (fun _ _ => True) trivial (by
            intro i hi s _
            have : i < c.r1Cones.length := by omega
            simp [BiContact.nrLambdaAt, vecAt_ok this])
        rw [hs]
        simp [BiContact.nrLambdaAt, vecAt_ub (le_of_eq hl)]
  exact key _ h

theorem BiContact.nL_ofUni (c : UniContact K) : (BiContact.ofUni c).nL = c.nL := by
  simp [BiContact.nL, BiContact.ofUni, UniContact.nL]

/-- Running starts of consecutive blocks. -/
def starts : ℕ → List ℕ → List ℕ
  | _, [] => []
  | a, n :: t => a :: starts (a + n) t

@[simp] theorem length_starts (a : ℕ) (l : List ℕ) : (starts a l).length = l.length := by
  induction l generalizing a with
  | nil => rfl
  | cons n t ih => simp [starts, ih]

theorem getElem_starts (a : ℕ) (l : List ℕ) (k : ℕ) (h : k < (starts a l).length) :
    (starts a l)[k] = a + (l.take k).sum := by
  induction l generalizing a k with
  | nil => simp [starts] at h
  | cons n t ih =>
    cases k with
    | zero => simp [starts]
    | succ k => simp only [starts, List.getElem_cons_succ]; rw [ih]; simp [add_assoc]

theorem take_succ_sum_le (l : List ℕ) (k k' n : ℕ) (h : k < k') (hn : l[k]? = some n) :
    (l.take k).sum + n ≤ (l.take k').sum := by
  have hk : k < l.length := by
    by_contra hc; rw [List.getElem?_eq_none (not_lt.mp hc)] at hn; cases hn
  have e : (l.take (k + 1)).sum = (l.take k).sum + n := by
    rw [List.take_add_one, hn, List.sum_append]; simp
  rw [← e]
  have : l.take k' = l.take (k + 1) ++ (l.take k').drop (k + 1) := by
    conv_lhs => rw [← List.take_append_drop (k + 1) (l.take k')]
    rw [List.take_take, Nat.min_eq_left (by omega)]
  rw [this, List.sum_append]
  omega

theorem starts_append (a : ℕ) (l₁ l₂ : List ℕ) :
    starts a (l₁ ++ l₂) = starts a l₁ ++ starts (a + l₁.sum) l₂ := by
  induction l₁ generalizing a with
  | nil => simp [starts]
  | cons n t ih => simp [starts, ih, add_assoc]

theorem take_succ_set {α : Type} (l : List α) (i : ℕ) (a : α) (h : i < l.length) :
    (l.set i a).take (i + 1) = l.take i ++ [a] := by
  rw [List.take_add_one, List.take_set_of_le (le_refl i)]
  simp [h]

theorem lamLoop_ok {α : Type} (l : List α) (nf : α → Out ℕ) (n : α → ℕ) (bf : α → BiContact K)
    (h : ∀ a ∈ l, nf a = .ok (n a)) (s : LamSt K)
    (hl : s.cIdx + l.length ≤ s.data.lambda.length)
    (hB : s.cIdx + l.length ≤ s.data.lambdaBegin.length) :
    ∃ la lB, forEach l (fun c => lamStep (nf c) (bf c)) s = .ok
        ⟨{ s.data with lambda := la, lambdaBegin := lB, allCont := s.data.allCont ++ l.map bf },
          s.cum + (l.map n).sum, s.cIdx + l.length⟩ ∧
      la.length = s.data.lambda.length ∧ lB.length = s.data.lambdaBegin.length ∧
      la.take (s.cIdx + l.length) = s.data.lambda.take s.cIdx ++ l.map n ∧
      lB.take (s.cIdx + l.length) = s.data.lambdaBegin.take s.cIdx ++ starts s.cum (l.map n) := by
  induction l generalizing s with
  | nil => exact ⟨s.data.lambda, s.data.lambdaBegin, by simp [forEach], rfl, rfl, by simp,
      by simp [starts]⟩
  | cons a t ih =>
    simp only [List.length_cons] at hl hB
    have h1 : lamStep (nf a) (bf a) s = .ok
        ⟨{ s.data with lambdaBegin := s.data.lambdaBegin.set s.cIdx s.cum,
                       lambda := s.data.lambda.set s.cIdx (n a),
                       allCont := s.data.allCont ++ [bf a] }, s.cum + n a, s.cIdx + 1⟩ := by
      simp [lamStep, vecSet_ok (show s.cIdx < s.data.lambda.length by omega),
        vecSet_ok (show s.cIdx < s.data.lambdaBegin.length by omega), h a (by simp)]
    obtain ⟨la, lB, e, l1, l2, t1, t2⟩ := ih (fun b hb => h b (by simp [hb]))
      ⟨{ s.data with lambdaBegin := s.data.lambdaBegin.set s.cIdx s.cum,
                     lambda := s.data.lambda.set s.cIdx (n a),
                     allCont := s.data.allCont ++ [bf a] }, s.cum + n a, s.cIdx + 1⟩
      (by simp; omega) (by simp; omega)
    refine ⟨la, lB, ?_, ?_, ?_, ?_, ?_⟩
    · simp only [forEach, h1, Out.ok_bind, e]
      simp [add_assoc, Nat.add_comm 1]
    · simpa using l1
    · simpa using l2
    · have : s.cIdx + (a :: t).length = s.cIdx + 1 + t.length := by simp; omega
      rw [this, t1, take_succ_set _ _ _ (by omega)]; simp
    · have : s.cIdx + (a :: t).length = s.cIdx + 1 + t.length := by simp; omega
      rw [this, t2, take_succ_set _ _ _ (by omega)]; simp [starts]

/-! ### Mimic dependencies -/

/-- Every mimic joint names an existing leader. -/
def MimicNamed (mb : MultiBody K) : Prop :=
  ∀ j ∈ mb.joints, ∀ l m, j.mimic = some (l, m) → ∃ j' ∈ mb.joints, j'.name = l

/-- First dof of the first joint called `name`. -/
def posOf (mb : MultiBody K) (name : String) : ℕ :=
  ((mb.joints.take (mb.joints.findIdx fun j => j.name == name)).map Joint.dof).sum

/-- Dependencies of one robot whose variables start at `b`. -/
def robotDeps (mb : MultiBody K) (b : ℕ) : List (Dep K) :=
  mb.joints.filterMap fun j =>
    j.mimic.map fun lm => (b + posOf mb lm.1, b + posOf mb j.name, lm.2)

theorem jointPos_ok (mb : MultiBody K) (name : String) (h : ∃ j ∈ mb.joints, j.name = name) :
    (mb.jointIndexByName name >>= mb.jointPosInDof) = .ok (posOf mb name) := by
  have hlt : mb.joints.findIdx (fun j => j.name == name) < mb.joints.length := by
    obtain ⟨j, hj, hn⟩ := h
    exact List.findIdx_lt_length.mpr ⟨j, hj, by simp [hn]⟩
  have : mb.joints.findIdx? (fun j => j.name == name)
      = some (mb.joints.findIdx fun j => j.name == name) := by
    rw [List.findIdx?_eq_some_iff_findIdx_eq]; exact ⟨hlt, rfl⟩
  simp [MultiBody.jointIndexByName, this, MultiBody.jointPosInDof, hlt, posOf]

theorem mimicLoop_ok (mb : MultiBody K) (b : ℕ) (deps : List (Dep K)) (h : MimicNamed mb) :
    mimicLoop mb b deps = .ok (deps ++ robotDeps mb b) := by
  unfold mimicLoop robotDeps
  have key : ∀ (js : List (Joint K)) (_ : ∀ j ∈ js, j ∈ mb.joints) (deps : List (Dep K)),
      forEach js (fun j deps =>
        match j.mimic with
        | none => pure deps
        | some (leader, mult) => do
          let li ← mb.jointIndexByName leader
          let lp ← mb.jointPosInDof li
          let ri ← mb.jointIndexByName j.name
          let rp ← mb.jointPosInDof ri
          pure (deps ++ [(b + lp, b + rp, mult)])) deps
      = Out.ok (deps ++ js.filterMap fun j =>
          j.mimic.map fun lm => (b + posOf mb lm.1, b + posOf mb j.name, lm.2)) := by
    intro js
    simp only [Out.pure_eq]
    induction js with
    | nil => intro _ deps; simp [forEach]
    | cons j t ih =>
      intro hj deps
      have hjm := hj j (by simp)
      simp only [forEach]
      cases hm : j.mimic with
      | none => simp only [Out.pure_eq, Out.ok_bind, ih (fun k hk => hj k (by simp [hk]))]; simp [hm]
      | some lm =>
        obtain ⟨l, m⟩ := lm
        have e1 := jointPos_ok mb l (h j hjm l m hm)
        have e2 := jointPos_ok mb j.name ⟨j, hjm, rfl⟩
        obtain ⟨i1, a1, a2⟩ := Out.bind_eq_ok.mp e1
        obtain ⟨i2, b1, b2⟩ := Out.bind_eq_ok.mp e2
        simp only [a1, a2, b1, b2, Out.ok_bind, Out.pure_eq, ih (fun k hk => hj k (by simp [hk]))]
        simp [hm]
  exact key mb.joints (fun _ h => h) deps

/-- Dependencies of all the robots. -/
def allDeps : List (MultiBody K) → ℕ → List (Dep K)
  | [], _ => []
  | mb :: t, b => (if 0 < mb.nrDof then robotDeps mb b else []) ++ allDeps t (b + mb.nrDof)

theorem allDeps_append (l₁ l₂ : List (MultiBody K)) (b : ℕ) :
    allDeps (l₁ ++ l₂) b = allDeps l₁ b ++ allDeps l₂ (b + (l₁.map MultiBody.nrDof).sum) := by
  induction l₁ generalizing b with
  | nil => simp [allDeps]
  | cons m t ih => simp [allDeps, ih, add_assoc]

/-! ### Robot loop -/

/-- Does robot `i` have degrees of freedom? -/
def isMobile (mbs : List (MultiBody K)) (i : ℕ) : Bool :=
  match mbs[i]? with
  | some mb => decide (0 < mb.nrDof)
  | none => false

/-- Invariant of the robot loop. -/
structure AlphaInv (mbs : List (MultiBody K)) (d1 : SolverData K) (r : ℕ) (s : AlphaSt K) :
    Prop where
  cum : s.cum = ((mbs.take r).map MultiBody.nrDof).sum
  deps : s.deps = allDeps (mbs.take r) 0
  lenA : s.data.alphaD.length = mbs.length
  lenB : s.data.alphaDBegin.length = mbs.length
  lenN : s.data.normalAccB.length = mbs.length
  tA : s.data.alphaD.take r = (mbs.take r).map MultiBody.nrDof
  tB : s.data.alphaDBegin.take r = starts 0 ((mbs.take r).map MultiBody.nrDof)
  mob : s.data.mobileRobotIndex = (List.range r).filter (isMobile mbs)
  nLt : ∀ k < r, ∀ mb old, mbs[k]? = some mb → d1.normalAccB[k]? = some old →
    s.data.normalAccB[k]? = some (vecResize old mb.nrBodies 0)
  nGe : ∀ k, r ≤ k → s.data.normalAccB[k]? = d1.normalAccB[k]?
  fU : s.data.uniCont = d1.uniCont
  fB : s.data.biCont = d1.biCont
  fL : s.data.lambda = d1.lambda
  fLB : s.data.lambdaBegin = d1.lambdaBegin

theorem alphaStep_ok (mbs : List (MultiBody K)) (hm : ∀ mb ∈ mbs, MimicNamed mb)
    (d1 : SolverData K) (r : ℕ) (hr : r < mbs.length) (s : AlphaSt K) (I : AlphaInv mbs d1 r s) :
    ∃ s', alphaStep mbs r s = .ok s' ∧ AlphaInv mbs d1 (r + 1) s' := by
  have hA : r < s.data.alphaD.length := by rw [I.lenA]; exact hr
  have hB : r < s.data.alphaDBegin.length := by rw [I.lenB]; exact hr
  have hN : r < s.data.normalAccB.length := by rw [I.lenN]; exact hr
  have htake : mbs.take (r + 1) = mbs.take r ++ [mbs[r]] := by
    rw [List.take_add_one]; simp [hr]
  have hcum : s.cum + mbs[r].nrDof = ((mbs.take (r + 1)).map MultiBody.nrDof).sum := by
    rw [htake, I.cum, List.map_append, List.sum_append]; simp
  have hdeps : allDeps (mbs.take (r + 1)) 0
      = s.deps ++ (if 0 < mbs[r].nrDof then robotDeps mbs[r] s.cum else []) := by
    rw [htake, allDeps_append, I.deps, I.cum]; simp [allDeps]
  have tA : (s.data.alphaD.set r mbs[r].nrDof).take (r + 1)
      = (mbs.take (r + 1)).map MultiBody.nrDof := by
    rw [take_succ_set _ _ _ hA, I.tA, htake, List.map_append]; rfl
  have tB : (s.data.alphaDBegin.set r s.cum).take (r + 1)
      = starts 0 ((mbs.take (r + 1)).map MultiBody.nrDof) := by
    rw [take_succ_set _ _ _ hB, I.tB, htake, List.map_append, starts_append, I.cum]
    simp [starts]
  have nLt : ∀ k < r + 1, ∀ mb old, mbs[k]? = some mb → d1.normalAccB[k]? = some old →
      (s.data.normalAccB.set r (vecResize s.data.normalAccB[r] mbs[r].nrBodies 0))[k]?
        = some (vecResize old mb.nrBodies 0) := by
    intro k hk mb old hmb hold
    by_cases hkr : k = r
    · subst hkr
      have e : s.data.normalAccB[k]? = some old := by rw [I.nGe k le_rfl, hold]
      rw [List.getElem?_set_self hN]
      have h1 : s.data.normalAccB[k] = old := by
        rw [List.getElem?_eq_getElem hN] at e; exact Option.some.inj e
      have h2 : mbs[k] = mb := by
        rw [List.getElem?_eq_getElem hr] at hmb; exact Option.some.inj hmb
      rw [h1, h2]
    · rw [List.getElem?_set_ne (by omega)]
      exact I.nLt k (by omega) mb old hmb hold
  have nGe : ∀ k, r + 1 ≤ k →
      (s.data.normalAccB.set r (vecResize s.data.normalAccB[r] mbs[r].nrBodies 0))[k]?
        = d1.normalAccB[k]? := by
    intro k hk
    rw [List.getElem?_set_ne (by omega)]
    exact I.nGe k (by omega)
  unfold alphaStep
  simp only [vecAt_ok hr, vecSet_ok hA, vecSet_ok hB, vecAt_ok hN, vecSet_ok hN, Out.ok_bind]
  by_cases hd : 0 < mbs[r].nrDof
  · have hmb : MimicNamed mbs[r] := hm _ (List.getElem_mem hr)
    rw [if_pos hd]
    have hB' : r < (s.data.alphaDBegin.set r s.cum).length := by simpa using hB
    simp only [vecAt_ok hB', List.getElem_set_self, Out.ok_bind, mimicLoop_ok _ _ _ hmb,
      Out.pure_eq]
    refine ⟨_, rfl, ⟨hcum, ?_, by simpa using I.lenA, by simpa using I.lenB, by simpa using I.lenN,
      tA, tB, ?_, nLt, nGe, I.fU, I.fB, I.fL, I.fLB⟩⟩
    · rw [hdeps, if_pos hd]
    · simp only [I.mob, List.range_succ, List.filter_append]
      congr 1
      simp [isMobile, hr, hd]
  · rw [if_neg hd]
    refine ⟨_, rfl, ⟨hcum, ?_, by simpa using I.lenA, by simpa using I.lenB, by simpa using I.lenN,
      tA, tB, ?_, nLt, nGe, I.fU, I.fB, I.fL, I.fLB⟩⟩
    · rw [hdeps, if_neg hd]; simp
    · simp only [I.mob, List.range_succ, List.filter_append]
      simp [isMobile, hr]; omega

/-- Closed form of the result of `layout`. -/
structure LayoutSpec (old : SolverData K) (mbs : List (MultiBody K)) (uni : List (UniContact K))
    (bi : List (BiContact K)) (d : SolverData K) (deps : List (Dep K)) : Prop where
  alphaD : d.alphaD = mbs.map MultiBody.nrDof
  alphaDBegin : d.alphaDBegin = starts 0 (mbs.map MultiBody.nrDof)
  totalAlphaD : d.totalAlphaD = (mbs.map MultiBody.nrDof).sum
  lambda : d.lambda = uni.map UniContact.nL ++ bi.map BiContact.nL
  lambdaBegin : d.lambdaBegin
    = starts d.totalAlphaD (uni.map UniContact.nL ++ bi.map BiContact.nL)
  nrUniLambda : d.nrUniLambda = (uni.map UniContact.nL).sum
  nrBiLambda : d.nrBiLambda = (bi.map BiContact.nL).sum
  totalLambda : d.totalLambda = d.nrUniLambda + d.nrBiLambda
  nrVars : d.nrVars = d.totalAlphaD + d.totalLambda
  uniCont : d.uniCont = uni
  biCont : d.biCont = bi
  allCont : d.allCont = uni.map BiContact.ofUni ++ bi
  mobile : d.mobileRobotIndex = (List.range mbs.length).filter (isMobile mbs)
  normLen : d.normalAccB.length = mbs.length
  norm : ∀ (k : ℕ) (mb : MultiBody K), mbs[k]? = some mb →
    d.normalAccB[k]? = some (vecResize ((old.normalAccB[k]?).getD []) mb.nrBodies 0)
  deps : deps = allDeps mbs 0

theorem vecResize_getElem? {α : Type} (l : List α) (n : ℕ) (d : α) (k : ℕ) (hk : k < n) :
    (vecResize l n d)[k]? = some ((l[k]?).getD d) := by
  unfold vecResize
  by_cases h : k < l.length
  · rw [List.getElem?_append_left (by simp; omega)]
    simp [hk, h]
  · rw [List.getElem?_append_right (by simp; omega)]
    have h1 : ¬ k < l.length := h
    rw [List.getElem?_replicate]
    simp only [List.length_take]
    rw [if_pos (by omega)]
    simp [List.getElem?_eq_none (not_lt.mp h1)]

theorem layout_ok (old : SolverData K) (mbs : List (MultiBody K)) (uni : List (UniContact K))
    (bi : List (BiContact K)) (hm : ∀ mb ∈ mbs, MimicNamed mb)
    (hb : ∀ c ∈ bi, c.r1Points.length ≤ c.r1Cones.length) :
    ∃ d deps, layout old mbs uni bi = .ok (d, deps) ∧ LayoutSpec old mbs uni bi d deps := by
  unfold layout
  simp only
  set d1 : SolverData K := { old with
    alphaD := vecResize old.alphaD mbs.length 0,
    alphaDBegin := vecResize old.alphaDBegin mbs.length 0,
    uniCont := uni, biCont := bi,
    lambda := vecResize old.lambda (uni.length + bi.length) 0,
    lambdaBegin := vecResize old.lambdaBegin (uni.length + bi.length) 0,
    mobileRobotIndex := [],
    normalAccB := vecResize old.normalAccB mbs.length [] } with hd1
  obtain ⟨a, ha, I⟩ := forRange_inv (n := mbs.length) (f := alphaStep mbs) (s := ⟨d1, 0, []⟩)
    (AlphaInv mbs d1)
    ⟨by simp, by simp [allDeps], by simp [hd1], by simp [hd1], by simp [hd1], by simp,
      by simp [starts], by simp [hd1], by intro k hk; omega, by intros; rfl, rfl, rfl, rfl, rfl⟩
    (fun r hr s hI => alphaStep_ok mbs hm d1 r hr s hI)
  have ha' : forRange mbs.length (alphaStep mbs)
      ⟨{ old with
        alphaD := vecResize old.alphaD mbs.length 0,
        alphaDBegin := vecResize old.alphaDBegin mbs.length 0,
        uniCont := uni, biCont := bi,
        lambda := vecResize old.lambda (SolverData.nrContacts { old with
          alphaD := vecResize old.alphaD mbs.length 0,
          alphaDBegin := vecResize old.alphaDBegin mbs.length 0,
          uniCont := uni, biCont := bi }) 0,
        lambdaBegin := vecResize old.lambdaBegin (SolverData.nrContacts { old with
          alphaD := vecResize old.alphaD mbs.length 0,
          alphaDBegin := vecResize old.alphaDBegin mbs.length 0,
          uniCont := uni, biCont := bi }) 0,
        mobileRobotIndex := [],
        normalAccB := vecResize old.normalAccB mbs.length [] }, 0, []⟩ = .ok a := ha
  rw [ha', Out.ok_bind]
  have lenL : a.data.lambda.length = uni.length + bi.length := by rw [I.fL]; simp [hd1]
  have lenLB : a.data.lambdaBegin.length = uni.length + bi.length := by rw [I.fLB]; simp [hd1]
  have eU : a.data.uniCont = uni := I.fU
  have eB : a.data.biCont = bi := I.fB
  rw [eU]
  obtain ⟨la, lB, e1, l1, l2, t1, t2⟩ := lamLoop_ok uni UniContact.nrLambda UniContact.nL
    BiContact.ofUni (fun c _ => c.nrLambda_ok)
    ⟨{ a.data with totalAlphaD := a.cum, allCont := [] }, a.cum, 0⟩
    (by simp [lenL]) (by simp [lenLB])
  simp only at e1 l1 l2 t1 t2
  have e1' : forEach uni (fun c => lamStep c.nrLambda (BiContact.ofUni c))
      { data := { a.data with totalAlphaD := a.cum, allCont := [] }, cum := a.cum, cIdx := 0 }
      = _ := e1
  rw [← eU] at e1'
  simp only [eU] at e1'
  rw [e1', Out.ok_bind]
  simp only [eB]
  obtain ⟨la2, lB2, e2, m1, m2, u1, u2⟩ := lamLoop_ok bi BiContact.nrLambda BiContact.nL
    (fun c => c) (fun c hc => c.nrLambda_ok (hb c hc))
    ⟨{ a.data with
        totalAlphaD := a.cum, lambda := la, lambdaBegin := lB,
        allCont := [] ++ uni.map BiContact.ofUni,
        nrUniLambda := a.cum + (uni.map UniContact.nL).sum - a.cum },
      a.cum + (uni.map UniContact.nL).sum, 0 + uni.length⟩
    (by simp [l1, lenL]) (by simp [l2, lenLB])
  simp only [eU, eB] at e2 m1 m2 u1 u2 ⊢
  rw [e2, Out.ok_bind]
  have hcum : a.cum = (mbs.map MultiBody.nrDof).sum := by rw [I.cum]; simp
  have hla : la2 = uni.map UniContact.nL ++ bi.map BiContact.nL := by
    rw [zero_add] at t1 u1
    rw [t1] at u1
    rw [List.take_of_length_le (by rw [m1, l1, lenL])] at u1
    simpa using u1
  have hlB : lB2 = starts a.cum (uni.map UniContact.nL ++ bi.map BiContact.nL) := by
    rw [zero_add] at t2 u2
    rw [t2] at u2
    rw [List.take_of_length_le (by rw [m2, l2, lenLB])] at u2
    rw [starts_append]
    simpa using u2
  refine ⟨_, _, rfl, ?_⟩
  constructor
  · have := I.tA
    rw [List.take_of_length_le (by rw [I.lenA])] at this
    simpa using this
  · have := I.tB
    rw [List.take_of_length_le (by rw [I.lenB])] at this
    simpa using this
  · exact hcum
  · exact hla
  · exact hlB
  · simp
  · simp; omega
  · rfl
  · rfl
  · rfl
  · rfl
  · simp
  · exact I.mob
  · exact I.lenN
  · intro k mb hk
    have hkl : k < mbs.length := by
      by_contra h
      rw [List.getElem?_eq_none (not_lt.mp h)] at hk
      cases hk
    exact I.nLt k hkl mb _ hk (vecResize_getElem? _ _ _ _ hkl)
  · have := I.deps
    simpa using this

end Verif
