import Verif.Proofs.Layout

/-!
# C01, C02: layout of the decision vector and result accessors
-/

set_option autoImplicit false
set_option linter.unusedSectionVars false

namespace Verif

variable {K : Type} [CommRing K]

/-! ## Specification -/

namespace Spec

/-- Weights a planar contact needs: one per point and generator. -/
def uniWeights (c : UniContact K) : ℕ := c.r1Points.length * c.r1Cone.generators.length

/-- Weights a generic contact needs: the generators of the cones of its points. -/
def biWeights (c : BiContact K) : ℕ :=
  ((c.r1Cones.take c.r1Points.length).map fun k => k.generators.length).sum

/-- What the callers of `nrVars` must provide: mimic leaders exist in their robot, and every point
of a bilateral contact has a cone. -/
def GoodInput (mbs : List (MultiBody K)) (bi : List (BiContact K)) : Prop :=
  (∀ mb ∈ mbs, ∀ j ∈ mb.joints, ∀ l m, j.mimic = some (l, m) → ∃ j' ∈ mb.joints, j'.name = l) ∧
  (∀ c ∈ bi, c.r1Points.length ≤ c.r1Cones.length)

/-- The blocks `(begin, size)` of the decision vector, as read through the accessors: robots first,
then contacts. -/
def blocks (d : SolverData K) : List (ℕ × ℕ) :=
  d.alphaDBegin.zip d.alphaD ++ d.lambdaBegin.zip d.lambda

/-- Variable `i` belongs to block number `k`. -/
def InBlock (d : SolverData K) (k i : ℕ) : Prop :=
  ∃ b, (blocks d)[k]? = some b ∧ b.1 ≤ i ∧ i < b.1 + b.2

end Spec

open Spec

/-! ## Helper lemmas on consecutive blocks -/

theorem zip_starts_getElem? (a : ℕ) (l : List ℕ) (k : ℕ) (b : ℕ × ℕ) :
    ((starts a l).zip l)[k]? = some b ↔ k < l.length ∧ b.1 = a + (l.take k).sum ∧ l[k]? = some b.2 := by
  rw [List.getElem?_zip_eq_some]
  constructor
  · rintro ⟨h1, h2⟩
    have hk : k < (starts a l).length := by
      by_contra h
      rw [List.getElem?_eq_none (not_lt.mp h)] at h1; cases h1
    rw [List.getElem?_eq_getElem hk, getElem_starts] at h1
    exact ⟨by simpa using hk, (Option.some.inj h1).symm, h2⟩
  · rintro ⟨hk, h1, h2⟩
    have hk' : k < (starts a l).length := by simpa using hk
    exact ⟨by rw [List.getElem?_eq_getElem hk', getElem_starts, h1], h2⟩

theorem exists_block (a : ℕ) (l : List ℕ) (i : ℕ) (h1 : a ≤ i) (h2 : i < a + l.sum) :
    ∃ (k : ℕ) (b : ℕ × ℕ), ((starts a l).zip l)[k]? = some b ∧ b.1 ≤ i ∧ i < b.1 + b.2 := by
  induction l generalizing a with
  | nil => simp at h2; omega
  | cons n t ih =>
    by_cases h : i < a + n
    · exact ⟨0, (a, n), by simp [starts], h1, h⟩
    · obtain ⟨k, b, e, r⟩ := ih (a + n) (by omega) (by simp at h2; omega)
      exact ⟨k + 1, b, by simpa [starts] using e, r⟩

theorem blocks_eq {old : SolverData K} {mbs : List (MultiBody K)} {uni : List (UniContact K)}
    {bi : List (BiContact K)} {d : SolverData K} {deps : List (Dep K)}
    (s : LayoutSpec old mbs uni bi d deps) :
    blocks d = (starts 0 (mbs.map MultiBody.nrDof ++ (uni.map UniContact.nL ++ bi.map BiContact.nL))).zip
      (mbs.map MultiBody.nrDof ++ (uni.map UniContact.nL ++ bi.map BiContact.nL)) := by
  unfold blocks
  rw [s.alphaD, s.alphaDBegin, s.lambda, s.lambdaBegin, s.totalAlphaD,
    starts_append 0 (mbs.map MultiBody.nrDof), List.zip_append (by simp), zero_add]

/-! ## C01 -/

/-- **C01.** `nrVars` lays the decision vector out as consecutive, disjoint blocks, robots first,
then unilateral contacts, then bilateral contacts, covering exactly `[0, nrVars)`. -/
theorem C01_layout_partition (old : SolverData K) (mbs : List (MultiBody K))
    (uni : List (UniContact K)) (bi : List (BiContact K)) (h : GoodInput mbs bi) :
    ∃ d deps, layout old mbs uni bi = .ok (d, deps) ∧
      -- one block per robot and per contact, in order, with the right sizes
      (blocks d).map Prod.snd
        = mbs.map MultiBody.nrDof ++ uni.map uniWeights ++ bi.map biWeights ∧
      d.alphaD.length = mbs.length ∧ d.alphaDBegin.length = mbs.length ∧
      d.lambda.length = uni.length + bi.length ∧ d.lambdaBegin.length = uni.length + bi.length ∧
      -- the blocks are consecutive, starting at 0
      (∀ b, (blocks d)[0]? = some b → b.1 = 0) ∧
      (∀ k b b', (blocks d)[k]? = some b → (blocks d)[k + 1]? = some b' → b'.1 = b.1 + b.2) ∧
      -- they cover exactly the variables, each once
      (∀ i, i < d.nrVars ↔ ∃ k, InBlock d k i) ∧
      (∀ i k k', InBlock d k i → InBlock d k' i → k = k') ∧
      -- totals
      d.totalAlphaD = (mbs.map MultiBody.nrDof).sum ∧
      d.nrUniLambda = (uni.map uniWeights).sum ∧ d.nrBiLambda = (bi.map biWeights).sum ∧
      d.totalLambda = d.nrUniLambda + d.nrBiLambda ∧ d.nrVars = d.totalAlphaD + d.totalLambda ∧
      d.lambdaBegin0 = d.totalAlphaD ∧ d.bilateralBegin = d.totalAlphaD + d.nrUniLambda ∧
      (∀ k b : ℕ, d.lambdaBegin[k]? = some b → uni.length ≤ k → d.bilateralBegin ≤ b) ∧
      (∀ b : ℕ, d.lambdaBegin[uni.length]? = some b → b = d.bilateralBegin) := by
  obtain ⟨d, deps, e, s⟩ := layout_ok old mbs uni bi h.1 h.2
  refine ⟨d, deps, e, ?_⟩
  set L := mbs.map MultiBody.nrDof ++ (uni.map UniContact.nL ++ bi.map BiContact.nL) with hL
  have hb : blocks d = (starts 0 L).zip L := blocks_eq s
  have hn : d.nrVars = L.sum := by
    rw [s.nrVars, s.totalLambda, s.totalAlphaD, s.nrUniLambda, s.nrBiLambda, hL]
    simp
  refine ⟨?_, by rw [s.alphaD]; simp, by rw [s.alphaDBegin]; simp, by rw [s.lambda]; simp,
    by rw [s.lambdaBegin]; simp, ?_, ?_, ?_, ?_, s.totalAlphaD, s.nrUniLambda, s.nrBiLambda,
    s.totalLambda, s.nrVars, rfl, rfl, ?_, ?_⟩
  · rw [hb, List.map_snd_zip (by simp), hL, List.append_assoc]; rfl
  · intro b hb0
    rw [hb, zip_starts_getElem?] at hb0
    simpa using hb0.2.1
  · intro k b b' h1 h2
    rw [hb, zip_starts_getElem?] at h1 h2
    rw [h2.2.1, h1.2.1, List.take_add_one, h1.2.2, List.sum_append]
    simp [add_assoc]
  · intro i
    unfold InBlock
    rw [hb, hn]
    constructor
    · intro hi
      exact exists_block 0 L i (by omega) (by omega)
    · rintro ⟨k, b, h1, h2, h3⟩
      rw [zip_starts_getElem?] at h1
      have := take_succ_sum_le L k L.length b.2 h1.1 h1.2.2
      rw [List.take_length] at this
      have := h1.2.1
      omega
  · rintro i k k' ⟨b, h1, h2, h3⟩ ⟨b', h1', h2', h3'⟩
    rw [hb, zip_starts_getElem?] at h1 h1'
    rcases Nat.lt_trichotomy k k' with hlt | heq | hlt
    · have := take_succ_sum_le L k k' b.2 hlt h1.2.2
      have := h1.2.1
      have := h1'.2.1
      omega
    · exact heq
    · have := take_succ_sum_le L k' k b'.2 hlt h1'.2.2
      have := h1.2.1
      have := h1'.2.1
      omega
  · intro k b hk hu
    have hkl : k < d.lambdaBegin.length := by
      by_contra hc; rw [List.getElem?_eq_none (not_lt.mp hc)] at hk; cases hk
    rw [List.getElem?_eq_getElem hkl] at hk
    simp only [s.lambdaBegin, getElem_starts] at hk
    have hk := Option.some.inj hk
    rw [← hk, List.take_append, List.sum_append, List.take_of_length_le (by simpa using hu)]
    simp only [SolverData.bilateralBegin, SolverData.unilateralBegin, SolverData.lambdaBegin0,
      s.nrUniLambda]
    omega
  · intro b hk
    have hkl : uni.length < d.lambdaBegin.length := by
      by_contra hc; rw [List.getElem?_eq_none (not_lt.mp hc)] at hk; cases hk
    rw [List.getElem?_eq_getElem hkl] at hk
    simp only [s.lambdaBegin, getElem_starts] at hk
    have hk := Option.some.inj hk
    rw [← hk, List.take_append, List.sum_append, List.take_of_length_le (by simp)]
    simp [SolverData.bilateralBegin, SolverData.unilateralBegin, SolverData.lambdaBegin0,
      s.nrUniLambda]

/-- **C01 (history).** The layout (and the dependencies) depend on the arguments only, not on what
the solver stored before. -/
theorem C01_layout_no_history (old old' : SolverData K) (mbs : List (MultiBody K))
    (uni : List (UniContact K)) (bi : List (BiContact K)) (h : GoodInput mbs bi) :
    ∃ d d' deps, layout old mbs uni bi = .ok (d, deps) ∧ layout old' mbs uni bi = .ok (d', deps) ∧
      { d with normalAccB := [] } = { d' with normalAccB := [] } := by
  obtain ⟨d, deps, e, s⟩ := layout_ok old mbs uni bi h.1 h.2
  obtain ⟨d', deps', e', s'⟩ := layout_ok old' mbs uni bi h.1 h.2
  refine ⟨d, d', deps, e, by rw [s.deps, ← s'.deps]; exact e', ?_⟩
  have h1 := s.alphaD.trans s'.alphaD.symm
  have h2 := s.alphaDBegin.trans s'.alphaDBegin.symm
  have h3 := s.totalAlphaD.trans s'.totalAlphaD.symm
  have h4 := s.lambda.trans s'.lambda.symm
  have h5 : d.lambdaBegin = d'.lambdaBegin := by rw [s.lambdaBegin, s'.lambdaBegin, h3]
  have h6 := s.nrUniLambda.trans s'.nrUniLambda.symm
  have h7 := s.nrBiLambda.trans s'.nrBiLambda.symm
  have h8 : d.totalLambda = d'.totalLambda := by rw [s.totalLambda, s'.totalLambda, h6, h7]
  have h9 : d.nrVars = d'.nrVars := by rw [s.nrVars, s'.nrVars, h3, h8]
  have h10 := s.uniCont.trans s'.uniCont.symm
  have h11 := s.biCont.trans s'.biCont.symm
  have h12 := s.allCont.trans s'.allCont.symm
  have h13 := s.mobile.trans s'.mobile.symm
  cases d; cases d'
  simp_all

/-! ## C02 -/

theorem ContactId.eq_iff (a b : ContactId) : a.eq b = true ↔ a = b := by
  cases a; cases b; simp [ContactId.eq, and_assoc]

theorem Vec.segment_toList (x v : Vec K) (b n : ℕ) (h : x.segment b n = .ok v) :
    v.size = n ∧ v.toList = (x.toList.drop b).take n := by
  unfold Vec.segment at h
  split at h
  · rename_i hb
    cases h
    refine ⟨rfl, ?_⟩
    apply List.ext_getElem
    · simp [Vec.toList]; omega
    · intro i h1 h2
      simp [Vec.toList]
  · cases h

theorem Vec.segment_eq_ok (x : Vec K) (b n : ℕ) (h : b + n ≤ x.size) :
    ∃ v, x.segment b n = .ok v := by
  simp [Vec.segment, h]

theorem concat_blocks {α : Type} (l : List α) (a : ℕ) (L : List ℕ) :
    (((starts a L).zip L).map fun b => (l.drop b.1).take b.2).flatten
      = (l.drop a).take L.sum := by
  induction L generalizing a with
  | nil => simp [starts]
  | cons n t ih =>
    simp only [starts, List.zip_cons_cons, List.map_cons, List.flatten_cons, ih, List.sum_cons]
    rw [List.take_add, List.drop_drop]

/-- The slices read for the blocks `starts a L`. -/
theorem slices_ok (x : Vec K) (a : ℕ) (L : List ℕ) (h : a + L.sum ≤ x.size) :
    ∃ vs : List (Vec K), vs.length = L.length ∧
      (∀ (k b n : ℕ), (starts a L)[k]? = some b → L[k]? = some n →
        ∃ v, vs[k]? = some v ∧ x.segment b n = .ok v ∧ v.size = n) ∧
      (vs.map Vec.toList).flatten = (x.toList.drop a).take L.sum := by
  refine ⟨((starts a L).zip L).map fun b => ⟨b.2, fun i => x.get (b.1 + i)⟩, by simp, ?_, ?_⟩
  · intro k b n hb hn
    have hk : k < L.length := by
      by_contra hc; rw [List.getElem?_eq_none (not_lt.mp hc)] at hn; cases hn
    have hz : ((starts a L).zip L)[k]? = some (b, n) := by
      rw [List.getElem?_zip_eq_some]; exact ⟨hb, hn⟩
    refine ⟨⟨n, fun i => x.get (b + i)⟩, by rw [List.getElem?_map, hz]; rfl, ?_, rfl⟩
    have h1 := (zip_starts_getElem? a L k (b, n)).mp hz
    have h2 := take_succ_sum_le L k L.length n hk hn
    rw [List.take_length] at h2
    have h3 := h1.2.1
    simp only at h3
    simp [Vec.segment, show b + n ≤ x.size by omega]
  · rw [← concat_blocks, List.map_map]
    congr 1
    apply List.map_congr_left
    intro b hb
    obtain ⟨k, hk, e⟩ := List.getElem_of_mem hb
    have hz : ((starts a L).zip L)[k]? = some b := by rw [List.getElem?_eq_getElem hk, e]
    have h1 := (zip_starts_getElem? a L k b).mp hz
    have h2 := take_succ_sum_le L k L.length b.2 h1.1 h1.2.2
    rw [List.take_length] at h2
    have h3 := h1.2.1
    exact (Vec.segment_toList x _ b.1 b.2 (by simp [Vec.segment, show b.1 + b.2 ≤ x.size by omega])).2

/-- **C02.** Per-robot and per-contact accessors slice the result without gap or overlap; the slice of a contact has
as many entries as it has weights (`lambda`, see C01). -/
theorem C02_accessors (old : SolverData K) (mbs : List (MultiBody K))
    (uni : List (UniContact K)) (bi : List (BiContact K)) (h : GoodInput mbs bi)
    (d : SolverData K) (deps : List (Dep K)) (hd : layout old mbs uni bi = .ok (d, deps))
    (x : Vec K) (hx : x.size = d.nrVars) :
    ∃ as ls : List (Vec K), ∃ va vl : Vec K,
      as.length = mbs.length ∧ ls.length = uni.length + bi.length ∧
      (∀ (r : ℕ) (hr : r < mbs.length), ∃ v, as[r]? = some v ∧ alphaDVecAt d x r = .ok v ∧
        v.size = mbs[r].nrDof) ∧
      (∀ c < uni.length + bi.length, ∃ v, ls[c]? = some v ∧ lambdaVecAt d x c = .ok v ∧
        d.lambda[c]? = some v.size) ∧
      ((as ++ ls).map Vec.toList).flatten = x.toList ∧
      alphaDVec d x = .ok va ∧ va.toList = (as.map Vec.toList).flatten ∧
      lambdaVec d x = .ok vl ∧ vl.toList = (ls.map Vec.toList).flatten := by
  obtain ⟨d', deps', e, s⟩ := layout_ok old mbs uni bi h.1 h.2
  rw [hd] at e
  cases e
  have hsum : d.nrVars = (mbs.map MultiBody.nrDof).sum
      + (uni.map UniContact.nL ++ bi.map BiContact.nL).sum := by
    rw [s.nrVars, s.totalLambda, s.totalAlphaD, s.nrUniLambda, s.nrBiLambda]; simp
  obtain ⟨as, la, pa, fa⟩ := slices_ok x 0 (mbs.map MultiBody.nrDof) (by omega)
  obtain ⟨ls, ll, pl, fl⟩ := slices_ok x d.totalAlphaD
    (uni.map UniContact.nL ++ bi.map BiContact.nL) (by rw [s.totalAlphaD]; omega)
  obtain ⟨va, hva⟩ := Vec.segment_eq_ok x 0 d.totalAlphaD (by rw [s.totalAlphaD]; omega)
  have htl : d.totalLambda = (uni.map UniContact.nL ++ bi.map BiContact.nL).sum := by
    rw [s.totalLambda, s.nrUniLambda, s.nrBiLambda]; simp
  obtain ⟨vl, hvl⟩ := Vec.segment_eq_ok x d.totalAlphaD d.totalLambda
    (by rw [htl, s.totalAlphaD]; omega)
  refine ⟨as, ls, va, vl, by simpa using la, by simpa using ll, ?_, ?_, ?_, hva, ?_, hvl, ?_⟩
  · intro r hr
    obtain ⟨v, h1, h2, h3⟩ := pa r ((starts 0 (mbs.map MultiBody.nrDof))[r]'(by simpa using hr)) mbs[r].nrDof
      (List.getElem?_eq_getElem (by simpa using hr)) (by simp [hr])
    refine ⟨v, h1, ?_, h3⟩
    have r1 : r < d.alphaDBegin.length := by rw [s.alphaDBegin]; simpa using hr
    have r2 : r < d.alphaD.length := by rw [s.alphaD]; simpa using hr
    simp only [alphaDVecAt, vecAt_ok r1, vecAt_ok r2, Out.ok_bind]
    simp only [s.alphaDBegin, s.alphaD, List.getElem_map]
    exact h2
  · intro c hc
    have r1 : c < d.lambdaBegin.length := by rw [s.lambdaBegin]; simpa using hc
    have r2 : c < d.lambda.length := by rw [s.lambda]; simpa using hc
    obtain ⟨v, h1, h2, h3⟩ := pl c d.lambdaBegin[c] d.lambda[c]
      (by rw [← s.lambdaBegin]; exact List.getElem?_eq_getElem r1)
      (by rw [← s.lambda]; exact List.getElem?_eq_getElem r2)
    refine ⟨v, h1, ?_, by rw [h3]; exact List.getElem?_eq_getElem r2⟩
    simp only [lambdaVecAt, vecAt_ok r1, vecAt_ok r2, Out.ok_bind]
    exact h2
  · rw [List.map_append, List.flatten_append, fa, fl, List.drop_zero, s.totalAlphaD]
    rw [List.take_of_length_le (l := x.toList.drop _)
      (by simp [Vec.toList, hx, hsum])]
    exact List.take_append_drop _ _
  · rw [fa, (Vec.segment_toList x va _ _ hva).2, s.totalAlphaD]
  · rw [fl, (Vec.segment_toList x vl _ _ hvl).2, htl]

/-- **C02 (out of range).** An index past the robots or contacts is undefined behaviour in the
per-index accessors. -/
theorem C02_accessors_out_of_range (old : SolverData K) (mbs : List (MultiBody K))
    (uni : List (UniContact K)) (bi : List (BiContact K)) (h : GoodInput mbs bi)
    (d : SolverData K) (deps : List (Dep K)) (hd : layout old mbs uni bi = .ok (d, deps))
    (x : Vec K) :
    (∀ r, mbs.length ≤ r → alphaDVecAt d x r = .ub) ∧
    (∀ c, uni.length + bi.length ≤ c → lambdaVecAt d x c = .ub) := by
  obtain ⟨d', deps', e, s⟩ := layout_ok old mbs uni bi h.1 h.2
  rw [hd] at e
  cases e
  refine ⟨fun r hr => ?_, fun c hc => ?_⟩
  · rw [alphaDVecAt, vecAt_ub (by rw [s.alphaDBegin]; simpa using hr)]; rfl
  · rw [lambdaVecAt, vecAt_ub (by rw [s.lambdaBegin]; simpa using hc)]; rfl

theorem contactLambdaLoop_found (id : ContactId) (cs : List (BiContact K)) (pos k : ℕ)
    (hc : ∀ c ∈ cs, c.r1Points.length ≤ c.r1Cones.length) (hk : k < cs.length)
    (hid : cs[k].id = id) (hfirst : ∀ j (hj : j < k), cs[j].id ≠ id) :
    contactLambdaLoop id cs pos = .ok ((pos + ((cs.map BiContact.nL).take k).sum : ℕ) : ℤ) := by
  induction cs generalizing pos k with
  | nil => simp at hk
  | cons c t ih =>
    cases k with
    | zero =>
      have : c.id.eq id = true := (ContactId.eq_iff _ _).mpr (by simpa using hid)
      simp [contactLambdaLoop, this]
    | succ k =>
      have h0 : c.id ≠ id := by simpa using hfirst 0 (by omega)
      have : ¬ (c.id.eq id = true) := fun h => h0 ((ContactId.eq_iff _ _).mp h)
      simp only [contactLambdaLoop, if_neg this, c.nrLambda_ok (hc c (by simp)), Out.ok_bind]
      rw [ih (pos + c.nL) k (fun c' h' => hc c' (by simp [h'])) (by simpa using hk)
        (by simpa using hid) (fun j hj => by simpa using hfirst (j + 1) (by omega))]
      simp [add_assoc]

theorem contactLambdaLoop_absent (id : ContactId) (cs : List (BiContact K)) (pos : ℕ)
    (hc : ∀ c ∈ cs, c.r1Points.length ≤ c.r1Cones.length) (hid : ∀ c ∈ cs, c.id ≠ id) :
    contactLambdaLoop id cs pos = .ok (-1) := by
  induction cs generalizing pos with
  | nil => rfl
  | cons c t ih =>
    have : ¬ (c.id.eq id = true) := fun h => hid c (by simp) ((ContactId.eq_iff _ _).mp h)
    simp only [contactLambdaLoop, if_neg this, c.nrLambda_ok (hc c (by simp)), Out.ok_bind]
    exact ih _ (fun c' h' => hc c' (by simp [h'])) (fun c' h' => hid c' (by simp [h']))

/-- **C02 (contact position).** `contactLambdaPosition` is the offset, inside `lambdaVec()`, of the
first contact with the given id, and `-1` exactly when there is none. -/
theorem C02_contactLambdaPosition (old : SolverData K) (mbs : List (MultiBody K))
    (uni : List (UniContact K)) (bi : List (BiContact K)) (h : GoodInput mbs bi)
    (d : SolverData K) (deps : List (Dep K)) (hd : layout old mbs uni bi = .ok (d, deps))
    (id : ContactId) :
    (∀ k : ℕ, (uni.map UniContact.id ++ bi.map BiContact.id)[k]? = some id →
      (∀ j : ℕ, j < k → (uni.map UniContact.id ++ bi.map BiContact.id)[j]? ≠ some id) →
      ∃ b : ℕ, d.lambdaBegin[k]? = some b ∧
        contactLambdaPosition d id = .ok ((b : ℤ) - d.lambdaBegin0)) ∧
    (contactLambdaPosition d id = .ok (-1) ↔
      id ∉ uni.map UniContact.id ++ bi.map BiContact.id) := by
  obtain ⟨d', deps', e, s⟩ := layout_ok old mbs uni bi h.1 h.2
  rw [hd] at e
  cases e
  have hcones : ∀ c ∈ d.allCont, c.r1Points.length ≤ c.r1Cones.length := by
    intro c hc
    rw [s.allCont, List.mem_append, List.mem_map] at hc
    rcases hc with ⟨u, _, rfl⟩ | hc
    · simp [BiContact.ofUni]
    · exact h.2 c hc
  have hids : d.allCont.map BiContact.id = uni.map UniContact.id ++ bi.map BiContact.id := by
    rw [s.allCont, List.map_append, List.map_map]; rfl
  have hnL : d.allCont.map BiContact.nL = uni.map UniContact.nL ++ bi.map BiContact.nL := by
    rw [s.allCont, List.map_append, List.map_map]
    congr 1
    apply List.map_congr_left
    intro c _
    exact BiContact.nL_ofUni c
  have found : ∀ k : ℕ, (uni.map UniContact.id ++ bi.map BiContact.id)[k]? = some id →
      (∀ j : ℕ, j < k → (uni.map UniContact.id ++ bi.map BiContact.id)[j]? ≠ some id) →
      ∃ b : ℕ, d.lambdaBegin[k]? = some b ∧
        contactLambdaPosition d id = .ok ((b : ℤ) - d.lambdaBegin0) := by
    intro k hk hfirst
    rw [← hids] at hk hfirst
    have hkl : k < d.allCont.length := by
      by_contra hc
      rw [List.getElem?_eq_none (by simpa using hc)] at hk; cases hk
    have hlb : k < d.lambdaBegin.length := by
      rw [s.lambdaBegin, length_starts, ← hnL]; simpa using hkl
    refine ⟨d.lambdaBegin[k], List.getElem?_eq_getElem hlb, ?_⟩
    rw [contactLambdaPosition, contactLambdaLoop_found id d.allCont 0 k hcones hkl
      (by simpa [hkl] using hk)
      (fun j hj hc => hfirst j hj (by simp [show j < d.allCont.length by omega, hc]))]
    simp only [s.lambdaBegin, getElem_starts, hnL, SolverData.lambdaBegin0]
    simp
  refine ⟨found, ?_⟩
  constructor
  · intro hneg hmem
    rw [List.mem_iff_getElem?] at hmem
    have hex := hmem
    classical
    obtain ⟨b, hlb, hb⟩ := found (Nat.find hex) (Nat.find_spec hex)
      (fun j hj => Nat.find_min hex hj)
    -- the offset is nonnegative: lambdaBegin is at least lambdaBegin()
    rw [hneg] at hb
    have hb := Out.ok.inj hb
    have hkl : Nat.find hex < d.lambdaBegin.length := by
      by_contra hc; rw [List.getElem?_eq_none (not_lt.mp hc)] at hlb; cases hlb
    rw [List.getElem?_eq_getElem hkl] at hlb
    simp only [s.lambdaBegin, getElem_starts] at hlb
    have hlb := Option.some.inj hlb
    simp only [SolverData.lambdaBegin0] at hb
    omega
  · intro hnot
    apply contactLambdaLoop_absent _ _ _ hcones
    intro c hc hce
    apply hnot
    rw [← hids, List.mem_map]
    exact ⟨c, hc, hce⟩

/-! ## Non-vacuity -/

section Examples

/-- Two robots (2 and 0 dofs, the first with a mimic joint), a planar contact with two points and
two generators, and a generic contact with one point and three generators. -/
def exRobots : List (MultiBody ℚ) :=
  [⟨[⟨"a", 1, none⟩, ⟨"b", 1, some ("a", 2)⟩], 2, [-1, 0], [0, 1]⟩,
    ⟨[⟨"root", 0, none⟩], 1, [-1], [0]⟩]

def exUni : UniContact ℚ :=
  ⟨⟨0, 1, "foot", "ground", -1⟩, [0, 0], [0, 0], ⟨[0, 0]⟩, ⟨[0, 0]⟩, PT.one, PT.one⟩

def exBi : BiContact ℚ :=
  ⟨⟨0, 1, "hand", "ground", -1⟩, [0], [0], [⟨[0, 0, 0]⟩], [⟨[0, 0, 0]⟩], PT.one, PT.one⟩

example : GoodInput exRobots [exBi] := by
  refine ⟨?_, ?_⟩
  · intro mb hmb j hj l m hl
    simp only [exRobots, List.mem_cons, List.not_mem_nil, or_false] at hmb
    rcases hmb with rfl | rfl
    · simp only [List.mem_cons, List.not_mem_nil, or_false] at hj
      rcases hj with rfl | rfl
      · cases hl
      · simp only [Option.some.injEq, Prod.mk.injEq] at hl
        exact ⟨⟨"a", 1, none⟩, by simp, hl.1⟩
    · simp only [List.mem_cons, List.not_mem_nil, or_false] at hj
      subst hj
      cases hl
  · intro c hc
    simp only [List.mem_cons, List.not_mem_nil, or_false] at hc
    subst hc
    simp [exBi]

example : (layout SolverData.init exRobots [exUni] [exBi]).val?.map
    (fun p => (p.1.alphaDBegin, p.1.lambdaBegin, p.1.lambda, p.1.nrVars, p.2)) =
    some ([0, 2], [2, 6], [4, 3], 9, [(0, 1, 2)]) := by rfl

example : (layout SolverData.init exRobots [exUni] [exBi] >>= fun p =>
    contactLambdaPosition p.1 exBi.id) = .ok 4 := by decide

/-- The precondition on cones is needed: a point without a cone is undefined behaviour. -/
example : (layout SolverData.init exRobots [] [{ exBi with r1Cones := [] }]).val? = none := by
  decide

end Examples

end Verif
