import Verif.Proofs.Gripper
import Verif.Props.Layout
import Verif.Props.Collision

/-!
# C37: gripper torque constraint
-/

set_option autoImplicit false
set_option linter.unusedSectionVars false

namespace Verif

open Finset Spec

section
variable {K : Type} [Field K] [LinearOrder K] [IsStrictOrderedRing K]

theorem nL_eq_lamBefore (c : BiContact K) (h : c.r1Points.length ≤ c.r1Cones.length) :
    c.nL = lamBefore c c.r1Points.length := by
  have h1 := bi_nrLambda c h
  rw [BiContact.nrLambda_ok c h] at h1
  exact Out.ok.inj h1

/-- Where the weights of a bilateral contact are. -/
theorem bi_lambda {old : SolverData K} {mbs : List (MultiBody K)} {uni : List (UniContact K)}
    {bi : List (BiContact K)} (h : GoodInput mbs bi) {d : SolverData K} {deps : List (Dep K)}
    (hd : layout old mbs uni bi = .ok (d, deps)) (k : ℕ) (c : BiContact K) (hk : bi[k]? = some c) :
    ∃ a, d.lambdaBegin[k + uni.length]? = some a ∧
      d.lambda[k + uni.length]? = some (lamBefore c c.r1Points.length) ∧
      a + lamBefore c c.r1Points.length ≤ d.nrVars := by
  obtain ⟨d', deps', e, s⟩ := layout_ok old mbs uni bi h.1 h.2
  rw [hd] at e
  cases e
  obtain ⟨hkl, hk'⟩ := List.getElem?_eq_some_iff.mp hk
  have hnL := nL_eq_lamBefore c (h.2 c (List.mem_of_getElem? hk))
  have hlt : k + uni.length < (starts d.totalAlphaD (uni.map UniContact.nL ++ bi.map BiContact.nL)).length := by
    simp; omega
  have hget : (uni.map UniContact.nL ++ bi.map BiContact.nL)[k + uni.length]? = some c.nL := by
    rw [List.getElem?_append_right (by simp)]
    simp [hk]
  refine ⟨d.totalAlphaD + ((uni.map UniContact.nL ++ bi.map BiContact.nL).take (k + uni.length)).sum,
    ?_, ?_, ?_⟩
  · rw [s.lambdaBegin, List.getElem?_eq_getElem hlt, getElem_starts]
  · rw [s.lambda, hget, hnL]
  · rw [s.nrVars, s.totalLambda, s.nrUniLambda, s.nrBiLambda, ← List.sum_append, ← hnL, Nat.add_assoc]
    refine Nat.add_le_add_left ?_ _
    have h1 := List.take_append_drop (k + uni.length + 1) (uni.map UniContact.nL ++ bi.map BiContact.nL)
    have h2 : ((uni.map UniContact.nL ++ bi.map BiContact.nL).take (k + uni.length + 1)).sum
        = ((uni.map UniContact.nL ++ bi.map BiContact.nL).take (k + uni.length)).sum + c.nL := by
      rw [List.take_succ, hget]; simp
    rw [← h2]
    conv_rhs => rw [← h1, List.sum_append]
    omega

theorem V3.dot_sum {ι : Type} (s : Finset ι) (f : ι → V3 K) (a : V3 K) :
    a.dot (∑ i ∈ s, f i) = ∑ i ∈ s, a.dot (f i) := by
  classical
  induction s using Finset.induction_on with
  | empty => simp [V3.dot_zero]
  | insert i s hi ih => rw [sum_insert hi, sum_insert hi, V3.dot_add, ih]

theorem V3.cross_sum {ι : Type} (s : Finset ι) (f : ι → V3 K) (a : V3 K) :
    a.cross (∑ i ∈ s, f i) = ∑ i ∈ s, a.cross (f i) := by
  classical
  induction s using Finset.induction_on with
  | empty => simp [V3.cross_zero]
  | insert i s hi ih => rw [sum_insert hi, sum_insert hi, V3.cross_add, ih]

namespace Spec

/-- Every point of every bilateral contact has exactly one cone. -/
def ConesMatch (bi : List (BiContact K)) : Prop := ∀ c ∈ bi, c.r1Cones.length = c.r1Points.length

/-- The grippers whose contact is in the problem, in order. -/
noncomputable def withContact (bi : List (BiContact K)) (l : List (GripperData K)) :
    List (GripperData K) :=
  open Classical in l.filter fun g => decide (∃ c ∈ bi, c.id = g.id)

end Spec

theorem presents_eq (d : SolverData K) (l : List (GripperData K)) :
    presents d l = withContact d.biCont l := by
  unfold presents withContact
  refine List.filter_congr fun g _ => ?_
  cases hf : gripFind g.id d.biCont 0 with
  | none =>
    have h := gripFind_none.mp hf
    simp only [Option.isSome_none]
    symm
    rw [decide_eq_false_iff_not]
    rintro ⟨c, hc, h'⟩
    exact h c hc h'
  | some kc =>
    obtain ⟨k, c⟩ := kc
    obtain ⟨i, -, F⟩ := gripFind_some hf
    simp only [Option.isSome_some]
    symm
    rw [decide_eq_true_iff]
    exact ⟨c, List.mem_of_getElem? F.1, F.2.1⟩

/-- All that `updateNrVars` establishes. -/
theorem gripper_updateNrVars (s : Gripper K) {old : SolverData K} {mbs : List (MultiBody K)}
    {uni : List (UniContact K)} {bi : List (BiContact K)} (h : GoodInput mbs bi) (hm : ConesMatch bi)
    {d : SolverData K} {deps : List (Dep K)} (hd : layout old mbs uni bi = .ok (d, deps)) :
    ∃ s', s.updateNrVars d = .ok s' ∧ s'.data = s.data ∧ s'.A.rows = s.data.length ∧
      s'.A.cols = d.nrVars ∧ s'.b.size = s.data.length ∧
      (∀ (i : ℕ) g, (withContact bi s.data)[i]? = some g → s'.b.get i = g.limit ∧
        ∃ k c a, FirstContact bi g.id k c ∧ d.lambdaBegin[k + uni.length]? = some a ∧
          ∀ x, lineVal d.nrVars s'.A i x = absTorque g c a x) ∧
      ∀ i, (withContact bi s.data).length ≤ i → s'.b.get i = 0 ∧ ∀ c, s'.A.get i c = 0 := by
  obtain ⟨d', deps', e, L⟩ := layout_ok old mbs uni bi h.1 h.2
  rw [hd] at e
  cases e
  obtain ⟨r, e, I⟩ := gripLoop (d := d) (by rw [L.biCont]; exact hm)
    (by
      rw [L.biCont, L.uniCont]
      intro k c hk
      obtain ⟨a, h1, -, h3⟩ := bi_lambda h hd k c hk
      exact ⟨a, h1, h3⟩)
    s.data.length s.data [] (by simp)
    ⟨Mat.zero s.data.length d.nrVars, ⟨s.data.length, fun _ => 0⟩, 0⟩
    ⟨rfl, rfl, rfl, rfl, fun i g hi => by simp [presents] at hi, fun i _ => ⟨rfl, fun _ => rfl⟩⟩
  rw [List.nil_append] at I
  have hp := presents_eq d s.data
  rw [L.biCont] at hp
  refine ⟨{ s with A := r.A, b := r.b }, ?_, rfl, I.rows, I.cols, I.bsize, ?_, ?_⟩
  · unfold Gripper.updateNrVars
    rw [e]
    rfl
  · intro i g hi
    rw [← hp] at hi
    have := I.row i g hi
    rw [L.biCont, L.uniCont] at this
    exact this
  · intro i hi
    rw [← hp, ← I.line] at hi
    exact I.rest i hi

/-- **C37** (rows): `x` satisfies the rows exactly when for each registered gripper whose contact is in
the problem `Σ |axis · ((pᵢ - origin) × gᵢₖ)| λᵢₖ ≤ limit` with the weights of that contact (the first
bilateral contact with its id); the grippers whose contact is absent constrain nothing. There is one row
per registered gripper. -/
theorem C37_rows (s : Gripper K) (old : SolverData K) (mbs : List (MultiBody K))
    (uni : List (UniContact K)) (bi : List (BiContact K)) (h : GoodInput mbs bi) (hm : ConesMatch bi)
    (d : SolverData K) (deps : List (Dep K)) (hd : layout old mbs uni bi = .ok (d, deps)) :
    ∃ s', s.updateNrVars d = .ok s' ∧ s'.data = s.data ∧ s'.update = s' ∧
      s'.inEq.nrInEq = s.data.length ∧ s'.inEq.maxInEq = s.data.length ∧
      s'.A.rows = s.data.length ∧ s'.A.cols = d.nrVars ∧ s'.b.size = s.data.length ∧
      ∀ x, SatInEq d.nrVars s'.inEq x ↔
        ∀ g ∈ s.data, ∀ k c a, FirstContact bi g.id k c → d.lambdaBegin[uni.length + k]? = some a →
          absTorque g c a x ≤ g.limit := by
  obtain ⟨s', e, hdat, h1, h2, h3, hrow, hrest⟩ := gripper_updateNrVars s h hm hd
  have hN : s'.inEq.nrInEq = s.data.length := by rw [← hdat]; rfl
  refine ⟨s', e, hdat, rfl, hN, by rw [← hdat]; rfl, h1, h2, h3, fun x => ⟨fun hx => ?_, fun hx => ?_⟩⟩
  · intro g hg k c a F ha
    have hmem : g ∈ withContact bi s.data := by
      unfold withContact
      rw [List.mem_filter]
      exact ⟨hg, decide_eq_true ⟨c, List.mem_of_getElem? F.1, F.2.1⟩⟩
    obtain ⟨i, hi⟩ := List.getElem?_of_mem hmem
    obtain ⟨hb, k', c', a', F', ha', hv⟩ := hrow i g hi
    obtain ⟨rfl, rfl⟩ := firstContact_unique F F'
    rw [Nat.add_comm] at ha'
    rw [ha] at ha'
    cases ha'
    have hlt : i < s'.inEq.nrInEq := by
      rw [hN]
      have h1 := (List.getElem?_eq_some_iff.mp hi).1
      have h2 : (withContact bi s.data).length ≤ s.data.length := List.length_filter_le _ _
      omega
    have := hx i hlt
    change lineVal d.nrVars s'.A i x ≤ s'.b.get i at this
    rw [hb, hv x] at this
    exact this
  · intro i hi
    change lineVal d.nrVars s'.A i x ≤ s'.b.get i
    by_cases hlt : i < (withContact bi s.data).length
    · have hi' := List.getElem?_eq_getElem hlt
      obtain ⟨hb, k, c, a, F, ha, hv⟩ := hrow i _ hi'
      rw [hb, hv x]
      rw [Nat.add_comm] at ha
      refine hx _ ?_ k c a F ha
      exact (List.mem_filter.mp (List.mem_of_getElem? hi')).1
    · obtain ⟨hb, hA⟩ := hrest i (by omega)
      rw [hb]
      simp [lineVal, hA]

/-- **C37** (physical meaning): with nonnegative weights, the torque about the gripper axis through the
gripper origin of the wrench the contact applies (`forceWrench`, body 1 frame) is within the limit. -/
theorem C37_torque (s : Gripper K) (old : SolverData K) (mbs : List (MultiBody K))
    (uni : List (UniContact K)) (bi : List (BiContact K)) (h : GoodInput mbs bi) (hm : ConesMatch bi)
    (d : SolverData K) (deps : List (Dep K)) (hd : layout old mbs uni bi = .ok (d, deps))
    (s' : Gripper K) (hs : s.updateNrVars d = .ok s')
    (x : Vec K) (hxs : x.size = d.nrVars) (hx : SatInEq d.nrVars s'.inEq x.get)
    (g : GripperData K) (hg : g ∈ s.data) (k : ℕ) (c : BiContact K) (F : FirstContact bi g.id k c) :
    ∃ lam W, lambdaVecAt d x (uni.length + k) = .ok lam ∧ c.nrLambda = .ok lam.size ∧
      c.forceWrench lam c.r1Points c.r1Cones = .ok W ∧
      ((∀ i < lam.size, 0 ≤ lam.get i) →
        |g.axis.dot (W.couple - g.origin.cross W.force)| ≤ g.limit) := by
  obtain ⟨a, ha, hn, hfit⟩ := bi_lambda h hd k c F.1
  have hcones := hm c (List.mem_of_getElem? F.1)
  rw [Nat.add_comm] at ha hn
  refine ⟨⟨lamBefore c c.r1Points.length, fun i => x.get (a + i)⟩, _, ?_, bi_nrLambda c (by omega),
    bi_forceWrench c _ _ _ (by omega) (by omega) (fun _ _ => le_rfl) le_rfl, ?_⟩
  · unfold lambdaVecAt
    rw [vecAt_eq_ok.mpr ha, Out.ok_bind, vecAt_eq_ok.mpr hn, Out.ok_bind]
    exact if_pos (by rw [hxs]; exact hfit)
  · intro hpos
    dsimp only at hpos ⊢
    obtain ⟨s'', e, -, -, -, -, -, -, -, hiff⟩ := C37_rows s old mbs uni bi h hm d deps hd
    rw [hs] at e
    cases e
    refine le_trans ?_ ((hiff x.get).mp hx g hg k c a F ha)
    rw [V3.cross_sum, ← Finset.sum_sub_distrib, V3.dot_sum]
    refine (Finset.abs_sum_le_sum_abs _ _).trans (Finset.sum_le_sum fun i hi => ?_)
    rw [← V3.sub_cross]
    unfold combo
    rw [V3.cross_sum, V3.dot_sum]
    refine (Finset.abs_sum_le_sum_abs _ _).trans (Finset.sum_le_sum fun j hj => ?_)
    rw [V3.cross_smul, V3.dot_smul, abs_mul, mul_comm]
    have hi' := mem_range.mp hi
    have hj' := mem_range.mp hj
    have hle := lamBefore_mono c (show i + 1 ≤ c.r1Points.length by omega)
    have e3 : lamBefore c (i + 1) = lamBefore c i + (c.r1Cones.getD i ⟨[]⟩).generators.length := by
      simp [lamBefore, Finset.sum_range_succ]
    rw [abs_of_nonneg (hpos (lamBefore c i + j) (by omega)), Nat.add_assoc]

/-- **C37** (descriptions; full property minus the grippers whose contact is absent, for which
`C37_desc_counterexample` shows the shift): when every registered gripper has its contact in the problem,
`descInEq(i)` is about the gripper whose torque row `i` bounds. -/
theorem C37_desc_partial (s : Gripper K) (old : SolverData K) (mbs : List (MultiBody K))
    (uni : List (UniContact K)) (bi : List (BiContact K)) (h : GoodInput mbs bi) (hm : ConesMatch bi)
    (d : SolverData K) (deps : List (Dep K)) (hd : layout old mbs uni bi = .ok (d, deps))
    (hall : ∀ g ∈ s.data, ∃ c ∈ bi, c.id = g.id) :
    ∃ s', s.updateNrVars d = .ok s' ∧ (∀ i, s.data.length ≤ i → s'.descInEq i = .ub) ∧
      ∀ i < s.data.length, ∃ g k c a, s'.descInEq i = .ok g ∧ FirstContact bi g.id k c ∧
        d.lambdaBegin[uni.length + k]? = some a ∧ s'.b.get i = g.limit ∧
        ∀ x, lineVal d.nrVars s'.A i x = absTorque g c a x := by
  obtain ⟨s', e, hdat, -, -, -, hrow, -⟩ := gripper_updateNrVars s h hm hd
  have hw : withContact bi s.data = s.data := by
    unfold withContact
    exact List.filter_eq_self.mpr fun g hg => decide_eq_true (hall g hg)
  rw [hw] at hrow
  refine ⟨s', e, fun i hi => vecAt_ub (by rw [hdat]; exact hi), fun i hi => ?_⟩
  obtain ⟨hb, k, c, a, F, ha, hv⟩ := hrow i _ (List.getElem?_eq_getElem hi)
  rw [Nat.add_comm] at ha
  exact ⟨_, k, c, a, by unfold Gripper.descInEq; rw [hdat]; exact vecAt_ok hi, F, ha, hb, hv⟩

/-- **C37** (registration): adding appends; removing takes away the first gripper with the id, keeps the
others in order and reports whether there was one; `reset` removes all. -/
theorem C37_registration (s : Gripper K) (g : GripperData K) (id : ContactId) :
    (s.add g).data = s.data ++ [g] ∧ s.reset.data = [] ∧
    ((∀ g ∈ s.data, g.id ≠ id) → s.rm id = (false, s)) ∧
    (∀ l₁ g₀ l₂, s.data = l₁ ++ g₀ :: l₂ → g₀.id = id → (∀ g ∈ l₁, g.id ≠ id) →
      (s.rm id).1 = true ∧ (s.rm id).2.data = l₁ ++ l₂) := by
  refine ⟨rfl, rfl, fun h => ?_, fun l₁ g₀ l₂ h h1 h2 => ?_⟩
  · unfold Gripper.rm
    rw [if_neg]
    simp only [List.any_eq_true, not_exists, not_and]
    exact fun g hg h' => h g hg ((ContactId.eq_iff _ _).mp h')
  · have hany : s.data.any (fun g => g.id.eq id) = true := by
      rw [List.any_eq_true]
      exact ⟨g₀, by rw [h]; simp, (ContactId.eq_iff _ _).mpr h1⟩
    unfold Gripper.rm
    rw [if_pos hany]
    refine ⟨rfl, ?_⟩
    dsimp only
    rw [h, List.eraseP_append_right _ (fun g hg h' => h2 g hg ((ContactId.eq_iff _ _).mp h'))]
    rw [List.eraseP_cons_of_pos (p := fun g : GripperData K => g.id.eq id) ((ContactId.eq_iff _ _).mpr h1)]

end

/-! ### Non-vacuity and counterexamples -/

namespace GripEx

/-- Generators `±y` at `(1,0,0)` and `y` at `(0,2,0)`. -/
def con : BiContact ℚ :=
  ⟨⟨0, 1, "hand", "bar", 0⟩, [⟨1, 0, 0⟩, ⟨0, 2, 0⟩], [⟨1, 0, 0⟩, ⟨0, 2, 0⟩],
    [⟨[⟨0, 1, 0⟩, ⟨0, -1, 0⟩]⟩, ⟨[⟨0, 1, 0⟩]⟩], [⟨[⟨0, -1, 0⟩, ⟨0, 1, 0⟩]⟩, ⟨[⟨0, -1, 0⟩]⟩],
    ⟨M3.one, 0⟩, ⟨M3.one, 0⟩⟩
def mbs : List (MultiBody ℚ) := [⟨[⟨"j", 2, none⟩], 1, [], []⟩]
/-- Another contact, absent from the problem. -/
def absent : GripperData ℚ := ⟨⟨0, 1, "foot", "floor", 0⟩, 5, 0, ⟨0, 0, 1⟩⟩
def grip : GripperData ℚ := ⟨⟨0, 1, "hand", "bar", 0⟩, 7, 0, ⟨0, 0, 1⟩⟩

theorem good : GoodInput mbs [con] := by
  refine ⟨?_, ?_⟩
  · intro mb hmb j hj l m hl
    simp only [mbs, List.mem_cons, List.not_mem_nil, or_false] at hmb
    subst hmb
    simp only [List.mem_cons, List.not_mem_nil, or_false] at hj
    subst hj
    cases hl
  · intro c hc
    simp only [List.mem_cons, List.not_mem_nil, or_false] at hc
    subst hc
    exact le_rfl

theorem cones : ConesMatch [con] := by
  intro c hc
  simp only [List.mem_cons, List.not_mem_nil, or_false] at hc
  subst hc
  rfl

theorem first : FirstContact [con] grip.id 0 con := ⟨rfl, rfl, fun j _ hj => by omega⟩

/-- The weights of the contact are variables 2 to 4. -/
def data : SolverData ℚ := ((layout SolverData.init mbs [] [con]).val?.map Prod.fst).getD SolverData.init

theorem layout_data : layout SolverData.init mbs [] [con] = .ok (data, []) := by rfl

theorem abs_row (x : ℕ → ℚ) : absTorque grip con 2 x = x 2 + x 3 := by
  simp [absTorque, con, grip, lamBefore, Finset.sum_range_succ, V3.dot, V3.cross]

/-- The hypotheses of C37 hold on a problem with a gripper whose contact is present and one whose
contact is absent; the rows are then exactly `λ₀ + λ₁ ≤ 7` (the third weight has no torque). -/
example : ∃ s', (Gripper.make.add grip).updateNrVars data = .ok s' ∧
    ∀ x, SatInEq 5 s'.inEq x ↔ x 2 + x 3 ≤ 7 := by
  obtain ⟨s', e, -, -, -, -, -, -, -, h⟩ :=
    C37_rows (Gripper.make.add grip) _ mbs [] [con] good cones data [] layout_data
  refine ⟨s', e, fun x => ?_⟩
  have hn : data.nrVars = 5 := rfl
  rw [hn] at h
  rw [h x]
  constructor
  · intro hx
    rw [← abs_row]
    exact hx grip (by simp [Gripper.add, Gripper.make]) 0 con 2 first rfl
  · intro hx g hg k c a F ha
    simp only [Gripper.add, Gripper.make, List.nil_append, List.mem_cons, List.not_mem_nil, or_false] at hg
    subst hg
    obtain ⟨rfl, rfl⟩ := firstContact_unique F first
    have : a = 2 := by
      have h2 : data.lambdaBegin[0]? = some 2 := rfl
      simp only [List.length_nil, Nat.add_zero] at ha
      rw [h2] at ha
      exact (Option.some.inj ha).symm
    subst this
    rw [abs_row]
    exact hx

/-- The hypotheses of `C37_torque` hold with weights `(7, 0, 3)`: the torque reaches the limit. -/
example : ∃ s' lam W, (Gripper.make.add grip).updateNrVars data = .ok s' ∧
    lambdaVecAt data ⟨5, fun i => [0, 0, 7, 0, 3].getD i 0⟩ 0 = .ok lam ∧ (∀ i < lam.size, 0 ≤ lam.get i) ∧
    SatInEq 5 s'.inEq (fun i => [0, 0, 7, 0, 3].getD i 0) ∧
    con.forceWrench lam con.r1Points con.r1Cones = .ok W ∧
    |grip.axis.dot (W.couple - grip.origin.cross W.force)| = 7 := by
  obtain ⟨s', e, -, -, -, -, -, -, -, h⟩ :=
    C37_rows (Gripper.make.add grip) _ mbs [] [con] good cones data [] layout_data
  have hn : data.nrVars = 5 := rfl
  rw [hn] at h
  refine ⟨s', ⟨3, fun i => [0, 0, 7, 0, 3].getD (2 + i) 0⟩, _, e, rfl, ?_, ?_,
    bi_forceWrench con _ _ _ (by decide) (by decide) (fun _ _ => le_rfl) (by decide), ?_⟩
  · intro i hi
    have : i < 3 := hi
    interval_cases i <;> norm_num
  · rw [h]
    intro g hg k c a F ha
    simp only [Gripper.add, Gripper.make, List.nil_append, List.mem_cons, List.not_mem_nil, or_false] at hg
    subst hg
    obtain ⟨rfl, rfl⟩ := firstContact_unique F first
    have : a = 2 := by
      have h2 : data.lambdaBegin[0]? = some 2 := rfl
      simp only [List.length_nil, Nat.add_zero] at ha
      rw [h2] at ha
      exact (Option.some.inj ha).symm
    subst this
    rw [abs_row]
    norm_num [grip]
  · simp [con, grip, combo, lamBefore, Finset.sum_range_succ, V3.dot, V3.cross]

/-- The description of a violated row can name another gripper: the contact of `absent` is not in the
problem, row 0 is the row of `grip`, and `descInEq(0)` describes `absent`. -/
theorem C37_desc_counterexample : ∃ s', ((Gripper.make.add absent).add grip).updateNrVars data = .ok s' ∧
    (∀ x, lineVal 5 s'.A 0 x = x 2 + x 3) ∧ s'.b.get 0 = grip.limit ∧ s'.descInEq 0 = .ok absent ∧
    absent.id ≠ grip.id ∧ absent.limit ≠ grip.limit ∧ (∀ c ∈ [con], c.id ≠ absent.id) := by
  obtain ⟨s', e, hdat, -, -, -, hrow, -⟩ :=
    gripper_updateNrVars ((Gripper.make.add absent).add grip) good cones layout_data
  have hw : withContact [con] ((Gripper.make.add absent).add grip).data = [grip] := by
    simp [withContact, Gripper.add, Gripper.make, absent, grip, con]
  rw [hw] at hrow
  obtain ⟨hb, k, c, a, F, ha, hv⟩ := hrow 0 grip rfl
  obtain ⟨rfl, rfl⟩ := firstContact_unique F first
  have : a = 2 := by
    have h2 : data.lambdaBegin[0]? = some 2 := rfl
    simp only [List.length_nil, Nat.add_zero] at ha
    rw [h2] at ha
    exact (Option.some.inj ha).symm
  subst this
  refine ⟨s', e, fun x => (hv x).trans (abs_row x), hb, ?_, by simp [absent, grip],
    by norm_num [absent, grip], by simp [con, absent]⟩
  unfold Gripper.descInEq
  rw [hdat]
  rfl

/-- `ConesMatch` is needed: a cone without a point is read past the end of the points. -/
theorem C37_extra_cone_ub : ∃ d, layout SolverData.init mbs [] [{ con with r1Points := [⟨1, 0, 0⟩] }]
    = .ok (d, []) ∧ (Gripper.make.add grip).updateNrVars d = .ub := by
  refine ⟨_, rfl, ?_⟩
  rfl

end GripEx

end Verif
