import Verif.Proofs.Copy
import Verif.Props.BarrierNear

/-!
# C93, C94: what rounding does between the constraints and the solver

C93: the lines and bounds of the registered constraints reach the solvers without any arithmetic but a change of sign,
so that no rounding happens there whatever the numbers are.  C94: when the constraints themselves compute their lines
with rounding errors, the answer of the solver satisfies the exact lines up to the tolerance of the solver plus a
multiple of the error.
-/

set_option autoImplicit false
set_option linter.unusedSectionVars false

namespace Verif

open Finset Spec

/-! ## C93 -/

section C93
variable {α : Type}

/-- Position of an element of a list of consecutive blocks, inside the whole. -/
theorem take_sum_lt {C : Type} {cs : List C} {cnt : C → ℕ} {k : ℕ} {c : C} (hk : cs[k]? = some c) {i : ℕ}
    (hi : i < cnt c) : ((cs.take k).map cnt).sum + i < (cs.map cnt).sum := by
  have := List.sum_take_add_sum_drop (cs.map cnt) k
  rw [List.drop_eq_getElem_cons (by simpa using (List.getElem?_eq_some_iff.mp hk).1)] at this
  simp only [List.getElem_map, (List.getElem?_eq_some_iff.mp hk).2, List.sum_cons] at this
  rw [List.map_take]
  omega

/-- **C93** (QLD).  For any type of numbers with a change of sign, floating-point numbers included: line `i` of the
`k`-th equality is line `i + ` (number of lines of the previous equalities) of the equality matrix, entry for entry;
the lines of the inequalities follow each other in the inequality matrix; below, each two-sided constraint has its
lines with the sign changed and the lower sides, then its lines and the upper sides. -/
theorem C93_qld [Neg α] {n Re Ri : ℕ} {eq : List (EqC α)} {inEq : List (InEqC α)} {gen : List (GenC α)}
    (he : ∀ c ∈ eq, c.Sized n) (hi : ∀ c ∈ inEq, c.Sized n) (hg : ∀ c ∈ gen, c.Sized n)
    (hRe : (eq.map EqC.nrEq).sum ≤ Re)
    (hRi : (inEq.map InEqC.nrInEq).sum + (gen.map fun c => c.nrGen + c.nrGen).sum ≤ Ri)
    {A0 B0 : Mat α} {a0 : Vec α} {b0 : Vec (Ext α)} (hA : A0.rows = Re ∧ A0.cols = n ∧ a0.size = Re)
    (hB : B0.rows = Ri ∧ B0.cols = n ∧ b0.size = Ri) :
    ∃ E I, fillEqStd eq n ⟨0, A0, a0⟩ = .ok E ∧ (fillInEqStd inEq n ⟨0, B0, b0⟩ >>= fillGenStd gen n) = .ok I ∧
      E.line = (eq.map EqC.nrEq).sum ∧
      I.line = (inEq.map InEqC.nrInEq).sum + (gen.map fun c => c.nrGen + c.nrGen).sum ∧
      (∀ (k : ℕ) (c : EqC α), eq[k]? = some c → ∀ i < c.nrEq, ∀ l, l = ((eq.take k).map EqC.nrEq).sum + i →
        E.b.get l = c.b.get i ∧ ∀ j < n, E.A.get l j = c.A.get i j) ∧
      (∀ (k : ℕ) (c : InEqC α), inEq[k]? = some c → ∀ i < c.nrInEq,
        ∀ l, l = ((inEq.take k).map InEqC.nrInEq).sum + i →
        I.b.get l = c.b.get i ∧ ∀ j < n, I.A.get l j = c.A.get i j) ∧
      (∀ (k : ℕ) (c : GenC α), gen[k]? = some c → ∀ i < c.nrGen,
        ∀ l, l = (inEq.map InEqC.nrInEq).sum + ((gen.take k).map fun c => c.nrGen + c.nrGen).sum + i →
        I.b.get l = (c.L.get i).neg ∧ I.b.get (l + c.nrGen) = c.U.get i ∧
        ∀ j < n, I.A.get l j = -c.A.get i j ∧ I.A.get (l + c.nrGen) j = c.A.get i j) := by
  obtain ⟨E, e1, -, e3, -, e4⟩ := eqStd_at n Re eq ⟨0, A0, a0⟩ he hA (by simpa using hRe)
  obtain ⟨I0, i1, i2, i3, -, i4⟩ := inEqStd_at n Ri inEq ⟨0, B0, b0⟩ hi hB (by simp only; omega)
  simp only [zero_add] at e3 e4 i3 i4
  obtain ⟨I, g1, -, g3, g4, g5⟩ := genStd_at n Ri gen I0 hg i2 (by omega)
  rw [i3] at g3 g4 g5
  refine ⟨E, I, e1, by rw [i1, Out.ok_bind, g1], e3, g3, ?_, ?_, ?_⟩
  · rintro k c hk i hi _ rfl
    have := e4 k c hk i hi
    simp only [lineAt, Prod.mk.injEq] at this
    exact ⟨this.2, fun j hj => congrFun this.1 ⟨j, hj⟩⟩
  · rintro k c hk i hi _ rfl
    have h := g4 _ (take_sum_lt hk hi)
    rw [i4 k c hk i hi] at h
    simp only [lineAt, Prod.mk.injEq] at h
    exact ⟨h.2, fun j hj => congrFun h.1 ⟨j, hj⟩⟩
  · rintro k c hk i hi _ rfl
    have h1 := g5 k c hk i (by omega)
    have h2 := g5 k c hk (i + c.nrGen) (by omega)
    rw [← Nat.add_assoc] at h2
    simp only [twoLines, if_pos hi, if_neg (show ¬ i + c.nrGen < c.nrGen by omega), Nat.add_sub_cancel, lineAt,
      Prod.mk.injEq] at h1 h2
    exact ⟨h1.2, h2.2, fun j hj => ⟨congrFun h1.1 ⟨j, hj⟩, congrFun h2.1 ⟨j, hj⟩⟩⟩

/-- **C93** (LSSOL).  For any type of numbers: the lines of the equalities, of the inequalities and of the two-sided
constraints follow each other in the matrix, entry for entry; an equality has its right-hand side on both sides, an
inequality has no lower side. -/
theorem C93_lssol {n R : ℕ} {eq : List (EqC α)} {inEq : List (InEqC α)} {gen : List (GenC α)}
    (he : ∀ c ∈ eq, c.Sized n) (hi : ∀ c ∈ inEq, c.Sized n) (hg : ∀ c ∈ gen, c.Sized n)
    (hR : (eq.map EqC.nrEq).sum + (inEq.map InEqC.nrInEq).sum + (gen.map GenC.nrGen).sum ≤ R)
    {A0 : Mat α} {l0 u0 : Vec (Ext α)} (hA : A0.rows = R ∧ A0.cols = n ∧ l0.size = R ∧ u0.size = R) :
    ∃ G, (fillEqGen eq n ⟨0, A0, l0, u0⟩ >>= fun s => fillInEqGen inEq n s >>= fillGenGen gen n) = .ok G ∧
      G.line = (eq.map EqC.nrEq).sum + (inEq.map InEqC.nrInEq).sum + (gen.map GenC.nrGen).sum ∧
      (∀ (k : ℕ) (c : EqC α), eq[k]? = some c → ∀ i < c.nrEq, ∀ l, l = ((eq.take k).map EqC.nrEq).sum + i →
        G.AL.get l = .fin (c.b.get i) ∧ G.AU.get l = .fin (c.b.get i) ∧ ∀ j < n, G.A.get l j = c.A.get i j) ∧
      (∀ (k : ℕ) (c : InEqC α), inEq[k]? = some c → ∀ i < c.nrInEq,
        ∀ l, l = (eq.map EqC.nrEq).sum + ((inEq.take k).map InEqC.nrInEq).sum + i →
        G.AL.get l = .negInf ∧ G.AU.get l = c.b.get i ∧ ∀ j < n, G.A.get l j = c.A.get i j) ∧
      (∀ (k : ℕ) (c : GenC α), gen[k]? = some c → ∀ i < c.nrGen,
        ∀ l, l = (eq.map EqC.nrEq).sum + (inEq.map InEqC.nrInEq).sum + ((gen.take k).map GenC.nrGen).sum + i →
        G.AL.get l = c.L.get i ∧ G.AU.get l = c.U.get i ∧ ∀ j < n, G.A.get l j = c.A.get i j) := by
  obtain ⟨E, e1, e2, e3, -, e4⟩ := eqGen_at n R eq ⟨0, A0, l0, u0⟩ he hA (by simp only; omega)
  simp only [zero_add] at e3 e4
  obtain ⟨I, i1, i2, i3, i4, i5⟩ := inEqGen_at n R inEq E hi e2 (by omega)
  obtain ⟨G, g1, -, g3, g4, g5⟩ := genGen_at n R gen I hg i2 (by omega)
  rw [i3, e3] at g3 g4 g5
  rw [e3] at i3 i4 i5
  refine ⟨G, by rw [e1, Out.ok_bind, i1, Out.ok_bind, g1], g3, ?_, ?_, ?_⟩
  · rintro k c hk i hi _ rfl
    have hlt := take_sum_lt hk hi
    have h := e4 k c hk i hi
    rw [← i4 _ hlt, ← g4 _ (by omega)] at h
    simp only [genLineAt, Prod.mk.injEq] at h
    exact ⟨h.2.1, h.2.2, fun j hj => congrFun h.1 ⟨j, hj⟩⟩
  · rintro k c hk i hi _ rfl
    have hlt := take_sum_lt hk hi
    have h := i5 k c hk i hi
    rw [← g4 _ (by omega)] at h
    simp only [genLineAt, Prod.mk.injEq] at h
    exact ⟨h.2.1, h.2.2, fun j hj => congrFun h.1 ⟨j, hj⟩⟩
  · rintro k c hk i hi _ rfl
    have h := g5 k c hk i hi
    simp only [genLineAt, Prod.mk.injEq] at h
    exact ⟨h.2.1, h.2.2, fun j hj => congrFun h.1 ⟨j, hj⟩⟩

/-- **C93** (bounds).  For any type of numbers: the bounds of a variable are those of the last constraint that covers
it, and the initial ones when there is none. -/
theorem C93_bounds {n : ℕ} {cs : List (BoundC α)} (hc : ∀ c ∈ cs, c.Sized n) {L0 U0 : Vec (Ext α)} (hL : L0.size = n)
    (hU : U0.size = n) : ∃ L U, fillBound cs (L0, U0) = .ok (L, U) ∧ L.size = n ∧ U.size = n ∧
      (∀ (pre post : List (BoundC α)) (c : BoundC α), cs = pre ++ c :: post → ∀ i < c.lower.size,
        (∀ d ∈ post, ¬ (d.beginVar ≤ c.beginVar + i ∧ c.beginVar + i < d.beginVar + d.lower.size)) →
        L.get (c.beginVar + i) = c.lower.get i) ∧
      (∀ (pre post : List (BoundC α)) (c : BoundC α), cs = pre ++ c :: post → ∀ i < c.upper.size,
        (∀ d ∈ post, ¬ (d.beginVar ≤ c.beginVar + i ∧ c.beginVar + i < d.beginVar + d.upper.size)) →
        U.get (c.beginVar + i) = c.upper.get i) ∧
      (∀ v, (∀ d ∈ cs, ¬ (d.beginVar ≤ v ∧ v < d.beginVar + d.lower.size)) → L.get v = L0.get v) ∧
      ∀ v, (∀ d ∈ cs, ¬ (d.beginVar ≤ v ∧ v < d.beginVar + d.upper.size)) → U.get v = U0.get v := by
  obtain ⟨⟨L, U⟩, e, h1, h2, h3, h4⟩ := fillBound_ok n cs (L0, U0) hc hL hU
  have kl : ∀ (l : List (BoundC α)) (v : ℕ) (d0 : Ext α),
      (∀ d ∈ l, ¬ (d.beginVar ≤ v ∧ v < d.beginVar + d.lower.size)) → lastLower l v d0 = d0 := by
    intro l v
    induction l with
    | nil => intro d0 _; rfl
    | cons d t ih =>
      intro d0 h
      have : lastLower (d :: t) v d0 = lastLower t v (if d.beginVar ≤ v ∧ v < d.beginVar + d.lower.size then
        d.lower.get (v - d.beginVar) else d0) := rfl
      rw [this, if_neg (h d (by simp)), ih _ fun d hd => h d (by simp [hd])]
  have ku : ∀ (l : List (BoundC α)) (v : ℕ) (d0 : Ext α),
      (∀ d ∈ l, ¬ (d.beginVar ≤ v ∧ v < d.beginVar + d.upper.size)) → lastUpper l v d0 = d0 := by
    intro l v
    induction l with
    | nil => intro d0 _; rfl
    | cons d t ih =>
      intro d0 h
      have : lastUpper (d :: t) v d0 = lastUpper t v (if d.beginVar ≤ v ∧ v < d.beginVar + d.upper.size then
        d.upper.get (v - d.beginVar) else d0) := rfl
      rw [this, if_neg (h d (by simp)), ih _ fun d hd => h d (by simp [hd])]
  refine ⟨L, U, e, h1, h2, ?_, ?_, fun v hv => by rw [h3, kl _ _ _ hv], fun v hv => by rw [h4, ku _ _ _ hv]⟩
  · rintro pre post c rfl i hi hpost
    have : lastLower (pre ++ c :: post) (c.beginVar + i) (L0.get (c.beginVar + i))
        = lastLower post (c.beginVar + i) (if c.beginVar ≤ c.beginVar + i ∧ c.beginVar + i < c.beginVar + c.lower.size
          then c.lower.get (c.beginVar + i - c.beginVar) else lastLower pre (c.beginVar + i) (L0.get (c.beginVar + i))) := by
      simp only [lastLower, List.foldl_append, List.foldl_cons]
    rw [h3, this, kl _ _ _ hpost, if_pos ⟨by omega, by omega⟩, Nat.add_sub_cancel_left]
  · rintro pre post c rfl i hi hpost
    have : lastUpper (pre ++ c :: post) (c.beginVar + i) (U0.get (c.beginVar + i))
        = lastUpper post (c.beginVar + i) (if c.beginVar ≤ c.beginVar + i ∧ c.beginVar + i < c.beginVar + c.upper.size
          then c.upper.get (c.beginVar + i - c.beginVar) else lastUpper pre (c.beginVar + i) (U0.get (c.beginVar + i))) := by
      simp only [lastUpper, List.foldl_append, List.foldl_cons]
    rw [h4, this, ku _ _ _ hpost, if_pos ⟨by omega, by omega⟩, Nat.add_sub_cancel_left]

/-- **C93** is not vacuous, for floating-point numbers: one equality and one two-sided line on two variables. -/
example : ∃ E I, fillEqStd [⟨1, 1, ⟨1, 2, fun _ j => if j = 0 then 0.1 else 0.3⟩, ⟨1, fun _ => 0.7⟩⟩] 2
      ⟨0, ⟨1, 2, fun _ _ => 0⟩, ⟨1, fun _ => (0 : Float)⟩⟩ = .ok E ∧
    (fillInEqStd ([] : List (InEqC Float)) 2 ⟨0, ⟨2, 2, fun _ _ => 0⟩, ⟨2, fun _ => .fin 0⟩⟩ >>=
      fillGenStd [⟨1, 1, ⟨1, 2, fun _ j => if j = 0 then 0.2 else 0.6⟩, ⟨1, fun _ => .fin 0.1⟩, ⟨1, fun _ => .posInf⟩⟩] 2)
        = .ok I ∧
    E.A.get 0 1 = 0.3 ∧ E.b.get 0 = 0.7 ∧ I.A.get 0 0 = -0.2 ∧ I.b.get 0 = .fin (-0.1) ∧ I.A.get 1 1 = 0.6 ∧
    I.b.get 1 = .posInf := by
  obtain ⟨E, I, e1, e2, -, -, h1, -, h2⟩ := C93_qld (n := 2) (Re := 1) (Ri := 2)
    (eq := [⟨1, 1, ⟨1, 2, fun _ j => if j = 0 then 0.1 else 0.3⟩, ⟨1, fun _ => (0.7 : Float)⟩⟩]) (inEq := [])
    (gen := [⟨1, 1, ⟨1, 2, fun _ j => if j = 0 then 0.2 else 0.6⟩, ⟨1, fun _ => .fin 0.1⟩, ⟨1, fun _ => .posInf⟩⟩])
    (A0 := ⟨1, 2, fun _ _ => 0⟩) (B0 := ⟨2, 2, fun _ _ => 0⟩) (a0 := ⟨1, fun _ => 0⟩) (b0 := ⟨2, fun _ => .fin 0⟩)
    (by simp [EqC.Sized]) (by simp) (by simp [GenC.Sized]) (by simp) (by simp) ⟨rfl, rfl, rfl⟩ ⟨rfl, rfl, rfl⟩
  have k1 := h1 0 _ rfl 0 Nat.one_pos 0 rfl
  have k2 := h2 0 _ rfl 0 Nat.one_pos 0 rfl
  exact ⟨E, I, e1, e2, k1.2 1 (by norm_num), k1.1, (k2.2.2 0 (by norm_num)).1, k2.1, (k2.2.2 1 (by norm_num)).2, k2.2.1⟩

end C93

/-! ## C94 -/

namespace Spec
variable {K : Type} [Field K] [LinearOrder K]

/-- Bounds within `η` of each other: infinite on the same side, or finite. -/
def ExtNear (η : K) : Ext K → Ext K → Prop
  | .fin a, .fin b => |a - b| ≤ η
  | .negInf, .negInf => True
  | .posInf, .posInf => True
  | _, _ => False

/-- The first `k` lines of two matrices on `n` variables are within `η` of each other. -/
def MatNear (η : K) (n k : ℕ) (A A' : Mat K) : Prop := ∀ i < k, ∀ j < n, |A'.get i j - A.get i j| ≤ η

/-- Each constraint of `inp` has a counterpart in `inp'`, with as many lines and entries within `η` of its own. -/
structure RoundedTo (η : K) (n : ℕ) (inp inp' : QPInput K) : Prop where
  eq : ∀ c ∈ inp.eq, ∃ c' ∈ inp'.eq, c'.nrEq = c.nrEq ∧ MatNear η n c.nrEq c.A c'.A ∧
    ∀ i < c.nrEq, |c'.b.get i - c.b.get i| ≤ η
  inEq : ∀ c ∈ inp.inEq, ∃ c' ∈ inp'.inEq, c'.nrInEq = c.nrInEq ∧ MatNear η n c.nrInEq c.A c'.A ∧
    ∀ i < c.nrInEq, ExtNear η (c.b.get i) (c'.b.get i)
  gen : ∀ c ∈ inp.gen, ∃ c' ∈ inp'.gen, c'.nrGen = c.nrGen ∧ MatNear η n c.nrGen c.A c'.A ∧
    ∀ i < c.nrGen, ExtNear η (c.L.get i) (c'.L.get i) ∧ ExtNear η (c.U.get i) (c'.U.get i)
  bound : ∀ c ∈ inp.bound, ∃ c' ∈ inp'.bound, c'.beginVar = c.beginVar ∧ c'.lower.size = c.lower.size ∧
    c'.upper.size = c.upper.size ∧ (∀ i < c.lower.size, ExtNear η (c.lower.get i) (c'.lower.get i)) ∧
    ∀ i < c.upper.size, ExtNear η (c.upper.get i) (c'.upper.get i)

/-- Sum of the magnitudes of the unknowns. -/
def mag (n : ℕ) (x : ℕ → K) : K := ∑ j ∈ range n, |x j|

end Spec

section C94
variable {K : Type} [Field K] [LinearOrder K] [IsStrictOrderedRing K]

theorem Spec.ExtNear.lower {η : K} {a b : Ext K} (h : ExtNear η a b) {x y : K} (hb : b.LowerOK x) (hxy : x + η ≤ y) :
    a.LowerOK y := by
  cases a <;> cases b <;> simp only [ExtNear, Ext.LowerOK] at *
  have := abs_le.mp h
  linarith

theorem Spec.ExtNear.upper {η : K} {a b : Ext K} (h : ExtNear η a b) {x y : K} (hb : b.UpperOK x) (hxy : y ≤ x - η) :
    a.UpperOK y := by
  cases a <;> cases b <;> simp only [ExtNear, Ext.UpperOK] at *
  have := abs_le.mp h
  linarith

theorem lineVal_near {η : K} {n k : ℕ} {A A' : Mat K} (h : MatNear η n k A A') {i : ℕ} (hi : i < k) (x : ℕ → K) :
    |lineVal n A i x - lineVal n A' i x| ≤ η * mag n x := by
  unfold lineVal mag
  rw [← Finset.sum_sub_distrib, Finset.mul_sum]
  refine (Finset.abs_sum_le_sum_abs _ _).trans (Finset.sum_le_sum fun j hj => ?_)
  rw [← sub_mul, abs_mul, abs_sub_comm]
  exact mul_le_mul_of_nonneg_right (h i hi j (Finset.mem_range.mp hj)) (abs_nonneg _)

/-- **C94** (lines).  When the entries of the lines handed to the solver are within `η` of the exact ones, the answer of
a solver of tolerance `ε` satisfies the exact lines up to `ε + η (1 + ∑ |xⱼ|)`. -/
theorem C94_lines {ε δ η : K} {backend : String} {mbs : List (MultiBody K)} {n : ℕ} {inp inp' : QPInput K} {x : Vec K}
    (h : SolvedNear ε δ backend mbs n inp' x) (hr : RoundedTo η n inp inp') :
    LinesNear (ε + η * (1 + mag n x.get)) n inp x.get := by
  obtain ⟨h1, h2, h3⟩ := (solvedNear_spec h).1
  refine ⟨fun c hc i hi => ?_, fun c hc i hi => ?_, fun c hc i hi => ?_⟩
  · obtain ⟨c', hc', e, hA, hb⟩ := hr.eq c hc
    have k1 := abs_le.mp (h1 c' hc' i (e ▸ hi))
    have k2 := abs_le.mp (lineVal_near hA hi x.get)
    have k3 := abs_le.mp (hb i hi)
    rw [abs_le]
    constructor <;> linarith [k1.1, k1.2, k2.1, k2.2, k3.1, k3.2]
  · obtain ⟨c', hc', e, hA, hb⟩ := hr.inEq c hc
    have k2 := abs_le.mp (lineVal_near hA hi x.get)
    exact (hb i hi).upper (h2 c' hc' i (e ▸ hi)) (by linarith [k2.2])
  · obtain ⟨c', hc', e, hA, hb⟩ := hr.gen c hc
    have k1 := h3 c' hc' i (e ▸ hi)
    have k2 := abs_le.mp (lineVal_near hA hi x.get)
    exact ⟨(hb i hi).1.lower k1.1 (by linarith [k2.1]), (hb i hi).2.upper k1.2 (by linarith [k2.2])⟩

/-- **C94** (bounds).  When the bounds handed to the solver are within `η` of the exact ones, the answer of a solver of
tolerance `ε` respects the exact bounds of the variables that are not mimic joints up to `ε + η`. -/
theorem C94_bounds {ε δ η : K} {backend : String} {mbs : List (MultiBody K)} {n : ℕ} {inp inp' : QPInput K} {x : Vec K}
    (h : SolvedNear ε δ backend mbs n inp' x) (hr : RoundedTo η n inp inp') {c : BoundC K} (hc : c ∈ inp.bound) {i : ℕ}
    (hv : ¬ MimicVar mbs (c.beginVar + i)) :
    (i < c.lower.size → (c.lower.get i).LowerOK (x.get (c.beginVar + i) + (ε + η))) ∧
    (i < c.upper.size → (c.upper.get i).UpperOK (x.get (c.beginVar + i) - (ε + η))) := by
  obtain ⟨c', hc', e1, e2, e3, h1, h2⟩ := hr.bound c hc
  have k := (C84_bounds h hc' (i := i)).1 (by rwa [e1])
  rw [e1, e2, e3] at k
  exact ⟨fun hi => (h1 i hi).lower (k.1 hi) (by linarith), fun hi => (h2 i hi).upper (k.2 hi) (by linarith)⟩

/-- The number of variables of a step. -/
theorem solvedNear_nrVars {ε δ : K} {backend : String} {mbs : List (MultiBody K)} {n : ℕ} {inp : QPInput K} {x : Vec K}
    (h : SolvedNear ε δ backend mbs n inp x) : ∃ uni bi, GoodContacts bi ∧ n = nrVariables mbs uni bi := by
  obtain ⟨uni, bi, d, ⟨Ob, W, R, _, ob, hasLssol, pre, post, sw0, s, s', w, w', eng, mbcs, mbcs', h1, h2, h3, h4, h5, h6,
    h7, h8, h9, h10, h11, h12, -, rfl, rfl, rfl⟩, rfl⟩ := h
  obtain ⟨⟨msg, e⟩, -⟩ := solve_parts h10
  obtain ⟨d, w1, c1, c2, hnd, _, _, hu, hs, e', _⟩ := solveNoMbcUpdate_parts e
  have hn : s'.data.nrVars = s.data.nrVars := by rw [e']; exact (computeNormalAccB_layout hnd).nrVars
  obtain ⟨old, d0, hl, hsame⟩ := (ready_of_run h1 h2 h4 h5).lay
  have sp := layout_spec h1 h2 hl
  refine ⟨uni, bi, h2, ?_⟩
  rw [hn]
  rw [hsame.nrVars, sp.nrVars, sp.totalAlphaD, sp.totalLambda, sp.nrUniLambda, sp.nrBiLambda]
  rfl

namespace Rounding

/-- A task whose only optimum is `x`. -/
def stay (n : ℕ) (x : ℕ → K) : TaskQC K :=
  ⟨⟨n, n, fun i j => if i = j then 1 else 0⟩, ⟨n, fun i => -x i⟩, (0, 0), 1⟩

theorem stay_objective (n : ℕ) (x z : ℕ → K) (inp : QPInput K) (h : inp.tasks = [stay n x]) :
    objective n inp z = ∑ i ∈ range n, ((z i - x i) ^ 2 - x i ^ 2) / 2 := by
  unfold objective
  rw [h, Finset.sum_eq_zero fun i hi => ?_]
  · simp only [TaskQC.obj, stay, List.map_cons, List.map_nil, List.sum_cons, List.sum_nil, zero_add, zero_div, add_zero,
      one_mul]
    have : ∀ a ∈ range n, ∑ b ∈ range n, z a * (if a = b then 1 else 0) * z b = z a * z a := by
      intro a ha
      rw [Finset.sum_eq_single a (fun b _ hb => by simp [Ne.symm hb]) (fun h => absurd ha h)]
      simp
    rw [Finset.sum_congr rfl this, Finset.sum_div, ← Finset.sum_add_distrib]
    exact Finset.sum_congr rfl fun i _ => by ring
  · simp only [mem_filter, mem_range] at hi
    have := hi.2
    simp only [accDiag, TaskQC.q, stay, List.map_cons, List.map_nil, List.sum_cons, List.sum_nil] at this
    rw [if_pos (by simp [hi.1])] at this
    simp at this
    norm_num at this

/-- A configuration of the right sizes. -/
def mbcOf (mb : MultiBody K) : Mbc K Unit :=
  ⟨mb.joints.map fun j => List.replicate j.dof 0, List.replicate mb.nrJoints PT.one, List.replicate mb.nrJoints 0,
    List.replicate mb.nrJoints 0, ()⟩

end Rounding

open Rounding

/-- **C94** (transfer).  A step of a solver of tolerance `ε` on rounded constraints is also a step, with the same result,
of a solver of a larger tolerance `e` on the exact constraints, with other tasks.  So everything proved of the exact
constraints with inexact solvers (C85 to C92) holds for rounded constraints.  The robots have no mimic joint, and the
exact bounds do not contradict each other. -/
theorem C94_transfer {ε δ η e : K} (hε : 0 ≤ ε) (hη : 0 ≤ η) (he : ε + η ≤ e) {backend : String}
    {mbs : List (MultiBody K)} (hno : ∀ mb ∈ mbs, NoMimic mb) (htree : ∀ mb ∈ mbs, 0 < mb.nrDof → Tree mb) {n : ℕ}
    (hn : 0 < n) {inp inp' : QPInput K} {x : Vec K} (h : SolvedNear ε δ backend mbs n inp' x)
    (hr : RoundedTo η n inp inp') (hs : InputSized n inp)
    (hdis : inp.bound.Pairwise fun c d => ∀ v, ¬ (Covers c v ∧ Covers d v))
    (hbox : ∃ z, ∀ c ∈ inp.bound, SatBound c z) (hl : LinesNear e n inp x.get) :
    ∃ x', SolvedNear e 0 "QLD" mbs n { inp with tasks := [stay n x.get] } x' ∧ ∀ v, x'.get v = x.get v := by
  obtain ⟨uni, bi, hg, rfl⟩ := solvedNear_nrVars h
  obtain ⟨w, hw⟩ := hbox
  have hm := (solvedNear_wf h).1
  have hnm : ∀ v, ¬ MimicVar mbs v := by
    rintro v ⟨r, mb, i, j, g1, g2, g3, -⟩
    exact g3 (hno mb (List.mem_of_getElem? g1) j (List.mem_of_getElem? g2))
  refine realiseNear (inp := { inp with tasks := [stay _ x.get] }) (hε.trans ((le_add_of_nonneg_right hη).trans he)) hm hno htree hg (mbcs := mbs.map mbcOf) (by simp)
    ?_ ⟨?_, hs.2⟩ hn hdis ⟨hl.1, hl.2.1, hl.2.2⟩
    (z0 := fun v => max (min (x.get v + e) (w v)) (x.get v - e)) ?_ ?_ ?_
  · intro r mb m hr hmm
    rw [List.getElem?_map, hr] at hmm
    simp only [Option.map_some, Option.some.injEq] at hmm
    subst hmm
    refine ⟨?_, fun _ => ⟨?_, ?_, ?_⟩⟩ <;> simp [mbcOf, Shaped]
  · intro t ht
    simp only [List.mem_singleton] at ht
    subst ht
    simp [TaskQC.Sized, stay]
  · intro c hc
    constructor
    · intro i hi
      have k1 := (hw c hc).1 i hi
      have k2 := (C94_bounds h hr hc (hnm (c.beginVar + i))).1 hi
      cases hcl : c.lower.get i with
      | negInf => trivial
      | posInf => rw [hcl] at k1; exact k1.elim
      | fin l =>
        rw [hcl] at k1 k2
        simp only [Ext.LowerOK] at k1 k2 ⊢
        exact le_max_of_le_left (le_min (by linarith) k1)
    · intro i hi
      have k1 := (hw c hc).2 i hi
      have k2 := (C94_bounds h hr hc (hnm (c.beginVar + i))).2 hi
      cases hcl : c.upper.get i with
      | posInf => trivial
      | negInf => rw [hcl] at k1; exact k1.elim
      | fin l =>
        rw [hcl] at k1 k2
        simp only [Ext.UpperOK] at k1 k2 ⊢
        exact max_le (min_le_of_right_le k1) (by linarith)
  · intro v _
    have e0 : 0 ≤ e := hε.trans ((le_add_of_nonneg_right hη).trans he)
    rw [abs_le]
    have m1 : max (min (x.get v + e) (w v)) (x.get v - e) ≤ x.get v + e := max_le (min_le_left _ _) (by linarith)
    have m2 := le_max_right (min (x.get v + e) (w v)) (x.get v - e)
    constructor <;> linarith
  · intro z _
    rw [stay_objective _ x.get _ _ rfl, stay_objective _ x.get _ _ rfl, add_zero]
    refine Finset.sum_le_sum fun i _ => ?_
    have := sq_nonneg (z i - x.get i)
    rw [sub_self]
    linarith

/-! ### Joint limits with rounded bounds -/

namespace Spec

/-- `NearLoop` with bounds computed up to `η`: the problem holds bounds within `η` of the exact ones, which do not
contradict each other. -/
inductive RoundedLoop (ε δ η : K) (mbs : List (MultiBody K)) (mb : MultiBody K) (r : ℕ) (p : LimitParams K)
    (Q0 : List (List K)) : Option (SolverData K) → DamperLimits K → List (List K) → List (List K) → Prop
  | start {od : Option (SolverData K)} {s : DamperLimits K} (A0 : List (List K)) :
      DampRun mb r p od s → RoundedLoop ε δ η mbs mb r p Q0 od s Q0 A0
  | nrVars {od : Option (SolverData K)} {s : DamperLimits K} {Q A : List (List K)} (d : SolverData K)
      (s' : DamperLimits K) : RoundedLoop ε δ η mbs mb r p Q0 od s Q A → s.updateNrVars d = .ok s' →
      RoundedLoop ε δ η mbs mb r p Q0 (some d) s' Q A
  | step {d : SolverData K} {s : DamperLimits K} {Q A : List (List K)} (AD : List (List K))
      (s' : DamperLimits K) (backend : String) (n : ℕ) (inp : QPInput K) (x : Vec K) (Q' A' : List (List K)) :
      RoundedLoop ε δ η mbs mb r p Q0 (some d) s Q A → vecAt d.alphaDBegin r = .ok (aBegin mbs r) →
      AD.flatten.length = mb.nrDof → s.update Q A AD = .ok s' → SolvedNear ε δ backend mbs n inp x →
      RoundedTo η n ⟨[], [], [], [], [s'.bound]⟩ inp → s'.bound.Sized n → (∃ z, SatBound s'.bound z) →
      Integrates mb (aBegin mbs r) p.dt x.get Q A Q' A' →
      RoundedLoop ε δ η mbs mb r p Q0 (some d) s' Q' A'

end Spec

theorem integrates_congr {mb : MultiBody K} {a : ℕ} {dt : K} {x x' : ℕ → K} (h : ∀ v, x' v = x v)
    {Q A Q' A' : List (List K)} (hi : Integrates mb a dt x Q A Q' A') : Integrates mb a dt x' Q A Q' A' := by
  rw [funext h]
  exact hi

theorem roundedLoop_near {ε δ η : K} (hε : 0 ≤ ε) (hη : 0 ≤ η) {mbs : List (MultiBody K)}
    (hno : ∀ mb ∈ mbs, NoMimic mb) (htree : ∀ mb ∈ mbs, 0 < mb.nrDof → Tree mb) {mb : MultiBody K} {r : ℕ}
    (hr : mbs[r]? = some mb) (hdof : 0 < mb.nrDof) {p : LimitParams K}
    {Q0 Q A : List (List K)} {od : Option (SolverData K)} {s : DamperLimits K}
    (C : RoundedLoop ε δ η mbs mb r p Q0 od s Q A) : NearLoop (ε + η) 0 mbs mb r p Q0 od s Q A := by
  induction C with
  | start a R => exact .start a R
  | nrVars d s' _ h ih => exact .nrVars d s' ih h
  | step AD s' b n inp x Q' A' _ ha hAD hu hsol hrd hsz hbox hint ih =>
    obtain ⟨uni, bi, -, hn⟩ := solvedNear_nrVars hsol
    have hpos : 0 < n := by
      have : mb.nrDof ≤ (mbs.map MultiBody.nrDof).sum :=
        List.single_le_sum (by simp) _ (List.mem_map_of_mem (List.mem_of_getElem? hr))
      rw [hn]
      unfold nrVariables
      omega
    obtain ⟨x', hx', ex⟩ := C94_transfer hε hη le_rfl hno htree hpos hsol hrd
      ⟨by simp, by simp, by simp, by simp, by simpa using hsz⟩ (by simp) (by simpa using hbox)
      ⟨by simp, by simp, by simp⟩
    exact .step AD s' "QLD" n _ x' Q' A' ih ha hAD hu hx' (by simp) (integrates_congr ex hint)

/-- **C94** (joint limits).  C85 with bounds computed up to `η`: the tolerance of the solver increases by `η`.  After any
number of steps the joint is not closer to its limits than the security distance by more than `(ε + η) dt R / off`. -/
theorem C94_limits_hold {ε δ η : K} (hε : 0 ≤ ε) (hη : 0 ≤ η) {mbs : List (MultiBody K)} {mb : MultiBody K} {r : ℕ}
    (hno : ∀ mb ∈ mbs, NoMimic mb) (htree : ∀ mb ∈ mbs, 0 < mb.nrDof → Tree mb) (hr : mbs[r]? = some mb)
    {p : LimitParams K}
    (hdt : 0 < p.dt) (hoff : 0 < p.off) {i : ℕ} (hi : i < mb.joints.length) (h1 : jdof mb i = 1) {l u : K}
    {vl vu : Ext K} (hl : nested p.lQ i 0 = .ok (.fin l)) (hu : nested p.uQ i 0 = .ok (.fin u))
    (hvl : nested p.lA i 0 = .ok vl) (hvu : nested p.uA i 0 = .ok vu)
    (hlu : l ≤ u) (hsi : (u - l) * p.sec < (u - l) * p.inter) (hz : p.inter ≤ 1 / 2) {m : K}
    (hm : m * (2 * ((u - l) * p.inter - (u - l) * p.sec) - p.off * p.dt)
      ≤ ((u - l) * p.inter - (u - l) * p.sec) * ((u - l) * p.inter - (u - l) * p.sec - p.off * p.dt))
    (hmR : m < (u - l) * p.inter - (u - l) * p.sec)
    (hslowL : ∀ v, vl.LowerOK v → -(m - (ε + η) * p.dt ^ 2) ≤ v * p.dt)
    (hslowU : ∀ v, vu.UpperOK v → v * p.dt ≤ m - (ε + η) * p.dt ^ 2)
    {Q0 : List (List K)} {q0 : K} (hq0 : nested Q0 i 0 = .ok q0)
    (h0l : (u - l) * p.inter ≤ q0 - l) (h0u : (u - l) * p.inter ≤ u - q0)
    {od : Option (SolverData K)} {s : DamperLimits K} {Q A : List (List K)}
    (C : RoundedLoop ε δ η mbs mb r p Q0 od s Q A) :
    ∃ q, nested Q i 0 = .ok q ∧
      (u - l) * p.sec - (ε + η) * p.dt * ((u - l) * p.inter - (u - l) * p.sec) / p.off ≤ q - l ∧
      (u - l) * p.sec - (ε + η) * p.dt * ((u - l) * p.inter - (u - l) * p.sec) / p.off ≤ u - q := by
  have hdof : 0 < mb.nrDof := by
    have h2 : mb.joints[i].dof = 1 := by simpa [jdof, List.getElem?_eq_getElem hi] using h1
    have : mb.joints[i].dof ≤ mb.nrDof :=
      List.single_le_sum (by simp) _ (List.mem_map_of_mem (List.getElem_mem hi))
    omega
  refine C85_limits_hold (add_nonneg hε hη) hdt hoff hi h1 ?_ hl hu hvl hvu hlu hsi hz hm hmR hslowL hslowU hq0 h0l h0u
    (roundedLoop_near hε hη hno htree hr hdof C)
  rintro ⟨r, mb, i, j, g1, g2, g3, -⟩
  exact g3 (hno mb (List.mem_of_getElem? g1) j (List.mem_of_getElem? g2))

end C94

/-! ### CoM planes with rounded rows -/

namespace Spec

/-- `PlaneLoopNear` with lines computed up to `η`, and accelerations and forces whose magnitudes add up to at most
`B`. -/
def PlaneLoopRounded (ε δ η B : ℝ) (mbs : List (MultiBody ℝ)) (mb : MultiBody ℝ) (ri : ℕ) (dt : ℝ)
    (bs : List (BodyM ℝ)) (nrm : V3 ℝ) (off di ds c : ℝ) (st : ℝ → KState ℝ) : Prop :=
  mbs[ri]? = some mb ∧
  ∃ (s s' : ℝ → ComPlane ℝ) (env : ℝ → ComEnv ℝ) (a n : ℕ) (backend : String) (inp : ℝ → QPInput ℝ)
    (x : ℝ → ℕ → ℝ) (y : ℝ → Vec ℝ), ∀ t, 0 ≤ t →
      (PlaneReach mbs mb ri dt (s t) ∧ (s t).alphaDBegin = some a ∧ (s t).nrVars = n ∧
        (s t).data.length ≤ (s t).A.rows ∧ (∀ d ∈ (s t).data, d.ds ≠ d.di) ∧
        ∀ i < mb.nrDof, (s t).selector.get i = 1) ∧
      (∃ d ∈ (s t).data, FixedPlane nrm off di ds c d) ∧
      PlaneEnvOf bs mb (st t) (env t) ∧ (s t).update mbs (env t) = .ok (s' t) ∧
      SolvedNear ε δ backend mbs n (inp t) (y t) ∧
      RoundedTo η n ⟨[], [], [(s' t).inEq], [], []⟩ (inp t) ∧ (s' t).inEq.Sized n ∧ mag n (y t).get ≤ B ∧
      BodiesEvolve bs mb st x (fun i => (y t).get (a + i)) t

end Spec

/-- **C94** (CoM planes).  C92 with lines computed up to `η`: the tolerance `ε` of the solver increases by
`η (1 + B)`, where `B` bounds the sum of the magnitudes of the accelerations and force weights. -/
theorem C94_com_plane {mbs : List (MultiBody ℝ)} (hno : ∀ mb ∈ mbs, NoMimic mb)
    (htree : ∀ mb ∈ mbs, 0 < mb.nrDof → Tree mb) {mb : MultiBody ℝ} (hdof : 0 < mb.nrDof) {ri : ℕ} {dt : ℝ}
    (hdt : 0 < dt) {bs : List (BodyM ℝ)} (hm : MassOK bs) (hM : massSum bs ≠ 0) {st : ℝ → KState ℝ}
    {nrm : V3 ℝ} {off di ds c r ε δ η B : ℝ} (hε : 0 ≤ ε) (hη : 0 ≤ η)
    (hL : PlaneLoopRounded ε δ η B mbs mb ri dt bs nrm off di ds c st)
    {com vel : ℝ → V3 ℝ} (hcom : ∀ t, IsCoM bs (st t) (com t)) (hvel : ∀ t, 0 ≤ t → HasD3 com (vel t) t)
    (hdd : ds < di) (hr : 0 ≤ r) (hc0 : 0 < c) (hc : c = r * (1 - r * dt) * (di - ds))
    (h0 : ds ≤ nrm.dot (com 0) + off) (hv0 : -(r * (nrm.dot (com 0) + off - ds)) ≤ nrm.dot (vel 0))
    (hout : ∀ t, 0 ≤ t → di < nrm.dot (com t) + off → -(r * (di - ds)) ≤ nrm.dot (vel t)) :
    ∀ t, 0 ≤ t → ds - (ε + η * (1 + B)) * (di - ds) / c ≤ nrm.dot (com t) + off ∧
      -(r * (nrm.dot (com t) + off - (ds - (ε + η * (1 + B)) * (di - ds) / c))) ≤ nrm.dot (vel t) := by
  obtain ⟨hmb, s, s', env, a, n, backend, inp, x, y, hL⟩ := hL
  have hmag : ∀ t, 0 ≤ mag n (y t).get := fun t => Finset.sum_nonneg fun _ _ => abs_nonneg _
  have hB : 0 ≤ B := (hmag 0).trans (hL 0 le_rfl).2.2.2.2.2.2.2.1
  have he : ε + η ≤ ε + η * (1 + B) := by nlinarith
  have key : ∀ t, ∃ inp' x', 0 ≤ t → SolvedNear (ε + η * (1 + B)) 0 "QLD" mbs n inp' x' ∧ (s' t).inEq ∈ inp'.inEq ∧
      ∀ v, x'.get v = (y t).get v := by
    intro t
    by_cases ht : 0 ≤ t
    swap
    · exact ⟨inp t, y t, fun h => absurd h ht⟩
    obtain ⟨-, -, -, -, hsol, hrd, hsz, hmg, -⟩ := hL t ht
    obtain ⟨uni, bi, -, hn⟩ := solvedNear_nrVars hsol
    have hpos : 0 < n := by
      have : mb.nrDof ≤ (mbs.map MultiBody.nrDof).sum :=
        List.single_le_sum (by simp) _ (List.mem_map_of_mem (List.mem_of_getElem? hmb))
      rw [hn]
      unfold nrVariables
      omega
    have hlines := C94_lines hsol hrd
    have hle : ε + η * (1 + mag n (y t).get) ≤ ε + η * (1 + B) := by
      have := mul_le_mul_of_nonneg_left hmg hη
      linarith
    obtain ⟨x', hx', ex⟩ := C94_transfer hε hη he hno htree hpos hsol hrd
      ⟨by simp, by simp, by simpa using hsz, by simp, by simp⟩ (by simp) ⟨fun _ => 0, by simp⟩
      ⟨by simp, fun c hc i hi => Ext.upperOK_mono (hlines.2.1 c hc i hi) (by linarith), by simp⟩
    exact ⟨_, x', fun _ => ⟨hx', by simp, ex⟩⟩
  choose inp' x' hk using key
  refine C92_com_plane (δ := 0) hdt hm hM (by nlinarith) ⟨hmb, s, s', env, a, n, "QLD", inp', x, x', fun t ht => ?_⟩
    hcom hvel hdd hr hc0 hc h0 hv0 hout
  obtain ⟨h1, h2, h3, h4, -, -, -, -, h9⟩ := hL t ht
  obtain ⟨k1, k2, k3⟩ := hk t ht
  refine ⟨h1, h2, h3, h4, k1, k2, ?_⟩
  rw [show (fun i => (x' t).get (a + i)) = fun i => (y t).get (a + i) from funext fun i => k3 _]
  exact h9

/-! ### Examples -/

namespace InexactEx
open WeightEx SafetyEx

/-- The tree of `robot`. -/
theorem trees : ∀ mb ∈ [robot], 0 < mb.nrDof → Tree mb := by
  intro mb hmb _
  simp only [List.mem_singleton] at hmb
  subst hmb
  exact robot_tree

/-- **C94** (joint limits) applies: offset `1/10`, velocity limit `1/20`.  The upper bounds are rounded up by `1/200`,
the solver exceeds them by its tolerance `1/200`, and the joint accelerates by `3/50`, more than the exact bound `1/20`.
The hypotheses of `C94_limits_hold` are met with `m = 3/50`. -/
example : (∃ s, RoundedLoop (1/200) 0 (1/200) [robot] robot 0 (prmO (1/10) (1/20)) [[1/2], [1/2]] (some dat) s
      [[14/25], [1/2]] [[3/50], [0]]) ∧ (∀ mb ∈ [robot], NoMimic mb) ∧ (∀ mb ∈ [robot], 0 < mb.nrDof → Tree mb) ∧
    (1/20 : ℚ) * 1 ≤ 3/50 - (1/200 + 1/200) * 1 ^ 2 := by
  refine ⟨?_, robot_noMimic, trees, by norm_num⟩
  obtain ⟨s, R⟩ := InexactEx.setup (1/10) (1/20)
  obtain ⟨s', d0, d1, h, -, -, hs, hb⟩ := InexactEx.bounds R (q0 := 1/2) (q1 := 1/2) (a0 := 0) (a1 := 0) (by norm_num)
    (by norm_num)
  have g1 := (hb fun i => if i = 0 then 1/20 else 0).2
    (by constructor <;> norm_num [DampedOK, Ext.LowerOK, Ext.UpperOK])
  let b' : BoundC ℚ := ⟨s'.bound.beginVar, s'.bound.lower,
    ⟨s'.bound.upper.size, fun i => (s'.bound.upper.get i).addFin (1/200)⟩⟩
  obtain ⟨x, hx, ex⟩ := solveNear (ε := 1/200) (δ := 0) (by norm_num) (3/50) (b := b') hs
    (y := fun i => if i = 0 then 3/50 else 0) (z0 := fun i => (if i = 0 then 1/20 else 0) + 1/200)
    ⟨fun i hi => Ext.lowerOK_mono (g1.1 i hi) (le_add_of_nonneg_right (by norm_num)), fun i hi => by
      simp only [b', Ext.upperOK_addFin]
      exact Ext.upperOK_mono (g1.2 i hi) (by norm_num)⟩
    (by intro v _; by_cases h : v = 0 <;> norm_num [h, abs_le]) (by norm_num) (by
      intro z hz
      norm_num
      nlinarith [sq_nonneg (z 0 - 3/50)])
  have L := RoundedLoop.step (η := 1/200) (Q' := _) (A' := _) [[0], [0]] s' "QLD" 2 _ x
    (RoundedLoop.start (mbs := [robot]) (Q0 := [[1/2], [1/2]]) [[0], [0]] R) rfl rfl h hx
    ⟨by simp, by simp, by simp, by
      intro c hc
      simp only [List.mem_singleton] at hc
      subst hc
      refine ⟨b', by simp, rfl, rfl, rfl, fun i _ => ?_, fun i _ => ?_⟩
      · simp only [b']
        cases s'.bound.lower.get i <;> simp [ExtNear]
      · simp only [b']
        cases s'.bound.upper.get i <;> simp [ExtNear, Ext.addFin]⟩ hs ⟨_, g1⟩ InexactEx.moves
  rw [ex, ex] at L
  norm_num at L
  exact ⟨s', L⟩

end InexactEx

namespace BarrierEx

open ConvEx (mb)
open ComEx (bs massOK massNe mass)

/-- A task pulls the slider towards the plane; every motion in the zone that uses up what the damper allows, plus the
error `η` of the line and the tolerance `ε` of the solver, is a closed loop. -/
theorem loopRounded {q v acc : ℝ → ℝ} {ε η B dt c : ℝ} (hε : 0 ≤ ε) (hη : 0 ≤ η) (hc : 0 < c) (hdt : 0 < dt)
    (hq : ∀ t, 0 ≤ t → HasDerivAt q (v t) t) (hv : ∀ t, 0 ≤ t → HasDerivAt v (acc t) t) (hz : ∀ t, 0 ≤ t → q t ≤ 2)
    (hb : ∀ t, 0 ≤ t → v t + dt * acc t = -(c * (q t - 1)) - (ε + η)) (hB : ∀ t, 0 ≤ t → |acc t| ≤ B) :
    PlaneLoopRounded ε 0 η B [mb] mb 0 dt bs ⟨1, 0, 0⟩ 0 2 1 c (st q v) := by
  refine ⟨rfl, ?_⟩
  have main : ∀ t, 0 ≤ t → ∃ s' env inp y, PlaneEnvOf bs mb (st q v t) env ∧
      (constr dt c).update [mb] env = .ok s' ∧ SolvedNear ε 0 "QLD" [mb] 1 inp y ∧
      RoundedTo η 1 ⟨[], [], [s'.inEq], [], []⟩ inp ∧ s'.inEq.Sized 1 ∧ ∀ i, y.get i = acc t := by
    intro t ht
    obtain ⟨s1, env, h1, h2, h3, h4, h5⟩ := plane_row (dt := dt) hc (hq t ht) (hv t ht) (hz t ht)
    let c' : InEqC ℝ := ⟨s1.inEq.maxInEq, s1.inEq.nrInEq, s1.inEq.A,
      ⟨s1.inEq.b.size, fun i => (s1.inEq.b.get i).addFin η⟩⟩
    obtain ⟨y, hy1, hy2⟩ := solveNear1 (p := acc t - 1) (y := acc t) hε (ie := [c']) (ge := [])
      (by intro k hk; simp only [List.mem_singleton] at hk; subst hk; exact h3) (by simp)
      ⟨by simp, by
        intro k hk i hi
        simp only [List.mem_singleton] at hk
        subst hk
        have : i = 0 := by simp only [c'] at hi; omega
        subst this
        simp only [c', Ext.upperOK_addFin]
        show lineVal 1 s1.A 0 _ - ε - η ≤ s1.b.get 0
        have e1 := h5 fun _ => acc t
        have e2 := hb t ht
        linarith, by simp⟩
      (fun z hz => by
        have g1 := hz.1.2.1 c' (by simp) 0 (by simp only [c']; omega)
        simp only [c', Ext.upperOK_addFin] at g1
        have g1 : lineVal 1 s1.A 0 z - η ≤ s1.b.get 0 := g1
        have e1 := h5 z
        have e2 := hb t ht
        have e3 : acc t ≤ z 0 := le_of_mul_le_mul_left (by linarith) hdt
        nlinarith)
    refine ⟨s1, env, _, y, h1, h2, hy1, ⟨by simp, ?_, by simp, by simp⟩, h3, hy2⟩
    intro k hk
    simp only [List.mem_singleton] at hk
    subst hk
    refine ⟨c', by simp, rfl, fun i _ j _ => by simp [c', hη], fun i _ => ?_⟩
    simp only [c']
    cases s1.inEq.b.get i <;> simp [ExtNear, Ext.addFin, abs_of_nonneg hη]
  have main' : ∀ t, ∃ s' env inp y, 0 ≤ t → PlaneEnvOf bs mb (st q v t) env ∧
      (constr dt c).update [mb] env = .ok s' ∧ SolvedNear ε 0 "QLD" [mb] 1 inp y ∧
      RoundedTo η 1 ⟨[], [], [s'.inEq], [], []⟩ inp ∧ s'.inEq.Sized 1 ∧ ∀ i, y.get i = acc t := by
    intro t
    by_cases ht : 0 ≤ t
    · obtain ⟨s', env, inp, y, h⟩ := main t ht
      exact ⟨s', env, inp, y, fun _ => h⟩
    · exact ⟨constr dt c, ⟨0, Mat.zero 0 0, 0, 0⟩, ⟨[], [], [], [], []⟩, ⟨0, fun _ => 0⟩, fun h => absurd h ht⟩
  choose s' env inp y h using main'
  refine ⟨fun _ => constr dt c, s', env, 0, 1, "QLD", inp, fun τ _ => v τ, y, fun t ht => ?_⟩
  obtain ⟨h1, h2, h3, h4, h5, h6⟩ := h t ht
  refine ⟨⟨constr_reach dt hc, rfl, rfl, le_rfl, ?_, fun _ _ => rfl⟩, ⟨plane c, by simp [constr], rfl, rfl, rfl, rfl,
    rfl, rfl, rfl, rfl⟩, h1, h2, h3, h4, h5, ?_, bodies (hq t ht) (hv t ht) fun i => h6 _⟩
  · intro d hd
    simp [constr, plane] at hd
    subst hd
    norm_num
  · simp only [mag, Finset.sum_range_one, h6]
    exact hB t ht

/-- **C94** (CoM planes) applies: the slider of `C92_sharp`, with a right-hand side rounded by `η` and a solver of
tolerance `ε`, gets closer to the plane than the security distance 1 at all times `t > 0`. -/
example {ε η : ℝ} (hε : 0 ≤ ε) (hη : 0 < η) : ∃ q v : ℝ → ℝ,
    PlaneLoopRounded ε 0 η (6 * (ε + η)) [mb] mb 0 (1/4) bs ⟨1, 0, 0⟩ 0 2 1 (3/4) (st q v) ∧
    (∀ t, 0 < t → q t < 1) ∧
    ∀ t, 0 ≤ t → 1 - (ε + η * (1 + 6 * (ε + η))) * (2 - 1) / (3/4) ≤ (⟨1, 0, 0⟩ : V3 ℝ).dot ⟨q t, 0, 1⟩ + 0 := by
  obtain ⟨e, rfl⟩ : ∃ e, ε + η = e := ⟨_, rfl⟩
  have he : 0 < ε + η := by linarith
  let E : ℝ → ℝ := fun t => Real.exp (-t)
  let q : ℝ → ℝ := fun t => 1 - 4 / 3 * (ε + η) * (1 - 3/2 * E t + 1/2 * E t ^ 3)
  let v : ℝ → ℝ := fun t => -(4 / 3 * (ε + η) * (3/2 * E t - 3/2 * E t ^ 3))
  let acc : ℝ → ℝ := fun t => -(4 / 3 * (ε + η) * (-(3/2) * E t + 9/2 * E t ^ 3))
  have hE : ∀ t, HasDerivAt E (-E t) t := fun t => (ConvEx.exp_deriv t)
  have hE3 : ∀ t, HasDerivAt (fun t => E t ^ 3) (-(3 * E t ^ 3)) t := fun t =>
    ((hE t).pow 3).congr_deriv (by simp; ring)
  have hq : ∀ t, HasDerivAt q (v t) t := fun t =>
    ((((((hE t).const_mul (3/2)).const_sub 1).add ((hE3 t).const_mul (1/2))).const_mul
      (4/3*(ε + η))).const_sub 1).congr_deriv (by simp only [v]; ring)
  have hv : ∀ t, HasDerivAt v (acc t) t := fun t =>
    ((((hE t).const_mul (3/2)).sub ((hE3 t).const_mul (3/2))).const_mul (4/3*(ε + η))).neg.congr_deriv
      (by simp only [acc]; ring)
  have hpos : ∀ t, 0 < E t := fun t => Real.exp_pos _
  have hle : ∀ t, 0 ≤ t → E t ≤ 1 := fun t ht => by simpa [E] using ht
  have hfac : ∀ t, 1 - 3/2 * E t + 1/2 * E t ^ 3 = 1/2 * ((1 - E t) ^ 2 * (2 + E t)) := fun t => by ring
  have hnn : ∀ t, 0 ≤ 1 - 3/2 * E t + 1/2 * E t ^ 3 := fun t => by
    rw [hfac]
    have := hpos t
    positivity
  have L := loopRounded (q := q) (v := v) (acc := acc) (dt := 1/4) (c := 3/4) (B := 6 * (ε + η)) hε hη.le (by norm_num)
    (by norm_num)
    (fun t _ => hq t) (fun t _ => hv t) (fun t _ => by
      have := mul_nonneg (by linarith : 0 ≤ 4 / 3 * (ε + η)) (hnn t)
      simp only [q]
      linarith) (fun t _ => by simp only [q, v, acc]; ring) (fun t ht => by
      have h1 := hpos t
      have h2 := hle t ht
      have h3 : |-(3/2) * E t + 9/2 * E t ^ 3| ≤ 9/2 := by
        rw [abs_le]
        have : 0 ≤ E t ^ 3 := by positivity
        have : E t ^ 3 ≤ 1 := pow_le_one₀ h1.le h2
        constructor <;> linarith
      simp only [acc]
      rw [abs_neg, abs_mul, abs_of_pos (by linarith : 0 < 4/3 * (ε + η))]
      nlinarith)
  have hq0 : q 0 = 1 := by simp [q, E]; norm_num
  have hv0 : v 0 = 0 := by simp [v, E]
  have hno : ∀ m ∈ [mb], NoMimic m := by
    intro m hm j hj
    simp only [List.mem_singleton] at hm
    subst hm
    simp only [mb, List.mem_singleton] at hj
    subst hj
    rfl
  have htree : ∀ m ∈ [mb], 0 < m.nrDof → Tree m := by
    intro m hm _
    simp only [List.mem_singleton] at hm
    subst hm
    refine ⟨rfl, rfl, rfl, ?_⟩
    intro i p h
    match i with
    | 0 => simp [mb] at h; exact Or.inl h.symm
    | k + 1 => simp [mb] at h
  have Bd := C94_com_plane (mb := mb) (r := 1) hno htree Nat.one_pos (by norm_num) massOK massNe hε hη.le L (fun t => isCoM _ _ t)
    (fun t ht => com_moves (q := q) (v := v) (hq t)) (by norm_num) (by norm_num) (by norm_num) (by norm_num)
    (by simp [V3.dot, hq0]) (by simp [V3.dot, hq0, hv0]) (fun t ht h => by
      simp [V3.dot] at h
      have := mul_nonneg (by linarith : 0 ≤ 4 / 3 * (ε + η)) (hnn t)
      simp only [q] at h
      linarith)
  refine ⟨q, v, L, fun t ht => ?_, fun t ht => (Bd t ht).1⟩
  have h1 : E t < 1 := by simpa [E] using ht
  have : 0 < 1 - 3/2 * E t + 1/2 * E t ^ 3 := by
    rw [hfac]
    have := hpos t
    have h2 : 0 < 1 - E t := by linarith
    positivity
  have := mul_pos (by linarith : 0 < 4 / 3 * (ε + η)) this
  simp only [q]
  linarith

end BarrierEx

end Verif
