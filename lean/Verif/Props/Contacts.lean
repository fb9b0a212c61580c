import Verif.Proofs.Contacts
import Mathlib.Data.String.Basic
import Mathlib.Analysis.SpecialFunctions.Pow.NNReal

/-!
# C18-C23: contact identifiers, friction cones and contact forces
-/

set_option autoImplicit false
set_option linter.unusedSectionVars false

namespace Verif

open Finset

/-! ## C18 -/

theorem ContactId.eq_iff (a b : ContactId) : a.eq b = true ↔ a = b := by
  cases a; cases b
  simp [ContactId.eq, and_assoc]

theorem ContactId.lt_iff (a b : ContactId) : a.lt b = true ↔
    toLex (a.r1Index, toLex (a.r1BodyName, toLex (a.r2Index, toLex (a.r2BodyName, a.ambiguityId)))) <
    toLex (b.r1Index, toLex (b.r1BodyName, toLex (b.r2Index, toLex (b.r2BodyName, b.ambiguityId)))) := by
  simp only [Prod.Lex.lt_iff, ofLex_toLex]
  simp only [ContactId.lt, Bool.or_eq_true, Bool.and_eq_true, decide_eq_true_eq, beq_iff_eq]
  tauto

/-- **C18**: `operator<` is irreflexive, asymmetric, transitive, and total with respect to
`operator==`; `operator==` holds exactly for ids with the same five fields and `operator!=` is its
negation. -/
theorem C18_contactId_order (a b c : ContactId) :
    a.lt a = false ∧
    (a.lt b = true → b.lt a = false) ∧
    (a.lt b = true → b.lt c = true → a.lt c = true) ∧
    (a.lt b = true ∨ a.eq b = true ∨ b.lt a = true) ∧
    ((a.lt b = false ∧ b.lt a = false) ↔ a.eq b = true) ∧
    (a.eq b = true ↔ a.r1Index = b.r1Index ∧ a.r2Index = b.r2Index ∧ a.r1BodyName = b.r1BodyName ∧
      a.r2BodyName = b.r2BodyName ∧ a.ambiguityId = b.ambiguityId) ∧
    a.ne b = !a.eq b := by
  have key : ∀ a b : ContactId, a.eq b = true ↔
      toLex (a.r1Index, toLex (a.r1BodyName, toLex (a.r2Index, toLex (a.r2BodyName, a.ambiguityId)))) =
      toLex (b.r1Index, toLex (b.r1BodyName, toLex (b.r2Index, toLex (b.r2BodyName, b.ambiguityId)))) := by
    intro a b
    rw [ContactId.eq_iff]
    cases a; cases b
    simp only [toLex_inj, Prod.mk.injEq, ContactId.mk.injEq]
    tauto
  refine ⟨?_, ?_, ?_, ?_, ?_, ?_, rfl⟩
  · rw [← Bool.not_eq_true, ContactId.lt_iff]; exact lt_irrefl _
  · rw [← Bool.not_eq_true, ContactId.lt_iff, ContactId.lt_iff]; exact fun h => lt_asymm h
  · simp only [ContactId.lt_iff]; exact fun h h' => lt_trans h h'
  · simp only [ContactId.lt_iff, key]; exact lt_trichotomy _ _
  · simp only [← Bool.not_eq_true, ContactId.lt_iff, key, not_lt]
    constructor
    · rintro ⟨h, h'⟩; exact le_antisymm h' h
    · intro h; rw [h]; exact ⟨le_rfl, le_rfl⟩
  · cases a; cases b
    simp [ContactId.eq, and_assoc]

/-- Ids that only differ in the last compared fields are ordered by them. -/
example : (⟨0, 1, "a", "b", 2⟩ : ContactId).lt ⟨0, 1, "a", "b", 3⟩ = true ∧
    (⟨0, 1, "a", "b", 3⟩ : ContactId).lt ⟨0, 1, "a", "c", -1⟩ = true ∧
    (⟨0, 1, "a", "b", 2⟩ : ContactId).eq ⟨0, 1, "a", "b", 2⟩ = true := by decide

/-! ## C19 -/

namespace Spec

/-- Part of `v` orthogonal to the unit vector `n`. -/
def tangential (n v : V3 ℝ) : V3 ℝ := v - (n.dot v) • n

/-- Euclidean norm. -/
noncomputable def len (v : V3 ℝ) : ℝ := Real.sqrt (v.x ^ 2 + v.y ^ 2 + v.z ^ 2)

/-- Right-handed rotation by `φ` about the unit vector `n`: keeps the component along `n`, turns the
orthogonal part in its plane. -/
noncomputable def rotate (n : V3 ℝ) (φ : ℝ) (v : V3 ℝ) : V3 ℝ :=
  (n.dot v) • n + Real.cos φ • tangential n v + Real.sin φ • n.cross (tangential n v)

/-- Coulomb's cone: nonnegative normal component, tangential norm at most `mu` times it. -/
def InCone (n : V3 ℝ) (mu : ℝ) (F : V3 ℝ) : Prop :=
  0 ≤ n.dot F ∧ len (tangential n F) ≤ mu * n.dot F

end Spec

open Spec

theorem len_eq (v : V3 ℝ) : len v = Real.sqrt v.sqNorm := by
  simp only [len, V3.sqNorm, V3.dot]; congr 1; ring

theorem sqNorm_nonneg (v : V3 ℝ) : 0 ≤ v.sqNorm := by
  simp only [V3.sqNorm, V3.dot]
  exact add_nonneg (add_nonneg (mul_self_nonneg _) (mul_self_nonneg _)) (mul_self_nonneg _)

theorem tangential_sqNorm (n v : V3 ℝ) (hn : n.dot n = 1) :
    (tangential n v).sqNorm = v.sqNorm - (n.dot v) ^ 2 := by
  simp only [tangential, V3.sqNorm, V3.dot_sub, V3.sub_dot, V3.dot_smul, V3.smul_dot, hn,
    V3.dot_comm v n]
  ring

theorem rotate_eq (n : V3 ℝ) (φ : ℝ) (v : V3 ℝ) : rotate n φ v = angleAxisMul φ n v := by
  have h : n.cross (tangential n v) = n.cross v := by
    rw [tangential, V3.cross_sub, V3.cross_smul, V3.cross_self]
    ext <;> simp
  rw [rotate, h]
  ext <;> simp [tangential, angleAxisMul] <;> ring

/-- **C19**: for an orthonormal frame (rows: tangent, bitangent, normal), any `mu`, any number of
generators and both directions (`dir = 1` for body 1, `dir = -1` for body 2): there are `nrGen`
generators, the first is the normal tilted by `atan mu` in the plane of the normal and
`tangent × normal`, the `i`-th is the first one rotated by `dir·i·2π/nrGen` about the normal, and each
is a unit vector with normal component `cos (atan mu) > 0` and tangential norm `|mu|` times it. -/
theorem C19_generators (frame : M3 ℝ) (hf : frame.RowsOrtho) (nrGen : ℕ) (mu dir : ℝ)
    (hd : dir = 1 ∨ dir = -1) :
    (FrictionCone.make frame nrGen mu dir).generators.length = nrGen ∧
    ∀ i < nrGen, ∃ g g0, (FrictionCone.make frame nrGen mu dir).generators[i]? = some g ∧
      (FrictionCone.make frame nrGen mu dir).generators[0]? = some g0 ∧
      g0 = Real.cos (Real.arctan mu) • frame.r2 +
        (dir * Real.sin (Real.arctan mu)) • frame.r0.cross frame.r2 ∧
      g = rotate frame.r2 (dir * i * (2 * Real.pi / nrGen)) g0 ∧
      len g = 1 ∧
      frame.r2.dot g = Real.cos (Real.arctan mu) ∧ 0 < frame.r2.dot g ∧
      len (tangential frame.r2 g) = |mu| * frame.r2.dot g := by
  refine ⟨make_length .., fun i hi => ?_⟩
  have hd2 : dir ^ 2 = 1 := by rcases hd with rfl | rfl <;> norm_num
  have hn : frame.r2.dot frame.r2 = 1 := hf.2.2.1
  refine ⟨_, _, make_getElem? _ _ _ _ _ hi, make_getElem? _ _ _ _ 0 (by omega), ?_, ?_, ?_, ?_, ?_, ?_⟩
  · have : ∀ v : V3 ℝ, angleAxisMul (dir * (Real.pi * 2 / nrGen) * ((0 : ℕ) : ℝ)) frame.r2 v = v := by
      intro v; ext <;> simp [angleAxisMul]
    rw [this, firstGen hf, mul_comm dir]
  · have : ∀ v : V3 ℝ, angleAxisMul (dir * (Real.pi * 2 / nrGen) * ((0 : ℕ) : ℝ)) frame.r2 v = v := by
      intro v; ext <;> simp [angleAxisMul]
    rw [this, rotate_eq]
    congr 1; ring
  · rw [len_eq, angleAxisMul_sqNorm _ _ _ hn, firstGen_sqNorm hf _ _ hd2, Real.sqrt_one]
  · rw [angleAxisMul_dot _ _ _ hn, firstGen_dot hf]
  · rw [angleAxisMul_dot _ _ _ hn, firstGen_dot hf]; exact Real.cos_arctan_pos mu
  · rw [len_eq, tangential_sqNorm _ _ hn, angleAxisMul_sqNorm _ _ _ hn, firstGen_sqNorm hf _ _ hd2,
      angleAxisMul_dot _ _ _ hn, firstGen_dot hf]
    have h1 : 1 - Real.cos (Real.arctan mu) ^ 2 = (|mu| * Real.cos (Real.arctan mu)) ^ 2 := by
      rw [mul_pow, sq_abs, Real.cos_sq_arctan]
      have : (1 + mu ^ 2) ≠ 0 := by positivity
      field_simp
      ring
    rw [h1, Real.sqrt_sq]
    have := Real.cos_arctan_pos mu
    positivity

/-- The identity frame is orthonormal; so is a frame with a tilted normal. -/
example : (M3.one : M3 ℝ).RowsOrtho ∧
    (⟨⟨1, 0, 0⟩, ⟨0, 3/5, 4/5⟩, ⟨0, -4/5, 3/5⟩⟩ : M3 ℝ).RowsOrtho := by
  constructor <;> refine ⟨?_, ?_, ?_, ?_, ?_, ?_⟩ <;> norm_num [M3.one, V3.dot]

/-! ## C20 -/

theorem inCone_iff (n : V3 ℝ) (hn : n.dot n = 1) {mu : ℝ} (hmu : 0 ≤ mu) (F : V3 ℝ) :
    InCone n mu F ↔ 0 ≤ n.dot F ∧ F.sqNorm ≤ (1 + mu ^ 2) * (n.dot F) ^ 2 := by
  unfold InCone
  refine and_congr_right fun h => ?_
  rw [len_eq, Real.sqrt_le_left (by positivity), tangential_sqNorm _ _ hn]
  constructor <;> intro h' <;> nlinarith

theorem inCone_zero (n : V3 ℝ) (mu : ℝ) : InCone n mu 0 := by
  have : tangential n 0 = 0 := by ext <;> simp [tangential, V3.dot]
  unfold InCone
  rw [this, V3.dot_zero]
  simp [len]

theorem inCone_smul (n : V3 ℝ) (hn : n.dot n = 1) {mu : ℝ} (hmu : 0 ≤ mu) {F : V3 ℝ}
    (h : InCone n mu F) {c : ℝ} (hc : 0 ≤ c) : InCone n mu (c • F) := by
  rw [inCone_iff n hn hmu] at h ⊢
  rw [V3.dot_smul]
  refine ⟨mul_nonneg hc h.1, ?_⟩
  have : (c • F).sqNorm = c ^ 2 * F.sqNorm := by
    simp only [V3.sqNorm, V3.dot_smul, V3.smul_dot]; ring
  rw [this]
  nlinarith [mul_le_mul_of_nonneg_left h.2 (sq_nonneg c)]

theorem tangential_add (n a b : V3 ℝ) : tangential n (a + b) = tangential n a + tangential n b := by
  ext <;> simp [tangential, V3.dot] <;> ring

/-- Triangle inequality. -/
theorem len_add_le' (a b : V3 ℝ) : len (a + b) ≤ len a + len b := by
  rw [len_eq, len_eq, len_eq]
  apply Real.sqrt_le_iff.mpr
  refine ⟨by positivity, ?_⟩
  have ha := Real.sq_sqrt (sqNorm_nonneg a)
  have hb := Real.sq_sqrt (sqNorm_nonneg b)
  have hab : a.dot b ≤ Real.sqrt a.sqNorm * Real.sqrt b.sqNorm := by
    rw [← Real.sqrt_mul (sqNorm_nonneg a)]
    apply Real.le_sqrt_of_sq_le
    have := sqNorm_nonneg (a.cross b)
    simp only [V3.sqNorm] at *
    rw [V3.cross_dot_cross] at this
    rw [V3.dot_comm b a] at this
    nlinarith
  have e : (a + b).sqNorm = a.sqNorm + 2 * a.dot b + b.sqNorm := by
    simp only [V3.sqNorm, V3.dot_add, V3.add_dot, V3.dot_comm b a]; ring
  rw [e]
  nlinarith

theorem inCone_add (n : V3 ℝ) {mu : ℝ} {F G : V3 ℝ}
    (h : InCone n mu F) (h' : InCone n mu G) : InCone n mu (F + G) := by
  refine ⟨by rw [V3.dot_add]; exact add_nonneg h.1 h'.1, ?_⟩
  rw [tangential_add, V3.dot_add]
  calc len (tangential n F + tangential n G) ≤ len (tangential n F) + len (tangential n G) :=
        len_add_le' _ _
    _ ≤ mu * n.dot F + mu * n.dot G := add_le_add h.2 h'.2
    _ = _ := by ring

theorem inCone_combo (n : V3 ℝ) (hn : n.dot n = 1) {mu : ℝ} (hmu : 0 ≤ mu) (gens : List (V3 ℝ))
    (hg : ∀ g ∈ gens, InCone n mu g) (lam : ℕ → ℝ) (hl : ∀ k < gens.length, 0 ≤ lam k) :
    InCone n mu (combo gens lam) := by
  induction gens generalizing lam with
  | nil => rw [combo_nil]; exact inCone_zero n mu
  | cons g gs ih =>
    rw [combo_cons]
    apply inCone_add
    · exact inCone_smul n hn hmu (hg g (by simp)) (hl 0 (by simp))
    · exact ih (fun g h => hg g (by simp [h])) _ (fun k hk => hl (k + 1) (by simpa using hk))

theorem inCone_sum (n : V3 ℝ) (mu : ℝ) (m : ℕ) (f : ℕ → V3 ℝ) (h : ∀ i < m, InCone n mu (f i)) :
    InCone n mu (∑ i ∈ range m, f i) := by
  induction m with
  | zero => simpa using inCone_zero n mu
  | succ m ih =>
    rw [Finset.sum_range_succ]
    exact inCone_add n (ih fun i hi => h i (by omega)) (h m (by omega))

theorem inCone_generator (frame : M3 ℝ) (hf : frame.RowsOrtho) (nrGen : ℕ) {mu : ℝ} (hmu : 0 ≤ mu)
    (dir : ℝ) (hd : dir = 1 ∨ dir = -1) (g : V3 ℝ)
    (hg : g ∈ (FrictionCone.make frame nrGen mu dir).generators) : InCone frame.r2 mu g := by
  obtain ⟨i, hi, e⟩ := make_mem hg
  obtain ⟨g', g0, h1, -, -, -, -, -, h5, h6⟩ := (C19_generators frame hf nrGen mu dir hd).2 i hi
  rw [make_getElem? _ _ _ _ _ hi, ← e] at h1
  cases h1
  refine ⟨h5.le, ?_⟩
  rw [h6, abs_of_nonneg hmu]

/-- **C20**: for a unilateral contact built from an orthonormal frame, a rotation between the bodies
and `mu ≥ 0`, and weights `lambda ≥ 0` of the right size, the force at each point and the total force
are in the Coulomb cone around the contact normal: on body 1 around the normal (third row) of the
frame, on body 2 around the opposite normal expressed in body 2. -/
theorem C20_uni_force_in_cone (id : ContactId) (pts : List (V3 ℝ)) (frame : M3 ℝ)
    (hf : frame.RowsOrtho) (X Xcf : PT ℝ) (hX : X.E.RowsOrtho) (nrGen : ℕ) (mu : ℝ) (hmu : 0 ≤ mu)
    (c : UniContact ℝ) (hc : c = UniContact.make id pts frame X nrGen mu Xcf) (lambda : Vec ℝ)
    (hpos : ∀ k < lambda.size, 0 ≤ lambda.get k) :
    (∀ p : ℤ, lambda.size = nrGen → ∃ F₁ F₂,
      c.forceAt lambda p c.r1Cone = .ok F₁ ∧ InCone frame.r2 mu F₁ ∧
      c.forceAt lambda p c.r2Cone = .ok F₂ ∧ InCone (-X.E.mulVec frame.r2) mu F₂) ∧
    (lambda.size = pts.length * nrGen → ∃ F₁ F₂,
      c.forceTotal lambda c.r1Cone = .ok F₁ ∧ InCone frame.r2 mu F₁ ∧
      c.forceTotal lambda c.r2Cone = .ok F₂ ∧ InCone (-X.E.mulVec frame.r2) mu F₂) := by
  have hf2 := r2Frame_ortho hf hX
  have hn1 : frame.r2.dot frame.r2 = 1 := hf.2.2.1
  have hn2 : (-X.E.mulVec frame.r2).dot (-X.E.mulVec frame.r2) = 1 := by
    rw [← r2Frame_r2]; exact hf2.2.2.1
  have hg1 : ∀ g ∈ c.r1Cone.generators, InCone frame.r2 mu g := by
    subst hc; exact inCone_generator frame hf nrGen hmu 1 (Or.inl rfl)
  have hg2 : ∀ g ∈ c.r2Cone.generators, InCone (-X.E.mulVec frame.r2) mu g := by
    subst hc
    rw [← r2Frame_r2]
    exact inCone_generator _ hf2 nrGen hmu (-1) (Or.inr rfl)
  have hl1 : c.r1Cone.generators.length = nrGen := by subst hc; simp [UniContact.make]
  have hl2 : c.r2Cone.generators.length = nrGen := by subst hc; simp [UniContact.make]
  have hp : c.r1Points.length = pts.length := by subst hc; simp [UniContact.make]
  constructor
  · intro p hl
    refine ⟨_, _, genLoop_ok _ _ _ _ (by omega), ?_, genLoop_ok _ _ _ _ (by omega), ?_⟩
    · rw [zero_add]
      exact inCone_combo _ hn1 hmu _ hg1 _ (fun k hk => hpos _ (by omega))
    · rw [zero_add]
      exact inCone_combo _ hn2 hmu _ hg2 _ (fun k hk => hpos _ (by omega))
  · intro hl
    have hlt : ∀ i < pts.length, ∀ k < nrGen, i * nrGen + k < lambda.size := by
      intro i hi k hk
      have : (i + 1) * nrGen ≤ pts.length * nrGen := Nat.mul_le_mul_right _ (by omega)
      rw [Nat.add_mul, Nat.one_mul] at this
      omega
    refine ⟨_, _, uni_forceTotal c lambda _ (by omega) (by rw [hp, hl1, hl]), ?_,
      uni_forceTotal c lambda _ (by omega) (by rw [hp, hl1, hl]), ?_⟩
    · refine inCone_sum _ _ _ _ fun i hi => ?_
      exact inCone_combo _ hn1 hmu _ hg1 _ (fun k hk => hpos _ (by
        rw [hl1]; exact hlt i (by omega) k (by omega)))
    · refine inCone_sum _ _ _ _ fun i hi => ?_
      exact inCone_combo _ hn2 hmu _ hg2 _ (fun k hk => hpos _ (by
        rw [hl1]; exact hlt i (by omega) k (by omega)))

/-- **C20** for bilateral contacts: each point has its own frame and cone. -/
theorem C20_bi_force_in_cone (id : ContactId) (pts : List (V3 ℝ)) (frames : List (M3 ℝ))
    (hf : ∀ R ∈ frames, R.RowsOrtho) (X Xcf : PT ℝ) (hX : X.E.RowsOrtho) (nrGen : ℕ) (mu : ℝ)
    (hmu : 0 ≤ mu) (c : BiContact ℝ) (hc : BiContact.make id pts frames X nrGen mu Xcf = .ok c)
    (lambda : Vec ℝ) (hsize : lambda.size = nrGen) (hpos : ∀ k < lambda.size, 0 ≤ lambda.get k)
    (i : ℕ) (hi : i < pts.length) :
    ∃ R F₁ F₂, frames[i]? = some R ∧
      c.forceAt lambda i c.r1Cones = .ok F₁ ∧ InCone R.r2 mu F₁ ∧
      c.forceAt lambda i c.r2Cones = .ok F₂ ∧ InCone (-X.E.mulVec R.r2) mu F₂ := by
  unfold BiContact.make at hc
  split at hc
  · cases hc
  · rename_i hlen
    simp only [Out.ok.injEq] at hc
    subst hc
    have hi2 : i < frames.length := by omega
    have hz : i < (pts.zip frames).length := by simp; omega
    have hR := hf _ (List.getElem_mem hi2)
    refine ⟨frames[i], _, _, List.getElem?_eq_getElem hi2,
      bi_forceAt _ _ _ _ (by simpa using hz) (by simp [hi, hi2, hsize]), ?_,
      bi_forceAt _ _ _ _ (by simpa using hz) (by simp [hi, hi2, hsize]), ?_⟩
    · have e : (((pts.zip frames).map fun q => FrictionCone.make q.2 nrGen mu 1).getD i ⟨[]⟩) =
          FrictionCone.make frames[i] nrGen mu 1 := by simp [hi, hi2]
      rw [e]
      exact inCone_combo _ hR.2.2.1 hmu _ (inCone_generator _ hR nrGen hmu 1 (Or.inl rfl)) _
        (fun k hk => hpos _ (by simpa [hsize] using hk))
    · have e : (((pts.zip frames).map fun q =>
          FrictionCone.make ((PT.mk q.2 q.1).mul X.inv).E.neg nrGen mu (-1)).getD i ⟨[]⟩) =
          FrictionCone.make ((PT.ofRot frames[i]).mul X.inv).E.neg nrGen mu (-1) := by
        simp [hi, hi2, PT.mul, PT.ofRot]
      rw [e, ← r2Frame_r2]
      have hR2 := r2Frame_ortho hR hX
      exact inCone_combo _ hR2.2.2.1 hmu _ (inCone_generator _ hR2 nrGen hmu (-1) (Or.inr rfl)) _
        (fun k hk => hpos _ (by simpa [hsize] using hk))

/-- The cone is a real restriction: with `mu = 1/2` a horizontal force is outside, a vertical one
inside. -/
example : InCone (M3.one : M3 ℝ).r2 (1 / 2) ⟨0, 0, 3⟩ ∧ ¬ InCone (M3.one : M3 ℝ).r2 (1 / 2) ⟨1, 0, 0⟩ := by
  constructor
  · rw [inCone_iff _ (by norm_num [M3.one, V3.dot]) (by norm_num)]
    norm_num [M3.one, V3.dot, V3.sqNorm]
  · rw [inCone_iff _ (by norm_num [M3.one, V3.dot]) (by norm_num)]
    norm_num [M3.one, V3.dot, V3.sqNorm]

/-- Inputs meeting the hypotheses of C20 and C21 exist: two points, four generators, a relative
rotation by a quarter turn, weights 0..7. -/
example : (M3.one : M3 ℝ).RowsOrtho ∧
    (⟨⟨⟨0, 1, 0⟩, ⟨-1, 0, 0⟩, ⟨0, 0, 1⟩⟩, ⟨1, 2, 3⟩⟩ : PT ℝ).E.IsRot ∧
    ∃ lambda : Vec ℝ, lambda.size = [(⟨0, 0, 0⟩ : V3 ℝ), ⟨1, 0, 0⟩].length * 4 ∧
      ∀ k < lambda.size, 0 ≤ lambda.get k := by
  refine ⟨?_, ⟨?_, ?_⟩, ⟨8, fun k => k⟩, by simp, fun k _ => by simp⟩
  · refine ⟨?_, ?_, ?_, ?_, ?_, ?_⟩ <;> norm_num [M3.one, V3.dot]
  · refine ⟨?_, ?_, ?_, ?_, ?_, ?_⟩ <;> norm_num [V3.dot]
  · ext <;> norm_num

/-! ## C21 -/

theorem getD_map_neg (pts : List (V3 ℝ)) (f : V3 ℝ → V3 ℝ) (i : ℕ) (hi : i < pts.length) :
    (pts.map f).getD i 0 = f (pts.getD i 0) := by
  simp [List.getElem?_eq_getElem hi]

theorem mulVec_sum (m : M3 ℝ) (n : ℕ) (f : ℕ → V3 ℝ) :
    m.mulVec (∑ i ∈ range n, f i) = ∑ i ∈ range n, m.mulVec (f i) := by
  induction n with
  | zero => simp [M3.mulVec_zero]
  | succ n ih => rw [Finset.sum_range_succ, M3.mulVec_add, ih, Finset.sum_range_succ]

theorem cross_sum (r : V3 ℝ) (n : ℕ) (f : ℕ → V3 ℝ) :
    r.cross (∑ i ∈ range n, f i) = ∑ i ∈ range n, r.cross (f i) := by
  induction n with
  | zero => simp [V3.cross_zero]
  | succ n ih => rw [Finset.sum_range_succ, V3.cross_add, ih, Finset.sum_range_succ]

theorem combo_neg_mulVec (E : M3 ℝ) (gens : List (V3 ℝ)) (lam : ℕ → ℝ) :
    combo (gens.map fun g => -E.mulVec g) lam = -E.mulVec (combo gens lam) := by
  refine combo_map (fun g => -E.mulVec g) ?_ ?_ ?_ gens lam
  · simp [M3.mulVec_zero]
  · intro a b; rw [M3.mulVec_add]; abel
  · intro k a; rw [M3.mulVec_smul, V3.smul_neg']

/-- The wrench bookkeeping behind C21. -/
theorem wrench_reaction (E : M3 ℝ) (hE : E.IsRot) (r : V3 ℝ) (m : ℕ) (p f : ℕ → V3 ℝ) :
    (∑ i ∈ range m, (E.mulVec (p i - r)).cross (-E.mulVec (f i))) =
      -E.mulVec ((∑ i ∈ range m, (p i).cross (f i)) - r.cross (∑ i ∈ range m, f i)) := by
  rw [cross_sum, ← Finset.sum_sub_distrib, mulVec_sum, ← Finset.sum_neg_distrib]
  refine Finset.sum_congr rfl fun i _ => ?_
  rw [V3.cross_neg, hE.cross_mulVec, V3.sub_cross]

/-- **C21**: for a constructed unilateral contact with a rotation between the bodies and every
`lambda`: the body 2 points are the body 1 points expressed in body 2 (`E (p - r)`, and back
`p = r + Eᵀ p₂`); the force on body 2 at each point and in total is minus the force on body 1
expressed in body 2; and the wrench on body 2 at its origin is minus the wrench on body 1 moved to
the body 2 frame. -/
theorem C21_uni_action_reaction (id : ContactId) (pts : List (V3 ℝ)) (frame : M3 ℝ)
    (X Xcf : PT ℝ) (hX : X.E.IsRot) (nrGen : ℕ) (mu : ℝ)
    (c : UniContact ℝ) (hc : c = UniContact.make id pts frame X nrGen mu Xcf) :
    (c.r2Points = pts.map (fun p => X.E.mulVec (p - X.r)) ∧
     c.r2Points.map (fun p => X.r + X.E.transpose.mulVec p) = pts) ∧
    (∀ (lambda : Vec ℝ) (p : ℤ), lambda.size = nrGen → ∃ F,
      c.forceAt lambda p c.r1Cone = .ok F ∧
      c.forceAt lambda p c.r2Cone = .ok (-X.E.mulVec F)) ∧
    (∀ lambda : Vec ℝ, lambda.size = pts.length * nrGen → ∃ F W,
      c.forceTotal lambda c.r1Cone = .ok F ∧
      c.forceTotal lambda c.r2Cone = .ok (-X.E.mulVec F) ∧
      c.forceWrench lambda c.r1Points c.r1Cone = .ok W ∧
      c.forceWrench lambda c.r2Points c.r2Cone =
        .ok ⟨-X.E.mulVec (W.couple - X.r.cross W.force), -X.E.mulVec W.force⟩) := by
  have hpts : c.r2Points = pts.map (fun p => X.E.mulVec (p - X.r)) := by
    subst hc
    simp only [UniContact.make]
    exact List.map_congr_left fun p _ => r2Point p _ X
  have hg : c.r2Cone.generators = c.r1Cone.generators.map (fun g => -X.E.mulVec g) := by
    subst hc; exact r2Cone_generators frame hX nrGen mu
  have hl1 : c.r1Cone.generators.length = nrGen := by subst hc; simp [UniContact.make]
  have hp : c.r1Points = pts := by subst hc; rfl
  refine ⟨⟨hpts, ?_⟩, ?_, ?_⟩
  · rw [hpts, List.map_map]
    conv_rhs => rw [← List.map_id pts]
    refine List.map_congr_left fun p _ => ?_
    simp [hX.1.transpose_mulVec]
  · intro lambda p hl
    refine ⟨_, genLoop_ok _ _ _ _ (by omega), ?_⟩
    simp only [UniContact.forceAt]
    rw [genLoop_ok _ _ _ _ (by rw [hg, List.length_map]; omega), hg, combo_neg_mulVec, zero_add, zero_add]
  · intro lambda hl
    refine ⟨_, _, uni_forceTotal c lambda _ le_rfl (by rw [hp, hl1, hl]), ?_,
      uni_forceWrench c lambda _ _ le_rfl (by rw [hp, hl1, hl]), ?_⟩
    · rw [uni_forceTotal c lambda _ (by rw [hg, List.length_map]) (by rw [hp, hl1, hl])]
      rw [mulVec_sum, ← Finset.sum_neg_distrib]
      congr 1
      exact Finset.sum_congr rfl fun i _ => by rw [hg, combo_neg_mulVec]
    · rw [uni_forceWrench c lambda _ _ (by rw [hg, List.length_map])
        (by rw [hpts, List.length_map, hl1, hl])]
      simp only [hpts, hp, List.length_map]
      congr 2
      · rw [← wrench_reaction X.E hX]
        refine Finset.sum_congr rfl fun i hi => ?_
        rw [getD_map_neg _ _ _ (Finset.mem_range.mp hi), hg, combo_neg_mulVec]
      · rw [mulVec_sum, ← Finset.sum_neg_distrib]
        exact Finset.sum_congr rfl fun i _ => by rw [hg, combo_neg_mulVec]

theorem bi_make_cones {id : ContactId} {pts : List (V3 ℝ)} {frames : List (M3 ℝ)} {X Xcf : PT ℝ}
    (hX : X.E.IsRot) {nrGen : ℕ} {mu : ℝ} {c : BiContact ℝ}
    (hc : BiContact.make id pts frames X nrGen mu Xcf = .ok c) :
    c.r1Points = pts ∧ c.r2Points = pts.map (fun p => X.E.mulVec (p - X.r)) ∧
    c.r1Cones.length = pts.length ∧ c.r2Cones.length = pts.length ∧
    (∀ i < pts.length, (c.r1Cones.getD i ⟨[]⟩).generators.length = nrGen) ∧
    (∀ i < pts.length, (c.r2Cones.getD i ⟨[]⟩).generators =
      (c.r1Cones.getD i ⟨[]⟩).generators.map (fun g => -X.E.mulVec g)) := by
  unfold BiContact.make at hc
  split at hc
  · cases hc
  · rename_i hlen
    simp only [Out.ok.injEq] at hc
    subst hc
    refine ⟨rfl, ?_, by simp; omega, by simp; omega, ?_, ?_⟩
    · simp only
      have e : pts.map (fun p => X.E.mulVec (p - X.r)) =
          (pts.zip frames).map (fun q => X.E.mulVec (q.1 - X.r)) := by
        have : (pts.zip frames).map Prod.fst = pts := by
          rw [List.map_fst_zip]; omega
        conv_lhs => rw [← this, List.map_map]
        rfl
      rw [e]
      exact List.map_congr_left fun q _ => r2Point q.1 q.2 X
    · intro i hi
      simp [hi, show i < frames.length by omega]
    · intro i hi
      have hi2 : i < frames.length := by omega
      have e : (((pts.zip frames).map fun q =>
          FrictionCone.make ((PT.mk q.2 q.1).mul X.inv).E.neg nrGen mu (-1)).getD i ⟨[]⟩) =
          FrictionCone.make ((PT.ofRot frames[i]).mul X.inv).E.neg nrGen mu (-1) := by
        simp [hi, hi2, PT.mul, PT.ofRot]
      have e1 : (((pts.zip frames).map fun q => FrictionCone.make q.2 nrGen mu 1).getD i ⟨[]⟩) =
          FrictionCone.make frames[i] nrGen mu 1 := by simp [hi, hi2]
      simp only
      rw [e, e1, r2Cone_generators _ hX]

/-- **C21** for bilateral contacts (one frame per point). -/
theorem C21_bi_action_reaction (id : ContactId) (pts : List (V3 ℝ)) (frames : List (M3 ℝ))
    (X Xcf : PT ℝ) (hX : X.E.IsRot) (nrGen : ℕ) (mu : ℝ)
    (c : BiContact ℝ) (hc : BiContact.make id pts frames X nrGen mu Xcf = .ok c) :
    (c.r2Points = pts.map (fun p => X.E.mulVec (p - X.r)) ∧
     c.r2Points.map (fun p => X.r + X.E.transpose.mulVec p) = pts) ∧
    (∀ (lambda : Vec ℝ) (i : ℕ), i < pts.length → lambda.size = nrGen → ∃ F,
      c.forceAt lambda i c.r1Cones = .ok F ∧
      c.forceAt lambda i c.r2Cones = .ok (-X.E.mulVec F)) ∧
    (∀ lambda : Vec ℝ, lambda.size = pts.length * nrGen → ∃ F W,
      c.forceTotal lambda c.r1Cones = .ok F ∧
      c.forceTotal lambda c.r2Cones = .ok (-X.E.mulVec F) ∧
      c.forceWrench lambda c.r1Points c.r1Cones = .ok W ∧
      c.forceWrench lambda c.r2Points c.r2Cones =
        .ok ⟨-X.E.mulVec (W.couple - X.r.cross W.force), -X.E.mulVec W.force⟩) := by
  obtain ⟨hp, hpts, hl1, hl2, hn, hg⟩ := bi_make_cones hX hc
  have hlam : lamBefore c pts.length = pts.length * nrGen := by
    unfold lamBefore
    rw [Finset.sum_congr rfl (fun i hi => hn i (Finset.mem_range.mp hi))]
    simp
  have hle : ∀ i < pts.length, (c.r2Cones.getD i ⟨[]⟩).generators.length
      ≤ (c.r1Cones.getD i ⟨[]⟩).generators.length := by
    intro i hi; rw [hg i hi, List.length_map]
  refine ⟨⟨hpts, ?_⟩, ?_, ?_⟩
  · rw [hpts, List.map_map]
    conv_rhs => rw [← List.map_id pts]
    refine List.map_congr_left fun p _ => ?_
    simp [hX.1.transpose_mulVec]
  · intro lambda i hi hl
    refine ⟨_, bi_forceAt c _ _ _ (by omega) (by rw [hn i hi, hl]), ?_⟩
    rw [bi_forceAt c _ _ _ (by omega) (by rw [hg i hi, List.length_map, hn i hi, hl]), hg i hi,
      combo_neg_mulVec]
  · intro lambda hl
    refine ⟨_, _, bi_forceTotal c lambda _ (by rw [hp]; omega) (by rw [hp]; omega)
        (fun i _ => le_rfl) (by rw [hp, hlam, hl]), ?_,
      bi_forceWrench c lambda _ _ (by rw [hp]; omega) (by rw [hp]; omega)
        (fun i _ => le_rfl) (by rw [hp, hlam, hl]), ?_⟩
    · rw [bi_forceTotal c lambda _ (by rw [hp]; omega) (by rw [hp]; omega)
        (by rw [hp]; exact hle) (by rw [hp, hlam, hl])]
      rw [mulVec_sum, ← Finset.sum_neg_distrib]
      congr 1
      exact Finset.sum_congr rfl fun i hi => by
        rw [hg i (by rw [hp] at hi; exact Finset.mem_range.mp hi), combo_neg_mulVec]
    · have hlen : c.r2Points.length = pts.length := by rw [hpts, List.length_map]
      rw [bi_forceWrench c lambda _ _ (by omega) (by omega)
        (by rw [hlen]; exact hle) (by rw [hlen, hlam, hl])]
      simp only [hpts, hp, List.length_map]
      congr 2
      · rw [← wrench_reaction X.E hX]
        refine Finset.sum_congr rfl fun i hi => ?_
        rw [getD_map_neg _ _ _ (Finset.mem_range.mp hi), hg i (Finset.mem_range.mp hi),
          combo_neg_mulVec]
      · rw [mulVec_sum, ← Finset.sum_neg_distrib]
        exact Finset.sum_congr rfl fun i hi => by
          rw [hg i (Finset.mem_range.mp hi), combo_neg_mulVec]

/-- Fewer frames than points: undefined behaviour (the size check is an assertion). -/
theorem C21_bi_missing_frame (id : ContactId) (pts : List (V3 ℝ)) (frames : List (M3 ℝ))
    (X Xcf : PT ℝ) (nrGen : ℕ) (mu : ℝ) :
    BiContact.make id pts frames X nrGen mu Xcf = .ub ↔ frames.length < pts.length := by
  unfold BiContact.make
  split <;> simp_all

/-! ## C22 -/

theorem forRange_congr' {σ : Type} {n : ℕ} {f g : ℕ → σ → Out σ} (s : σ)
    (h : ∀ i < n, ∀ s, f i s = g i s) : forRange n f s = forRange n g s := by
  induction n with
  | zero => rfl
  | succ n ih =>
    simp only [forRange]
    rw [ih fun i hi => h i (by omega)]
    congr 1
    funext s
    exact h n (by omega) s

section
variable {K : Type} [CommRing K]

theorem vecAt_replicate {α : Type} (n i : ℕ) (a : α) (h : i < n) :
    vecAt (List.replicate n a) i = .ok a := by
  rw [vecAt_ok (by simpa using h)]; simp

/-- **C22**: the bilateral view of a unilateral contact has the same id, points and transforms, the
same number of lambda at every point and in total, and the same outcome (value or undefined
behaviour) of every force computation, for every lambda of any size, on both bodies. -/
theorem C22_bilateral_view (c : UniContact K) (b : BiContact K) (hb : b = BiContact.ofUni c) :
    (b.id = c.id ∧ b.r1Points = c.r1Points ∧ b.r2Points = c.r2Points ∧
      b.X_b1_b2 = c.X_b1_b2 ∧ b.X_b1_cf = c.X_b1_cf) ∧
    (∀ i < c.r1Points.length, b.nrLambdaAt i = c.nrLambdaAt i) ∧
    b.nrLambda = c.nrLambda ∧
    (∀ (lambda : Vec K) (i : ℕ), i < c.r1Points.length →
      b.forceAt lambda i b.r1Cones = c.forceAt lambda i c.r1Cone ∧
      b.forceAt lambda i b.r2Cones = c.forceAt lambda i c.r2Cone) ∧
    (∀ lambda : Vec K,
      b.forceTotal lambda b.r1Cones = c.forceTotal lambda c.r1Cone ∧
      b.forceTotal lambda b.r2Cones = c.forceTotal lambda c.r2Cone ∧
      ∀ p : List (V3 K), p.length ≤ c.r1Points.length →
        b.forceWrench lambda p b.r1Cones = c.forceWrench lambda p c.r1Cone ∧
        b.forceWrench lambda p b.r2Cones = c.forceWrench lambda p c.r2Cone) := by
  subst hb
  have h1 : ∀ i < c.r1Points.length, (BiContact.ofUni c).nrLambdaAt i = c.nrLambdaAt i := by
    intro i hi
    simp [BiContact.nrLambdaAt, BiContact.ofUni, vecAt_replicate _ _ _ hi, UniContact.nrLambdaAt]
  have h2 : ∀ (l : Vec K) (i : ℕ), i < c.r1Points.length →
      (BiContact.ofUni c).forceAt l i (BiContact.ofUni c).r1Cones = c.forceAt l i c.r1Cone ∧
      (BiContact.ofUni c).forceAt l i (BiContact.ofUni c).r2Cones = c.forceAt l i c.r2Cone := by
    intro l i hi
    simp [BiContact.forceAt, BiContact.ofUni, vecAt_replicate _ _ _ hi, UniContact.forceAt]
  refine ⟨⟨rfl, rfl, rfl, rfl, rfl⟩, h1, ?_, h2, fun l => ⟨?_, ?_, fun p hp => ⟨?_, ?_⟩⟩⟩
  · exact forRange_congr' _ fun i hi s => by
      have := h1 i hi
      simp only [this]
  · unfold BiContact.forceTotal UniContact.forceTotal
    congr 1
    exact forRange_congr' _ fun i hi s => by
      simp only [h1 i hi, (h2 _ i hi).1]
  · unfold BiContact.forceTotal UniContact.forceTotal
    congr 1
    exact forRange_congr' _ fun i hi s => by
      simp only [h1 i hi, (h2 _ i hi).2]
  · unfold BiContact.forceWrench UniContact.forceWrench
    congr 1
    exact forRange_congr' _ fun i hi s => by
      simp only [h1 i (by omega), (h2 _ i (show i < c.r1Points.length by omega)).1]
  · unfold BiContact.forceWrench UniContact.forceWrench
    congr 1
    exact forRange_congr' _ fun i hi s => by
      simp only [h1 i (by omega), (h2 _ i (show i < c.r1Points.length by omega)).2]

/-! ## C23 -/

namespace Spec
/-- Sizes every constructed bilateral contact has. -/
def BiShaped (c : BiContact K) : Prop := c.r1Points.length ≤ c.r1Cones.length
end Spec

theorem checkRange_cases (p : ℤ) (pts : List (V3 K)) :
    ((p < 0 ∨ (pts.length : ℤ) ≤ p) ∧ checkRange p pts = .throws .domainError) ∨
    (∃ i : ℕ, i < pts.length ∧ p = (i : ℤ) ∧ checkRange p pts = .ok ()) := by
  by_cases h : p < 0 ∨ (pts.length : ℤ) ≤ p
  · left; exact ⟨h, by simp [checkRange, h]⟩
  · right
    refine ⟨p.toNat, by omega, by omega, by simp [checkRange, h]⟩

/-- **C23** (unilateral; full property minus user-provided cones and point lists larger than the
body 1 ones, for which `C23_larger_cone_ub` shows undefined behaviour): the checked functions throw `std::domain_error` for every index outside the
points and every wrong lambda size, and otherwise return exactly what the unchecked functions
return, which is a value (never undefined behaviour) when the cone passed has at most as many
generators as the body 1 cone and, for the wrench, there are at most as many points. -/
theorem C23_uni_checked_partial (c : UniContact K) (lambda : Vec K) (point : ℤ) (cone : FrictionCone K)
    (p : List (V3 K)) :
    -- index checks
    ((point < 0 ∨ (c.r1Points.length : ℤ) ≤ point) →
      c.sForceAt lambda point cone = .throws .domainError ∧
      c.sNrLambda point = .throws .domainError) ∧
    ((0 ≤ point ∧ point < c.r1Points.length) →
      c.sNrLambda point = c.nrLambdaAt point ∧
      (lambda.size ≠ c.r1Cone.generators.length →
        c.sForceAt lambda point cone = .throws .domainError) ∧
      (lambda.size = c.r1Cone.generators.length →
        c.sForceAt lambda point cone = c.forceAt lambda point cone ∧
        (cone.generators.length ≤ c.r1Cone.generators.length →
          ∃ F, c.sForceAt lambda point cone = .ok F))) ∧
    -- total size checks
    (lambda.size ≠ c.r1Points.length * c.r1Cone.generators.length →
      c.sForceTotal lambda cone = .throws .domainError ∧
      c.sForceWrench lambda p cone = .throws .domainError) ∧
    (lambda.size = c.r1Points.length * c.r1Cone.generators.length →
      c.sForceTotal lambda cone = c.forceTotal lambda cone ∧
      c.sForceWrench lambda p cone = c.forceWrench lambda p cone ∧
      (cone.generators.length ≤ c.r1Cone.generators.length →
        (∃ F, c.sForceTotal lambda cone = .ok F) ∧
        (p.length ≤ c.r1Points.length → ∃ W, c.sForceWrench lambda p cone = .ok W))) := by
  refine ⟨?_, ?_, ?_, ?_⟩
  · intro h
    have : checkRange point c.r1Points = .throws .domainError := by simp [checkRange, h]
    simp [UniContact.sForceAt, UniContact.sNrLambda, this]
  · rintro ⟨h1, h2⟩
    have : checkRange point c.r1Points = .ok () := by
      simp [checkRange, show ¬ (point < 0 ∨ (c.r1Points.length : ℤ) ≤ point) by omega]
    refine ⟨by simp [UniContact.sNrLambda, this], ?_, ?_⟩
    · intro hl
      simp [UniContact.sForceAt, this, UniContact.nrLambdaAt, hl]
    · intro hl
      have e : c.sForceAt lambda point cone = c.forceAt lambda point cone := by
        simp [UniContact.sForceAt, this, UniContact.nrLambdaAt, hl]
      refine ⟨e, fun hc => ?_⟩
      rw [e]
      exact ⟨_, genLoop_ok _ _ _ _ (by omega)⟩
  · intro h
    simp [UniContact.sForceTotal, UniContact.sForceWrench, uni_nrLambda, h]
  · intro h
    have e1 : c.sForceTotal lambda cone = c.forceTotal lambda cone := by
      simp [UniContact.sForceTotal, uni_nrLambda, h]
    have e2 : c.sForceWrench lambda p cone = c.forceWrench lambda p cone := by
      simp [UniContact.sForceWrench, uni_nrLambda, h]
    refine ⟨e1, e2, fun hc => ⟨?_, fun hp => ?_⟩⟩
    · rw [e1]; exact ⟨_, uni_forceTotal c lambda cone hc (by omega)⟩
    · rw [e2]
      exact ⟨_, uni_forceWrench c lambda p cone hc (by
        rw [h]; exact Nat.mul_le_mul_right _ hp)⟩

/-- **C23** (bilateral). -/
theorem C23_bi_checked_partial (c : BiContact K) (hc : Spec.BiShaped c) (lambda : Vec K) (point : ℤ)
    (cones : List (FrictionCone K)) (p : List (V3 K)) :
    ((point < 0 ∨ (c.r1Points.length : ℤ) ≤ point) →
      c.sForceAt lambda point cones = .throws .domainError ∧
      c.sNrLambda point = .throws .domainError) ∧
    (∀ i : ℕ, point = i → i < c.r1Points.length → ∃ n, c.nrLambdaAt i = .ok n ∧
      c.sNrLambda point = .ok n ∧
      (lambda.size ≠ n → c.sForceAt lambda point cones = .throws .domainError) ∧
      (lambda.size = n →
        c.sForceAt lambda point cones = c.forceAt lambda point cones ∧
        (∀ co, cones[i]? = some co → co.generators.length ≤ n →
          ∃ F, c.sForceAt lambda point cones = .ok F))) ∧
    ∃ n, c.nrLambda = .ok n ∧
    (lambda.size ≠ n →
      c.sForceTotal lambda cones = .throws .domainError ∧
      c.sForceWrench lambda p cones = .throws .domainError) ∧
    (lambda.size = n →
      c.sForceTotal lambda cones = c.forceTotal lambda cones ∧
      c.sForceWrench lambda p cones = c.forceWrench lambda p cones ∧
      (c.r1Points.length ≤ cones.length →
       (∀ i < c.r1Points.length, (cones.getD i ⟨[]⟩).generators.length
          ≤ (c.r1Cones.getD i ⟨[]⟩).generators.length) →
        (∃ F, c.sForceTotal lambda cones = .ok F) ∧
        (p.length ≤ c.r1Points.length → ∃ W, c.sForceWrench lambda p cones = .ok W))) := by
  refine ⟨?_, ?_, ?_⟩
  · intro h
    have : checkRange point c.r1Points = .throws .domainError := by simp [checkRange, h]
    simp [BiContact.sForceAt, BiContact.sNrLambda, this]
  · rintro i rfl hi
    unfold Spec.BiShaped at hc
    have this : checkRange (i : ℤ) c.r1Points = .ok () := by
      simp [checkRange, hi]
    have hn := bi_nrLambdaAt c i (by omega)
    refine ⟨_, hn, by simp [BiContact.sNrLambda, this, hn], ?_, ?_⟩
    · intro hl
      simp only [BiContact.sForceAt, this, hn, Out.ok_bind]
      rw [if_pos hl]
    · intro hl
      have e : c.sForceAt lambda i cones = c.forceAt lambda i cones := by
        simp only [BiContact.sForceAt, this, hn, Out.ok_bind]
        rw [if_neg (not_not.mpr hl)]
      refine ⟨e, fun co hco hle => ?_⟩
      rw [e]
      have hi' : i < cones.length := by
        by_contra hn'; rw [List.getElem?_eq_none (by omega)] at hco; cases hco
      exact ⟨_, bi_forceAt _ _ _ _ hi' (by
        rw [List.getD_eq_getElem?_getD, hco]; simpa [hl] using hle)⟩
  · have hn := bi_nrLambda c hc
    refine ⟨_, hn, ?_, ?_⟩
    · intro h
      simp [BiContact.sForceTotal, BiContact.sForceWrench, hn, h]
    · intro h
      have e1 : c.sForceTotal lambda cones = c.forceTotal lambda cones := by
        simp [BiContact.sForceTotal, hn, h]
      have e2 : c.sForceWrench lambda p cones = c.forceWrench lambda p cones := by
        simp [BiContact.sForceWrench, hn, h]
      unfold Spec.BiShaped at hc
      refine ⟨e1, e2, fun h1 h2 => ⟨?_, fun hp => ?_⟩⟩
      · rw [e1]; exact ⟨_, bi_forceTotal c lambda cones hc h1 h2 (by omega)⟩
      · rw [e2]
        exact ⟨_, bi_forceWrench c lambda p cones (by omega) (by omega)
          (fun i hi => h2 i (by omega)) (by rw [h]; exact lamBefore_mono c hp)⟩

/-- **C23** (violation): lambda is only checked against the body 1 cone, so a user-provided cone with
more generators is read out of range, whatever the contact. -/
theorem C23_larger_cone_ub (c : UniContact K) (lambda : Vec K) (point : ℤ) (cone : FrictionCone K)
    (hp : 0 ≤ point ∧ point < c.r1Points.length)
    (hl : lambda.size = c.r1Cone.generators.length)
    (hc : c.r1Cone.generators.length < cone.generators.length) :
    c.sForceAt lambda point cone = .ub := by
  have h := ((C23_uni_checked_partial c lambda point cone []).2.1 hp).2.2 hl
  rw [h.1]
  exact genLoop_ub _ _ _ _ (by omega) (by rintro h'; rw [h'] at hc; simp at hc)

end

/-- A contact with two points and one generator per point. -/
def exContact : UniContact ℤ :=
  ⟨⟨0, 1, "foot", "ground", -1⟩, [⟨0, 0, 0⟩, ⟨1, 0, 0⟩], [⟨0, 0, 0⟩, ⟨1, 0, 0⟩], ⟨[⟨0, 0, 1⟩]⟩,
    ⟨[⟨0, 0, -1⟩]⟩, PT.one, PT.one⟩

example : exContact.sForceAt (Vec.ofList [3]) 1 exContact.r1Cone = .ok ⟨0, 0, 3⟩ := by decide
example : exContact.sForceAt (Vec.ofList [3]) 2 exContact.r1Cone = .throws .domainError := by decide
example : exContact.sForceAt (Vec.ofList [3]) (-1) exContact.r1Cone = .throws .domainError := by decide
example : exContact.sForceAt (Vec.ofList [3, 4]) 1 exContact.r1Cone = .throws .domainError := by decide
example : exContact.sForceAt (Vec.ofList [3]) 1 ⟨[⟨0, 0, 1⟩, ⟨0, 1, 0⟩]⟩ = .ub := by decide
example : exContact.sForceTotal (Vec.ofList [3, 4]) exContact.r2Cone = .ok ⟨0, 0, -7⟩ := by decide
example : exContact.sForceWrench (Vec.ofList [3, 4]) exContact.r1Points exContact.r1Cone =
    .ok ⟨⟨0, -4, 0⟩, ⟨0, 0, 7⟩⟩ := by decide
example : (BiContact.ofUni exContact).sForceWrench (Vec.ofList [3, 4]) exContact.r1Points
    (BiContact.ofUni exContact).r1Cones = .ok ⟨⟨0, -4, 0⟩, ⟨0, 0, 7⟩⟩ := by decide
example : Spec.BiShaped (BiContact.ofUni exContact) := by simp [Spec.BiShaped, BiContact.ofUni]
/-- A list of more points than the contact has: undefined behaviour in spite of the check. -/
example : exContact.sForceWrench (Vec.ofList [3, 4]) [0, 0, 0] exContact.r1Cone = .ub := by decide

end Verif
