import Verif.Model.Contacts
import Verif.Proofs.Geometry

/-!
# Helper lemmas on contacts
-/

set_option autoImplicit false
set_option linter.unusedSectionVars false

namespace Verif

open Finset

namespace Spec
variable {K : Type} [CommRing K]

/-- `Σ_k lam_k g_k`. -/
def combo (gens : List (V3 K)) (lam : ℕ → K) : V3 K :=
  ∑ k ∈ range gens.length, lam k • gens.getD k 0

end Spec

open Spec

section
variable {K : Type} [CommRing K]

theorem combo_nil (lam : ℕ → K) : combo [] lam = 0 := by simp [combo]

theorem combo_cons (g : V3 K) (gs : List (V3 K)) (lam : ℕ → K) :
    combo (g :: gs) lam = lam 0 • g + combo gs (fun k => lam (k + 1)) := by
  unfold combo
  rw [List.length_cons, Finset.sum_range_succ']
  simp [add_comm]

theorem combo_congr {gens : List (V3 K)} {lam mu : ℕ → K} (h : ∀ k < gens.length, lam k = mu k) :
    combo gens lam = combo gens mu := by
  unfold combo
  refine Finset.sum_congr rfl fun k hk => ?_
  rw [h k (Finset.mem_range.mp hk)]

theorem genLoop_ok (gs : List (V3 K)) (i : ℕ) (l : Vec K) (F : V3 K) (h : i + gs.length ≤ l.size) :
    genLoop gs i l F = .ok (F + combo gs (fun k => l.get (i + k))) := by
  induction gs generalizing i F with
  | nil => simp [genLoop, combo_nil]
  | cons g gs ih =>
    simp only [List.length_cons] at h
    have hi : l.at' i = .ok (l.get i) := by simp [Vec.at', show i < l.size by omega]
    simp only [genLoop, hi, Out.ok_bind]
    rw [ih (i + 1) _ (by omega), combo_cons]
    simp only [Nat.add_zero, add_assoc, Nat.add_comm 1]

theorem genLoop_ub (gs : List (V3 K)) (i : ℕ) (l : Vec K) (F : V3 K) (h : l.size < i + gs.length)
    (h0 : gs ≠ []) : genLoop gs i l F = .ub := by
  induction gs generalizing i F with
  | nil => exact absurd rfl h0
  | cons g gs ih =>
    by_cases hi : i < l.size
    · have h' : l.at' i = .ok (l.get i) := by simp [Vec.at', hi]
      simp only [genLoop, h', Out.ok_bind]
      simp only [List.length_cons] at h
      exact ih (i + 1) _ (by omega) (by rintro rfl; simp at h; omega)
    · simp [genLoop, Vec.at', hi]

/-- A linear map goes through a combination. -/
theorem combo_map (f : V3 K → V3 K) (h0 : f 0 = 0) (ha : ∀ a b, f (a + b) = f a + f b)
    (hs : ∀ (c : K) a, f (c • a) = c • f a) (gens : List (V3 K)) (lam : ℕ → K) :
    combo (gens.map f) lam = f (combo gens lam) := by
  induction gens generalizing lam with
  | nil => simp [combo_nil, h0]
  | cons g gs ih => rw [List.map_cons, combo_cons, combo_cons, ih, ha, hs]

theorem uni_nrLambda (c : UniContact K) :
    c.nrLambda = .ok (c.r1Points.length * c.r1Cone.generators.length) := by
  unfold UniContact.nrLambda
  obtain ⟨s', h, hs⟩ := forRange_inv (n := c.r1Points.length) (s := 0)
    (f := fun i t => do let n ← c.nrLambdaAt i; pure (t + n))
    (fun i t => t = i * c.r1Cone.generators.length) (by simp)
    (by
      rintro i _ s rfl
      exact ⟨_, rfl, by ring⟩)
  rw [h, hs]

/-- Closed form of the total force of a unilateral contact. -/
theorem uni_forceTotal (c : UniContact K) (l : Vec K) (cone : FrictionCone K)
    (hc : cone.generators.length ≤ c.r1Cone.generators.length)
    (hl : c.r1Points.length * c.r1Cone.generators.length ≤ l.size) :
    c.forceTotal l cone = .ok (∑ i ∈ range c.r1Points.length,
      combo cone.generators (fun k => l.get (i * c.r1Cone.generators.length + k))) := by
  unfold UniContact.forceTotal
  obtain ⟨s', h, hs⟩ := forRange_inv (n := c.r1Points.length) (s := ((0, 0) : V3 K × ℕ))
    (f := fun i (s : V3 K × ℕ) => do
      let n ← c.nrLambdaAt i
      let seg ← l.segment s.2 n
      let f ← c.forceAt seg i cone
      pure (s.1 + f, s.2 + n))
    (fun i s => s = (∑ i ∈ range i,
      combo cone.generators (fun k => l.get (i * c.r1Cone.generators.length + k)),
        i * c.r1Cone.generators.length)) (by simp)
    (by
      rintro i hi s rfl
      refine ⟨_, ?_, rfl⟩
      have hb : i * c.r1Cone.generators.length + c.r1Cone.generators.length ≤ l.size := by
        have : (i + 1) * c.r1Cone.generators.length ≤ c.r1Points.length * c.r1Cone.generators.length :=
          Nat.mul_le_mul_right _ (by omega)
        rw [Nat.add_mul, Nat.one_mul] at this
        omega
      simp only [UniContact.nrLambdaAt, Out.ok_bind, Vec.segment, if_pos hb, UniContact.forceAt]
      rw [genLoop_ok _ _ _ _ (by simpa using hc)]
      simp [Finset.sum_range_succ, Nat.add_mul])
  rw [h, hs]
  rfl

/-- The wrench at the body origin of a force `f` applied at point `p`. -/
theorem transMul_point (p f : V3 K) :
    (PT.ofTrans p).transMul ⟨0, f⟩ = ⟨p.cross f, f⟩ := by
  simp [PT.transMul, PT.ofTrans, M3.transpose_one, M3.one_mulVec]

/-- Closed form of the wrench of a unilateral contact. -/
theorem uni_forceWrench (c : UniContact K) (l : Vec K) (p : List (V3 K)) (cone : FrictionCone K)
    (hc : cone.generators.length ≤ c.r1Cone.generators.length)
    (hl : p.length * c.r1Cone.generators.length ≤ l.size) :
    c.forceWrench l p cone = .ok
      ⟨∑ i ∈ range p.length, (p.getD i 0).cross
          (combo cone.generators (fun k => l.get (i * c.r1Cone.generators.length + k))),
       ∑ i ∈ range p.length,
          combo cone.generators (fun k => l.get (i * c.r1Cone.generators.length + k))⟩ := by
  unfold UniContact.forceWrench
  obtain ⟨s', h, hs⟩ := forRange_inv (n := p.length) (s := ((0, 0) : FV K × ℕ))
    (f := fun i (s : FV K × ℕ) => do
      let n ← c.nrLambdaAt i
      let seg ← l.segment s.2 n
      let f ← c.forceAt seg i cone
      let pi ← vecAt p i
      pure (s.1 + (PT.ofTrans pi).transMul ⟨0, f⟩, s.2 + n))
    (fun m s => s = (⟨∑ i ∈ range m, (p.getD i 0).cross
          (combo cone.generators (fun k => l.get (i * c.r1Cone.generators.length + k))),
       ∑ i ∈ range m,
          combo cone.generators (fun k => l.get (i * c.r1Cone.generators.length + k))⟩,
        m * c.r1Cone.generators.length)) (by simp; rfl)
    (by
      rintro i hi s rfl
      refine ⟨_, ?_, rfl⟩
      have hb : i * c.r1Cone.generators.length + c.r1Cone.generators.length ≤ l.size := by
        have : (i + 1) * c.r1Cone.generators.length ≤ p.length * c.r1Cone.generators.length :=
          Nat.mul_le_mul_right _ (by omega)
        rw [Nat.add_mul, Nat.one_mul] at this
        omega
      simp only [UniContact.nrLambdaAt, Out.ok_bind, Vec.segment, if_pos hb, UniContact.forceAt]
      rw [genLoop_ok _ _ _ _ (by simpa using hc)]
      simp only [Out.ok_bind, vecAt_ok hi, transMul_point]
      simp only [zero_add, Out.pure_eq, Out.ok.injEq, Prod.mk.injEq]
      refine ⟨?_, by ring⟩
      ext <;> simp [Finset.sum_range_succ, List.getElem?_eq_getElem hi])
  rw [h, hs]
  rfl

/-- Number of lambdas of the points before point `i`. -/
def lamBefore (c : BiContact K) (i : ℕ) : ℕ :=
  ∑ j ∈ range i, (c.r1Cones.getD j ⟨[]⟩).generators.length

theorem bi_nrLambdaAt (c : BiContact K) (i : ℕ) (h : i < c.r1Cones.length) :
    c.nrLambdaAt i = .ok (c.r1Cones.getD i ⟨[]⟩).generators.length := by
  simp [BiContact.nrLambdaAt, vecAt_ok h, List.getElem?_eq_getElem h]

theorem bi_nrLambda (c : BiContact K) (h : c.r1Points.length ≤ c.r1Cones.length) :
    c.nrLambda = .ok (lamBefore c c.r1Points.length) := by
  unfold BiContact.nrLambda
  obtain ⟨s', e, hs⟩ := forRange_inv (n := c.r1Points.length) (s := 0)
    (f := fun i t => do let n ← c.nrLambdaAt i; pure (t + n))
    (fun i t => t = lamBefore c i) (by simp [lamBefore])
    (by
      rintro i hi s rfl
      refine ⟨_, ?_, rfl⟩
      rw [bi_nrLambdaAt c i (by omega)]
      simp [lamBefore, Finset.sum_range_succ])
  rw [e, hs]

theorem lamBefore_mono (c : BiContact K) {i j : ℕ} (h : i ≤ j) : lamBefore c i ≤ lamBefore c j := by
  unfold lamBefore
  exact Finset.sum_le_sum_of_subset (by simpa using h)

/-- Closed form of the force of a bilateral contact at a point. -/
theorem bi_forceAt (c : BiContact K) (l : Vec K) (i : ℕ) (cones : List (FrictionCone K))
    (hi : i < cones.length) (hl : (cones.getD i ⟨[]⟩).generators.length ≤ l.size) :
    c.forceAt l i cones = .ok (combo (cones.getD i ⟨[]⟩).generators l.get) := by
  have e : cones.getD i ⟨[]⟩ = cones[i] := by simp [List.getElem?_eq_getElem hi]
  rw [e] at hl ⊢
  simp only [BiContact.forceAt, vecAtI_natCast, vecAt_ok hi, Out.ok_bind]
  rw [genLoop_ok _ _ _ _ (by simpa using hl)]
  simp

/-- Closed form of the total force of a bilateral contact. -/
theorem bi_forceTotal (c : BiContact K) (l : Vec K) (cones : List (FrictionCone K))
    (h1 : c.r1Points.length ≤ c.r1Cones.length) (h2 : c.r1Points.length ≤ cones.length)
    (hc : ∀ i < c.r1Points.length, (cones.getD i ⟨[]⟩).generators.length
      ≤ (c.r1Cones.getD i ⟨[]⟩).generators.length)
    (hl : lamBefore c c.r1Points.length ≤ l.size) :
    c.forceTotal l cones = .ok (∑ i ∈ range c.r1Points.length,
      combo (cones.getD i ⟨[]⟩).generators (fun k => l.get (lamBefore c i + k))) := by
  unfold BiContact.forceTotal
  obtain ⟨s', h, hs⟩ := forRange_inv (n := c.r1Points.length) (s := ((0, 0) : V3 K × ℕ))
    (f := fun i (s : V3 K × ℕ) => do
      let n ← c.nrLambdaAt i
      let seg ← l.segment s.2 n
      let f ← c.forceAt seg i cones
      pure (s.1 + f, s.2 + n))
    (fun i s => s = (∑ i ∈ range i,
      combo (cones.getD i ⟨[]⟩).generators (fun k => l.get (lamBefore c i + k)),
        lamBefore c i)) (by simp [lamBefore])
    (by
      rintro i hi s rfl
      refine ⟨_, ?_, rfl⟩
      have hb : lamBefore c i + (c.r1Cones.getD i ⟨[]⟩).generators.length ≤ l.size := by
        have := lamBefore_mono c (show i + 1 ≤ c.r1Points.length by omega)
        have e : lamBefore c (i + 1) = lamBefore c i + (c.r1Cones.getD i ⟨[]⟩).generators.length := by
          simp [lamBefore, Finset.sum_range_succ]
        omega
      rw [bi_nrLambdaAt c i (by omega)]
      simp only [Out.ok_bind, Vec.segment, if_pos hb]
      rw [bi_forceAt _ _ _ _ (by omega) (by simpa using hc i hi)]
      simp only [Out.ok_bind, Out.pure_eq, Out.ok.injEq, Prod.mk.injEq]
      constructor
      · rw [Finset.sum_range_succ]
      · simp [lamBefore, Finset.sum_range_succ])
  rw [h, hs]
  rfl

/-- Closed form of the wrench of a bilateral contact. -/
theorem bi_forceWrench (c : BiContact K) (l : Vec K) (p : List (V3 K))
    (cones : List (FrictionCone K))
    (h1 : p.length ≤ c.r1Cones.length) (h2 : p.length ≤ cones.length)
    (hc : ∀ i < p.length, (cones.getD i ⟨[]⟩).generators.length
      ≤ (c.r1Cones.getD i ⟨[]⟩).generators.length)
    (hl : lamBefore c p.length ≤ l.size) :
    c.forceWrench l p cones = .ok
      ⟨∑ i ∈ range p.length, (p.getD i 0).cross
          (combo (cones.getD i ⟨[]⟩).generators (fun k => l.get (lamBefore c i + k))),
       ∑ i ∈ range p.length,
          combo (cones.getD i ⟨[]⟩).generators (fun k => l.get (lamBefore c i + k))⟩ := by
  unfold BiContact.forceWrench
  obtain ⟨s', h, hs⟩ := forRange_inv (n := p.length) (s := ((0, 0) : FV K × ℕ))
    (f := fun i (s : FV K × ℕ) => do
      let n ← c.nrLambdaAt i
      let seg ← l.segment s.2 n
      let f ← c.forceAt seg i cones
      let pi ← vecAt p i
      pure (s.1 + (PT.ofTrans pi).transMul ⟨0, f⟩, s.2 + n))
    (fun m s => s = (⟨∑ i ∈ range m, (p.getD i 0).cross
          (combo (cones.getD i ⟨[]⟩).generators (fun k => l.get (lamBefore c i + k))),
       ∑ i ∈ range m,
          combo (cones.getD i ⟨[]⟩).generators (fun k => l.get (lamBefore c i + k))⟩,
        lamBefore c m)) (by simp [lamBefore]; rfl)
    (by
      rintro i hi s rfl
      refine ⟨_, ?_, rfl⟩
      have hb : lamBefore c i + (c.r1Cones.getD i ⟨[]⟩).generators.length ≤ l.size := by
        have := lamBefore_mono c (show i + 1 ≤ p.length by omega)
        have e : lamBefore c (i + 1) = lamBefore c i + (c.r1Cones.getD i ⟨[]⟩).generators.length := by
          simp [lamBefore, Finset.sum_range_succ]
        omega
      rw [bi_nrLambdaAt c i (by omega)]
      simp only [Out.ok_bind, Vec.segment, if_pos hb]
      rw [bi_forceAt _ _ _ _ (by omega) (by simpa using hc i hi)]
      simp only [Out.ok_bind, vecAt_ok hi, transMul_point]
      simp only [Out.pure_eq, Out.ok.injEq, Prod.mk.injEq]
      refine ⟨?_, by simp [lamBefore, Finset.sum_range_succ]⟩
      ext <;> simp [Finset.sum_range_succ, List.getElem?_eq_getElem hi])
  rw [h, hs]
  rfl

end

/-! ## Rodrigues' formula and friction cones -/

/-- A rotation matrix commutes with Rodrigues' formula. -/
theorem angleAxisMul_map {E : M3 ℝ} (hE : E.IsRot) (θ : ℝ) (u v : V3 ℝ) :
    angleAxisMul θ (E.mulVec u) (E.mulVec v) = E.mulVec (angleAxisMul θ u v) := by
  simp only [angleAxisMul, hE.cross_mulVec, hE.1.dot_mulVec, M3.mulVec_add, M3.mulVec_smul]

/-- Turning by `-θ` about `-u` is turning by `θ` about `u`. -/
theorem angleAxisMul_neg (θ : ℝ) (u v : V3 ℝ) :
    angleAxisMul (-θ) (-u) v = angleAxisMul θ u v := by
  simp only [angleAxisMul, Real.cos_neg, Real.sin_neg]
  ext <;> simp [V3.dot] <;> ring

theorem angleAxisMul_negVec (θ : ℝ) (u v : V3 ℝ) :
    angleAxisMul θ u (-v) = -angleAxisMul θ u v := by
  simp only [angleAxisMul]
  ext <;> simp [V3.dot] <;> ring

/-- The axis component is kept. -/
theorem angleAxisMul_dot (θ : ℝ) (u v : V3 ℝ) (hu : u.dot u = 1) :
    u.dot (angleAxisMul θ u v) = u.dot v := by
  simp only [angleAxisMul, V3.dot_add, V3.dot_smul, V3.dot_cross_self, hu]
  ring

/-- The norm is kept. -/
theorem angleAxisMul_sqNorm (θ : ℝ) (u v : V3 ℝ) (hu : u.dot u = 1) :
    (angleAxisMul θ u v).sqNorm = v.sqNorm := by
  have h1 := V3.cross_dot_cross u v u v
  rw [hu] at h1
  have h2 := Real.sin_sq_add_cos_sq θ
  have h3 : v.dot (u.cross v) = 0 := V3.dot_cross_self' u v
  have h4 : (u.cross v).dot v = 0 := by rw [V3.dot_comm]; exact h3
  have h5 : u.dot (u.cross v) = 0 := V3.dot_cross_self u v
  have h6 : (u.cross v).dot u = 0 := by rw [V3.dot_comm]; exact h5
  have h7 : v.dot u = u.dot v := V3.dot_comm v u
  simp only [V3.sqNorm, angleAxisMul, V3.dot_add, V3.add_dot, V3.dot_smul, V3.smul_dot, h1, h3, h4, h5,
    h6, h7, hu]
  linear_combination (v.dot v - (u.dot v) ^ 2) * h2

/-- Entry of the generator list. -/
theorem make_getElem? (frame : M3 ℝ) (nrGen : ℕ) (mu dir : ℝ) (i : ℕ) (hi : i < nrGen) :
    (FrictionCone.make frame nrGen mu dir).generators[i]? =
      some (angleAxisMul (dir * ((Real.pi * 2) / nrGen) * i) frame.r2
        (angleAxisMul (Real.arctan mu) (dir • frame.r0) frame.r2)) := by
  simp [FrictionCone.make, hi]

theorem make_mem {frame : M3 ℝ} {nrGen : ℕ} {mu dir : ℝ} {g : V3 ℝ}
    (h : g ∈ (FrictionCone.make frame nrGen mu dir).generators) :
    ∃ i < nrGen, g = angleAxisMul (dir * ((Real.pi * 2) / nrGen) * i) frame.r2
        (angleAxisMul (Real.arctan mu) (dir • frame.r0) frame.r2) := by
  simp only [FrictionCone.make, List.mem_map, List.mem_range] at h
  obtain ⟨i, hi, rfl⟩ := h
  exact ⟨i, hi, rfl⟩

@[simp] theorem make_length (frame : M3 ℝ) (nrGen : ℕ) (mu dir : ℝ) :
    (FrictionCone.make frame nrGen mu dir).generators.length = nrGen := by
  simp [FrictionCone.make]

/-- The first generator, for an orthonormal frame. -/
theorem firstGen {frame : M3 ℝ} (hf : frame.RowsOrtho) (θ dir : ℝ) :
    angleAxisMul θ (dir • frame.r0) frame.r2 =
      Real.cos θ • frame.r2 + (Real.sin θ * dir) • frame.r0.cross frame.r2 := by
  obtain ⟨-, -, -, -, h4, -⟩ := hf
  simp only [angleAxisMul, V3.smul_dot, h4, V3.smul_cross]
  ext <;> simp <;> ring

/-- Components of the first generator. -/
theorem firstGen_dot {frame : M3 ℝ} (hf : frame.RowsOrtho) (θ dir : ℝ) :
    frame.r2.dot (angleAxisMul θ (dir • frame.r0) frame.r2) = Real.cos θ := by
  rw [firstGen hf]
  simp only [V3.dot_add, V3.dot_smul, hf.2.2.1, V3.dot_cross_self']
  ring

theorem firstGen_sqNorm {frame : M3 ℝ} (hf : frame.RowsOrtho) (θ dir : ℝ) (hd : dir ^ 2 = 1) :
    (angleAxisMul θ (dir • frame.r0) frame.r2).sqNorm = 1 := by
  rw [angleAxisMul_sqNorm]
  · exact hf.2.2.1
  · simp only [V3.dot_smul, V3.smul_dot, hf.1]
    linear_combination hd

/-- The frame used for body 2: minus the frame of body 1 expressed in body 2. -/
theorem r2Frame_r2 (R : M3 ℝ) (X : PT ℝ) :
    ((PT.ofRot R).mul X.inv).E.neg.r2 = -X.E.mulVec R.r2 := by
  ext <;> simp [PT.mul, PT.ofRot, PT.inv, M3.neg, M3.mul, M3.transpose, M3.mulVec, V3.dot] <;> ring

theorem r2Frame_r0 (R : M3 ℝ) (X : PT ℝ) :
    ((PT.ofRot R).mul X.inv).E.neg.r0 = -X.E.mulVec R.r0 := by
  ext <;> simp [PT.mul, PT.ofRot, PT.inv, M3.neg, M3.mul, M3.transpose, M3.mulVec, V3.dot] <;> ring

theorem r2Frame_r1 (R : M3 ℝ) (X : PT ℝ) :
    ((PT.ofRot R).mul X.inv).E.neg.r1 = -X.E.mulVec R.r1 := by
  ext <;> simp [PT.mul, PT.ofRot, PT.inv, M3.neg, M3.mul, M3.transpose, M3.mulVec, V3.dot] <;> ring

/-- It has orthonormal rows. -/
theorem r2Frame_ortho {R : M3 ℝ} (hR : R.RowsOrtho) {X : PT ℝ} (hX : X.E.RowsOrtho) :
    ((PT.ofRot R).mul X.inv).E.neg.RowsOrtho := by
  unfold M3.RowsOrtho
  simp only [r2Frame_r0, r2Frame_r1, r2Frame_r2, V3.dot_neg, V3.neg_dot, neg_neg, hX.dot_mulVec]
  exact hR

/-- The body 2 generators are the opposite of the body 1 generators, seen from body 2. -/
theorem r2Cone_generators (R : M3 ℝ) {X : PT ℝ} (hX : X.E.IsRot) (nrGen : ℕ) (mu : ℝ) :
    (FrictionCone.make ((PT.ofRot R).mul X.inv).E.neg nrGen mu (-1)).generators =
      (FrictionCone.make R nrGen mu 1).generators.map (fun g => -X.E.mulVec g) := by
  simp only [FrictionCone.make, List.map_map]
  refine List.map_congr_left fun i _ => ?_
  simp only [Function.comp, r2Frame_r0, r2Frame_r2]
  have e0 : (-1 : ℝ) • -X.E.mulVec R.r0 = X.E.mulVec ((1 : ℝ) • R.r0) := by
    rw [V3.one_smul']; ext <;> simp
  rw [e0, angleAxisMul_negVec, angleAxisMul_negVec, angleAxisMul_map hX]
  rw [show (-1 : ℝ) * (Real.pi * 2 / nrGen) * i = -(1 * (Real.pi * 2 / nrGen) * i) by ring,
    angleAxisMul_neg, angleAxisMul_map hX]

/-- A point of body 1 expressed in body 2. -/
theorem r2Point (p : V3 ℝ) (R : M3 ℝ) (X : PT ℝ) :
    ((PT.mk R p).mul X.inv).r = X.E.mulVec (p - X.r) := by
  simp only [PT.mul, PT.inv, M3.transpose_transpose, M3.mulVec_sub]
  abel

end Verif
