import Verif.Proofs.Barrier
import Verif.Props.Drift
import Verif.Props.Collision

/-!
# Balls carried by bodies: distances, and dampers that hold up to an error
-/

set_option autoImplicit false
set_option linter.unusedSectionVars false

namespace Verif

open Finset Spec

/-! ## Dampers that hold up to an error -/

/-- `nonneg_of_deriv` up to a given time. -/
theorem nonneg_of_deriv_at {f f' : ℝ → ℝ} {T : ℝ} (hT : 0 ≤ T) (h : ∀ t, 0 ≤ t → t ≤ T → HasDerivAt f (f' t) t)
    (h0 : 0 ≤ f 0) (hn : ∀ t, 0 ≤ t → t ≤ T → f t < 0 → 0 ≤ f' t) : 0 ≤ f T := by
  by_contra hlt
  push Not at hlt
  have hc : ContinuousOn f (Set.Icc 0 T) := fun τ hτ => (h τ hτ.1 hτ.2).continuousAt.continuousWithinAt
  have hcl : IsCompact (Set.Icc 0 T ∩ f ⁻¹' Set.Ici 0) :=
    isCompact_Icc.of_isClosed_subset (hc.preimage_isClosed_of_isClosed isClosed_Icc isClosed_Ici)
      Set.inter_subset_left
  obtain ⟨a, ⟨⟨ha0, hat⟩, hfa⟩, hmax⟩ := hcl.exists_isGreatest ⟨0, ⟨le_rfl, hT⟩, h0⟩
  simp only [Set.mem_preimage, Set.mem_Ici] at hfa
  have hle : f a ≤ f T := by
    refine le_of_deriv_nonneg hat (fun τ h1 h2 => h τ (ha0.trans h1) h2) fun τ h1 h2 =>
      hn τ (ha0.trans h1.le) h2.le ?_
    by_contra hτ
    push Not at hτ
    exact absurd (hmax ⟨⟨ha0.trans h1.le, h2.le⟩, hτ⟩) (not_le.mpr h1)
  linarith

/-- `nonneg_of_rate` up to a given time. -/
theorem nonneg_of_rate_at {f f' : ℝ → ℝ} {κ T : ℝ} (hT : 0 ≤ T)
    (h : ∀ t, 0 ≤ t → t ≤ T → HasDerivAt f (f' t) t) (h0 : 0 ≤ f 0)
    (hn : ∀ t, 0 ≤ t → t ≤ T → f t < 0 → -(κ * f t) ≤ f' t) : 0 ≤ f T := by
  have he : ∀ t, HasDerivAt (fun τ => Real.exp (κ * τ)) (κ * Real.exp (κ * t)) t := fun t => by
    have := ((hasDerivAt_id t).const_mul κ).exp
    exact this.congr_deriv (by simp; ring)
  have key := nonneg_of_deriv_at (f := fun τ => f τ * Real.exp (κ * τ))
    (f' := fun τ => (f' τ + κ * f τ) * Real.exp (κ * τ)) hT
    (fun t ht h2 => ((h t ht h2).mul (he t)).congr_deriv (by ring))
    (by simpa using h0) (fun t ht h2 hneg => by
      have hpos := Real.exp_pos (κ * t)
      have : f t < 0 := by
        by_contra hf
        push Not at hf
        exact absurd hneg (not_lt.mpr (mul_nonneg hf hpos.le))
      have := hn t ht h2 this
      exact mul_nonneg (by linarith) hpos.le)
  by_contra hlt
  push Not at hlt
  exact absurd key (not_le.mpr (mul_neg_of_neg_of_pos hlt (Real.exp_pos _)))

/-- `damper_barrier` up to a time `T`, when the rows hold up to `ε`. -/
theorem damper_barrier_at {D V A : ℝ → ℝ} {R c dt r ε T : ℝ} (hdt : 0 < dt) (hr : 0 ≤ r)
    (hroot : r * (1 - r * dt) * R = c) (hR : 0 < R) (hc : 0 < c) (hε : 0 ≤ ε) (hT : 0 ≤ T)
    (hD : ∀ t, 0 ≤ t → t ≤ T → HasDerivAt D (V t) t) (hV : ∀ t, 0 ≤ t → t ≤ T → HasDerivAt V (A t) t)
    (hrow : ∀ t, 0 ≤ t → t ≤ T → D t < R → -(c * (D t / R)) - ε ≤ V t + dt * A t)
    (hout : ∀ t, 0 ≤ t → t ≤ T → R ≤ D t → -(r * R) ≤ V t) (h0 : 0 ≤ D 0) (hv0 : -(r * D 0) ≤ V 0) :
    -(ε * R / c) ≤ D T ∧ -(r * (D T + ε * R / c)) ≤ V T := by
  set τ := ε * R / c with hτ
  have hτ0 : 0 ≤ τ := by positivity
  have hw : ∀ T', 0 ≤ T' → T' ≤ T → 0 ≤ V T' + r * (D T' + τ) := by
    intro T' hT' hTT
    refine nonneg_of_rate_at (f := fun t => V t + r * (D t + τ)) (f' := fun t => A t + r * V t) (κ := 1 / dt - r) hT'
      (fun t ht h2 => (hV t ht (h2.trans hTT)).add (((hD t ht (h2.trans hTT)).add_const τ).const_mul r))
      (by have := mul_nonneg hr hτ0; show 0 ≤ V 0 + r * (D 0 + τ); linarith) ?_
    intro t ht h2 hneg
    have h2 := h2.trans hTT
    have hin : D t < R := by
      by_contra hgt
      push Not at hgt
      have h1 := hout t ht h2 hgt
      have h2 : r * R ≤ r * (D t + τ) := mul_le_mul_of_nonneg_left (by linarith) hr
      linarith
    have h1 := hrow t ht h2 hin
    have e1 : c * (D t / R) + ε = r * (1 - r * dt) * (D t + τ) := by
      have hcR : r * (1 - r * dt) = c / R := by rw [← hroot]; field_simp
      rw [hcR, hτ]
      field_simp
    have h1' : -(r * (1 - r * dt) * (D t + τ)) ≤ V t + dt * A t := by rw [← e1]; linarith
    have h3 : dt * -((1 / dt - r) * (V t + r * (D t + τ))) ≤ dt * (A t + r * V t) := by
      have : dt * -((1 / dt - r) * (V t + r * (D t + τ))) = -((1 - r * dt) * (V t + r * (D t + τ))) := by
        field_simp
      rw [this]
      nlinarith
    exact le_of_mul_le_mul_left h3 hdt
  have hDn := nonneg_of_rate_at (f := fun t => D t + τ) (f' := V) (κ := r) hT
    (fun t ht h2 => (hD t ht h2).add_const τ) (by linarith) (fun t ht h2 _ => by
      have := hw t ht h2
      linarith)
  exact ⟨by linarith, by have := hw T hT le_rfl; linarith⟩

/-- The same for all times, when the rows and derivatives are only known while `D` is larger than some `-η`, which the
tolerance does not reach. -/
theorem damper_barrier_tol {D V A : ℝ → ℝ} {R c dt r ε η : ℝ} (hdt : 0 < dt) (hr : 0 ≤ r)
    (hroot : r * (1 - r * dt) * R = c) (hR : 0 < R) (hc : 0 < c) (hε : 0 ≤ ε) (hη : ε * R / c < η)
    (hcont : ∀ t, 0 ≤ t → ContinuousAt D t)
    (hD : ∀ t, 0 ≤ t → -η < D t → HasDerivAt D (V t) t) (hV : ∀ t, 0 ≤ t → -η < D t → HasDerivAt V (A t) t)
    (hrow : ∀ t, 0 ≤ t → -η < D t → D t < R → -(c * (D t / R)) - ε ≤ V t + dt * A t)
    (hout : ∀ t, 0 ≤ t → R ≤ D t → -(r * R) ≤ V t) (h0 : 0 ≤ D 0) (hv0 : -(r * D 0) ≤ V 0) :
    ∀ t, 0 ≤ t → -(ε * R / c) ≤ D t ∧ -(r * (D t + ε * R / c)) ≤ V t := by
  have hτ0 : 0 ≤ ε * R / c := by positivity
  have hbelow : ∀ t, 0 ≤ t → -η < D t := by
    intro t ht
    by_contra hlt
    push Not at hlt
    have hcO : ContinuousOn D (Set.Icc 0 t) := fun τ hτ => (hcont τ hτ.1).continuousWithinAt
    have hcl : IsCompact (Set.Icc 0 t ∩ D ⁻¹' Set.Iic (-η)) :=
      isCompact_Icc.of_isClosed_subset (hcO.preimage_isClosed_of_isClosed isClosed_Icc isClosed_Iic)
        Set.inter_subset_left
    obtain ⟨a, ⟨⟨ha0, hat⟩, hfa⟩, hmin⟩ := hcl.exists_isLeast ⟨t, ⟨ht, le_rfl⟩, hlt⟩
    simp only [Set.mem_preimage, Set.mem_Iic] at hfa
    have hpos : 0 < a := by
      rcases ha0.lt_or_eq with h | h
      · exact h
      · subst h; linarith
    have hab : ∀ b, 0 ≤ b → b < a → -(ε * R / c) ≤ D b := by
      intro b hb hba
      have hgt : ∀ u, 0 ≤ u → u ≤ b → -η < D u := by
        intro u hu hub
        by_contra hle
        push Not at hle
        exact absurd (hmin ⟨⟨hu, (hub.trans hba.le).trans hat⟩, hle⟩) (not_le.mpr (lt_of_le_of_lt hub hba))
      exact (damper_barrier_at hdt hr hroot hR hc hε hb (fun u hu h => hD u hu (hgt u hu h))
        (fun u hu h => hV u hu (hgt u hu h)) (fun u hu h h' => hrow u hu (hgt u hu h) h')
        (fun u hu _ h' => hout u hu h') h0 hv0).1
    have hlim : -(ε * R / c) ≤ D a := by
      have hct : Filter.Tendsto D (nhdsWithin a (Set.Iio a)) (nhds (D a)) :=
        (hcont a ha0).continuousWithinAt
      refine ge_of_tendsto hct ?_
      have : Set.Ioo 0 a ∈ nhdsWithin a (Set.Iio a) := Ioo_mem_nhdsLT hpos
      exact Filter.mem_of_superset this fun b hb => hab b hb.1.le hb.2
    linarith
  exact fun t ht => damper_barrier_at hdt hr hroot hR hc hε ht (fun u hu _ => hD u hu (hbelow u hu))
    (fun u hu _ => hV u hu (hbelow u hu)) (fun u hu _ h' => hrow u hu (hbelow u hu) h')
    (fun u hu _ h' => hout u hu h') h0 hv0

/-! ## Points of a rigid body -/

/-- Velocity of the point `p` of body `N`, in the axes of the world. -/
def ptVel (st : KState ℝ) (N : ℕ) (p : V3 ℝ) : V3 ℝ :=
  (((PT.ofRot (kPose st N).E.transpose).mul (PT.ofTrans p)).mulM (kVel st N)).lin

/-- Acceleration of the point `p` of body `N` for the joint accelerations `xd`. -/
def ptAcc (mb : MultiBody ℝ) (st : KState ℝ) (path : List ℕ) (N : ℕ) (p : V3 ℝ) (xd : ℕ → ℝ) : V3 ℝ :=
  ((PT.ofTrans ((PT.ofTrans p).mul (kPose st N)).r).mulM (wSum mb st path xd)).lin
    + (((PT.ofRot (kPose st N).E.transpose).mul (PT.ofTrans p)).mulM (kAcc st N)
      + MV.cross ⟨(kPose st N).E.transpose.mulVec (kVel st N).ang, 0⟩
        (((PT.ofRot (kPose st N).E.transpose).mul (PT.ofTrans p)).mulM (kVel st N))).lin

/-- Angular velocity of body `N`, in the axes of the world. -/
def angVel (st : KState ℝ) (N : ℕ) : V3 ℝ := (kPose st N).E.transpose.mulVec (kVel st N).ang

/-- World position of the point `p` of body `N`. -/
def ptPos (st : KState ℝ) (N : ℕ) (p : V3 ℝ) : V3 ℝ := ((PT.ofTrans p).mul (kPose st N)).r

section
variable {mb : MultiBody ℝ} {st : ℝ → KState ℝ} {path : List ℕ} {x : ℝ → ℕ → ℝ} {xd : ℕ → ℝ} {t : ℝ} {N : ℕ}

theorem ptPos_deriv (h : Evolves mb st path x xd t) (hN : path.getLast? = some N) (p : V3 ℝ) :
    HasD3 (fun τ => ptPos (st τ) N p) (ptVel (st t) N p) t := world_point h hN p

theorem ptVel_deriv (h : Evolves mb st path x xd t) (hN : path.getLast? = some N) (p : V3 ℝ) :
    HasD3 (fun τ => ptVel (st τ) N p) (ptAcc mb (st t) path N p xd) t :=
  (world_point_acc h hN p).2.congr_deriv rfl

theorem Spec.HasD3.unique {f : ℝ → V3 ℝ} {u v : V3 ℝ} (h1 : HasD3 f u t) (h2 : HasD3 f v t) : u = v := by
  ext
  · exact h1.1.unique h2.1
  · exact h1.2.1.unique h2.2.1
  · exact h1.2.2.unique h2.2.2

theorem ptPos_sub (s : KState ℝ) (q c : V3 ℝ) :
    ptPos s N q - ptPos s N c = (kPose s N).E.transpose.mulVec (q - c) := by
  unfold ptPos PT.mul PT.ofTrans
  ext <;> simp [M3.mulVec, V3.dot] <;> ring

/-- Velocities of two points of a body. -/
theorem ptVel_sub (s : KState ℝ) (hr : (kPose s N).Rigid) (q c : V3 ℝ) :
    ptVel s N q = ptVel s N c + (angVel s N).cross (ptPos s N q - ptPos s N c) := by
  have hrot : ∀ u v : V3 ℝ, ((kPose s N).E.transpose.mulVec u).cross ((kPose s N).E.transpose.mulVec v)
      = (kPose s N).E.transpose.mulVec (u.cross v) := fun u v => M3.IsRot.cross_mulVec hr.transpose u v
  rw [ptPos_sub, angVel, hrot]
  unfold ptVel PT.mulM PT.mul PT.ofRot PT.ofTrans
  dsimp only
  rw [M3.mul_one', M3.transpose_one, M3.mulVec_zero, add_zero, add_zero, ← M3.mulVec_add]
  congr 1
  ext <;> simp <;> ring

/-- Accelerations of two points of a body. -/
theorem ptAcc_sub (h : Evolves mb st path x xd t) (hN : path.getLast? = some N) :
    ∃ α : V3 ℝ, ∀ q c, ptAcc mb (st t) path N q xd = ptAcc mb (st t) path N c xd
      + (α.cross (ptPos (st t) N q - ptPos (st t) N c)
        + (angVel (st t) N).cross ((angVel (st t) N).cross (ptPos (st t) N q - ptPos (st t) N c))) := by
  obtain ⟨α, hω⟩ : ∃ α, HasD3 (fun τ => angVel (st τ) N) α t := by
    refine ⟨_, (world_point_acc h hN 0).1.congr_fun fun τ => ?_⟩
    unfold angVel PT.mulM PT.mul PT.ofRot PT.ofTrans
    dsimp only
    rw [M3.mul_one']
  refine ⟨α, fun q c => ?_⟩
  have hd := (ptPos_deriv h hN q).sub (ptPos_deriv h hN c)
  have e : ptVel (st t) N q - ptVel (st t) N c
      = (angVel (st t) N).cross (ptPos (st t) N q - ptPos (st t) N c) := by
    rw [ptVel_sub (st t) ((h.moves t).rigid N (List.mem_of_getLast? hN)) q c]
    ext <;> simp
  rw [e] at hd
  have h2 := (ptVel_deriv h hN c).add (hω.cross hd)
  refine Spec.HasD3.unique (ptVel_deriv h hN q) (h2.congr_fun fun τ => ?_)
  exact ptVel_sub (st τ) ((h.moves τ).rigid N (List.mem_of_getLast? hN)) q c

/-- The point of a ball of radius `ρ` (centre `c` in body coordinates) in direction `-n`: its velocity, and its velocity
and acceleration along `n`. -/
theorem ball_point (h : Evolves mb st path x xd t) (hN : path.getLast? = some N) {c q n : V3 ℝ} {ρ : ℝ}
    (hq : ptPos (st t) N q = ptPos (st t) N c - ρ • n) :
    ptVel (st t) N q = ptVel (st t) N c - ρ • (angVel (st t) N).cross n ∧
    n.dot (ptVel (st t) N q) = n.dot (ptVel (st t) N c) ∧
    n.dot (ptAcc mb (st t) path N q xd) = n.dot (ptAcc mb (st t) path N c xd)
      + ρ * ((angVel (st t) N).cross n).dot ((angVel (st t) N).cross n) := by
  have e : ptPos (st t) N q - ptPos (st t) N c = (-ρ) • n := by
    rw [hq]; ext <;> simp
  have hv := ptVel_sub (st t) ((h.moves t).rigid N (List.mem_of_getLast? hN)) q c
  obtain ⟨α, hα⟩ := ptAcc_sub h hN
  have ha := hα q c
  rw [e] at hv ha
  refine ⟨?_, ?_, ?_⟩
  · rw [hv]; ext <;> simp [V3.cross] <;> ring
  · rw [hv]; simp [V3.dot, V3.cross]; ring
  · rw [ha]; simp [V3.dot, V3.cross]; ring

end

/-! ## What RBDyn gives for a point of a body -/

/-- The linear rows of the Jacobian at a point of a body, applied to joint accelerations, with the normal acceleration:
the acceleration of the point. -/
theorem pointAcc_eq {mb : MultiBody ℝ} {st : KState ℝ} {path : List ℕ} {v : ℕ → ℝ} {N : ℕ} (h : Moves mb st path v)
    (hN : path.getLast? = some N) (q : V3 ℝ) {J : Mat ℝ} {A : MV ℝ}
    (hJ : Jac.jacobian mb st ⟨path, q⟩ = .ok J) (hA : Jac.normalAcc st ⟨path, q⟩ = .ok A) {sel : Vec ℝ}
    (hsel : ∀ i < mb.nrDof, selected sel i = 1) (a : ℕ) (x : ℕ → ℝ) :
    A.lin + pointAcc mb path sel J a x = ptAcc mb st path N q (fun i => x (a + i)) := by
  rw [jac_world (J := ⟨path, q⟩) h.sized hN] at hJ
  rw [jac_acc (J := ⟨path, q⟩) h.sized hN] at hA
  have hJ := (Out.ok.inj hJ).symm
  have hA := (Out.ok.inj hA).symm
  subst hJ
  have key := full_gen h.sized.mem h.rigid (PT.ofTrans ((PT.ofTrans q).mul (kPose st N)).r)
    ⟨6, mb.nrDof, fun i c => onDofs mb path (fun k => ((pathCols mb (kCol st
      (PT.ofTrans ((PT.ofTrans q).mul (kPose st N)).r)) path).getD k 0).get i) c⟩ 6 (fun a v => v.get a)
    (fun a => lin_get a) rfl (fun a _ c _ => rfl) (fun i => x (a + i))
  have hrow : ∀ i, i < 6 → ∑ c ∈ range mb.nrDof, onDofs mb path (fun k => ((pathCols mb (kCol st
      (PT.ofTrans ((PT.ofTrans q).mul (kPose st N)).r)) path).getD k 0).get i) c * (selected sel c * x (a + c))
      = ((PT.ofTrans ((PT.ofTrans q).mul (kPose st N)).r).mulM (wSum mb st path fun i => x (a + i))).get i := by
    intro i hi
    rw [← key i hi]
    unfold Mat.rowMul
    refine Finset.sum_congr rfl fun c hc => ?_
    rw [hsel c (by simpa using hc), one_mul]
  unfold pointAcc ptAcc
  dsimp only
  rw [hrow 3 (by omega), hrow 4 (by omega), hrow 5 (by omega), hA, add_comm]
  rfl

end Verif
