import Verif.Model.SvaRot
import Verif.Props.NoSlip
import Verif.Props.Rotation

/-!
# C86: the frame of body 2 follows body 1 along the free directions of a contact

When a selection matrix leaves directions free, every update moves the contact frame of body 2.  What that move is in
the world, when it follows body 1, and when it does not.  The full claim is that after an update the two frames differ
only along the locked directions; it holds for sliding (`C86_sliding_partial`) and for pivoting (`C86_pivoting_partial`)
and fails when a contact may do both (`C86_spin`).
-/

set_option autoImplicit false
set_option linter.unusedSectionVars false

namespace Verif

open Finset Spec

/-! ## Rotations -/

section

theorem svaRotX_rot (θ : ℝ) : (svaRotX θ).IsRot := by
  have h2 := Real.sin_sq_add_cos_sq θ
  simp only [svaRotX, M3.IsRot, M3.RowsOrtho, V3.dot, V3.cross]
  refine ⟨⟨?_, ?_, ?_, ?_, ?_, ?_⟩, ?_⟩
  · ring
  · nlinarith
  · nlinarith
  · ring
  · ring
  · ring
  · ext <;> dsimp only <;> ring

theorem svaRotY_rot (θ : ℝ) : (svaRotY θ).IsRot := by
  have h2 := Real.sin_sq_add_cos_sq θ
  simp only [svaRotY, M3.IsRot, M3.RowsOrtho, V3.dot, V3.cross]
  refine ⟨⟨?_, ?_, ?_, ?_, ?_, ?_⟩, ?_⟩
  · nlinarith
  · ring
  · nlinarith
  · ring
  · ring
  · ring
  · ext <;> dsimp only <;> ring

theorem svaRotZ_rot (θ : ℝ) : (svaRotZ θ).IsRot := RotEx.rotZ_rot θ

theorem svaRotX_zero : svaRotX 0 = M3.one := by simp [svaRotX, M3.one]
theorem svaRotY_zero : svaRotY 0 = M3.one := by simp [svaRotY, M3.one]
theorem svaRotZ_zero : svaRotZ 0 = M3.one := by simp [svaRotZ, M3.one]

theorem svaRotXYZ_rot (a b c : ℝ) : (svaRotXYZ a b c).IsRot :=
  ((svaRotX_rot a).mul (svaRotY_rot b)).mul (svaRotZ_rot c)

theorem svaRotXYZ_x (a : ℝ) : svaRotXYZ a 0 0 = svaRotX a := by
  unfold svaRotXYZ
  rw [svaRotY_zero, svaRotZ_zero, M3.mul_one', M3.mul_one']

theorem svaRotXYZ_y (b : ℝ) : svaRotXYZ 0 b 0 = svaRotY b := by
  unfold svaRotXYZ
  rw [svaRotX_zero, svaRotZ_zero, M3.one_mul', M3.mul_one']

theorem svaRotXYZ_z (c : ℝ) : svaRotXYZ 0 0 c = svaRotZ c := by
  unfold svaRotXYZ
  rw [svaRotX_zero, svaRotY_zero, M3.one_mul', M3.one_mul']

theorem cos_gt {θ : ℝ} (h : |θ| < Real.pi) : -1 < Real.cos θ := by
  have h1 : Real.cos Real.pi < Real.cos |θ| :=
    Real.cos_lt_cos_of_nonneg_of_le_pi (abs_nonneg θ) le_rfl h
  rwa [Real.cos_abs, Real.cos_pi] at h1

theorem sinc_abs_mul (θ : ℝ) : Real.sinc |θ| * θ = Real.sin θ := by
  rcases eq_or_ne θ 0 with rfl | hθ
  · simp
  · rw [Real.sinc_of_ne_zero (abs_ne_zero.2 hθ)]
    rcases abs_cases θ with ⟨a, -⟩ | ⟨a, -⟩
    · rw [a, div_mul_cancel₀ _ hθ]
    · rw [a, Real.sin_neg, neg_div_neg_eq, div_mul_cancel₀ _ hθ]

theorem cosm_mul (θ z : ℝ) : (1 - Real.cos θ) / θ ^ 2 * (θ * z) * θ = (1 - Real.cos θ) * z := by
  rcases eq_or_ne θ 0 with rfl | hθ
  · simp
  · field_simp

theorem svaRotX_vec {θ : ℝ} (h : |θ| < Real.pi) : RotVec (svaRotX θ) ⟨θ, 0, 0⟩ := by
  have e : V3.dot ⟨θ, 0, 0⟩ ⟨θ, 0, 0⟩ = θ ^ 2 := by simp only [V3.dot]; ring
  refine ⟨by rw [e]; exact sq_lt_sq' (by have := abs_lt.1 h; linarith) (abs_lt.1 h).2, fun v => ?_⟩
  rw [e, Real.sqrt_sq_eq_abs, Real.cos_abs]
  have hs := sinc_abs_mul θ
  have hc := cosm_mul θ v.x
  ext
  · simp [svaRotX, M3.mulVec, V3.dot, V3.cross]
    linear_combination -hc
  · simp [svaRotX, M3.mulVec, V3.dot, V3.cross]
    linear_combination (-v.z) * hs
  · simp [svaRotX, M3.mulVec, V3.dot, V3.cross]
    linear_combination v.y * hs

theorem svaRotY_vec {θ : ℝ} (h : |θ| < Real.pi) : RotVec (svaRotY θ) ⟨0, θ, 0⟩ := by
  have e : V3.dot ⟨0, θ, 0⟩ ⟨0, θ, 0⟩ = θ ^ 2 := by simp only [V3.dot]; ring
  refine ⟨by rw [e]; exact sq_lt_sq' (by have := abs_lt.1 h; linarith) (abs_lt.1 h).2, fun v => ?_⟩
  rw [e, Real.sqrt_sq_eq_abs, Real.cos_abs]
  have hs := sinc_abs_mul θ
  have hc := cosm_mul θ v.y
  ext
  · simp [svaRotY, M3.mulVec, V3.dot, V3.cross]
    linear_combination v.z * hs
  · simp [svaRotY, M3.mulVec, V3.dot, V3.cross]
    linear_combination -hc
  · simp [svaRotY, M3.mulVec, V3.dot, V3.cross]
    linear_combination (-v.x) * hs

theorem svaRotX_trace {θ : ℝ} (h : |θ| < Real.pi) : -1 < (svaRotX θ).trace := by
  have := cos_gt h
  simp only [M3.trace, svaRotX]
  linarith

theorem svaRotY_trace {θ : ℝ} (h : |θ| < Real.pi) : -1 < (svaRotY θ).trace := by
  have := cos_gt h
  simp only [M3.trace, svaRotY]
  linarith

/-- The rotation vector turns with the frame. -/
theorem Spec.RotVec.conj {R C : M3 ℝ} {w : V3 ℝ} (h : RotVec R w) (hC : C.IsRot) :
    RotVec ((C.mul R).mul C.transpose) (C.mulVec w) := by
  have e : (C.mulVec w).dot (C.mulVec w) = w.dot w := hC.1.dot_mulVec w w
  refine ⟨by rw [e]; exact h.1, fun v => ?_⟩
  have e1 : (C.mulVec w).dot v = w.dot (C.transpose.mulVec v) := by
    conv_lhs => rw [← hC.1.mulVec_transpose v]
    exact hC.1.dot_mulVec _ _
  have e2 : (C.mulVec w).cross v = C.mulVec (w.cross (C.transpose.mulVec v)) := by
    conv_lhs => rw [← hC.1.mulVec_transpose v]
    exact hC.cross_mulVec _ _
  rw [e, e1, e2, M3.mul_mulVec, M3.mul_mulVec, h.2, M3.mulVec_add, M3.mulVec_sub, M3.mulVec_smul, M3.mulVec_smul,
    M3.mulVec_smul, hC.1.mulVec_transpose]

theorem trace_conj {R C : M3 ℝ} (hC : C.IsRot) : ((C.mul R).mul C.transpose).trace = R.trace := by
  obtain ⟨h1, h2, h3, h4, h5, h6⟩ := hC.1.transpose
  simp only [M3.transpose, V3.dot] at h1 h2 h3 h4 h5 h6
  simp only [M3.trace, M3.mul, M3.transpose, V3.dot]
  linear_combination R.r0.x * h1 + R.r1.y * h2 + R.r2.z * h3 + (R.r0.y + R.r1.x) * h4 + (R.r0.z + R.r2.x) * h5
    + (R.r1.z + R.r2.y) * h6

end

/-! ## One move -/

namespace Spec

/-- Free directions of a selection matrix: 1 for the columns without unit entry, 0 for the others.  Columns 0 to 2 are
the rotations, 3 to 5 the translations. -/
noncomputable def freeDir (dof : Mat ℝ) (k : ℕ) : ℝ := by
  classical exact if ∃ r < dof.rows, dof.get r k = 1 then 0 else 1

/-- What `sva::transformError` and `sva::RotX`, `RotY`, `RotZ` compute, for a given `sva::rotationVelocity`. -/
structure SvaEnv (env : ContactEnv ℝ) (rotVel : M3 ℝ → V3 ℝ) : Prop where
  err : ∀ A B k, env.transformError A B k = (transformErrorOf rotVel A B).get k
  rot : env.rotXYZ = svaRotXYZ
  vel : RotVelOK rotVel

/-- How the frame of body 2 moves from `F2` to `F2'` in the world, when the frame of body 1 is at `F1`, and the origin
of body 2 at `o`. -/
structure FrameStep (free : ℕ → ℝ) (rotVel : M3 ℝ → V3 ℝ) (o : V3 ℝ) (F1 F2 F2' : PT ℝ) : Prop where
  ori : let w := rotVel (F1.E.mul F2.E.transpose)
    F2'.E = (svaRotXYZ (free 0 * w.x) (free 1 * w.y) (free 2 * w.z)).mul F2.E
  pos : let p := F1.E.mulVec (F1.r - o) - F2.E.mulVec (F2.r - o)
    F2.E.mulVec (F2'.r - F2.r) = ⟨free 3 * p.x, free 4 * p.y, free 5 * p.z⟩

end Spec

section
variable {rotVel : M3 ℝ → V3 ℝ}

theorem transformError_world (hv : RotVelOK rotVel) {P1 P2 cf Xo : PT ℝ} (h1 : P1.Rigid) (h2 : P2.Rigid)
    (hcf : cf.Rigid) (ho : Xo.Rigid) (hh : LessThanHalfTurn (cf.mul P1).E (Xo.mul P2).E) :
    transformErrorOf rotVel (cf.mul (P2.mul P1.inv).inv).inv Xo.inv
      = ⟨rotVel ((cf.mul P1).E.mul (Xo.mul P2).E.transpose),
          (cf.mul P1).E.mulVec ((cf.mul P1).r - P2.r) - (Xo.mul P2).E.mulVec ((Xo.mul P2).r - P2.r)⟩ := by
  have hinv : ∀ {X : PT ℝ}, X.Rigid → X.inv.Rigid := fun h => M3.IsRot.transpose h
  have hcur : (cf.mul (P2.mul P1.inv).inv) = (cf.mul P1).mul P2.inv := by
    rw [PT.inv_mul_rev _ _ (hinv h1).1, PT.inv_inv' h1.1, PT.mul_assoc']
  have hF1 : (cf.mul P1).Rigid := hcf.mul h1
  rw [hcur]
  generalize hF : cf.mul P1 = F1 at *
  have hA : (F1.mul P2.inv).Rigid := hF1.mul (hinv h2)
  have key : ∀ X : PT ℝ, X.inv.r = -X.E.mulVec X.r := fun X => rfl
  have hE : (F1.E.mul P2.E.transpose).IsRot := hA
  have e1 : F1.E.mul (Xo.E.mul P2.E).transpose = (F1.E.mul P2.E.transpose).mul Xo.E.transpose := by
    rw [M3.transpose_mul', M3.mul_assoc']
  refine MV.ext ?_ ?_
  · show (F1.E.mul P2.E.transpose).transpose.transpose.mulVec
      (rotVel (Xo.E.transpose.mul (F1.E.mul P2.E.transpose).transpose.transpose))
        = rotVel (F1.E.mul (Xo.E.mul P2.E).transpose)
    rw [M3.transpose_transpose, e1]
    generalize F1.E.mul P2.E.transpose = C at hE e1
    have e2 : (C.mul (Xo.E.transpose.mul C)).mul C.transpose = C.mul Xo.E.transpose := by
      rw [M3.mul_assoc', M3.mul_assoc', hE.1.mul_transpose', M3.mul_one']
    have ht : -1 < (Xo.E.transpose.mul C).trace := by
      rw [← trace_conj hE, e2, ← e1]; exact hh
    refine ((hv _ ((M3.IsRot.transpose ho).mul hE) ht).conj hE).unique ?_
    rw [e2]
    exact hv _ (hE.mul (M3.IsRot.transpose ho)) (by rw [← e1]; exact hh)
  · rw [transformError_lin _ _ (hinv hA), key, key]
    show -Xo.E.mulVec Xo.r - -(F1.E.mul P2.E.transpose).mulVec
        (-P2.E.mulVec P2.r + P2.E.transpose.transpose.mulVec F1.r)
      = F1.E.mulVec (F1.r - P2.r) - (Xo.E.mul P2.E).mulVec (P2.r + P2.E.transpose.mulVec Xo.r - P2.r)
    rw [M3.transpose_transpose, M3.mul_mulVec, M3.mul_mulVec, M3.mulVec_add, M3.mulVec_neg,
      h2.1.transpose_mulVec, h2.1.transpose_mulVec, add_sub_cancel_left, h2.1.mulVec_transpose]
    rw [M3.mulVec_add, M3.mulVec_neg, M3.mulVec_sub]
    abel

theorem revOf_free {dof : Mat ℝ} {rev : ℕ → ℝ} (h : revOf dof = .ok rev) (k : ℕ) : rev k = freeDir dof k := by
  unfold revOf at h
  split at h
  · cases h
    unfold freeDir
    dsimp only
    by_cases hx : ∃ r < dof.rows, dof.get r k = 1
    · rw [if_pos hx, if_pos]
      obtain ⟨r, h1, h2⟩ := hx
      rw [List.any_eq_true]
      exact ⟨r, List.mem_range.mpr h1, by simpa using h2⟩
    · rw [if_neg hx, if_neg]
      rw [List.any_eq_true]
      rintro ⟨r, h1, h2⟩
      exact hx ⟨r, List.mem_range.mp h1, by simpa using h2⟩
  · cases h

/-- The new frame in the world. -/
theorem adjust_step {env : ContactEnv ℝ} (he : SvaEnv env rotVel) {c : ContactData ℝ} {Xo P1 P2 : PT ℝ}
    {free : ℕ → ℝ} (hfree : ∀ k, c.rev k = free k)
    (e1 : env.pose c.r1 c.b1 = .ok P1) (e2 : env.pose c.r2 c.b2 = .ok P2) (h1 : P1.Rigid) (h2 : P2.Rigid)
    (hcf : c.X_b1_cf.Rigid) (ho : Xo.Rigid) (hh : LessThanHalfTurn (c.X_b1_cf.mul P1).E (Xo.mul P2).E)
    {r : PT ℝ × PT ℝ} (h : c.adjust env Xo = .ok r) :
    FrameStep free rotVel P2.r (c.X_b1_cf.mul P1) (Xo.mul P2) (r.1.mul P2) ∧ r.1.Rigid ∧
      c.X_b1_cf.mul r.2.inv = r.1 := by
  unfold ContactData.adjust at h
  rw [e1, Out.ok_bind, e2, Out.ok_bind] at h
  cases h
  simp only [he.err, he.rot, hfree]
  rw [transformError_world he.vel h1 h2 hcf ho hh]
  generalize hF1 : c.X_b1_cf.mul P1 = F1 at *
  generalize hw : rotVel (F1.E.mul (Xo.mul P2).E.transpose) = w at *
  generalize hp : F1.E.mulVec (F1.r - P2.r) - (Xo.mul P2).E.mulVec ((Xo.mul P2).r - P2.r) = p at *
  have g0 : (⟨w, p⟩ : MV ℝ).get 0 = w.x := rfl
  have g1 : (⟨w, p⟩ : MV ℝ).get 1 = w.y := rfl
  have g2 : (⟨w, p⟩ : MV ℝ).get 2 = w.z := rfl
  have g3 : (⟨w, p⟩ : MV ℝ).get 3 = p.x := rfl
  have g4 : (⟨w, p⟩ : MV ℝ).get 4 = p.y := rfl
  have g5 : (⟨w, p⟩ : MV ℝ).get 5 = p.z := rfl
  rw [g0, g1, g2, g3, g4, g5]
  have hR := svaRotXYZ_rot (free 0 * w.x) (free 1 * w.y) (free 2 * w.z)
  generalize hRd : svaRotXYZ (free 0 * w.x) (free 1 * w.y) (free 2 * w.z) = R at *
  have hX : PT.Rigid ((⟨R, ⟨free 3 * p.x, free 4 * p.y, free 5 * p.z⟩⟩ : PT ℝ).mul Xo) := hR.mul ho
  refine ⟨⟨?_, ?_⟩, hX, ?_⟩
  · dsimp only
    rw [hw, hRd]
    exact M3.mul_assoc' _ _ _
  · dsimp only
    rw [hp]
    generalize (⟨free 3 * p.x, free 4 * p.y, free 5 * p.z⟩ : V3 ℝ) = q
    show (Xo.E.mul P2.E).mulVec (P2.r + P2.E.transpose.mulVec (Xo.r + Xo.E.transpose.mulVec q)
      - (P2.r + P2.E.transpose.mulVec Xo.r)) = q
    rw [M3.mulVec_add, M3.mul_mulVec, add_sub_add_left_eq_sub, add_sub_cancel_left, h2.1.mulVec_transpose,
      ho.1.mulVec_transpose]
  · generalize PT.mul (⟨R, ⟨free 3 * p.x, free 4 * p.y, free 5 * p.z⟩⟩ : PT ℝ) Xo = X at *
    rw [PT.inv_mul_rev _ _ hcf.1, PT.inv_inv' hX.1, ← PT.mul_assoc', PT.mul_inv' hcf.1, PT.one_mul']

/-! ## Runs -/

variable {rks : List (RobotKin ℝ)} {bidx : ℕ → String → Out ℕ} {d : SolverData ℝ}

theorem update_forall {mbs : List (MultiBody ℝ)} {env : ContactEnv ℝ} {kind : ContactKind ℝ} {s s' : ContactC ℝ}
    (h : s.update mbs env kind = .ok s') : List.Forall₂ (fun c c' => c.update env = .ok c') s.cont s'.cont := by
  unfold ContactC.update at h
  obtain ⟨B, k1, h⟩ := Out.bind_eq_ok.mp h
  obtain ⟨r, k2, h⟩ := Out.bind_eq_ok.mp h
  cases h
  have step : ∀ (l : List (ContactData ℝ)) (s r : ContactBuf ℝ × ℕ × List (ContactData ℝ)),
      forEach l (contactStep mbs env kind) s = .ok r → ∃ l', r.2.2 = s.2.2 ++ l' ∧
        List.Forall₂ (fun c c' => c.update env = .ok c') l l' := by
    intro l
    induction l with
    | nil => intro s r h; cases h; exact ⟨[], by simp, .nil⟩
    | cons c t ih =>
      intro s r h
      obtain ⟨s1, h1, h⟩ := Out.bind_eq_ok.mp h
      obtain ⟨c', h2, h1⟩ := Out.bind_eq_ok.mp h1
      obtain ⟨B1, h3, h1⟩ := Out.bind_eq_ok.mp h1
      obtain ⟨B2, h4, h1⟩ := Out.bind_eq_ok.mp h1
      cases h1
      obtain ⟨l', e, f⟩ := ih _ _ h
      exact ⟨c' :: l', by rw [e]; simp, .cons h2 f⟩
  obtain ⟨l', e', f⟩ := step _ _ _ k2
  dsimp only at e' ⊢
  rw [List.nil_append] at e'
  rw [e']
  exact f

/-- The stored free directions are those of the selection matrices read by `updateNrVars`. -/
theorem rev_inv {kind : ContactKind ℝ} {o : Option (SolverData ℝ × ContactReg ℝ × ContactReg ℝ)} {s : ContactC ℝ}
    (h : ContactRun rks bidx kind o s) : ∀ d v g, o = some (d, v, g) →
      ∀ c ∈ s.cont, ∀ k, c.rev k = freeDir (v.dofOf c.id) k := by
  induction h with
  | make => intro d v g e; cases e
  | registry o s g' _ ih => intro d v g e; exact ih d v g e
  | nrVars o s s' old d' uni bi deps junk _ hg hl h ih =>
    intro d v g e c hc k
    cases e
    unfold ContactC.updateNrVars at h
    obtain ⟨n, h1, h⟩ := Out.bind_eq_ok.mp h
    obtain ⟨cont, h2, h⟩ := Out.bind_eq_ok.mp h
    cases h
    obtain ⟨l', e2, f⟩ := build_loop _ _ _ h2
    rw [List.nil_append] at e2
    subst e2
    obtain ⟨e, -, hb⟩ := forall₂_mem_right f hc
    rw [hb.id]
    exact revOf_free hb.rev k
  | dofs o s _ ih =>
    intro d v g e c hc k
    cases o with
    | none => cases e
    | some t =>
      cases e
      obtain ⟨c0, h0, rfl⟩ := List.mem_map.1 (show c ∈ s.cont.map _ from hc)
      exact ih t.1 t.2.1 t.2.2 rfl c0 h0 k
  | update o s s' env _ h0 h ih =>
    intro d v g e c hc k
    obtain ⟨c0, hm, hu⟩ := forall₂_mem_right (update_forall h) hc
    have S := contactData_update_same hu
    rw [S.rev, S.id]
    exact ih d v g e c0 hm k

/-- What an update of a contact does to its frames. -/
theorem update_frame {env : ContactEnv ℝ} {g : ContactReg ℝ} {e : ContactId × PT ℝ × PT ℝ} {c c' : ContactData ℝ}
    (hs : Stored rks bidx d g e c) (h : c.update env = .ok c') :
    (Mobile rks e.1.r2Index → c.adjust env (frame2 c) = .ok (frame2 c', c'.X_b1_b2)) ∧
    (¬ Mobile rks e.1.r2Index → c' = c) := by
  obtain ⟨l1, l2, X2, h1, h2, h3⟩ := hs.sides
  have hl1 : l1 = [] ∨ ∃ sd, l1 = [sd] ∧ sd.sign = 1 ∧ sd.X_b_p = e.2.1 := sideOf_cases h2
  have hl2 : (Mobile rks e.1.r2Index ∧ ∃ sd, l2 = [sd] ∧ sd.sign = -1) ∨ (¬ Mobile rks e.1.r2Index ∧ l2 = []) := by
    obtain ⟨-, rk, m1, ⟨m2, a, path, -, -, -, m3⟩ | ⟨m2, -, m3⟩⟩ := h3
    · exact .inl ⟨⟨rk, m1, m2⟩, _, m3, rfl⟩
    · refine .inr ⟨?_, m3⟩
      rintro ⟨rk', m4, m5⟩
      rw [m1] at m4
      cases m4
      omega
  unfold ContactData.update at h
  rw [h1] at h
  rcases hl2 with ⟨hm, sd2, rfl, hsign⟩ | ⟨hm, rfl⟩
  · refine ⟨fun _ => ?_, fun hn => absurd hm hn⟩
    have hf : frame2 c = sd2.X_b_p := by
      unfold frame2
      rw [h1, List.getLast?_concat]
    rw [hf]
    rcases hl1 with rfl | ⟨sd1, rfl, -, -⟩
    · rw [if_neg (by simp)] at h
      obtain ⟨sd, k1, h⟩ := Out.bind_eq_ok.mp h
      cases k1
      rw [if_neg (by rw [hsign]; norm_num)] at h
      obtain ⟨r, k2, h⟩ := Out.bind_eq_ok.mp h
      cases h
      exact k2
    · rw [if_pos (by simp)] at h
      obtain ⟨sd, k1, h⟩ := Out.bind_eq_ok.mp h
      cases k1
      obtain ⟨r, k2, h⟩ := Out.bind_eq_ok.mp h
      cases h
      exact k2
  · refine ⟨fun hn => absurd hn hm, fun _ => ?_⟩
    rcases hl1 with rfl | ⟨sd1, rfl, hs1, -⟩
    · rw [if_neg (by simp)] at h
      obtain ⟨sd, k1, h⟩ := Out.bind_eq_ok.mp h
      cases k1
    · rw [if_neg (by simp)] at h
      obtain ⟨sd, k1, h⟩ := Out.bind_eq_ok.mp h
      cases k1
      rw [if_pos (by rw [hs1]; norm_num)] at h
      cases h
      rfl

end

/-! ## Statements -/

namespace Spec

/-- Pose of a body in the world. -/
def poseOf (rks : List (RobotKin ℝ)) (bidx : ℕ → String → Out ℕ) (env : ContactEnv ℝ) (r : ℤ) (body : String) : PT ℝ :=
  (bodyPose rks bidx env r body).getD PT.one

/-- Contact frame of body 1 in the world. -/
noncomputable def world1 (rks : List (RobotKin ℝ)) (bidx : ℕ → String → Out ℕ) (env : ContactEnv ℝ) (c : ContactData ℝ) : PT ℝ :=
  sidePose rks bidx env c.id.r1Index c.id.r1BodyName c.X_b1_cf

/-- Contact frame of body 2 in the world. -/
noncomputable def world2 (rks : List (RobotKin ℝ)) (bidx : ℕ → String → Out ℕ) (env : ContactEnv ℝ) (c : ContactData ℝ) : PT ℝ :=
  sidePose rks bidx env c.id.r2Index c.id.r2BodyName (frame2 c)

/-- After any calls, contact `i` of a contact constraint, updated from `c` to `c'`: robot 2 moves, the poses and the
frames are rotations and translations. -/
structure Updating (rks : List (RobotKin ℝ)) (bidx : ℕ → String → Out ℕ) (kind : ContactKind ℝ) (d : SolverData ℝ)
    (v g : ContactReg ℝ) (rotVel : M3 ℝ → V3 ℝ) (env : ContactEnv ℝ) (s s' : ContactC ℝ) (i : ℕ)
    (c c' : ContactData ℝ) : Prop where
  robots : ContactRobotsOK rks bidx
  run : ContactRun rks bidx kind (some (d, v, g)) s
  sva : SvaEnv env rotVel
  upd : s.update (rks.map fun rk => rk.mb) env kind = .ok s'
  before : s.cont[i]? = some c
  after : s'.cont[i]? = some c'
  mobile : Mobile rks c.id.r2Index
  body1 : (poseOf rks bidx env c.id.r1Index c.id.r1BodyName).Rigid
  body2 : (poseOf rks bidx env c.id.r2Index c.id.r2BodyName).Rigid
  frame : c.X_b1_cf.Rigid ∧ (frame2 c).Rigid

end Spec

theorem forall₂_get {α β : Type} {R : α → β → Prop} {l : List α} {m : List β} (h : List.Forall₂ R l m) :
    ∀ {i : ℕ} {a : α} {b : β}, l[i]? = some a → m[i]? = some b → R a b := by
  induction h with
  | nil => intro i a b h; simp at h
  | cons hr _ ih =>
    intro i a b h1 h2
    cases i with
    | zero => cases h1; cases h2; exact hr
    | succ i => exact ih (by simpa using h1) (by simpa using h2)

theorem out_pose {env : ContactEnv ℝ} {r b : ℕ} {P : PT ℝ} (h : env.pose r b = .ok P) :
    ((env.bodyPosW[r]?).bind fun l => l[b]?) = some P := by
  unfold ContactEnv.pose at h
  obtain ⟨l, h1, h2⟩ := Out.bind_eq_ok.mp h
  rw [vecAt_eq_ok.mp h1]
  exact vecAt_eq_ok.mp h2

section
variable {rotVel : M3 ℝ → V3 ℝ} {rks : List (RobotKin ℝ)} {bidx : ℕ → String → Out ℕ} {d : SolverData ℝ}
  {kind : ContactKind ℝ} {v g : ContactReg ℝ} {env : ContactEnv ℝ} {s s' : ContactC ℝ} {i : ℕ} {c c' : ContactData ℝ}

theorem Spec.Updating.entry (U : Updating rks bidx kind d v g rotVel env s s' i c c') :
    ∃ e, Stored rks bidx d g e c := by
  have I := contactInv U.robots U.run d v g rfl
  obtain ⟨e, -, he⟩ := forall₂_mem_right I.stored (List.mem_of_getElem? U.before)
  exact ⟨e, he⟩

/-- **C86**: what an update does to the contact frame of body 2.  In its own coordinates the frame is translated by the
free components of `E1 (r1 - o) - E2 (r2 - o)`, `o` being the origin of body 2, and turned by the free components of
the rotation vector from its orientation to that of body 1's frame.  `ContactPosConstr` compares body 1's frame with
this same frame. -/
theorem C86_step (U : Updating rks bidx kind d v g rotVel env s s' i c c')
    (hh : LessThanHalfTurn (world1 rks bidx env c).E (world2 rks bidx env c).E) :
    c'.id = c.id ∧ c'.X_b1_cf = c.X_b1_cf ∧
    FrameStep (freeDir (v.dofOf c.id)) rotVel (poseOf rks bidx env c.id.r2Index c.id.r2BodyName).r
      (world1 rks bidx env c) (world2 rks bidx env c) (world2 rks bidx env c') ∧
    (frame2 c').Rigid ∧ c'.X_b1_cf.mul c'.X_b1_b2.inv = frame2 c' := by
  obtain ⟨e, S⟩ := U.entry
  have hu := forall₂_get (update_forall U.upd) U.before U.after
  have same := contactData_update_same hu
  have hm := U.mobile
  rw [S.id] at hm
  have ha := (update_frame S hu).1 hm
  obtain ⟨l1, l2, X2, -, q1, q2⟩ := S.sides
  have p1 := sideOf_pose q1 env
  have p2 := sideOf_pose q2 env
  have hr1 : ∃ P1, env.pose c.r1 c.b1 = .ok P1 := by
    unfold ContactData.adjust at ha
    obtain ⟨P, h1, -⟩ := Out.bind_eq_ok.mp ha
    exact ⟨P, h1⟩
  obtain ⟨P1, h1⟩ := hr1
  have hr2 : ∃ P2, env.pose c.r2 c.b2 = .ok P2 := by
    unfold ContactData.adjust at ha
    rw [h1, Out.ok_bind] at ha
    obtain ⟨P, h1, -⟩ := Out.bind_eq_ok.mp ha
    exact ⟨P, h1⟩
  obtain ⟨P2, h2⟩ := hr2
  have o1 := out_pose h1
  have o2 := out_pose h2
  rw [S.r1] at o1
  rw [S.r2] at o2
  rw [o1, ← S.id] at p1
  rw [o2, ← S.id] at p2
  have b1 := U.body1
  have b2 := U.body2
  unfold poseOf at b1 b2 ⊢
  unfold world1 world2 sidePose at hh ⊢
  rw [p1, p2] at hh
  rw [p1] at b1
  rw [p2] at b2
  rw [same.id, p1, p2]
  simp only [Option.getD_some] at hh b1 b2 ⊢
  obtain ⟨k1, k2, k3⟩ := adjust_step U.sva (rev_inv U.run d v g rfl c (List.mem_of_getElem? U.before)) h1 h2 b1 b2
    U.frame.1 U.frame.2 hh ha
  exact ⟨trivial, same.cf, k1, k2, by rw [same.cf]; exact k3⟩

/-- **C86** (the ground): when robot 2 does not move, updates do not touch the contact. -/
theorem C86_fixed (hr : ContactRobotsOK rks bidx) (h : ContactRun rks bidx kind (some (d, v, g)) s)
    (hu : s.update (rks.map fun rk => rk.mb) env kind = .ok s') (hc : s.cont[i]? = some c)
    (hc' : s'.cont[i]? = some c') (hfix : ¬ Mobile rks c.id.r2Index) : c' = c := by
  have I := contactInv hr h d v g rfl
  obtain ⟨e, -, S⟩ := forall₂_mem_right I.stored (List.mem_of_getElem? hc)
  rw [S.id] at hfix
  exact (update_frame S (forall₂_get (update_forall hu) hc hc')).2 hfix

theorem world2_rigid (U : Updating rks bidx kind d v g rotVel env s s' i c c') : (world2 rks bidx env c).Rigid :=
  M3.IsRot.mul U.frame.2 U.body2

theorem world1_rigid (U : Updating rks bidx kind d v g rotVel env s s' i c c') : (world1 rks bidx env c).Rigid :=
  M3.IsRot.mul U.frame.1 U.body1

theorem rotVel_eq (hv : RotVelOK rotVel) {R : M3 ℝ} {w : V3 ℝ} (hR : R.IsRot) (ht : -1 < R.trace) (h : RotVec R w) :
    rotVel R = w := (hv R hR ht).unique h

theorem rotVel_one (hv : RotVelOK rotVel) : rotVel M3.one = 0 :=
  (hv M3.one M3.isRot_one (by norm_num [M3.trace, M3.one])).zero_iff.2 rfl

theorem svaRotXYZ_zero : svaRotXYZ 0 0 0 = M3.one := by rw [svaRotXYZ_x, svaRotX_zero]

theorem freeDir_cases (dof : Mat ℝ) (k : ℕ) : freeDir dof k = 0 ∨ freeDir dof k = 1 := by
  unfold freeDir
  split
  · exact .inl rfl
  · exact .inr rfl

/-- **C86** (sliding): when the two contact frames have the same orientation, an update keeps the orientation of body
2's frame and moves it along the free translations to where body 1's frame is, and only along them: in the
coordinates of the frame, the displacement that remains is zero along the free translations and is unchanged along the
others.  A further update at the same poses does nothing. -/
theorem C86_sliding_partial (U : Updating rks bidx kind d v g rotVel env s s' i c c')
    (hE : (world1 rks bidx env c).E = (world2 rks bidx env c).E) :
    let F1 := world1 rks bidx env c
    let F2 := world2 rks bidx env c
    let F2' := world2 rks bidx env c'
    F2'.E = F2.E ∧
    (∀ k < 3, (F2.E.mulVec (F1.r - F2'.r)).get k
      = (1 - freeDir (v.dofOf c.id) (k + 3)) * (F2.E.mulVec (F1.r - F2.r)).get k) ∧
    ∀ s'' c'', s'.update (rks.map fun rk => rk.mb) env kind = .ok s'' → s''.cont[i]? = some c'' →
      frame2 c'' = frame2 c' := by
  have r2 := world2_rigid U
  have hone : ∀ {A : M3 ℝ}, A.IsRot → A.mul A.transpose = M3.one := fun h => h.1.mul_transpose'
  have hh : LessThanHalfTurn (world1 rks bidx env c).E (world2 rks bidx env c).E := by
    rw [hE]
    unfold LessThanHalfTurn
    rw [hone r2]
    norm_num [M3.trace, M3.one]
  obtain ⟨a1, a2, ⟨a3, a4⟩, a5, a6⟩ := C86_step U hh
  have hU' : ∀ s'' c'', s'.update (rks.map fun rk => rk.mb) env kind = .ok s'' → s''.cont[i]? = some c'' →
      Updating rks bidx kind d v g rotVel env s' s'' i c' c'' := fun s'' c'' e1 e2 =>
    ⟨U.robots, .update _ _ _ env U.run (by rw [U.sva.rot]; exact svaRotXYZ_zero) U.upd, U.sva, e1, U.after, e2,
      by rw [a1]; exact U.mobile, by rw [a1]; exact U.body1, by rw [a1]; exact U.body2, by rw [a2]; exact U.frame.1, a5⟩
  have hw1 : world1 rks bidx env c' = world1 rks bidx env c := by
    unfold world1
    rw [a1, a2]
  dsimp only at a3 a4 ⊢
  rw [hE, hone r2, rotVel_one U.sva.vel] at a3
  simp only [V3.zero_x, V3.zero_y, V3.zero_z, mul_zero, svaRotXYZ_zero, M3.one_mul'] at a3
  generalize hF1 : world1 rks bidx env c = F1 at *
  generalize hF2 : world2 rks bidx env c = F2 at *
  generalize hF2' : world2 rks bidx env c' = F2' at *
  rw [hE, ← M3.mulVec_sub, sub_sub_sub_cancel_right] at a4
  have key : F2.E.mulVec (F1.r - F2'.r) = F2.E.mulVec (F1.r - F2.r) - F2.E.mulVec (F2'.r - F2.r) := by
    rw [← M3.mulVec_sub, sub_sub_sub_cancel_right]
  rw [a4] at key
  have hres : ∀ k < 3, (F2.E.mulVec (F1.r - F2'.r)).get k
      = (1 - freeDir (v.dofOf c.id) (k + 3)) * (F2.E.mulVec (F1.r - F2.r)).get k := by
    intro k hk
    rw [key]
    interval_cases k <;> simp [V3.get] <;> ring
  refine ⟨a3, hres, fun s'' c'' e1 e2 => ?_⟩
  have U' := hU' s'' c'' e1 e2
  have hE' : (world1 rks bidx env c').E = (world2 rks bidx env c').E := by rw [hw1, hF2', a3, hE]
  have r2' := world2_rigid U'
  obtain ⟨b1, b2, ⟨b3, b4⟩, b5, b6⟩ := C86_step U' (by
    rw [hE']
    unfold LessThanHalfTurn
    rw [hone r2']
    norm_num [M3.trace, M3.one])
  dsimp only at b3 b4
  rw [hE', hone r2', rotVel_one U.sva.vel] at b3
  simp only [V3.zero_x, V3.zero_y, V3.zero_z, mul_zero, svaRotXYZ_zero, M3.one_mul'] at b3
  rw [hE', ← M3.mulVec_sub, sub_sub_sub_cancel_right, hw1, hF2', a1, a3] at b4
  have hz : ∀ k < 3, freeDir (v.dofOf c.id) (k + 3) * (F2.E.mulVec (F1.r - F2'.r)).get k = 0 := by
    intro k hk
    rw [hres k hk]
    rcases freeDir_cases (v.dofOf c.id) (k + 3) with h | h <;> rw [h] <;> ring
  have z0 := hz 0 (by norm_num)
  have z1 := hz 1 (by norm_num)
  have z2 := hz 2 (by norm_num)
  simp only [V3.get, zero_add, Nat.reduceAdd] at z0 z1 z2
  rw [z0, z1, z2] at b4
  have b4' := r2.1.transpose_mulVec ((world2 rks bidx env c'').r - F2'.r)
  rw [b4, show (⟨0, 0, 0⟩ : V3 ℝ) = 0 from rfl, M3.mulVec_zero] at b4'
  have hr : (world2 rks bidx env c'').r = (world2 rks bidx env c').r := by
    rw [hF2']
    exact sub_eq_zero.1 b4'.symm
  have hw : world2 rks bidx env c'' = world2 rks bidx env c' := PT.ext b3 hr
  have hcancel : ∀ {X P : PT ℝ}, P.Rigid → (X.mul P).mul P.inv = X := fun h => by
    rw [PT.mul_assoc', PT.mul_inv' h.1, PT.mul_one']
  have e3 := congrArg (fun X => X.mul (poseOf rks bidx env c'.id.r2Index c'.id.r2BodyName).inv) hw
  unfold world2 sidePose at e3
  rw [b1] at e3
  unfold poseOf at e3
  have hb := U'.body2
  unfold poseOf at hb
  rwa [hcancel hb, hcancel hb] at e3

/-- **C86** (pivoting): when body 1's frame is turned by less than half a turn about a free axis of body 2's frame, the
update gives body 2's frame the orientation of body 1's. -/
theorem C86_pivoting_partial (U : Updating rks bidx kind d v g rotVel env s s' i c c') {θ : ℝ} (hθ : |θ| < Real.pi)
    (ax : (freeDir (v.dofOf c.id) 0 = 1 ∧ (world1 rks bidx env c).E = (svaRotX θ).mul (world2 rks bidx env c).E) ∨
      (freeDir (v.dofOf c.id) 1 = 1 ∧ (world1 rks bidx env c).E = (svaRotY θ).mul (world2 rks bidx env c).E) ∨
      (freeDir (v.dofOf c.id) 2 = 1 ∧ (world1 rks bidx env c).E = (svaRotZ θ).mul (world2 rks bidx env c).E)) :
    (world2 rks bidx env c').E = (world1 rks bidx env c).E ∧
    ((∀ k < 3, freeDir (v.dofOf c.id) (k + 3) = 0) → (world2 rks bidx env c').r = (world2 rks bidx env c).r) := by
  have r2 := world2_rigid U
  have hback : ∀ R : M3 ℝ, (R.mul (world2 rks bidx env c).E).mul (world2 rks bidx env c).E.transpose = R := by
    intro R
    rw [M3.mul_assoc', r2.1.mul_transpose', M3.mul_one']
  have hpos : ∀ F2' : PT ℝ, FrameStep (freeDir (v.dofOf c.id)) rotVel
      (poseOf rks bidx env c.id.r2Index c.id.r2BodyName).r (world1 rks bidx env c) (world2 rks bidx env c) F2' →
      (∀ k < 3, freeDir (v.dofOf c.id) (k + 3) = 0) → F2'.r = (world2 rks bidx env c).r := by
    rintro F2' ⟨-, a4⟩ h0
    dsimp only at a4
    rw [h0 0 (by norm_num), h0 1 (by norm_num), h0 2 (by norm_num), zero_mul, zero_mul, zero_mul] at a4
    have := r2.1.transpose_mulVec (F2'.r - (world2 rks bidx env c).r)
    rw [a4] at this
    rw [← sub_eq_zero, ← this]
    exact M3.mulVec_zero _
  rcases ax with ⟨hf, hE⟩ | ⟨hf, hE⟩ | ⟨hf, hE⟩
  · obtain ⟨-, -, F, -, -⟩ := C86_step U (by
      unfold LessThanHalfTurn; rw [hE, hback]; exact svaRotX_trace hθ)
    refine ⟨?_, hpos _ F⟩
    have a3 := F.ori
    dsimp only at a3
    rw [hE, hback, rotVel_eq U.sva.vel (svaRotX_rot θ) (svaRotX_trace hθ) (svaRotX_vec hθ)] at a3
    rw [a3, hf, hE]
    simp only [mul_zero, one_mul, svaRotXYZ_x]
  · obtain ⟨-, -, F, -, -⟩ := C86_step U (by
      unfold LessThanHalfTurn; rw [hE, hback]; exact svaRotY_trace hθ)
    refine ⟨?_, hpos _ F⟩
    have a3 := F.ori
    dsimp only at a3
    rw [hE, hback, rotVel_eq U.sva.vel (svaRotY_rot θ) (svaRotY_trace hθ) (svaRotY_vec hθ)] at a3
    rw [a3, hf, hE]
    simp only [mul_zero, one_mul, svaRotXYZ_y]
  · obtain ⟨-, -, F, -, -⟩ := C86_step U (by
      unfold LessThanHalfTurn; rw [hE, hback]; exact RotEx.rotZ_trace hθ)
    refine ⟨?_, hpos _ F⟩
    have a3 := F.ori
    dsimp only at a3
    rw [hE, hback, rotVel_eq U.sva.vel (svaRotZ_rot θ) (RotEx.rotZ_trace hθ) (RotEx.rotZ_vec hθ)] at a3
    rw [a3, hf, hE]
    simp only [mul_zero, one_mul, svaRotXYZ_z]

/-- **C86** (violation): when the rotation about `z` and the translations along `x` and `y` are free and body 1 turns,
the update does not bring body 2's frame to body 1's: with `(X, Y)` the coordinates along `x` and `y` of body 1's frame
from the origin of body 2, the two frames are `√(2 (1 - cos θ) (X² + Y²))` apart in that plane after the update, even if
they were at the same point before. -/
theorem C86_spin (U : Updating rks bidx kind d v g rotVel env s s' i c c') {θ : ℝ} (hθ : |θ| < Real.pi)
    (hf2 : freeDir (v.dofOf c.id) 2 = 1) (hf3 : freeDir (v.dofOf c.id) 3 = 1) (hf4 : freeDir (v.dofOf c.id) 4 = 1)
    (hE : (world1 rks bidx env c).E = (svaRotZ θ).mul (world2 rks bidx env c).E) :
    let F1 := world1 rks bidx env c
    let F2 := world2 rks bidx env c
    let P := F2.E.mulVec (F1.r - (poseOf rks bidx env c.id.r2Index c.id.r2BodyName).r)
    let D := F2.E.mulVec ((world2 rks bidx env c').r - F1.r)
    (D.x ^ 2 + D.y ^ 2 = 2 * (1 - Real.cos θ) * (P.x ^ 2 + P.y ^ 2)) ∧
    (θ ≠ 0 → P.x ≠ 0 ∨ P.y ≠ 0 → (world2 rks bidx env c').r ≠ F1.r) := by
  have r2 := world2_rigid U
  have hback : ∀ R : M3 ℝ, (R.mul (world2 rks bidx env c).E).mul (world2 rks bidx env c).E.transpose = R := by
    intro R
    rw [M3.mul_assoc', r2.1.mul_transpose', M3.mul_one']
  obtain ⟨-, -, F, -, -⟩ := C86_step U (by
      unfold LessThanHalfTurn; rw [hE, hback]; exact RotEx.rotZ_trace hθ)
  have a4 := F.pos
  dsimp only at a4 ⊢
  rw [hE, hf3, hf4, M3.mul_mulVec, one_mul, one_mul] at a4
  generalize world1 rks bidx env c = F1 at *
  generalize world2 rks bidx env c = F2 at *
  generalize world2 rks bidx env c' = F2' at *
  generalize (poseOf rks bidx env c.id.r2Index c.id.r2BodyName).r = o at *
  have e1 : F2.E.mulVec (F2'.r - F1.r) = F2.E.mulVec (F2'.r - F2.r) + F2.E.mulVec (F2.r - o)
      - F2.E.mulVec (F1.r - o) := by
    rw [← M3.mulVec_add, ← M3.mulVec_sub]
    congr 1
    abel
  generalize F2.E.mulVec (F1.r - o) = P at *
  generalize F2.E.mulVec (F2.r - o) = Q at *
  rw [a4] at e1
  have hD : (F2.E.mulVec (F2'.r - F1.r)).x ^ 2 + (F2.E.mulVec (F2'.r - F1.r)).y ^ 2
      = 2 * (1 - Real.cos θ) * (P.x ^ 2 + P.y ^ 2) := by
    rw [e1]
    simp [svaRotZ, M3.mulVec, V3.dot]
    linear_combination (P.x ^ 2 + P.y ^ 2) * Real.sin_sq_add_cos_sq θ
  refine ⟨hD, fun h0 hP heq => ?_⟩
  rw [heq, sub_self, M3.mulVec_zero] at hD
  have hc : Real.cos θ ≠ 1 := by
    intro h1
    obtain ⟨h2, h3⟩ := abs_lt.1 hθ
    exact h0 ((Real.cos_eq_one_iff_of_lt_of_lt (by linarith) (by linarith)).1 h1)
  have hc' : 0 < 1 - Real.cos θ := by
    have := Real.cos_le_one θ
    exact sub_pos.2 (lt_of_le_of_ne this hc)
  have hP' : 0 < P.x ^ 2 + P.y ^ 2 := by
    rcases hP with h | h
    · have := sq_pos_of_ne_zero h; nlinarith [sq_nonneg P.y]
    · have := sq_pos_of_ne_zero h; nlinarith [sq_nonneg P.x]
  have : 0 < 2 * (1 - Real.cos θ) * (P.x ^ 2 + P.y ^ 2) := by positivity
  simp at hD
  rcases hD with h | h
  · linarith
  · linarith

end

/-! ## Two robots in a planar contact -/

namespace FreeEx
open SlipEx (bidx)
open ConvEx (mb)

/-- Two robots with a joint each. -/
noncomputable def rks : List (RobotKin ℝ) := [⟨mb, fun _ => .ok [0]⟩, ⟨mb, fun _ => .ok [0]⟩]

/-- The rotations about `x` and `y` and the translation along `z` are locked. -/
noncomputable def planar : Mat ℝ :=
  ⟨3, 6, fun i j => if (i = 0 ∧ j = 0) ∨ (i = 1 ∧ j = 1) ∨ (i = 2 ∧ j = 5) then 1 else 0⟩

theorem free_planar {k : ℕ} (h : k = 2 ∨ k = 3 ∨ k = 4) : freeDir planar k = 1 := by
  unfold freeDir
  rw [if_neg]
  rintro ⟨r, -, h1⟩
  unfold planar at h1
  dsimp only at h1
  split at h1
  · omega
  · norm_num at h1

theorem free_locked {k : ℕ} (h : k = 0 ∨ k = 1 ∨ k = 5) : freeDir planar k = 0 := by
  unfold freeDir
  rw [if_pos]
  rcases h with rfl | rfl | rfl
  · exact ⟨0, by norm_num [planar], by simp [planar]⟩
  · exact ⟨1, by norm_num [planar], by simp [planar]⟩
  · exact ⟨2, by norm_num [planar], by simp [planar]⟩

/-- The contact frame is the origin of body 1, at (1, 0, 0) in body 2. -/
noncomputable def c₀ : BiContact ℝ := ⟨⟨0, 1, "a", "b", 0⟩, [], [], [], [], ⟨M3.one, ⟨-1, 0, 0⟩⟩, PT.one⟩

/-- Body 1 at `P`, body 2 at the origin. -/
noncomputable def env (P : PT ℝ) : ContactEnv ℝ :=
  ⟨[[P], [PT.one]], fun _ p _ => ⟨6, pathDof mb p, fun _ _ => 0⟩, fun _ _ _ _ => 0, fun _ _ _ _ => 0,
    fun A B k => (transformErrorOf svaRotVel A B).get k, svaRotXYZ, svaRotVel⟩

noncomputable def reg : ContactReg ℝ := (ContactReg.make.addDof c₀.id planar).2

theorem reg_dof : reg.dofOf c₀.id = planar := by
  unfold ContactReg.dofOf reg ContactReg.addDof ContactReg.make
  dsimp only
  rw [show IdMap.insert c₀.id planar [] = [(c₀.id, planar)] from rfl, IdMap.find_cons, if_pos rfl]
  rfl

theorem robots : ContactRobotsOK rks bidx := by
  have rk_eq : ∀ {rk : RobotKin ℝ}, rk ∈ rks → rk = ⟨mb, fun _ => .ok [0]⟩ := by
    intro rk h; simpa [rks] using h
  refine ⟨?_, ?_, ?_, ?_⟩
  · intro rk hrk name p hp i hi
    rcases rk_eq hrk with rfl; cases hp; simp at hi; subst hi; simp [mb]
  · intro rk hrk name p hp
    rcases rk_eq hrk with rfl; cases hp; simp
  · intro rk hrk name p b hp hb
    rcases rk_eq hrk with rfl; cases hp; cases hb; simp [mb]
  · intro r rk name b hrk hb
    cases hb
    rcases rk_eq (List.mem_of_getElem? hrk) with rfl; simp [mb]

theorem envOK (P : PT ℝ) : ContactEnvOK rks (env P) := by
  refine ⟨?_, ?_⟩
  · intro r rk hrk
    match r, hrk with
    | 0, hrk => cases hrk; exact ⟨_, rfl, rfl⟩
    | 1, hrk => cases hrk; exact ⟨_, rfl, rfl⟩
  · intro r rk path X hrk
    match r, hrk with
    | 0, hrk => cases hrk; exact ⟨rfl, rfl⟩
    | 1, hrk => cases hrk; exact ⟨rfl, rfl⟩

/-- The hypotheses of C86, body 1 being anywhere. -/
theorem updating (P : PT ℝ) (hP : P.Rigid) : ∃ d s s' c c',
    Updating rks bidx (.pos (1 / 100)) d reg reg svaRotVel (env P) s s' 0 c c' ∧ c.id = c₀.id ∧
      poseOf rks bidx (env P) c.id.r2Index c.id.r2BodyName = PT.one ∧
      world1 rks bidx (env P) c = P ∧ world2 rks bidx (env P) c = ⟨M3.one, ⟨1, 0, 0⟩⟩ := by
  have hgood : GoodInput (rks.map fun rk => rk.mb) [c₀] := by
    refine ⟨?_, ?_⟩
    · intro m hm j hj l q hl
      simp only [rks, List.map_cons, List.map_nil, List.mem_cons, List.not_mem_nil, or_false] at hm
      rcases hm with rfl | rfl <;> simp only [mb, List.mem_cons, List.not_mem_nil, or_false] at hj <;>
        subst hj <;> cases hl
    · intro c hc
      simp only [List.mem_cons, List.not_mem_nil, or_false] at hc
      subst hc
      simp [c₀]
  obtain ⟨d, deps, e, L⟩ := layout_ok SolverData.init (rks.map fun rk => rk.mb) [] [c₀] hgood.1 hgood.2
  have hall : d.allCont = [c₀] := by rw [L.allCont]; rfl
  have hd : d.alphaDBegin = [0, 1] := by rw [L.alphaDBegin]; rfl
  have hact : ∀ id, Active d reg id ↔ id = c₀.id := by
    intro id
    unfold Active
    rw [hall]
    simp only [List.mem_cons, List.not_mem_nil, or_false]
    constructor
    · rintro ⟨-, c, rfl, rfl⟩; rfl
    · rintro rfl; exact ⟨rfl, _, rfl, rfl⟩
  have hm2 : Mobile rks c₀.id.r2Index := ⟨_, rfl, by norm_num [mb, MultiBody.nrDof]⟩
  obtain ⟨s₁, e₁⟩ := C42_nrVars_ok rks bidx d (fun _ _ => 5) { ContactC.make with reg := reg } (by simp [rks]) (by
    intro id h t ht
    cases (hact id).1 h
    simp only [c₀, List.mem_cons, List.not_mem_nil, or_false] at ht
    rcases ht with rfl | rfl
    · exact ⟨le_rfl, _, 0, rfl, by rw [hd]; rfl, ⟨_, rfl, by simp⟩, _, rfl⟩
    · exact ⟨by norm_num, _, 1, rfl, by rw [hd]; rfl, ⟨_, rfl, by simp⟩, _, rfl⟩)
    (fun id h => by
      cases (hact id).1 h
      refine .inr ?_
      show 6 ≤ (reg.dofOf c₀.id).cols
      rw [reg_dof]
      exact le_rfl)
  have run : ContactRun rks bidx (.pos (1 / 100)) (some (d, reg, reg)) s₁ :=
    .nrVars _ _ _ _ _ [] [c₀] deps _ (.registry _ _ _ .make) hgood e e₁
  obtain ⟨s', h1, h2, h3, -⟩ := C40_rows rks bidx robots (.pos (1 / 100))
    (show 0 < (1 / 100 : ℝ) by norm_num) d _ _ s₁ run (env P)
    (envOK P) (fun id h => by
      cases (hact id).1 h
      show (reg.dofOf c₀.id).rows ≤ 6 ∧ (reg.dofOf c₀.id).cols = 6
      rw [reg_dof]
      exact ⟨by norm_num [planar], rfl⟩)
    (fun id h => by cases (hact id).1 h; exact .inr hm2)
  have f := update_forall h1
  obtain ⟨c', hc'm, hc'id⟩ := List.mem_map.1 ((h3 c₀.id).2 ((hact _).2 rfl))
  have hcont : s'.cont = [c'] := by
    have hid : ∀ id ∈ s'.cont.map (fun c => c.id), id = c₀.id := fun id h => (hact id).1 ((h3 id).1 h)
    generalize s'.cont = l at h2 hc'm hid
    match l, h2, hc'm, hid with
    | [a], _, hm, _ => rw [List.mem_singleton.1 hm]
    | a :: b :: t, h2, _, hid =>
      have e1 := hid a.id (by simp)
      have e2 := hid b.id (by simp)
      simp [e1, e2] at h2
  rw [hcont] at f
  generalize hl : s₁.cont = l at f
  cases f with
  | cons hu ht =>
  rename_i c t
  cases ht
  have same := contactData_update_same hu
  have hcid : c.id = c₀.id := same.id.symm.trans hc'id
  -- the contact as built
  have hbuilt : c.X_b1_cf = PT.one ∧ frame2 c = ⟨M3.one, ⟨1, 0, 0⟩⟩ := by
    unfold ContactC.updateNrVars at e₁
    obtain ⟨n, -, e₁⟩ := Out.bind_eq_ok.mp e₁
    obtain ⟨cont, g2, e₁⟩ := Out.bind_eq_ok.mp e₁
    cases e₁
    obtain ⟨l', e2, f⟩ := build_loop _ _ _ g2
    rw [List.nil_append] at e2
    subst e2
    have hl' : cont = [c] := hl
    obtain ⟨en, hm, hb⟩ := forall₂_mem_right f (show c ∈ cont by rw [hl']; simp)
    obtain ⟨-, c₁, k1, k2, k3⟩ := common_first hm
    rw [← hb.id, hcid, hall] at k1
    have : c₁ = c₀ := by simpa using k1.symm
    subst this
    refine ⟨hb.cf.trans k2, ?_⟩
    obtain ⟨l1, l2, q1, q2, q3⟩ := hb.sides
    obtain ⟨-, rk, m1, ⟨m2, a, path, -, -, -, m3⟩ | ⟨m2, -, -⟩⟩ := q3
    · unfold frame2
      rw [q1, m3, List.getLast?_concat]
      dsimp only
      rw [k2, k3]
      ext <;> simp [c₀, PT.mul, PT.inv, PT.one, M3.mul, M3.one, M3.transpose, M3.mulVec, V3.dot]
    · obtain ⟨rk', m4, m5⟩ := hm2
      rw [← hb.id, hcid, m4] at m1
      cases m1
      omega
  have p1 : poseOf rks bidx (env P) c.id.r1Index c.id.r1BodyName = P := by rw [hcid]; rfl
  have p2 : poseOf rks bidx (env P) c.id.r2Index c.id.r2BodyName = PT.one := by rw [hcid]; rfl
  refine ⟨d, s₁, s', c, c', ⟨robots, run, ⟨fun _ _ _ => rfl, rfl, C77_formula⟩, h1, by rw [hl]; rfl, by rw [hcont]; rfl,
    by rw [hcid]; exact hm2, by rw [p1]; exact hP, by rw [p2]; exact M3.isRot_one, ?_⟩, hcid, p2, ?_, ?_⟩
  · rw [hbuilt.1, hbuilt.2]
    exact ⟨M3.isRot_one, M3.isRot_one⟩
  · unfold world1 sidePose
    rw [hbuilt.1]
    exact (PT.one_mul' _).trans p1
  · unfold world2 sidePose
    rw [hbuilt.2]
    show PT.mul _ (poseOf rks bidx (env P) c.id.r2Index c.id.r2BodyName) = _
    rw [p2, PT.mul_one']

/-- Sliding: body 1 has gone from (1, 0, 0) to (2, 3, 4); body 2's frame follows to (2, 3, 0). -/
example : ∃ d s s' c c', Updating rks bidx (.pos (1 / 100)) d reg reg svaRotVel (env ⟨M3.one, ⟨2, 3, 4⟩⟩) s s' 0 c c' ∧
    (world1 rks bidx (env ⟨M3.one, ⟨2, 3, 4⟩⟩) c).r = ⟨2, 3, 4⟩ ∧
    (world2 rks bidx (env ⟨M3.one, ⟨2, 3, 4⟩⟩) c).r = ⟨1, 0, 0⟩ ∧
    (world2 rks bidx (env ⟨M3.one, ⟨2, 3, 4⟩⟩) c').r = ⟨2, 3, 0⟩ := by
  obtain ⟨d, s, s', c, c', U, hid, h0, h1, h2⟩ := updating ⟨M3.one, ⟨2, 3, 4⟩⟩ M3.isRot_one
  refine ⟨d, s, s', c, c', U, by rw [h1], by rw [h2], ?_⟩
  obtain ⟨-, hr, -⟩ := C86_sliding_partial U (by rw [h1, h2])
  rw [hid, reg_dof, h1, h2] at hr
  have r0 := hr 0 (by norm_num)
  have r1 := hr 1 (by norm_num)
  have r2 := hr 2 (by norm_num)
  rw [free_planar (by norm_num)] at r0 r1
  rw [free_locked (by norm_num)] at r2
  simp [V3.get, M3.one_mulVec] at r0 r1 r2
  ext
  · dsimp only; linarith
  · dsimp only; linarith
  · dsimp only; linarith

/-- Pivoting: body 1 has turned by a quarter of a turn about `z`; body 2's frame gets its orientation. -/
example : ∃ P d s s' c c', Updating rks bidx (.pos (1 / 100)) d reg reg svaRotVel (env P) s s' 0 c c' ∧
    P.E = svaRotZ (Real.pi / 2) ∧ (world2 rks bidx (env P) c).E = M3.one ∧ (world2 rks bidx (env P) c').E = P.E := by
  have hpi := Real.pi_pos
  have hθ : |Real.pi / 2| < Real.pi := by rw [abs_of_pos (by linarith)]; linarith
  obtain ⟨d, s, s', c, c', U, hid, h0, h1, h2⟩ := updating ⟨svaRotZ (Real.pi / 2), ⟨1, 0, 0⟩⟩ (svaRotZ_rot _)
  refine ⟨_, d, s, s', c, c', U, rfl, by rw [h2], ?_⟩
  have h := (C86_pivoting_partial U hθ (.inr (.inr ⟨by rw [hid, reg_dof]; exact free_planar (.inl rfl), by
    rw [h1, h2]; exact (M3.mul_one' _).symm⟩))).1
  rw [h, h1]

/-- **C86** (violation): body 1 turns on the spot by a quarter of a turn, the two contact frames being at the same
point before and, in the world, body 1's after; the update sends body 2's frame to another point. -/
theorem C86_spin_counterexample : ∃ P d s s' c c',
    Updating rks bidx (.pos (1 / 100)) d reg reg svaRotVel (env P) s s' 0 c c' ∧
    (∀ k, k = 2 ∨ k = 3 ∨ k = 4 → freeDir (reg.dofOf c.id) k = 1) ∧
    (world1 rks bidx (env P) c).r = ⟨1, 0, 0⟩ ∧ (world2 rks bidx (env P) c).r = ⟨1, 0, 0⟩ ∧
    (world2 rks bidx (env P) c').r = ⟨0, -1, 0⟩ := by
  have hpi := Real.pi_pos
  have hθ : |Real.pi / 2| < Real.pi := by rw [abs_of_pos (by linarith)]; linarith
  obtain ⟨d, s, s', c, c', U, hid, h0, h1, h2⟩ := updating ⟨svaRotZ (Real.pi / 2), ⟨1, 0, 0⟩⟩ (svaRotZ_rot _)
  refine ⟨_, d, s, s', c, c', U, fun k hk => by rw [hid, reg_dof]; exact free_planar hk, by rw [h1], by rw [h2], ?_⟩
  obtain ⟨-, -, F, -, -⟩ := C86_step U (by
    rw [h1, h2]
    unfold LessThanHalfTurn
    dsimp only
    rw [M3.transpose_one, M3.mul_one']
    exact RotEx.rotZ_trace hθ)
  have a4 := F.pos
  dsimp only at a4
  rw [h0, h1, h2, hid, reg_dof, free_planar (k := 3) (by norm_num), free_planar (k := 4) (by norm_num),
    free_locked (k := 5) (by norm_num)] at a4
  dsimp only at a4
  rw [M3.one_mulVec, M3.one_mulVec] at a4
  generalize world2 rks bidx _ c' = F2' at a4 ⊢
  have ax := congrArg V3.x a4
  have ay := congrArg V3.y a4
  have az := congrArg V3.z a4
  simp [svaRotZ, M3.mulVec, V3.dot, PT.one] at ax ay az
  ext
  · dsimp only; linarith
  · dsimp only; linarith
  · dsimp only; linarith

end FreeEx

end Verif
