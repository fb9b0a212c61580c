import Verif.Proofs.FrameDrift
import Verif.Props.ContactPos
import Verif.Props.Inexact

/-!
# C87: contacts with an inexact numerical solver

C63 assumes accelerations that satisfy the rows of the contact constraint exactly.  Here they satisfy them up to `ε` (C84).
-/

set_option autoImplicit false
set_option linter.unusedSectionVars false

namespace Verif

open Finset Spec

section
variable {rks : List (RobotKin ℝ)} {bidx : ℕ → String → Out ℕ} {d : SolverData ℝ}
  {env : ℝ → ContactEnv ℝ} {st : ℕ → ℝ → KState ℝ} {x : ℕ → ℝ → ℕ → ℝ} {y : ℝ → ℕ → ℝ}

/-- As `ContactLoop`, with rows that hold up to `ε`. -/
structure Spec.NearContactLoop (ε : ℝ) (rks : List (RobotKin ℝ)) (bidx : ℕ → String → Out ℕ) (kind : ContactKind ℝ)
    (d : SolverData ℝ) (v g : ContactReg ℝ) (env : ℝ → ContactEnv ℝ) (y : ℝ → ℕ → ℝ)
    (s' : ℝ → ContactC ℝ) : Prop where
  robots : ContactRobotsOK rks bidx
  step : KindOK kind
  envOK : ∀ t, 0 ≤ t → ContactEnvOK rks (env t) ∧ (env t).rotXYZ 0 0 0 = M3.one
  dof : ∀ id, Active d v id → (g.dofOf id).rows ≤ 6 ∧ (g.dofOf id).cols = 6
  mob : ∀ id, Active d v id → Mobile rks id.r1Index ∨ Mobile rks id.r2Index
  run : ∀ t, 0 ≤ t → ∃ s, ContactRun rks bidx kind (some (d, v, g)) s ∧
    s.update (rks.map fun rk => rk.mb) (env t) kind = .ok (s' t)
  sat : ∀ t, 0 ≤ t → ∀ i < (s' t).eq.nrEq, |lineVal d.nrVars (s' t).eq.A i (y t) - (s' t).eq.b.get i| ≤ ε

/-- The rows hold up to `ε` when the solver has tolerance `ε`. -/
theorem C87_solver {ε δ : ℝ} {backend : String} {mbs : List (MultiBody ℝ)} {n : ℕ} {inp : QPInput ℝ} {z : Vec ℝ}
    (h : SolvedNear ε δ backend mbs n inp z) {s : ContactC ℝ} (hs : s.eq ∈ inp.eq) :
    ∀ i < s.eq.nrEq, |lineVal n s.eq.A i z.get - s.eq.b.get i| ≤ ε := (solvedNear_spec h).1.1 _ hs

/-- **C87** (rows).  What each row computes, for every vector: line minus right hand side is the selected relative
acceleration; or this acceleration plus the velocity over the time step; or the same minus the position error over the
time step. -/
theorem C87_rows {K : Type} [Field K] [LinearOrder K] [IsStrictOrderedRing K] (rks : List (RobotKin K))
    (bidx : ℕ → String → Out ℕ) (hr : ContactRobotsOK rks bidx)
    (kind : ContactKind K) (hk : KindOK kind) (d : SolverData K) (v g : ContactReg K) (s : ContactC K)
    (h : ContactRun rks bidx kind (some (d, v, g)) s) (env : ContactEnv K) (he : ContactEnvOK rks env)
    (hdof : ∀ id, Active d v id → (g.dofOf id).rows ≤ 6 ∧ (g.dofOf id).cols = 6)
    (hmob : ∀ id, Active d v id → Mobile rks id.r1Index ∨ Mobile rks id.r2Index) :
    ∃ s', s.update (rks.map fun rk => rk.mb) env kind = .ok s' ∧
      (∀ i < s'.eq.nrEq, ∃ l₁ c l₂ q, s'.cont = l₁ ++ c :: l₂ ∧ q < c.dof.rows ∧
        i = (l₁.map fun c => c.dof.rows).sum + q) ∧
      ∀ l₁ c l₂, s'.cont = l₁ ++ c :: l₂ → ∀ q < c.dof.rows,
        let i := (l₁.map fun c => c.dof.rows).sum + q
        i < s'.eq.nrEq ∧ ∀ x, lineVal d.nrVars s'.eq.A i x - s'.eq.b.get i
          = rowGap rks bidx d env kind x c.id c.X_b1_cf (frame2 c) c.X_b1_b2 c.dof q := by
  obtain ⟨s', e, -, n, -, -, -, hrow⟩ := contact_update hr hk (contactInv hr h d v g rfl) he hdof hmob
  refine ⟨s', e, fun i hi => ?_, fun l₁ c l₂ hl q hq => ⟨?_, fun x => (hrow l₁ c l₂ hl q hq x).2⟩⟩
  · change i < s'.nrEq at hi
    rw [n] at hi
    obtain ⟨l₁, c, l₂, q, hl, hq, rfl⟩ := contRows_split _ _ hi
    exact ⟨l₁, c, l₂, q, hl, hq, rfl⟩
  · change _ < s'.nrEq
    rw [n, hl, contRows_append, contRows_cons]
    exact Nat.add_lt_add_left (by omega) _

theorem near_gap {ε : ℝ} {kind : ContactKind ℝ} {v g : ContactReg ℝ} {s' : ℝ → ContactC ℝ}
    (L : NearContactLoop ε rks bidx kind d v g env y s') {t : ℝ} (ht : 0 ≤ t)
    {c : ContactData ℝ} (hc : c ∈ (s' t).cont) {q : ℕ} (hq : q < c.dof.rows) :
    |rowGap rks bidx d (env t) kind (y t) c.id c.X_b1_cf (frame2 c) c.X_b1_b2 c.dof q| ≤ ε := by
  obtain ⟨s, hs, hu⟩ := L.run t ht
  obtain ⟨s1, e, -, hrow⟩ := C87_rows rks bidx L.robots kind L.step d v g s hs (env t)
    (L.envOK t ht).1 L.dof L.mob
  have es : s1 = s' t := Out.ok.inj (e.symm.trans hu)
  subst es
  obtain ⟨l₁, l₂, hl⟩ := List.append_of_mem hc
  obtain ⟨h1, h2⟩ := hrow l₁ c l₂ hl q hq
  rw [← h2]
  exact L.sat t ht _ h1

/-- The derivative of the selected relative velocity misses the promised one by the gap of the row. -/
theorem slipVel_deriv_gap (h : EnvMoves rks d env st x y) {kind : ContactKind ℝ} (hk : KindOK kind)
    {id : ContactId} {X1 X2 : PT ℝ} (bb : PT ℝ) (h1 : X1.Rigid) (h2 : X2.Rigid) (dof : Mat ℝ) (q : ℕ) {t : ℝ}
    (ht : 0 ≤ t) :
    HasDerivAt (fun τ => slipVel rks (env τ) id X1 X2 dof q)
      (slipRate kind (slipVel rks (env t) id X1 X2 dof q)
        (∑ k ∈ range 6, dof.get q k * poseErr rks bidx (env t) id X1 bb k)
        + rowGap rks bidx d (env t) kind (y t) id X1 X2 bb dof q) t := by
  have hd : HasDerivAt (fun τ => slipVel rks (env τ) id X1 X2 dof q)
      (∑ k ∈ range 6, dof.get q k * (frameAcc rks bidx d (env t) (y t) id.r1Index id.r1BodyName X1 k
        - frameAcc rks bidx d (env t) (y t) id.r2Index id.r2BodyName X2 k)) t := by
    unfold slipVel
    refine HasDerivAt.fun_sum fun k hk => HasDerivAt.const_mul _ ?_
    have hk' := Finset.mem_range.1 hk
    exact ((side_moves h _ _ h1 ht).2.2 k hk').sub ((side_moves h _ _ h2 ht).2.2 k hk')
  refine hd.congr_deriv ?_
  have split : ∀ dt : ℝ, ∑ k ∈ range 6, dof.get q k * (frameVel rks (env t) id.r1Index id.r1BodyName X1 k
        - frameVel rks (env t) id.r2Index id.r2BodyName X2 k
        + dt * (frameAcc rks bidx d (env t) (y t) id.r1Index id.r1BodyName X1 k
          - frameAcc rks bidx d (env t) (y t) id.r2Index id.r2BodyName X2 k))
      = slipVel rks (env t) id X1 X2 dof q + dt * ∑ k ∈ range 6, dof.get q k *
        (frameAcc rks bidx d (env t) (y t) id.r1Index id.r1BodyName X1 k
          - frameAcc rks bidx d (env t) (y t) id.r2Index id.r2BodyName X2 k) := by
    intro dt
    unfold slipVel
    rw [Finset.mul_sum, ← Finset.sum_add_distrib]
    exact Finset.sum_congr rfl fun k _ => by ring
  unfold rowGap
  cases kind with
  | acc => simp [slipRate]
  | speed dt =>
    have hdt : (0 : ℝ) < dt := hk
    dsimp only [slipRate]
    rw [split]
    field_simp
    ring
  | pos dt =>
    have hdt : (0 : ℝ) < dt := hk
    dsimp only [slipRate]
    rw [split]
    field_simp
    ring

/-- **C87** (instant).  At every instant from 0 on and for every contact and every row of its selection matrix, the
selected relative velocity has a derivative within `ε` of the one the constraint promises. -/
theorem C87_instant {ε : ℝ} {kind : ContactKind ℝ} {v g : ContactReg ℝ} {s' : ℝ → ContactC ℝ}
    (h : EnvMoves rks d env st x y) (L : NearContactLoop ε rks bidx kind d v g env y s') {t : ℝ} (ht : 0 ≤ t)
    {c : ContactData ℝ} (hc : c ∈ (s' t).cont) (h1 : c.X_b1_cf.Rigid) (h2 : (frame2 c).Rigid)
    {q : ℕ} (hq : q < c.dof.rows) :
    ∃ r, HasDerivAt (fun τ => slipVel rks (env τ) c.id c.X_b1_cf (frame2 c) c.dof q) r t ∧
      |r - slipRate kind (slipVel rks (env t) c.id c.X_b1_cf (frame2 c) c.dof q)
        (∑ k ∈ range 6, c.dof.get q k * poseErr rks bidx (env t) c.id c.X_b1_cf c.X_b1_b2 k)| ≤ ε := by
  refine ⟨_, slipVel_deriv_gap (bidx := bidx) h L.step c.X_b1_b2 h1 h2 c.dof q ht, ?_⟩
  rw [add_sub_cancel_left]
  exact near_gap L ht hc hq

/-- As `locked_rows`. -/
theorem locked_gap {ε : ℝ} {kind : ContactKind ℝ} {v g : ContactReg ℝ} {s' : ℝ → ContactC ℝ}
    (L : NearContactLoop ε rks bidx kind d v g env y s') {id : ContactId}
    (hid : Active d v id) (hv : v.hasDof id = false) (hg : g.hasDof id = false) {c₀ : BiContact ℝ}
    (h₀ : (d.allCont.find? fun c' => decide (c'.id = id)) = some c₀)
    (hcf : c₀.X_b1_cf.Rigid) (hbb : c₀.X_b1_b2.Rigid) {t : ℝ} (ht : 0 ≤ t) {q : ℕ} (hq : q < 6) :
    |rowGap rks bidx d (env t) kind (y t) id c₀.X_b1_cf (c₀.X_b1_cf.mul c₀.X_b1_b2.inv) c₀.X_b1_b2
      identity6 q| ≤ ε := by
  obtain ⟨s, hs, hu⟩ := L.run t ht
  obtain ⟨s1, e, -, hm, hdof, -⟩ := C40_rows rks bidx L.robots kind L.step d v g s hs
    (env t) (L.envOK t ht).1 L.dof L.mob
  have es : s1 = s' t := Out.ok.inj (e.symm.trans hu)
  subst es
  obtain ⟨c, hc, rfl⟩ := List.mem_map.1 ((hm id).2 hid)
  have hrun := ContactRun.update _ _ _ (env t) hs (L.envOK t ht).2 hu
  obtain ⟨k1, k2, k3⟩ := C40_frames_locked rks bidx L.robots kind d v g _ hrun c hc
    (C40_default_locks v c.id hv) c₀ h₀ hcf.1 hbb.1
  have kd : c.dof = identity6 := by
    rw [(hdof c hc).1]
    have : IdMap.find c.id g.dofs = none := by simpa [ContactReg.hasDof] using hg
    unfold ContactReg.dofOf
    rw [this]
    rfl
  have hr := near_gap L ht hc (q := q) (by rw [kd]; exact hq)
  rw [k1, k2, kd] at hr
  by_cases hmob : Mobile rks c.id.r2Index
  · rw [k3 hmob] at hr
    exact hr
  · have e1 : ∀ X Y k, frameAcc rks bidx d (env t) (y t) c.id.r2Index c.id.r2BodyName X k
        = frameAcc rks bidx d (env t) (y t) c.id.r2Index c.id.r2BodyName Y k := by
      intro X Y k
      unfold frameAcc
      cases hrk : rks[c.id.r2Index.toNat]? with
      | none => rfl
      | some rk =>
        have : rk.mb.nrDof = 0 := by
          by_contra hne
          exact hmob ⟨rk, hrk, Nat.pos_of_ne_zero hne⟩
        simp [this]
    have e2 : ∀ X Y k, frameVel rks (env t) c.id.r2Index c.id.r2BodyName X k
        = frameVel rks (env t) c.id.r2Index c.id.r2BodyName Y k := by
      intro X Y k
      unfold frameVel
      cases hrk : rks[c.id.r2Index.toNat]? with
      | none => rfl
      | some rk =>
        have : rk.mb.nrDof = 0 := by
          by_contra hne
          exact hmob ⟨rk, hrk, Nat.pos_of_ne_zero hne⟩
        simp [this]
    unfold rowGap at hr ⊢
    simp only [e1 (frame2 c) (c₀.X_b1_cf.mul c₀.X_b1_b2.inv),
      e2 (frame2 c) (c₀.X_b1_cf.mul c₀.X_b1_b2.inv)] at hr
    exact hr

/-- **C87** (velocity).  Relative velocity of the frames of a fully constrained contact: with `ContactAccConstr` it moves
away from its initial value by at most `ε t`; with `ContactSpeedConstr` it stays within `ε dt` of the exponential decay
of C63. -/
theorem C87_velocity {ε : ℝ} {kind : ContactKind ℝ} {v g : ContactReg ℝ} {s' : ℝ → ContactC ℝ}
    (h : EnvMoves rks d env st x y) (L : NearContactLoop ε rks bidx kind d v g env y s') {id : ContactId}
    (hid : Active d v id) (hv : v.hasDof id = false) (hg : g.hasDof id = false) {c₀ : BiContact ℝ}
    (h₀ : (d.allCont.find? fun c' => decide (c'.id = id)) = some c₀)
    (hcf : c₀.X_b1_cf.Rigid) (hbb : c₀.X_b1_b2.Rigid) {t : ℝ} (ht : 0 ≤ t) {k : ℕ} (hk : k < 6) :
    let rel := fun τ => frameVel rks (env τ) id.r1Index id.r1BodyName c₀.X_b1_cf k
      - frameVel rks (env τ) id.r2Index id.r2BodyName (c₀.X_b1_cf.mul c₀.X_b1_b2.inv) k
    match kind with
    | .acc => |rel t - rel 0| ≤ ε * t
    | .speed dt => |rel t - rel 0 * Real.exp (-(t / dt))| ≤ ε * dt * (1 - Real.exp (-(t / dt)))
    | .pos _ => True := by
  intro rel
  have hd := fun t (ht : 0 ≤ t) => slipVel_deriv_gap (bidx := bidx) (id := id) h L.step c₀.X_b1_b2 hcf
    (hcf.mul hbb.inv) identity6 k ht
  have hgap := fun t (ht : 0 ≤ t) => locked_gap L hid hv hg h₀ hcf hbb ht hk
  simp only [slipVel_identity _ _ _ _ hk] at hd
  cases kind with
  | acc =>
    have := abs_sub_le_of_deriv ht (fun t a _ => hd t a) (B := fun τ => ε * τ) (B' := fun _ => ε)
      (fun τ _ _ => by simpa using (hasDerivAt_id τ).const_mul ε) fun t a _ => by
        dsimp only [slipRate]
        rw [zero_add]
        exact hgap t a
    rw [mul_zero, sub_zero] at this
    exact this
  | speed dt =>
    have hdt : (0 : ℝ) < dt := L.step
    dsimp only [slipRate] at hd ⊢
    have hE : ∀ t, HasDerivAt (fun τ => Real.exp (τ / dt)) (Real.exp (t / dt) * (1 / dt)) t := fun t =>
      ((hasDerivAt_id t).div_const dt).exp
    have c := abs_sub_le_of_deriv ht (f := fun τ => rel τ * Real.exp (τ / dt))
      (fun t a _ => (hd t a).mul (hE t)) (B := fun τ => ε * dt * Real.exp (τ / dt))
      (B' := fun τ => ε * Real.exp (τ / dt))
      (fun τ _ _ => ((hE τ).const_mul (ε * dt)).congr_deriv (by field_simp)) fun τ a _ => by
        have hg := hgap τ a
        have he := Real.exp_pos (τ / dt)
        generalize rowGap rks bidx d (env τ) (.speed dt) (y τ) id c₀.X_b1_cf (c₀.X_b1_cf.mul c₀.X_b1_b2.inv)
          c₀.X_b1_b2 identity6 k = G at hg ⊢
        have e : ∀ r : ℝ, (-(r / dt) + G) * Real.exp (τ / dt) + r * (Real.exp (τ / dt) * (1 / dt))
            = G * Real.exp (τ / dt) := by intro r; field_simp; ring
        rw [e, abs_mul, abs_of_pos he]
        exact mul_le_mul_of_nonneg_right hg he.le
    simp only [zero_div, Real.exp_zero, mul_one] at c
    have hpos := Real.exp_pos (-(t / dt))
    have e1 : rel t = rel t * Real.exp (t / dt) * Real.exp (-(t / dt)) := by
      rw [mul_assoc, ← Real.exp_add, add_neg_cancel, Real.exp_zero, mul_one]
    have e2 : ε * dt * (1 - Real.exp (-(t / dt)))
        = (ε * dt * Real.exp (t / dt) - ε * dt) * Real.exp (-(t / dt)) := by
      rw [sub_mul, mul_assoc (ε * dt), ← Real.exp_add, add_neg_cancel, Real.exp_zero]
      ring
    rw [e2, e1, ← sub_mul, abs_mul, abs_of_pos hpos]
    exact mul_le_mul_of_nonneg_right c hpos.le
  | pos dt => trivial

/-- Bound on each component of the relative velocity after time `T` from rest. -/
noncomputable def Spec.slipBound (kind : ContactKind ℝ) (ε T : ℝ) : ℝ :=
  match kind with
  | .acc => ε * T
  | .speed dt => ε * dt
  | .pos _ => 0

/-- **C87** (drift).  With `ContactAccConstr` or `ContactSpeedConstr`, a fully constrained contact whose two frames
coincide and have no relative velocity at the start: at time `T`, with `η = √3 ε T` for the first and `η = √3 ε dt` for
the second, the coordinates of a fixed vector in the two frames differ by at most `η T` times its length, and if the
origin of the second frame did not move faster than `V` the two origins are at most `η T + V η T² / 2` apart. -/
theorem C87_drift {ε : ℝ} {kind : ContactKind ℝ} (hkind : ∀ dt, kind ≠ .pos dt) {v g : ContactReg ℝ}
    {s' : ℝ → ContactC ℝ} (hε : 0 ≤ ε)
    (h : EnvMoves rks d env st x y) (L : NearContactLoop ε rks bidx kind d v g env y s') {id : ContactId}
    (hid : Active d v id) (hv : v.hasDof id = false) (hg : g.hasDof id = false) {c₀ : BiContact ℝ}
    (h₀ : (d.allCont.find? fun c' => decide (c'.id = id)) = some c₀)
    (hcf : c₀.X_b1_cf.Rigid) (hbb : c₀.X_b1_b2.Rigid)
    (h0 : ∀ k < 6, frameVel rks (env 0) id.r1Index id.r1BodyName c₀.X_b1_cf k
      = frameVel rks (env 0) id.r2Index id.r2BodyName (c₀.X_b1_cf.mul c₀.X_b1_b2.inv) k)
    (hp : sidePose rks bidx (env 0) id.r1Index id.r1BodyName c₀.X_b1_cf
      = sidePose rks bidx (env 0) id.r2Index id.r2BodyName (c₀.X_b1_cf.mul c₀.X_b1_b2.inv)) {T : ℝ} (hT : 0 ≤ T) :
    let X1 := sidePose rks bidx (env T) id.r1Index id.r1BodyName c₀.X_b1_cf
    let X2 := sidePose rks bidx (env T) id.r2Index id.r2BodyName (c₀.X_b1_cf.mul c₀.X_b1_b2.inv)
    let η := Real.sqrt 3 * slipBound kind ε T
    (∀ w, (X1.E.mulVec w - X2.E.mulVec w).len ≤ η * T * w.len) ∧
    ∀ V, 0 ≤ V → (∀ t, 0 ≤ t → t ≤ T → (mvOf (frameVel rks (env t) id.r2Index id.r2BodyName
      (c₀.X_b1_cf.mul c₀.X_b1_b2.inv))).lin.len ≤ V) → (X1.r - X2.r).len ≤ η * T + V * η * T ^ 2 / 2 := by
  intro X1 X2 η
  have hb0 : 0 ≤ slipBound kind ε T := by
    unfold slipBound
    cases kind with
    | acc => positivity
    | speed dt => exact mul_nonneg hε (le_of_lt L.step)
    | pos dt => exact le_rfl
  have hrel : ∀ τ, 0 ≤ τ → τ ≤ T → ∀ k < 6, |frameVel rks (env τ) id.r1Index id.r1BodyName c₀.X_b1_cf k
      - frameVel rks (env τ) id.r2Index id.r2BodyName (c₀.X_b1_cf.mul c₀.X_b1_b2.inv) k| ≤ slipBound kind ε T := by
    intro τ hτ hτT k hk
    have := C87_velocity h L hid hv hg h₀ hcf hbb hτ hk
    cases kind with
    | acc =>
      dsimp only at this
      rw [h0 k hk, sub_self, sub_zero] at this
      exact this.trans (mul_le_mul_of_nonneg_left hτT hε)
    | speed dt =>
      dsimp only at this
      rw [h0 k hk, sub_self, zero_mul, sub_zero] at this
      have hdt : 0 ≤ dt := le_of_lt L.step
      refine this.trans (mul_le_of_le_one_right (mul_nonneg hε hdt) ?_)
      linarith [Real.exp_pos (-(τ / dt))]
    | pos dt => exact absurd rfl (hkind dt)
  have hlen : ∀ (a : V3 ℝ) (e : ℝ), 0 ≤ e → |a.x| ≤ e → |a.y| ≤ e → |a.z| ≤ e → a.len ≤ Real.sqrt 3 * e := by
    intro a e he h1 h2 h3
    refine V3.len_le (by positivity) ?_
    rw [mul_pow, Real.sq_sqrt (by norm_num)]
    have g1 := sq_le_sq' (abs_le.1 h1).1 (abs_le.1 h1).2
    have g2 := sq_le_sq' (abs_le.1 h2).1 (abs_le.1 h2).2
    have g3 := sq_le_sq' (abs_le.1 h3).1 (abs_le.1 h3).2
    simp only [V3.dot]
    nlinarith
  have hX2 := hcf.mul hbb.inv
  have hη : 0 ≤ η := mul_nonneg (Real.sqrt_nonneg _) hb0
  have m1 := fun τ (a : 0 ≤ τ) (_ : τ ≤ T) => (side_moves (bidx := bidx) h id.r1Index id.r1BodyName hcf a).2.1
  have m2 := fun τ (a : 0 ≤ τ) (_ : τ ≤ T) => (side_moves (bidx := bidx) h id.r2Index id.r2BodyName hX2 a).2.1
  have g1 := fun τ (a : 0 ≤ τ) (_ : τ ≤ T) => (side_moves (bidx := bidx) h id.r1Index id.r1BodyName hcf a).1 τ
  have g2 := fun τ (a : 0 ≤ τ) (_ : τ ≤ T) => (side_moves (bidx := bidx) h id.r2Index id.r2BodyName hX2 a).1 τ
  have w1 : ∀ t, 0 ≤ t → t ≤ T → ((mvOf (frameVel rks (env t) id.r1Index id.r1BodyName c₀.X_b1_cf)).ang
      - (mvOf (frameVel rks (env t) id.r2Index id.r2BodyName (c₀.X_b1_cf.mul c₀.X_b1_b2.inv))).ang).len ≤ η :=
    fun t a b => hlen _ _ hb0 (hrel t a b 0 (by norm_num)) (hrel t a b 1 (by norm_num)) (hrel t a b 2 (by norm_num))
  have w2 : ∀ t, 0 ≤ t → t ≤ T → ((mvOf (frameVel rks (env t) id.r1Index id.r1BodyName c₀.X_b1_cf)).lin
      - (mvOf (frameVel rks (env t) id.r2Index id.r2BodyName (c₀.X_b1_cf.mul c₀.X_b1_b2.inv))).lin).len ≤ η :=
    fun t a b => hlen _ _ hb0 (hrel t a b 3 (by norm_num)) (hrel t a b 4 (by norm_num)) (hrel t a b 5 (by norm_num))
  exact ⟨turn_drift m1 m2 g1 g2 (congrArg PT.E hp) hη w1 hT le_rfl,
    fun V hV0 hV => place_drift m1 m2 g1 g2 hp hη w1 w2 hV0 hV hT⟩

end

/-! ## A slider in contact with a fixed body -/

namespace NearEx
open SlipEx (getOk bidx)
open ConvEx (mb)
open PosEx (ground rks rk_eq robots c₀ frame_one one_mul)

/-- The slider at position `q` with velocity `v`. -/
noncomputable def st (q v : ℝ → ℝ) (τ : ℝ) : KState ℝ :=
  ⟨[PT.ofTrans ⟨q τ, 0, 0⟩], [⟨0, ⟨v τ, 0, 0⟩⟩], [[⟨0, ⟨1, 0, 0⟩⟩]], [[v τ]], [0]⟩

section
variable {q v a : ℝ → ℝ} (hq : ∀ t, HasDerivAt q (v t) t) (hv : ∀ t, HasDerivAt v (a t) t)
include hq hv

theorem evolves (t : ℝ) : Evolves mb (st q v) [0] (fun τ _ => v τ) (fun _ => a t) t := by
  refine ⟨fun τ => ⟨⟨by simp, by simp, by simp [mb], by simp [st], by simp [st], by simp [st], ?_⟩,
    ?_, ?_⟩, fun τ i _ d => rfl, fun c => hv t, ?_, ?_⟩
  · simp [st, mb, jdof]
  · intro i hi
    simp at hi
    subst hi
    exact PT.rigid_ofTrans _
  · refine ⟨?_, trivial⟩
    ext <;> simp [kVel, kSub, st, mb, jdof, jpos]
  · intro i hi
    simp at hi
    subst hi
    refine ⟨fun v => ((HasD3.const v t).congr_fun fun τ => M3.one_mulVec v).congr_deriv ?_,
      ⟨?_, ?_, ?_⟩⟩
    · ext <;> simp [kVel, st]
    · refine (hq t).congr_deriv ?_
      simp [kVel, kPose, st, PT.ofTrans, M3.transpose, M3.one, M3.mulVec, V3.dot]
    · refine (hasDerivAt_const t (0 : ℝ)).congr_deriv ?_
      simp [kVel, kPose, st, PT.ofTrans, M3.transpose, M3.one, M3.mulVec, V3.dot]
    · refine (hasDerivAt_const t (0 : ℝ)).congr_deriv ?_
      simp [kVel, kPose, st, PT.ofTrans, M3.transpose, M3.one, M3.mulVec, V3.dot]
  · refine ⟨?_, trivial⟩
    ext <;> simp [kVel, kSub, kAcc, st, mb, jdof, jpos, MV.cross]

end

/-- What the constraint reads at time `t`. -/
noncomputable def env (q v : ℝ → ℝ) (t : ℝ) : ContactEnv ℝ :=
  ⟨[(st q v t).bodyPosW, [PT.one]],
   fun r p X => if r = 0 ∧ p = [0] then getOk (Jac.jacobianAt mb (st q v t) ⟨[0], 0⟩ X) ⟨6, 1, fun _ _ => 0⟩
     else ⟨6, pathDof (if r = 0 then mb else ground) p, fun _ _ => 0⟩,
   fun _ _ X k => (getOk (Jac.normalAccAt (st q v t) ⟨[0], 0⟩ X 0) 0).get k,
   fun _ _ X k => (getOk (Jac.velocityAt (st q v t) ⟨[0], 0⟩ X) 0).get k,
   fun _ _ _ => 1, fun _ _ _ => M3.one, fun _ => 0⟩

section
variable {q v a : ℝ → ℝ} (hq : ∀ t, HasDerivAt q (v t) t) (hv : ∀ t, HasDerivAt v (a t) t)
include hq hv

theorem moves (d : SolverData ℝ) (hd : d.alphaDBegin = [0, 1]) :
    EnvMoves rks d (env q v) (fun _ => st q v) (fun _ τ _ => v τ) (fun t _ => a t) := by
  refine ⟨fun r rk hrk hdof => ?_, fun r rk hrk hdof => ?_⟩
  · match r, hrk with
    | 0, hrk =>
      cases hrk
      refine ⟨0, by rw [hd]; rfl, fun t => rfl, fun body path h => ?_⟩
      cases h
      refine ⟨fun t _ => evolves hq hv t, fun t X => ?_⟩
      have hs := ((evolves hq hv t).moves t).sized
      have e1 := jac_at (J := ⟨[0], 0⟩) hs X
      have e2 := jac_velAt (J := ⟨[0], 0⟩) hs rfl X
      have e3 := jac_accAt (J := ⟨[0], 0⟩) hs rfl X 0
      refine ⟨?_, ⟨_, e2, fun k _ => ?_⟩, _, e3, fun k _ => ?_⟩
      · dsimp only [env]
        rw [if_pos ⟨rfl, rfl⟩, e1]
        rfl
      · dsimp only [env]
        rw [e2]
        rfl
      · dsimp only [env]
        rw [e3]
        rfl
    | 1, hrk => cases hrk; simp [ground, MultiBody.nrDof] at hdof
  · match r, hrk with
    | 0, hrk => cases hrk; simp [mb, MultiBody.nrDof] at hdof
    | 1, hrk =>
      refine ⟨[PT.one], fun t => rfl, fun X hX => ?_⟩
      simp only [List.mem_cons, List.not_mem_nil, or_false] at hX
      subst hX
      exact M3.isRot_one

theorem envOK (t : ℝ) : ContactEnvOK rks (env q v t) := by
  refine ⟨?_, ?_⟩
  · intro r rk hrk
    match r, hrk with
    | 0, hrk => cases hrk; exact ⟨_, rfl, rfl⟩
    | 1, hrk => cases hrk; exact ⟨_, rfl, rfl⟩
  · intro r rk path X hrk
    match r, hrk with
    | 0, hrk =>
      cases hrk
      dsimp only [env]
      split
      · rename_i e
        obtain ⟨-, rfl⟩ := e
        rw [jac_at (J := ⟨[0], 0⟩) ((evolves hq hv t).moves t).sized X]
        exact ⟨rfl, rfl⟩
      · exact ⟨rfl, rfl⟩
    | 1, hrk =>
      cases hrk
      dsimp only [env]
      rw [if_neg (by simp)]
      exact ⟨rfl, rfl⟩

theorem hand_vel (t : ℝ) (k : ℕ) :
    frameVel rks (env q v t) 0 "hand" PT.one k = (⟨0, ⟨v t, 0, 0⟩⟩ : MV ℝ).get k := by
  have e2 := jac_velAt (J := ⟨[0], 0⟩) ((evolves hq hv t).moves t).sized rfl PT.one
  show (getOk (Jac.velocityAt (st q v t) ⟨[0], 0⟩ PT.one) 0).get k = _
  rw [e2]
  show (PT.one.mulM (⟨0, ⟨v t, 0, 0⟩⟩ : MV ℝ)).get k = _
  congr 1
  ext <;> simp [PT.mulM, PT.one, M3.one, M3.mulVec, V3.dot]

theorem hand_acc {t : ℝ} (ht : 0 ≤ t) (d : SolverData ℝ) (hd : d.alphaDBegin = [0, 1]) {k : ℕ} (hk : k < 6) :
    frameAcc rks bidx d (env q v t) (fun _ => a t) 0 "hand" PT.one k = (⟨0, ⟨a t, 0, 0⟩⟩ : MV ℝ).get k := by
  have e := (side_moves (bidx := bidx) (moves hq hv d hd) 0 "hand" (X := PT.one) M3.isRot_one ht).2.2 k hk
  simp only [hand_vel hq hv] at e
  have b : HasDM (fun τ => (⟨0, ⟨v τ, 0, 0⟩⟩ : MV ℝ)) ⟨0, ⟨a t, 0, 0⟩⟩ t :=
    ⟨HasD3.const 0 t, ⟨hv t, hasDerivAt_const _ _, hasDerivAt_const _ _⟩⟩
  exact e.unique (b.get k)

/-- A slider that moves with the acceleration `a` on a contact whose rows hold up to `ε`. -/
theorem loop {kind : ContactKind ℝ} (hkk : KindOK kind) {ε : ℝ} (hε : 0 ≤ ε)
    (hgap : ∀ t, 0 ≤ t → match kind with
      | .acc => |a t| ≤ ε
      | .speed dt => |a t + v t / dt| ≤ ε
      | .pos _ => False) :
    ∃ d s', EnvMoves rks d (env q v) (fun _ => st q v) (fun _ τ _ => v τ) (fun t _ => a t) ∧
    NearContactLoop ε rks bidx kind d ContactReg.make ContactReg.make (env q v) (fun t _ => a t) s' ∧
    Active d ContactReg.make c₀.id ∧ (d.allCont.find? fun c' => decide (c'.id = c₀.id)) = some c₀ := by
  have hgood : GoodInput (rks.map fun rk => rk.mb) [c₀] := by
    refine ⟨?_, ?_⟩
    · intro m hm j hj l q hl
      simp only [rks, List.map_cons, List.map_nil, List.mem_cons, List.not_mem_nil, or_false] at hm
      rcases hm with rfl | rfl <;> simp only [mb, ground, List.mem_cons, List.not_mem_nil, or_false] at hj <;>
        subst hj <;> cases hl
    · intro c hc
      simp only [List.mem_cons, List.not_mem_nil, or_false] at hc
      subst hc
      simp [c₀]
  obtain ⟨d, deps, e, L⟩ := layout_ok SolverData.init (rks.map fun rk => rk.mb) [] [c₀] hgood.1 hgood.2
  have hall : d.allCont = [c₀] := by rw [L.allCont]; rfl
  have hd : d.alphaDBegin = [0, 1] := by rw [L.alphaDBegin]; rfl
  have hact : ∀ id, Active d (ContactReg.make : ContactReg ℝ) id ↔ id = c₀.id := by
    intro id
    unfold Active
    rw [hall]
    simp only [List.mem_cons, List.not_mem_nil, or_false]
    constructor
    · rintro ⟨-, c, rfl, rfl⟩; rfl
    · rintro rfl; exact ⟨rfl, _, rfl, rfl⟩
  have hmob : ∀ id, Active d (ContactReg.make : ContactReg ℝ) id →
      Mobile rks id.r1Index ∨ Mobile rks id.r2Index := by
    intro id h
    cases (hact id).1 h
    exact .inl ⟨_, rfl, by norm_num [mb, MultiBody.nrDof]⟩
  obtain ⟨s₁, e₁⟩ := C42_nrVars_ok rks bidx d (fun _ _ => 5) ContactC.make (by simp [rks]) (by
    intro id h t ht
    cases (hact id).1 h
    simp only [c₀, List.mem_cons, List.not_mem_nil, or_false] at ht
    rcases ht with rfl | rfl
    · exact ⟨le_rfl, _, 0, rfl, by rw [hd]; rfl, ⟨_, rfl, by simp⟩, _, rfl⟩
    · exact ⟨by norm_num, _, 1, rfl, by rw [hd]; rfl, ⟨_, rfl, by simp⟩, _, rfl⟩)
    (fun id _ => .inr (le_of_eq rfl))
  have run : ContactRun rks bidx kind (some (d, ContactReg.make, ContactReg.make)) s₁ :=
    .nrVars _ _ _ _ _ [] [c₀] deps _ .make hgood e e₁
  have hu := fun t => C40_rows rks bidx robots _ hkk d _ _ s₁ run (env q v t) (envOK hq hv t)
    (fun id _ => ⟨le_rfl, rfl⟩) hmob
  have hu' := fun t => C87_rows rks bidx robots _ hkk d _ _ s₁ run (env q v t) (envOK hq hv t)
    (fun id _ => ⟨le_rfl, rfl⟩) hmob
  choose s' h1 h2 h3 h4 h5 h6 h7 h8 h9 h10 using hu
  have hfind : (d.allCont.find? fun c' => decide (c'.id = c₀.id)) = some c₀ := by rw [hall]; simp
  have hR1 : c₀.X_b1_cf.Rigid := M3.isRot_one
  have hR2 : c₀.X_b1_b2.Rigid := M3.isRot_one
  refine ⟨d, s', moves hq hv d hd, ⟨robots, hkk, fun t _ => ⟨envOK hq hv t, rfl⟩, fun id _ => ⟨le_rfl, rfl⟩, hmob,
    fun t _ => ⟨s₁, run, h1 t⟩, fun t ht i hi => ?_⟩, (hact _).2 rfl, hfind⟩
  obtain ⟨s2, f1, f2, f3⟩ := hu' t
  have es : s2 = s' t := Out.ok.inj (f1.symm.trans (h1 t))
  subst es
  obtain ⟨l₁, c, l₂, j, hl, hj, rfl⟩ := f2 i hi
  rw [(f3 l₁ c l₂ hl j hj).2]
  have hc : c ∈ (s' t).cont := by rw [hl]; simp
  have hid : c.id = ⟨0, 1, "hand", "ground", 0⟩ := (hact _).1 ((h3 t _).1 (List.mem_map_of_mem hc))
  have hcf : c.X_b1_cf = PT.one := by
    obtain ⟨-, c1, g1, g2⟩ := h4 t c hc
    rw [show (d.allCont.find? fun c' => decide (c'.id = c.id)) = some c₀ by rw [hid]; exact hfind] at g1
    rw [g2, ← Option.some.inj g1]
    rfl
  have hdof : c.dof = identity6 := by rw [(h4 t c hc).1]; rfl
  have hj6 : j < 6 := by rw [hdof] at hj; exact hj
  have key : ∀ f : ℕ → ℝ, ∑ k ∈ range 6, identity6.get j k * f k = f j := by
    intro f
    unfold identity6
    simp [hj6]
  have hV : ∀ b : ℝ, |b| ≤ ε → |(⟨0, ⟨b, 0, 0⟩⟩ : MV ℝ).get j| ≤ ε := by
    intro b hb
    interval_cases j <;> simpa [MV.get, V3.get] using by first | exact hb | exact hε
  have hg := hgap t ht
  unfold rowGap
  rw [hid, hcf, hdof]
  cases kind with
  | acc =>
    dsimp only at hg ⊢
    rw [key, show frameAcc rks bidx d (env q v t) (fun _ => a t) 1 "ground" (frame2 c) j = 0 from rfl, sub_zero,
      hand_acc hq hv ht d hd hj6]
    exact hV _ hg
  | speed dt =>
    have hdt : (0 : ℝ) < dt := hkk
    dsimp only at hg ⊢
    rw [key, show frameAcc rks bidx d (env q v t) (fun _ => a t) 1 "ground" (frame2 c) j = 0 from rfl,
      show frameVel rks (env q v t) 1 "ground" (frame2 c) j = 0 from rfl, sub_zero, sub_zero,
      hand_acc hq hv ht d hd hj6, hand_vel hq hv]
    have e : dt⁻¹ * ((⟨0, ⟨v t, 0, 0⟩⟩ : MV ℝ).get j + dt * (⟨0, ⟨a t, 0, 0⟩⟩ : MV ℝ).get j)
        = (⟨0, ⟨a t + v t / dt, 0, 0⟩⟩ : MV ℝ).get j := by
      interval_cases j <;> simp [MV.get, V3.get]
      field_simp
      ring
    rw [e]
    exact hV _ hg
  | pos dt => exact hg.elim

end

/-- **C87** (sharp for accelerations).  With `ContactAccConstr` and a solver of tolerance `ε`, two frames at rest and
together at the start can slide apart, with the relative velocity `ε t`, without bound. -/
theorem C87_acc_drift_counterexample {ε : ℝ} (hε : 0 < ε) :
    ∃ (q v : ℝ → ℝ) (d : SolverData ℝ) (s' : ℝ → ContactC ℝ),
    EnvMoves rks d (env q v) (fun _ => st q v) (fun _ τ _ => v τ) (fun _ _ => ε) ∧
    NearContactLoop ε rks bidx .acc d ContactReg.make ContactReg.make (env q v) (fun _ _ => ε) s' ∧
    Active d ContactReg.make c₀.id ∧ (d.allCont.find? fun c' => decide (c'.id = c₀.id)) = some c₀ ∧
    ∀ t, sidePose rks bidx (env q v t) 0 "hand" PT.one = PT.ofTrans ⟨ε * t ^ 2 / 2, 0, 0⟩ ∧
      sidePose rks bidx (env q v t) 1 "ground" PT.one = PT.one ∧
      frameVel rks (env q v t) 0 "hand" PT.one 3 - frameVel rks (env q v t) 1 "ground" PT.one 3 = ε * t := by
  have hq : ∀ t, HasDerivAt (fun τ : ℝ => ε * τ ^ 2 / 2) (ε * t) t := fun t =>
    (((hasDerivAt_pow 2 t).const_mul ε).div_const 2).congr_deriv (by push_cast; ring)
  have hv : ∀ t, HasDerivAt (fun τ : ℝ => ε * τ) ε t := fun t => by
    simpa using (hasDerivAt_id t).const_mul ε
  obtain ⟨d, s', h1, h2, h3, h4⟩ := loop (a := fun _ => ε) hq hv (kind := .acc) trivial hε.le
    (fun t _ => (abs_of_pos hε).le)
  refine ⟨_, _, d, s', h1, h2, h3, h4, fun t => ⟨one_mul _, one_mul _, ?_⟩⟩
  rw [hand_vel hq hv]
  show ε * t - 0 = ε * t
  ring

/-- **C87** (sharp for velocities).  With `ContactSpeedConstr` the relative velocity can reach the bound of
`C87_velocity`, so that it settles at `ε dt`. -/
theorem C87_speed_sharp {ε dt : ℝ} (hε : 0 < ε) (hdt : 0 < dt) :
    ∃ (q v a : ℝ → ℝ) (d : SolverData ℝ) (s' : ℝ → ContactC ℝ), EnvMoves rks d (env q v) (fun _ => st q v) (fun _ τ _ => v τ) (fun t _ => a t) ∧
    NearContactLoop ε rks bidx (.speed dt) d ContactReg.make ContactReg.make (env q v) (fun t _ => a t) s' ∧
    Active d ContactReg.make c₀.id ∧ (d.allCont.find? fun c' => decide (c'.id = c₀.id)) = some c₀ ∧
    sidePose rks bidx (env q v 0) 0 "hand" PT.one = PT.one ∧
    (∀ k, frameVel rks (env q v 0) 0 "hand" PT.one k = 0) ∧
    ∀ t, sidePose rks bidx (env q v t) 1 "ground" PT.one = PT.one ∧
      frameVel rks (env q v t) 0 "hand" PT.one 3 - frameVel rks (env q v t) 1 "ground" PT.one 3
        = ε * dt * (1 - Real.exp (-(t / dt))) := by
  have hE : ∀ t, HasDerivAt (fun τ => Real.exp (-(τ / dt))) (Real.exp (-(t / dt)) * -(1 / dt)) t := fun t =>
    ((hasDerivAt_id t).div_const dt).neg.exp
  have hq : ∀ t, HasDerivAt (fun τ : ℝ => ε * dt * (τ - dt + dt * Real.exp (-(τ / dt))))
      (ε * dt * (1 - Real.exp (-(t / dt)))) t := fun t =>
    ((((hasDerivAt_id t).sub_const dt).add ((hE t).const_mul dt)).const_mul (ε * dt)).congr_deriv (by
      field_simp
      ring)
  have hv : ∀ t, HasDerivAt (fun τ : ℝ => ε * dt * (1 - Real.exp (-(τ / dt)))) (ε * Real.exp (-(t / dt))) t := fun t =>
    (((hE t).const_sub 1).const_mul (ε * dt)).congr_deriv (by field_simp)
  obtain ⟨d, s', h1, h2, h3, h4⟩ := loop hq hv (kind := .speed dt) hdt hε.le (fun t _ => by
    have e : ε * Real.exp (-(t / dt)) + ε * dt * (1 - Real.exp (-(t / dt))) / dt = ε := by field_simp; ring
    dsimp only
    rw [e, abs_of_pos hε])
  refine ⟨_, _, _, d, s', h1, h2, h3, h4, ?_, fun k => ?_, fun t => ⟨one_mul _, ?_⟩⟩
  · refine (one_mul _).trans ?_
    show PT.ofTrans ⟨ε * dt * (0 - dt + dt * Real.exp (-(0 / dt))), 0, 0⟩ = _
    rw [show ε * dt * (0 - dt + dt * Real.exp (-(0 / dt))) = 0 by simp]
    rfl
  · rw [hand_vel hq hv, show ε * dt * (1 - Real.exp (-(0 / dt))) = 0 by simp]
    unfold MV.get
    split <;> (unfold V3.get; split <;> rfl)
  · rw [hand_vel hq hv]
    show ε * dt * (1 - Real.exp (-(t / dt))) - 0 = _
    ring

/-- The hypotheses of C87 are met: the slider of `C87_speed_sharp` does slide, but no faster than C87 says. -/
example {ε dt : ℝ} (hε : 0 < ε) (hdt : 0 < dt) : ∃ q v, sidePose rks bidx (env q v 0) 0 "hand" PT.one = PT.one ∧
    (∀ t, 0 < t → 0 < frameVel rks (env q v t) 0 "hand" PT.one 3) ∧
    ∀ t, 0 ≤ t → ((sidePose rks bidx (env q v t) 0 "hand" PT.one).r
      - (sidePose rks bidx (env q v t) 1 "ground" PT.one).r).len ≤ Real.sqrt 3 * (ε * dt) * t := by
  obtain ⟨q, v, a, d, s', h1, h2, h3, h4, h5, h6, h7⟩ := C87_speed_sharp hε hdt
  refine ⟨q, v, h5, fun t ht => ?_, fun t ht => ?_⟩
  · have := (h7 t).2
    rw [show frameVel rks (env q v t) 1 "ground" PT.one 3 = 0 from rfl, sub_zero] at this
    rw [this]
    have : Real.exp (-(t / dt)) < 1 := Real.exp_lt_one_iff.2 (by have := div_pos ht hdt; linarith)
    exact mul_pos (mul_pos hε hdt) (by linarith)
  · have e : c₀.X_b1_cf.mul c₀.X_b1_b2.inv = PT.one := frame_one
    have := (C87_drift (fun _ => by simp) hε.le h1 h2 h3 rfl rfl h4 M3.isRot_one M3.isRot_one
      (fun k _ => (h6 k).trans rfl) (by rw [e]; exact h5.trans (h7 0).1.symm) ht).2 0 le_rfl (fun τ _ _ => by
        rw [e]
        show V3.len ⟨0, 0, 0⟩ ≤ 0
        simp [V3.len, V3.dot])
    rw [e] at this
    simp only [zero_mul, zero_div, add_zero, slipBound] at this
    exact this

end NearEx

end Verif
