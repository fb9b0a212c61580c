import Verif.Props.Motion

/-!
# C68: `matrix()` and `contactMatrix()` of a `MotionConstr`

`matrix()` maps the variables to the torques without the bias term.  `contactMatrix()` ("contact torque")
is meant to map the contact weights to their part of the torques; the code takes the columns after the
first `nrDof`, which are those of the weights only if no other robot has degrees of freedom.
-/

set_option autoImplicit false
set_option linter.unusedSectionVars false

namespace Verif

open Finset Spec

section
variable {K : Type} [Field K] [LinearOrder K] [IsStrictOrderedRing K]

namespace Spec

/-- The variables with the accelerations (`n` of them) at rest and the contact weights `lam`. -/
def restWith (n : ℕ) (lam : ℕ → K) : ℕ → K := fun k => if k < n then 0 else lam (k - n)

end Spec

/-- After an update, for any history: what the two matrices are. -/
theorem matrix_after {rk : RobotKin K} {r : ℕ} {p : TorqueParams K}
    {d : SolverData K} {k : ℕ} {last : ℕ → K} {s : MotionConstr K}
    (R : MotionRun rk r p [] (some d) k last s) {mbs : List (MultiBody K)} (S : Setting rk r mbs d)
    (env : MotionEnv K) (E : EnvOK rk env) :
    ∃ s' M, s.update rk.mb env = .ok s' ∧ s'.contactMatrix = .ok M ∧
      s'.common.A.rows = rk.mb.nrDof ∧ s'.common.A.cols = d.nrVars ∧
      M.rows = rk.mb.nrDof ∧ rk.mb.nrDof ≤ d.totalAlphaD ∧ d.nrVars = d.totalAlphaD + d.totalLambda ∧
      M.cols = d.nrVars - rk.mb.nrDof ∧
      (∀ a c, M.get a c = s'.common.A.get a (rk.mb.nrDof + c)) ∧
      ∀ a < rk.mb.nrDof, ∀ x : ℕ → K, s'.common.A.rowMul a x + env.C.get a
        = invDyn rk env (aBegin mbs r) (lastSides r d) x a := by
  obtain ⟨s1, s', h1, h2, h3, h4, h5, -⟩ := update_lines R S env E (by simp)
  have D := setting_data S
  have hN := D.hN
  have hfit := D.hfit
  have hn : s'.common.nrDof = rk.mb.nrDof := h3.ready.n
  have hM : s'.contactMatrix = .ok ⟨s'.common.A.rows, d.nrVars - rk.mb.nrDof,
      fun a c => s'.common.A.get a (rk.mb.nrDof + c)⟩ := by
    unfold MotionConstr.contactMatrix Mat.block
    rw [hn, h5, if_neg (by omega), if_pos (by omega)]
    congr 1
    simp
  refine ⟨s', _, by rw [update_eq_spring]; exact h2, hM, h4, h5, h4, by omega, hN, rfl, fun a c => rfl,
    fun a ha x => ?_⟩
  have := h3.row a ha x
  dsimp only at this
  rw [this]
  ring

/-- `matrix()` times the variables plus the bias term `C` is the vector of the inverse dynamics torques,
for any number of robots. -/
theorem C68_matrix {rk : RobotKin K} {r : ℕ} {p : TorqueParams K}
    {d : SolverData K} {k : ℕ} {last : ℕ → K} {s : MotionConstr K}
    (R : MotionRun rk r p [] (some d) k last s) {mbs : List (MultiBody K)} (S : Setting rk r mbs d)
    (N : NoSelf r d) (env : MotionEnv K) (E : EnvOK rk env) :
    ∃ s', s.update rk.mb env = .ok s' ∧ s'.common.A.rows = rk.mb.nrDof ∧ s'.common.A.cols = d.nrVars ∧
      ∀ a < rk.mb.nrDof, ∀ x : ℕ → K, s'.common.A.rowMul a x + env.C.get a
        = invDyn rk env (aBegin mbs r) (sides r d) x a := by
  obtain ⟨s', M, h1, -, h3, h4, -, -, -, -, -, h6⟩ := matrix_after R S env E
  rw [lastSides_eq_sides N] at h6
  exact ⟨s', h1, h3, h4, h6⟩

/-- When the constrained robot is the only one with degrees of freedom, `contactMatrix()` has one column
for each contact weight, and times the weights it is minus the generalised force of the contacts
(`- Σ Jᵀ F`).

The full claim is about any set of robots; `C68_contact_matrix_wide` and `C68_counterexample` show what
happens with others. -/
theorem C68_contact_matrix_partial {rk : RobotKin K} {r : ℕ} {p : TorqueParams K}
    {d : SolverData K} {k : ℕ} {last : ℕ → K} {s : MotionConstr K}
    (R : MotionRun rk r p [] (some d) k last s) {mbs : List (MultiBody K)} (S : Setting rk r mbs d)
    (N : NoSelf r d) (env : MotionEnv K) (E : EnvOK rk env) (honly : d.totalAlphaD = rk.mb.nrDof) :
    ∃ s' M, s.update rk.mb env = .ok s' ∧ s'.contactMatrix = .ok M ∧ M.rows = rk.mb.nrDof ∧
      M.cols = d.totalLambda ∧ ∀ lam : ℕ → K, ∀ a < rk.mb.nrDof, M.rowMul a lam
        = -((sides r d).map fun c => contactTorque rk env c (restWith d.totalAlphaD lam) a).sum := by
  obtain ⟨s', M, h1, h2, h3, h4, h5, -, hN, h7, h8, h6⟩ := matrix_after R S env E
  rw [lastSides_eq_sides N] at h6
  refine ⟨s', M, h1, h2, h5, by omega, fun lam a ha => ?_⟩
  have e1 : M.rowMul a lam = s'.common.A.rowMul a (restWith d.totalAlphaD lam) := by
    unfold Mat.rowMul
    rw [h4, h7, honly, show d.nrVars = rk.mb.nrDof + (d.nrVars - rk.mb.nrDof) by omega,
      Finset.sum_range_add, Finset.sum_eq_zero (s := range rk.mb.nrDof), zero_add, Nat.add_sub_cancel_left]
    · refine Finset.sum_congr rfl fun c _ => ?_
      rw [h8]
      simp [restWith]
    · intro c hc
      simp [restWith, Finset.mem_range.1 hc]
  rw [e1, eq_sub_of_add_eq (h6 a ha _)]
  unfold invDyn
  rw [Finset.sum_eq_zero fun j hj => ?_]
  · ring
  · have hb := (setting_data S).hfit
    have : aBegin mbs r + j < d.totalAlphaD := by
      have := Finset.mem_range.1 hj
      omega
    simp [restWith, this]

/-- With another robot that has degrees of freedom, `contactMatrix()` has more columns than there are
contact weights. -/
theorem C68_contact_matrix_wide {rk : RobotKin K} {r : ℕ} {p : TorqueParams K}
    {d : SolverData K} {k : ℕ} {last : ℕ → K} {s : MotionConstr K}
    (R : MotionRun rk r p [] (some d) k last s) {mbs : List (MultiBody K)} (S : Setting rk r mbs d)
    (env : MotionEnv K) (E : EnvOK rk env) (hmore : d.totalAlphaD ≠ rk.mb.nrDof) :
    ∃ s' M, s.update rk.mb env = .ok s' ∧ s'.contactMatrix = .ok M ∧ d.totalLambda < M.cols := by
  obtain ⟨s', M, h1, h2, h3, h4, h5, h9, hN, h7, -⟩ := matrix_after R S env E
  exact ⟨s', M, h1, h2, by omega⟩

end

namespace ContactMatrixEx

/-- The contact of `exCont`, on robot 1. -/
def cont : UniContact ℚ :=
  ⟨⟨1, 2, "a", "b", -1⟩, [0], [0], ⟨[⟨0, 0, 1⟩]⟩, ⟨[⟨0, 0, -1⟩]⟩, ⟨M3.one, 0⟩, ⟨M3.one, 0⟩⟩

theorem setting : ∃ d : SolverData ℚ, Setting exRk 1 [exMb, exMb] d ∧
    d.allCont = [BiContact.ofUni cont] ∧ d.lambdaBegin = [2] ∧ d.nrVars = 3 ∧ d.totalAlphaD = 2 ∧
    d.totalLambda = 1 := by
  have g : GoodInput [exMb, exMb] ([] : List (BiContact ℚ)) := by
    refine ⟨?_, by simp⟩
    intro mb hmb j hj l m hm
    simp at hmb
    subst hmb
    simp only [exMb, List.mem_singleton] at hj
    subst hj
    cases hm
  obtain ⟨d, deps, e, L⟩ := layout_ok SolverData.init [exMb, exMb] [cont] [] g.1 g.2
  have h1 : d.allCont = [BiContact.ofUni cont] := by rw [L.allCont]; rfl
  have h2 : d.totalAlphaD = 2 := by rw [L.totalAlphaD]; rfl
  have h3 : d.lambdaBegin = [2] := by rw [L.lambdaBegin, h2]; rfl
  have h5 : d.totalLambda = 1 := by rw [L.totalLambda, L.nrUniLambda, L.nrBiLambda]; rfl
  have h4 : d.nrVars = 3 := by rw [L.nrVars, h2, h5]
  refine ⟨d, ⟨rfl, ⟨_, _, _, _, g, e⟩, ?_, ?_⟩, h1, h3, h4, h2, h5⟩
  · intro c hc
    rw [h1] at hc
    obtain rfl : c = _ := by simpa using hc
    refine ⟨le_rfl, le_rfl, rfl⟩
  · intro sd _
    exact ⟨[0], rfl, by simp, by simp, by simp [exRk, exMb]⟩

/-- The claim is false with two robots: for the second one, with one contact weight, `contactMatrix()` has
two columns, and the first holds the inertia of the joint (1). -/
theorem C68_counterexample : ∃ (d : SolverData ℚ) (s s' : MotionConstr ℚ) (M : Mat ℚ),
    Setting exRk 1 [exMb, exMb] d ∧ NoSelf 1 d ∧ EnvOK exRk exEnv ∧
    MotionRun exRk 1 exParams [] (some d) 0 (fun _ => 0) s ∧ d.totalLambda = 1 ∧
    s.update exMb exEnv = .ok s' ∧ s'.contactMatrix = .ok M ∧ M.cols = 2 ∧ M.get 0 0 = 1 := by
  obtain ⟨d, S, h1, h2, h3, h4, h5⟩ := setting
  obtain ⟨⟨s, _, R⟩, h⟩ := C25_setup (rk := exRk) (r := 1) (p := exParams) (by decide) (by decide)
    (by decide) (by decide) (fun _ => .negInf) []
  obtain ⟨c, _, R'⟩ := h _ _ _ s R _ d S
  have N : NoSelf 1 d := by
    intro c hc
    rw [h1] at hc
    obtain rfl : c = _ := by simpa using hc
    decide
  obtain ⟨s', M, g1, g2, g3, g4, g5, g6, g7, g8, g9, g10⟩ := matrix_after R' S exEnv ⟨rfl, rfl, rfl⟩
  have hd : exRk.mb.nrDof = 1 := rfl
  refine ⟨d, _, s', M, S, N, ⟨rfl, rfl, rfl⟩, R', h5, g1, g2, by rw [g8, h3, hd], ?_⟩
  rw [lastSides_eq_sides N] at g10
  have := g10 0 (by decide) (fun k => if k = 1 then 1 else 0)
  unfold Mat.rowMul at this
  rw [g4, h3, Finset.sum_range_succ, Finset.sum_range_succ, Finset.sum_range_one] at this
  rw [g9, hd]
  unfold sides at this
  rw [h1, h2] at this
  simpa [invDyn, sidesOf, BiContact.ofUni, cont, contactTorque, pointCol, pathOf, exRk, exEnv, exMb,
    onDofs, jpos, jdof, Side.force, combo, before, V3.dot, MultiBody.nrDof, aBegin, Out.val?] using this

/-- The hypotheses of `C68_contact_matrix_partial` hold on the one-joint robot standing on the ground:
`contactMatrix()` is `(-1)` for a contact whose generator pushes the joint by 1. -/
example : ∃ (d : SolverData ℚ) (s s' : MotionConstr ℚ) (M : Mat ℚ), Setting exRk 0 [exMb] d ∧
    NoSelf 0 d ∧ MotionRun exRk 0 exParams [] (some d) 0 (fun _ => 0) s ∧
    s.update exMb exEnv = .ok s' ∧ s'.contactMatrix = .ok M ∧ M.cols = 1 ∧ M.get 0 0 = -1 := by
  obtain ⟨d, S, h1, h2, h3⟩ := exSetting 1
  obtain ⟨⟨s, _, R⟩, h⟩ := C25_setup (rk := exRk) (r := 0) (p := exParams) (by decide) (by decide)
    (by decide) (by decide) (fun _ => .negInf) []
  obtain ⟨c, _, R'⟩ := h _ _ _ s R _ d S
  have N : NoSelf 0 d := by
    intro c hc
    rw [h1] at hc
    obtain rfl : c = _ := by simpa using hc
    decide
  have hT : d.totalLambda = 1 := by rw [(setting_data S).hT, h1]; rfl
  have hA : d.totalAlphaD = 1 := by
    have := (setting_data S).hN
    omega
  obtain ⟨s', M, g1, g2, g3, g4, g5⟩ := C68_contact_matrix_partial R' S N exEnv ⟨rfl, rfl, rfl⟩ hA
  refine ⟨d, _, s', M, S, N, R', g1, g2, by omega, ?_⟩
  have := g5 (fun _ => 1) 0 (by decide)
  unfold Mat.rowMul at this
  rw [g4, hT, Finset.sum_range_one] at this
  unfold sides at this
  rw [h1, h2, hA] at this
  simpa [sidesOf, BiContact.ofUni, exCont, contactTorque, pointCol, pathOf, exRk, exEnv, exMb, restWith,
    onDofs, jpos, jdof, Side.force, combo, before, V3.dot, Out.val?] using this

end ContactMatrixEx

end Verif
