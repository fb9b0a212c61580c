import Verif.Proofs.SetPoint
import Verif.Proofs.Sizes
import Mathlib.Analysis.Calculus.MeanValue
import Mathlib.Analysis.Calculus.Deriv.Pow
import Mathlib.Analysis.Calculus.Deriv.Add
import Mathlib.Analysis.Calculus.Deriv.Mul

/-!
# C45: `TargetObjectiveTask`
-/

set_option autoImplicit false
set_option linter.unusedSectionVars false

namespace Verif

open Finset Spec

/-- Loop rule for a `forRange` that returned normally. -/
theorem forRange_ok_inv {σ : Type} {n : ℕ} {f : ℕ → σ → Out σ} (I : ℕ → σ → Prop) {s s' : σ}
    (h0 : I 0 s) (hs : ∀ i < n, ∀ s s', I i s → f i s = .ok s' → I (i + 1) s')
    (h : forRange n f s = .ok s') : I n s' := by
  induction n generalizing s' with
  | zero =>
    simp only [forRange, Out.ok.injEq] at h
    exact h ▸ h0
  | succ n ih =>
    simp only [forRange, Out.bind_eq_ok] at h
    obtain ⟨s1, h1, h2⟩ := h
    exact hs n (by omega) s1 s' (ih (fun i hi => hs i (by omega)) h1) h2

section
variable {K : Type} [Field K] [LinearOrder K] [IsStrictOrderedRing K]

theorem fdiv_ok_eq {a b c : K} : fdiv a b = .ok c ↔ b ≠ 0 ∧ c = a / b := by
  unfold fdiv
  split <;> rename_i h <;> simp [h, eq_comm]

/-- An update that returned normally: the remaining duration was not zero, and `phi`, `psi` have the
closed form below. -/
theorem targetObj_update_ok {dim : ℕ} {hl : HL K} {s s' : TargetObj K}
    (h : s.update dim hl = .ok s') :
    s.duration ≠ 0 ∧
    (∀ i < dim, s'.phi.get i = 6 / s.duration ^ 2 * (hl.eval.get i - s.duration * hl.speed.get i)
      + 2 / (-s.duration) * (s.objDot.get i - hl.speed.get i)) ∧
    (∀ i < dim, s'.psi.get i =
      6 / (-s.duration ^ 2) * (hl.eval.get i - s.duration * hl.speed.get i)
      + 4 / s.duration * (s.objDot.get i - hl.speed.get i)) ∧
    s'.Q = lsqQ s.dimWeight hl.jac ∧
    s'.C = lsqC s.dimWeight hl.jac (fun i => s'.phi.get i - hl.normalAcc.get i) ∧
    (s'.phi.size = hl.jac.rows ∧ s'.phi.size = s.phi.size) ∧
    s'.iter = s.iter + 1 ∧ s'.nrIter = s.nrIter ∧ s'.dt = s.dt ∧ s'.objDot = s.objDot ∧
    s'.dimWeight = s.dimWeight ∧ s'.alphaDBegin = s.alphaDBegin ∧ s'.weight = s.weight := by
  unfold TargetObj.update at h
  obtain ⟨m00, h0, h⟩ := Out.bind_eq_ok.1 h
  obtain ⟨m01, h1, h⟩ := Out.bind_eq_ok.1 h
  obtain ⟨m10, h2, h⟩ := Out.bind_eq_ok.1 h
  obtain ⟨m11, h3, h⟩ := Out.bind_eq_ok.1 h
  obtain ⟨pp, h4, h⟩ := Out.bind_eq_ok.1 h
  obtain ⟨preQ, h5, h⟩ := Out.bind_eq_ok.1 h
  obtain ⟨Q, h6, h⟩ := Out.bind_eq_ok.1 h
  obtain ⟨sm, h7, h⟩ := Out.bind_eq_ok.1 h
  obtain ⟨preC, h8, h⟩ := Out.bind_eq_ok.1 h
  obtain ⟨C, h9, h⟩ := Out.bind_eq_ok.1 h
  simp only [Out.pure_eq, Out.ok.injEq] at h
  rw [fdiv_ok_eq] at h0 h1 h2 h3
  obtain ⟨hd, h3⟩ := h3
  obtain ⟨_, h0⟩ := h0
  obtain ⟨_, h1⟩ := h1
  obtain ⟨_, h2⟩ := h2
  rw [diagMulM_eq_ok] at h5
  rw [trMul_eq_ok] at h6
  rw [subV_eq_ok] at h7
  rw [diagMulV_eq_ok] at h8
  rw [negTrMulVec_eq_ok] at h9
  obtain ⟨h5, rfl⟩ := h5
  obtain ⟨h6, rfl⟩ := h6
  obtain ⟨h7, rfl⟩ := h7
  obtain ⟨h8, rfl⟩ := h8
  obtain ⟨h9, rfl⟩ := h9
  have inv := forRange_ok_inv (I := fun n (p : Vec K × Vec K) =>
      p.1.size = s.phi.size ∧ ∀ i < n,
        p.1.get i = m00 * (hl.eval.get i - s.duration * hl.speed.get i)
          + m01 * (s.objDot.get i - hl.speed.get i) ∧
        p.2.get i = m10 * (hl.eval.get i - s.duration * hl.speed.get i)
          + m11 * (s.objDot.get i - hl.speed.get i))
    ⟨rfl, fun i hi => absurd hi (Nat.not_lt_zero i)⟩ (by
      rintro i _ p p' ⟨is, ih⟩ hp
      simp only [TargetObj.dimStep, Vec.at', Vec.set] at hp
      obtain ⟨e, he, hp⟩ := Out.bind_eq_ok.1 hp
      obtain ⟨v, hv, hp⟩ := Out.bind_eq_ok.1 hp
      obtain ⟨o, ho, hp⟩ := Out.bind_eq_ok.1 hp
      obtain ⟨f, hf, hp⟩ := Out.bind_eq_ok.1 hp
      obtain ⟨g, hg, hp⟩ := Out.bind_eq_ok.1 hp
      simp only [Out.pure_eq, Out.ok.injEq] at hp
      split at he <;> simp only [Out.ok.injEq, reduceCtorEq] at he
      split at hv <;> simp only [Out.ok.injEq, reduceCtorEq] at hv
      split at ho <;> simp only [Out.ok.injEq, reduceCtorEq] at ho
      split at hf <;> simp only [Out.ok.injEq, reduceCtorEq] at hf
      split at hg <;> simp only [Out.ok.injEq, reduceCtorEq] at hg
      subst hp hf hg he hv ho
      refine ⟨is, fun j hj => ?_⟩
      by_cases hij : j = i
      · subst hij
        simp [TargetObj.duration]
      · simp only [if_neg hij]
        exact ih j (by omega)) h4
  obtain ⟨is, inv⟩ := inv
  subst h
  have hdd : ((s.nrIter - s.iter : ℤ) : K) * s.dt = s.duration := rfl
  rw [hdd] at h0 h1 h2 h3 hd
  refine ⟨hd, ?_, ?_, rfl, rfl, ⟨?_, is⟩, rfl, rfl, rfl, rfl, rfl, rfl, rfl⟩
  · intro i hi
    rw [← h0, ← h1]
    exact (inv i hi).1
  · intro i hi
    rw [← h2, ← h3]
    exact (inv i hi).2
  · simp only at h9
    exact h9.symm

end

/-! ## C45 -/

namespace Spec

/-- A motion along one dimension from time 0 to time `d`: position `p`, velocity `q`, and an
acceleration linear in time from `phi` to `psi`, starting at position 0 with velocity `v`. -/
def LinearAcc (d v phi psi : ℝ) (p q : ℝ → ℝ) : Prop :=
  p 0 = 0 ∧ q 0 = v ∧ (∀ t, HasDerivAt p (q t) t) ∧
    ∀ t, HasDerivAt q (phi + (psi - phi) * (t / d)) t

end Spec

theorem hasDerivAt_cubic (c0 c1 c2 c3 t : ℝ) :
    HasDerivAt (fun t : ℝ => c0 + c1 * t + c2 * t ^ 2 + c3 * t ^ 3)
      (c1 + 2 * c2 * t + 3 * c3 * t ^ 2) t := by
  have e := ((((hasDerivAt_id' t).const_mul c1).const_add c0).add
    ((hasDerivAt_pow 2 t).const_mul c2)).add ((hasDerivAt_pow 3 t).const_mul c3)
  refine HasDerivAt.congr_deriv (f := fun t : ℝ => c0 + c1 * t + c2 * t ^ 2 + c3 * t ^ 3) e ?_
  push_cast
  ring

/-- Two functions with the same derivative and the same value at 0 are equal. -/
theorem eq_of_hasDerivAt {f g f' : ℝ → ℝ} (hf : ∀ t, HasDerivAt f (f' t) t)
    (hg : ∀ t, HasDerivAt g (f' t) t) (h0 : f 0 = g 0) (t : ℝ) : f t = g t := by
  have hz : ∀ t, HasDerivAt (fun t => f t - g t) 0 t := fun t =>
    HasDerivAt.congr_deriv ((hf t).sub (hg t)) (sub_self _)
  have := is_const_of_deriv_eq_zero (f := fun t => f t - g t)
    (fun t => (hz t).differentiableAt) (fun t => (hz t).deriv) t 0
  simp only [h0, sub_self] at this
  linarith

/-- The only such motion. -/
theorem linearAcc_closed {d v phi psi : ℝ} {p q : ℝ → ℝ}
    (h : LinearAcc d v phi psi p q) (t : ℝ) :
    q t = v + phi * t + (psi - phi) / (2 * d) * t ^ 2 ∧
    p t = v * t + phi / 2 * t ^ 2 + (psi - phi) / (6 * d) * t ^ 3 := by
  obtain ⟨h1, h2, h3, h4⟩ := h
  have hq : ∀ t, q t = v + phi * t + (psi - phi) / (2 * d) * t ^ 2 + 0 * t ^ 3 :=
    eq_of_hasDerivAt h4 (fun t => (hasDerivAt_cubic v phi ((psi - phi) / (2 * d)) 0 t).congr_deriv
      (by ring)) (by simp [h2])
  have hp : ∀ t, p t = 0 + v * t + phi / 2 * t ^ 2 + (psi - phi) / (6 * d) * t ^ 3 :=
    eq_of_hasDerivAt h3 (fun t => (hasDerivAt_cubic 0 v (phi / 2) ((psi - phi) / (6 * d))
      t).congr_deriv (by rw [hq t]; ring)) (by simp [h1])
  exact ⟨by rw [hq t]; ring, by rw [hp t]; ring⟩

/-- Such a motion exists. -/
theorem linearAcc_exists (d v phi psi : ℝ) :
    LinearAcc d v phi psi
      (fun t => 0 + v * t + phi / 2 * t ^ 2 + (psi - phi) / (6 * d) * t ^ 3)
      (fun t => v + phi * t + (psi - phi) / (2 * d) * t ^ 2 + 0 * t ^ 3) :=
  ⟨by simp, by simp,
    fun t => (hasDerivAt_cubic 0 v (phi / 2) ((psi - phi) / (6 * d)) t).congr_deriv (by ring),
    fun t => (hasDerivAt_cubic v phi ((psi - phi) / (2 * d)) 0 t).congr_deriv (by ring)⟩

/-- **C45**.  At an update with remaining duration `d` (which is then not zero), for every dimension:
the motion starting with the current task speed and accelerating linearly in time from `phi` to
`psi` covers exactly the task error and has velocity `objDot` after the remaining duration; and
`phi`, `psi` are the only values with this property. -/
theorem C45_profile {dim : ℕ} {hl : HL ℝ} {s s' : TargetObj ℝ} (h : s.update dim hl = .ok s') :
    ∀ i < dim,
      (∀ p q, LinearAcc s.duration (hl.speed.get i) (s'.phi.get i) (s'.psi.get i) p q →
        p s.duration = hl.eval.get i ∧ q s.duration = s.objDot.get i) ∧
      (∀ phi psi p q, LinearAcc s.duration (hl.speed.get i) phi psi p q →
        p s.duration = hl.eval.get i → q s.duration = s.objDot.get i →
        phi = s'.phi.get i ∧ psi = s'.psi.get i) := by
  obtain ⟨hd, hphi, hpsi, _⟩ := targetObj_update_ok h
  intro i hi
  generalize s.duration = d at hd hphi hpsi ⊢
  constructor
  · intro p q hl'
    obtain ⟨h1, h2⟩ := linearAcc_closed hl' d
    rw [h1, h2, hphi i hi, hpsi i hi]
    constructor <;> · field_simp; ring
  · intro phi psi p q hl' e1 e2
    obtain ⟨h1, h2⟩ := linearAcc_closed hl' d
    rw [h1] at e2
    rw [h2] at e1
    rw [hphi i hi, hpsi i hi, ← e1, ← e2]
    constructor <;> · field_simp; ring

section
variable {K : Type} [Field K] [LinearOrder K] [IsStrictOrderedRing K]

/-- **C45** (objective).  The objective pulls the task acceleration towards `phi`, the acceleration of
the profile now. -/
theorem C45_objective {dim : ℕ} {hl : HL K} {s s' : TargetObj K} (h : s.update dim hl = .ok s') :
    IsLsq s'.task s.weight s.dimWeight.get hl.jac hl.normalAcc.get s'.phi.get s.alphaDBegin ∧
    (0 ≤ s.weight → (∀ i < hl.jac.rows, 0 ≤ s.dimWeight.get i) → TaskConvex s'.task) := by
  obtain ⟨_, _, _, h1, h2, _, _, _, _, _, _, h3, h4⟩ := targetObj_update_ok h
  unfold TargetObj.task
  rw [h1, h2, h3, h4]
  exact ⟨isLsq_mk _ _ _ _ _ _, fun hw hW => lsqQ_convex _ _ _ _ _ hw hW⟩

/-- **C45** (time consistency).  A task that has followed the profile for a time `t` and is updated
again with the remaining time finds the same profile: the acceleration the profile has at `t`, and
the same final acceleration. -/
theorem C45_consistent {dim : ℕ} {hl hl' : HL ℝ} {s s' r r' : TargetObj ℝ} {t : ℝ}
    (h : s.update dim hl = .ok s') (h' : r.update dim hl' = .ok r')
    (hd : r.duration = s.duration - t) (ho : ∀ i < dim, r.objDot.get i = s.objDot.get i)
    {p q : ℕ → ℝ → ℝ}
    (hm : ∀ i < dim, LinearAcc s.duration (hl.speed.get i) (s'.phi.get i) (s'.psi.get i) (p i) (q i))
    (he : ∀ i < dim, hl'.eval.get i = hl.eval.get i - p i t)
    (hv : ∀ i < dim, hl'.speed.get i = q i t) :
    ∀ i < dim, r'.phi.get i = s'.phi.get i + (s'.psi.get i - s'.phi.get i) * (t / s.duration) ∧
      r'.psi.get i = s'.psi.get i := by
  obtain ⟨hd1, hphi, hpsi, _⟩ := targetObj_update_ok h
  obtain ⟨hd2, hphi', hpsi', _⟩ := targetObj_update_ok h'
  intro i hi
  obtain ⟨h1, h2⟩ := linearAcc_closed (hm i hi) t
  rw [hphi' i hi, hpsi' i hi, he i hi, hv i hi, ho i hi, h1, h2]
  have e1 := hphi i hi
  have e2 := hpsi i hi
  rw [hd] at hd2 ⊢
  generalize s.duration = d at *
  have g1 : hl.eval.get i = hl.speed.get i * d + s'.phi.get i / 2 * d ^ 2
      + (s'.psi.get i - s'.phi.get i) / (6 * d) * d ^ 3 := by
    rw [e1, e2]; field_simp; ring
  have g2 : s.objDot.get i = hl.speed.get i + s'.phi.get i * d
      + (s'.psi.get i - s'.phi.get i) / (2 * d) * d ^ 2 := by
    rw [e1, e2]; field_simp; ring
  rw [g1, g2]
  generalize s'.phi.get i = a at *
  generalize s'.psi.get i = b at *
  constructor <;> · field_simp; ring

/-- **C45 stops at the end**: an update at the last iteration (remaining duration zero) divides by
zero. -/
theorem C45_end {dim : ℕ} {hl : HL K} {s : TargetObj K} (h : s.iter = s.nrIter) :
    s.update dim hl = .ub := by
  unfold TargetObj.update
  simp [h, fdiv]

/-- **C45** (iterations).  After the constructor or `duration(d)`, `n = round(d / dt)` updates at
most are defined, the remaining duration after `k` of them is `(n - k) dt`, and the next update is
undefined once `k = n`. -/
theorem C45_iterations {round : K → Out ℤ} {dur : K} {dim : ℕ} {hls : List (HL K)} {n : ℕ}
    {s0 s1 s : TargetObj K}
    (hn : ∀ r, fdiv dur s0.dt = .ok r → round r = .ok (n : ℤ))
    (hd : s0.setDuration round dur = .ok s1)
    (hr : forEach hls (fun hl s => s.update dim hl) s1 = .ok s) :
    hls.length ≤ n ∧ s.duration = ((n : K) - hls.length) * s0.dt ∧
      (hls.length = n → ∀ hl, s.update dim hl = .ub) := by
  unfold TargetObj.setDuration at hd
  obtain ⟨r, h1, hd⟩ := Out.bind_eq_ok.1 hd
  obtain ⟨m, h2, hd⟩ := Out.bind_eq_ok.1 hd
  simp only [Out.pure_eq, Out.ok.injEq] at hd
  rw [hn r h1] at h2
  simp only [Out.ok.injEq] at h2
  have key : ∀ (l : List (HL K)) (a : TargetObj K), a.nrIter = n → a.iter ≤ n → a.dt = s0.dt →
      forEach l (fun hl s => s.update dim hl) a = .ok s →
      s.nrIter = n ∧ s.iter = a.iter + l.length ∧ s.iter ≤ n ∧ s.dt = s0.dt := by
    intro l
    induction l with
    | nil =>
      intro a e1 e2 e3 e4
      simp only [forEach, Out.ok.injEq] at e4
      subst e4
      exact ⟨e1, by simp, e2, e3⟩
    | cons hl t ih =>
      intro a e1 e2 e3 e4
      simp only [forEach, Out.bind_eq_ok] at e4
      obtain ⟨a', e5, e4⟩ := e4
      have hne : a.iter ≠ n := by
        intro heq
        have := C45_end (dim := dim) (hl := hl) (s := a) (by rw [heq, e1])
        rw [this] at e5
        cases e5
      obtain ⟨_, _, _, _, _, _, f1, f2, f3, _⟩ := targetObj_update_ok e5
      obtain ⟨g1, g2, g3, g4⟩ := ih a' (by rw [f2, e1]) (by rw [f1]; omega) (by rw [f3, e3]) e4
      refine ⟨g1, ?_, g3, g4⟩
      rw [g2, f1]
      push_cast [List.length_cons]
      ring
  subst hd h2
  obtain ⟨g1, g2, g3, g4⟩ := key hls { s0 with
    nrIter := n, iter := 0 } rfl (by simp) rfl hr
  simp only [zero_add] at g2
  have hle : hls.length ≤ n := by rw [g2] at g3; exact_mod_cast g3
  refine ⟨hle, ?_, ?_⟩
  · unfold TargetObj.duration
    rw [g1, g2, g4]
    push_cast
    ring
  · intro heq hl
    exact C45_end (by rw [g1, g2, heq])

/-- Before the end, with matching sizes, an update is defined. -/
theorem C45_defined {dim : ℕ} {hl : HL K} {s : TargetObj K} (hi : s.iter ≠ s.nrIter) (ht : s.dt ≠ 0)
    (h1 : hl.eval.size = dim) (h2 : hl.speed.size = dim) (h3 : hl.normalAcc.size = dim)
    (h4 : hl.jac.rows = dim) (h5 : s.objDot.size = dim) (h6 : s.dimWeight.size = dim)
    (h7 : s.phi.size = dim) (h8 : s.psi.size = dim) : ∃ s', s.update dim hl = .ok s' := by
  have hd : ((s.nrIter - s.iter : ℤ) : K) * s.dt ≠ 0 :=
    mul_ne_zero (by exact_mod_cast sub_ne_zero.2 (Ne.symm hi)) ht
  unfold TargetObj.update
  simp only [fdiv, if_neg hd, if_neg (pow_ne_zero 2 hd), if_neg (neg_ne_zero.2 hd),
    if_neg (neg_ne_zero.2 (pow_ne_zero 2 hd)), Out.ok_bind]
  have : ∀ m00 m01 m10 m11 : K, ∃ pp,
      forRange dim (TargetObj.dimStep hl (((s.nrIter - s.iter : ℤ) : K) * s.dt) m00 m01 m10 m11
        s.objDot) (s.phi, s.psi) = .ok pp ∧ (pp.1.size = dim ∧ pp.2.size = dim) := by
    intro m00 m01 m10 m11
    refine forRange_inv (I := fun _ (p : Vec K × Vec K) => p.1.size = dim ∧ p.2.size = dim) ⟨h7, h8⟩ ?_
    rintro i hi ⟨a, b⟩ ⟨ha, hb⟩
    simp only at ha hb
    simp [TargetObj.dimStep, Vec.at', Vec.set, h1, h2, h5, ha, hb, hi]
  obtain ⟨pp, e, hp1, hp2⟩ := this _ _ _ _
  rw [e]
  simp [Mat.diagMul, Mat.trMul, Vec.subV, Vec.diagMul, Mat.negTrMulVec, h3, h4, h6, hp1]

end

namespace TargetObjEx

/-- A one-dimensional task with 4 iterations of 1/2 s left. -/
noncomputable def st : TargetObj ℝ :=
  ⟨1, 0, 4, 1/2, Vec.ofList [1], Vec.ofList [1], 0, 0, Vec.ofList [0], Vec.ofList [0],
    Mat.ofRows 1 [[0]], Vec.ofList [0]⟩

noncomputable def hl : HL ℝ :=
  ⟨Mat.ofRows 1 [[2]], Vec.ofList [3], Vec.ofList [1], Vec.ofList [0]⟩

/-- The hypotheses of `C45_profile` hold at a state with error 3, speed 1, target velocity 1 and
2 seconds left; the profile is not trivial: `phi = 3/2`, `psi = -3/2`. -/
example : ∃ s', st.update 1 hl = .ok s' ∧ s'.phi.get 0 = 3/2 ∧ s'.psi.get 0 = -(3/2) := by
  obtain ⟨s', h⟩ := C45_defined (dim := 1) (hl := hl) (s := st) (by simp [st]) (by norm_num [st])
    rfl rfl rfl rfl rfl rfl rfl rfl
  obtain ⟨_, h1, h2, _⟩ := targetObj_update_ok h
  refine ⟨s', h, ?_, ?_⟩
  · rw [h1 0 (by norm_num)]
    norm_num [TargetObj.duration, st, hl, Vec.ofList]
  · rw [h2 0 (by norm_num)]
    norm_num [TargetObj.duration, st, hl, Vec.ofList]

end TargetObjEx

end Verif
