import Verif.Model.SetPoint
import Verif.Proofs.Fill
import Verif.Proofs.Psd

/-!
# Lemmas about the set-point tasks
-/

set_option autoImplicit false
set_option linter.unusedSectionVars false

namespace Verif

open Finset Spec

section
variable {K : Type} [CommRing K]

theorem addV_eq_ok {a b c : Vec K} :
    a.addV b = .ok c ↔ a.size = b.size ∧ c = ⟨a.size, fun i => a.get i + b.get i⟩ := by
  unfold Vec.addV
  split <;> rename_i h <;> simp [h, eq_comm]

theorem subV_eq_ok {a b c : Vec K} :
    a.subV b = .ok c ↔ a.size = b.size ∧ c = ⟨a.size, fun i => a.get i - b.get i⟩ := by
  unfold Vec.subV
  split <;> rename_i h <;> simp [h, eq_comm]

theorem diagMulV_eq_ok {a b c : Vec K} :
    a.diagMul b = .ok c ↔ a.size = b.size ∧ c = ⟨b.size, fun i => a.get i * b.get i⟩ := by
  unfold Vec.diagMul
  split <;> rename_i h <;> simp [h, eq_comm]

theorem diagMulM_eq_ok {w : Vec K} {m c : Mat K} :
    Mat.diagMul w m = .ok c ↔
      w.size = m.rows ∧ c = ⟨m.rows, m.cols, fun i j => w.get i * m.get i j⟩ := by
  unfold Mat.diagMul
  split <;> rename_i h <;> simp [h, eq_comm]

theorem negTrMulVec_eq_ok {a : Mat K} {v c : Vec K} :
    a.negTrMulVec v = .ok c ↔
      a.rows = v.size ∧ c = ⟨a.cols, fun j => ∑ i ∈ range a.rows, -a.get i j * v.get i⟩ := by
  unfold Mat.negTrMulVec
  split <;> rename_i h <;> simp [h, eq_comm]

theorem trMul_eq_ok {a b c : Mat K} :
    a.trMul b = .ok c ↔
      a.rows = b.rows ∧
        c = ⟨a.cols, b.cols, fun j k => ∑ i ∈ range a.rows, a.get i j * b.get i k⟩ := by
  unfold Mat.trMul
  split <;> rename_i h <;> simp [h, eq_comm]

/-- The Hessian block `J' W J` as `SetPointTaskCommon::computeQC` stores it. -/
def lsqQ (W : Vec K) (J : Mat K) : Mat K :=
  ⟨J.cols, J.cols, fun j k => ∑ i ∈ range J.rows, J.get i j * (W.get i * J.get i k)⟩

/-- The linear term `-J' W e`. -/
def lsqC (W : Vec K) (J : Mat K) (e : ℕ → K) : Vec K :=
  ⟨J.cols, fun j => ∑ i ∈ range J.rows, -J.get i j * (W.get i * e i)⟩

theorem computeQC_eq_ok {hl : HL K} {e e' : Vec K} {s s' : SPCommon K} :
    s.computeQC hl e = .ok (e', s') ↔
      (e.size = hl.normalAcc.size ∧ s.dimWeight.size = e.size ∧ hl.jac.rows = e.size) ∧
      e' = ⟨e.size, fun i => e.get i - hl.normalAcc.get i⟩ ∧
      s' = { s with
        Q := lsqQ s.dimWeight hl.jac,
        C := lsqC s.dimWeight hl.jac (fun i => e.get i - hl.normalAcc.get i) } := by
  unfold SPCommon.computeQC
  simp only [Out.bind_eq_ok, subV_eq_ok, diagMulV_eq_ok, negTrMulVec_eq_ok, diagMulM_eq_ok,
    trMul_eq_ok, Out.pure_eq]
  constructor
  · rintro ⟨_, ⟨h1, rfl⟩, _, ⟨h2, rfl⟩, _, ⟨h3, rfl⟩, _, ⟨h4, rfl⟩, _, ⟨h5, rfl⟩, h6⟩
    simp only [Out.ok.injEq, Prod.mk.injEq] at h6
    obtain ⟨rfl, rfl⟩ := h6
    exact ⟨⟨h1, h2, h3⟩, rfl, rfl⟩
  · rintro ⟨⟨h1, h2, h3⟩, rfl, rfl⟩
    exact ⟨_, ⟨h1, rfl⟩, _, ⟨h2, rfl⟩, _, ⟨h3, rfl⟩, _, ⟨by omega, rfl⟩, _, ⟨rfl, rfl⟩, rfl⟩

end

section
variable {K : Type} [Field K] [LinearOrder K] [IsStrictOrderedRing K]

namespace Spec

/-- Row `i` of `J` applied to the part of `x` starting at variable `b`. -/
def rowAt (J : Mat K) (b : ℕ) (x : ℕ → K) (i : ℕ) : K :=
  ∑ j ∈ range J.cols, J.get i j * x (b + j)

/-- `1/2 ||J x + nA - target||²` weighted by `W`. -/
def lsq (W : ℕ → K) (J : Mat K) (nA target : ℕ → K) (b : ℕ) (x : ℕ → K) : K :=
  (∑ i ∈ range J.rows, W i * (rowAt J b x i + nA i - target i) ^ 2) / 2

/-- The task's contribution to the objective is the weighted least-squares distance between the
task acceleration `J x + nA` and `target`, up to a constant. -/
def IsLsq (t : TaskQC K) (w : K) (W : ℕ → K) (J : Mat K) (nA target : ℕ → K) (b : ℕ) : Prop :=
  t.weight = w ∧ t.begin' = (b, b) ∧ t.Q.rows = J.cols ∧ t.Q.cols = J.cols ∧ t.C.size = J.cols ∧
  ∃ c, ∀ x, t.obj x = w * lsq W J nA target b x - c

end Spec

/-- Completing the square. -/
theorem lsq_expand (W : Vec K) (J : Mat K) (nA tgt : ℕ → K) (w : K) (b : ℕ) (x : ℕ → K) :
    TaskQC.obj ⟨lsqQ W J, lsqC W J (fun i => tgt i - nA i), (b, b), w⟩ x
      = w * lsq W.get J nA tgt b x
        - w * ((∑ i ∈ range J.rows, W.get i * (tgt i - nA i) ^ 2) / 2) := by
  unfold TaskQC.obj lsq
  have h1 : ∑ a ∈ range J.cols, ∑ c ∈ range J.cols, x (b + a) * (lsqQ W J).get a c * x (b + c)
      = ∑ i ∈ range J.rows, W.get i * rowAt J b x i ^ 2 := by
    have : ∀ i, W.get i * rowAt J b x i ^ 2 = ∑ a ∈ range J.cols, ∑ c ∈ range J.cols,
        x (b + a) * (J.get i a * (W.get i * J.get i c)) * x (b + c) := by
      intro i
      rw [pow_two]
      unfold rowAt
      rw [Finset.sum_mul_sum, Finset.mul_sum]
      refine Finset.sum_congr rfl fun a _ => ?_
      rw [Finset.mul_sum]
      exact Finset.sum_congr rfl fun c _ => by ring
    simp only [this]
    conv_rhs => rw [Finset.sum_comm]
    refine Finset.sum_congr rfl fun a _ => ?_
    conv_rhs => rw [Finset.sum_comm]
    refine Finset.sum_congr rfl fun c _ => ?_
    simp only [lsqQ, Finset.mul_sum, Finset.sum_mul]
  have h2 : ∑ a ∈ range J.cols, (lsqC W J (fun i => tgt i - nA i)).get a * x (b + a)
      = -∑ i ∈ range J.rows, W.get i * ((tgt i - nA i) * rowAt J b x i) := by
    have : ∀ i, W.get i * ((tgt i - nA i) * rowAt J b x i)
        = ∑ a ∈ range J.cols, J.get i a * (W.get i * (tgt i - nA i)) * x (b + a) := by
      intro i
      unfold rowAt
      rw [Finset.mul_sum, Finset.mul_sum]
      exact Finset.sum_congr rfl fun a _ => by ring
    simp only [this]
    rw [Finset.sum_comm, ← Finset.sum_neg_distrib]
    refine Finset.sum_congr rfl fun a _ => ?_
    simp only [lsqC, Finset.sum_mul]
    rw [← Finset.sum_neg_distrib]
    exact Finset.sum_congr rfl fun i _ => by ring
  have h3 : (lsqQ W J).rows = J.cols := rfl
  have h4 : (lsqQ W J).cols = J.cols := rfl
  dsimp only
  rw [h3, h4, h1, h2]
  have h5 : ∑ i ∈ range J.rows, W.get i * (rowAt J b x i + nA i - tgt i) ^ 2
      = ∑ i ∈ range J.rows, W.get i * rowAt J b x i ^ 2
        - 2 * ∑ i ∈ range J.rows, W.get i * ((tgt i - nA i) * rowAt J b x i)
        + ∑ i ∈ range J.rows, W.get i * (tgt i - nA i) ^ 2 := by
    rw [Finset.mul_sum, ← Finset.sum_sub_distrib, ← Finset.sum_add_distrib]
    exact Finset.sum_congr rfl fun i _ => by ring
  rw [h5]
  ring

theorem isLsq_mk (W : Vec K) (J : Mat K) (nA tgt : ℕ → K) (w : K) (b : ℕ) :
    IsLsq ⟨lsqQ W J, lsqC W J (fun i => tgt i - nA i), (b, b), w⟩ w W.get J nA tgt b :=
  ⟨rfl, rfl, rfl, rfl, rfl, _, fun x => lsq_expand W J nA tgt w b x⟩

theorem lsqQ_convex (W : Vec K) (J : Mat K) (C : Vec K) (w : K) (b : ℕ) (hw : 0 ≤ w)
    (hW : ∀ i < J.rows, 0 ≤ W.get i) : TaskConvex ⟨lsqQ W J, C, (b, b), w⟩ := by
  refine ⟨rfl, rfl, hw, ?_, ?_⟩
  · intro a _ c _
    simp only [lsqQ]
    exact Finset.sum_congr rfl fun i _ => by ring
  · intro x
    have : ∑ a ∈ range (lsqQ W J).rows, ∑ c ∈ range (lsqQ W J).rows,
        x a * (lsqQ W J).get a c * x c
        = ∑ i ∈ range J.rows, W.get i * (∑ a ∈ range J.cols, J.get i a * x a) ^ 2 := by
      have : ∀ i, W.get i * (∑ a ∈ range J.cols, J.get i a * x a) ^ 2
          = ∑ a ∈ range J.cols, ∑ c ∈ range J.cols,
            x a * (J.get i a * (W.get i * J.get i c)) * x c := by
        intro i
        rw [pow_two, Finset.sum_mul_sum, Finset.mul_sum]
        refine Finset.sum_congr rfl fun a _ => ?_
        rw [Finset.mul_sum]
        exact Finset.sum_congr rfl fun c _ => by ring
      simp only [this]
      conv_rhs => rw [Finset.sum_comm]
      refine Finset.sum_congr rfl fun a _ => ?_
      conv_rhs => rw [Finset.sum_comm]
      refine Finset.sum_congr rfl fun c _ => ?_
      simp only [lsqQ, Finset.mul_sum, Finset.sum_mul]
    show 0 ≤ ∑ a ∈ range (lsqQ W J).rows, ∑ c ∈ range (lsqQ W J).rows,
        x a * (lsqQ W J).get a c * x c
    rw [this]
    exact Finset.sum_nonneg fun i hi => mul_nonneg (hW i (Finset.mem_range.1 hi)) (sq_nonneg _)

/-- The least-squares property only depends on the rows of the task. -/
theorem IsLsq.congr {t : TaskQC K} {w : K} {W : ℕ → K} {J : Mat K} {nA tgt tgt' : ℕ → K} {b : ℕ}
    (h : IsLsq t w W J nA tgt b) (he : ∀ i < J.rows, tgt i = tgt' i) :
    IsLsq t w W J nA tgt' b := by
  obtain ⟨h1, h2, h3, h4, h5, c, h6⟩ := h
  refine ⟨h1, h2, h3, h4, h5, c, fun x => ?_⟩
  rw [h6 x]
  unfold lsq
  rw [Finset.sum_congr rfl fun i hi => by rw [he i (Finset.mem_range.1 hi)]]

end

section
variable {K : Type} [CommRing K]

theorem setPoint_update_eq_ok {hl : HL K} {s s' : SetPoint K} :
    s.update hl = .ok s' ↔
      (hl.eval.size = hl.speed.size ∧ hl.eval.size = hl.normalAcc.size ∧
        s.c.dimWeight.size = hl.eval.size ∧ hl.jac.rows = hl.eval.size) ∧
      s' = { s with
        c := { s.c with
          Q := lsqQ s.c.dimWeight hl.jac,
          C := lsqC s.c.dimWeight hl.jac (fun i =>
            (s.stiffness * hl.eval.get i - s.stiffnessSqrt * hl.speed.get i) - hl.normalAcc.get i),
          error := ⟨hl.eval.size, fun i =>
            (s.stiffness * hl.eval.get i - s.stiffnessSqrt * hl.speed.get i)
              - hl.normalAcc.get i⟩ } } := by
  unfold SetPoint.update
  simp only [Out.bind_eq_ok, subV_eq_ok, Out.pure_eq, Prod.exists]
  constructor
  · rintro ⟨_, ⟨h1, rfl⟩, e, c, h2, h3⟩
    rw [computeQC_eq_ok] at h2
    obtain ⟨⟨a1, a2, a3⟩, rfl, rfl⟩ := h2
    simp only [Out.ok.injEq] at h3
    subst h3
    exact ⟨⟨h1, a1, a2, a3⟩, rfl⟩
  · rintro ⟨⟨h1, a1, a2, a3⟩, rfl⟩
    exact ⟨_, ⟨h1, rfl⟩, _, _, computeQC_eq_ok.2 ⟨⟨a1, a2, a3⟩, rfl, rfl⟩, rfl⟩

theorem tracking_update_eq_ok {hl : HL K} {s s' : Tracking K} :
    s.update hl = .ok s' ↔
      (s.errorPos.size = s.errorVel.size ∧ s.errorPos.size = s.refAccel.size ∧
        s.errorPos.size = hl.normalAcc.size ∧
        s.c.dimWeight.size = s.errorPos.size ∧ hl.jac.rows = s.errorPos.size) ∧
      s' = { s with
        c := { s.c with
          Q := lsqQ s.c.dimWeight hl.jac,
          C := lsqC s.c.dimWeight hl.jac (fun i =>
            (s.gainPos * s.errorPos.get i + s.gainVel * s.errorVel.get i + s.refAccel.get i)
              - hl.normalAcc.get i),
          error := ⟨s.errorPos.size, fun i =>
            (s.gainPos * s.errorPos.get i + s.gainVel * s.errorVel.get i + s.refAccel.get i)
              - hl.normalAcc.get i⟩ } } := by
  unfold Tracking.update
  simp only [Out.bind_eq_ok, addV_eq_ok, Out.pure_eq, Prod.exists]
  constructor
  · rintro ⟨_, ⟨h1, rfl⟩, _, ⟨h2, rfl⟩, e, c, h3, h4⟩
    rw [computeQC_eq_ok] at h3
    obtain ⟨⟨a1, a2, a3⟩, rfl, rfl⟩ := h3
    simp only [Out.ok.injEq] at h4
    subst h4
    exact ⟨⟨h1, h2, a1, a2, a3⟩, rfl⟩
  · rintro ⟨⟨h1, h2, a1, a2, a3⟩, rfl⟩
    exact ⟨_, ⟨h1, rfl⟩, _, ⟨h2, rfl⟩, _, _, computeQC_eq_ok.2 ⟨⟨a1, a2, a3⟩, rfl, rfl⟩, rfl⟩

theorem trajectory_update_eq_ok {hl : HL K} {s s' : Trajectory K} :
    s.update hl = .ok s' ↔
      (s.stiffness.size = hl.eval.size ∧ s.refVel.size = hl.speed.size ∧
        s.damping.size = s.refVel.size ∧ hl.eval.size = s.refVel.size ∧
        hl.eval.size = s.refAccel.size ∧ hl.eval.size = hl.normalAcc.size ∧
        s.c.dimWeight.size = hl.eval.size ∧ hl.jac.rows = hl.eval.size) ∧
      s' = { s with
        c := { s.c with
          Q := lsqQ s.c.dimWeight hl.jac,
          C := lsqC s.c.dimWeight hl.jac (fun i =>
            (s.stiffness.get i * hl.eval.get i
              + s.damping.get i * (s.refVel.get i - hl.speed.get i) + s.refAccel.get i)
              - hl.normalAcc.get i),
          error := ⟨hl.eval.size, fun i =>
            (s.stiffness.get i * hl.eval.get i
              + s.damping.get i * (s.refVel.get i - hl.speed.get i) + s.refAccel.get i)
              - hl.normalAcc.get i⟩ } } := by
  unfold Trajectory.update
  simp only [Out.bind_eq_ok, addV_eq_ok, subV_eq_ok, diagMulV_eq_ok, Out.pure_eq, Prod.exists]
  constructor
  · rintro ⟨_, ⟨h1, rfl⟩, _, ⟨h2, rfl⟩, _, ⟨h3, rfl⟩, _, ⟨h4, rfl⟩, _, ⟨h5, rfl⟩, e, c, h6, h7⟩
    rw [computeQC_eq_ok] at h6
    obtain ⟨⟨a1, a2, a3⟩, rfl, rfl⟩ := h6
    simp only [Out.ok.injEq] at h7
    subst h7
    exact ⟨⟨h1, h2, h3, h4, h5, a1, a2, a3⟩, rfl⟩
  · rintro ⟨⟨h1, h2, h3, h4, h5, a1, a2, a3⟩, rfl⟩
    exact ⟨_, ⟨h1, rfl⟩, _, ⟨h2, rfl⟩, _, ⟨h3, rfl⟩, _, ⟨h4, rfl⟩, _, ⟨h5, rfl⟩, _, _,
      computeQC_eq_ok.2 ⟨⟨a1, a2, a3⟩, rfl, rfl⟩, rfl⟩

theorem pid_update_eq_ok {hl : HL K} {s s' : Pid K} :
    s.update hl = .ok s' ↔
      (s.error.size = s.errorD.size ∧ s.error.size = s.errorI.size ∧
        s.error.size = hl.normalAcc.size ∧
        s.c.dimWeight.size = s.error.size ∧ hl.jac.rows = s.error.size) ∧
      s' = { s with
        c := { s.c with
          Q := lsqQ s.c.dimWeight hl.jac,
          C := lsqC s.c.dimWeight hl.jac (fun i =>
            (s.P * s.error.get i - s.D * s.errorD.get i - s.I * s.errorI.get i)
              - hl.normalAcc.get i) },
        error := ⟨s.error.size, fun i =>
            (s.P * s.error.get i - s.D * s.errorD.get i - s.I * s.errorI.get i)
              - hl.normalAcc.get i⟩ } := by
  unfold Pid.update
  simp only [Out.bind_eq_ok, subV_eq_ok, Out.pure_eq, Prod.exists]
  constructor
  · rintro ⟨_, ⟨h1, rfl⟩, _, ⟨h2, rfl⟩, e, c, h3, h4⟩
    rw [computeQC_eq_ok] at h3
    obtain ⟨⟨a1, a2, a3⟩, rfl, rfl⟩ := h3
    simp only [Out.ok.injEq] at h4
    subst h4
    exact ⟨⟨h1, h2, a1, a2, a3⟩, rfl⟩
  · rintro ⟨⟨h1, h2, a1, a2, a3⟩, rfl⟩
    exact ⟨_, ⟨h1, rfl⟩, _, ⟨h2, rfl⟩, _, _, computeQC_eq_ok.2 ⟨⟨a1, a2, a3⟩, rfl, rfl⟩, rfl⟩

end

end Verif
