import Verif.Props.Weights
import Verif.Props.Converge

/-!
# C74: compatible set-point tasks in one solver all converge

C62 lets the minimiser of one task act; here the accelerations are those returned by `solve` on any number of
tasks and constraints.
-/

set_option autoImplicit false
set_option linter.unusedSectionVars false

namespace Verif

open Finset Spec

namespace Spec

/-- Some admissible point achieves every task at once, and does not move the variables that the solver penalises
itself. -/
def Compatible {K : Type} [Field K] [LinearOrder K] [IsStrictOrderedRing K] (mbs : List (MultiBody K)) (n : ℕ)
    (inp : QPInput K) : Prop :=
  ∃ x0, Admissible mbs n inp x0 ∧ (∀ t ∈ inp.tasks, Minimises t x0) ∧ ∀ i, Regularised n inp i → x0 i = 0

/-- A `SetPointTask` in the control loop of a solver: created once, at every time `t ≥ 0` any calls are made, it is
updated with the values `hl t` and is among the tasks that the solver assembles (`inp t`); the last stiffness given
is `k`, the dimension weights are positive, the unknowns of the robot begin at `b`, and the target
`k * eval - 2 sqrt k * speed` can be reached. -/
def SetPointInSolver (dim : ℕ) (k : ℝ) (b : ℕ) (hl : ℝ → HL ℝ) (inp : ℝ → QPInput ℝ) : Prop :=
  ∃ (sqrt : ℝ → Out ℝ) (mbs : List (MultiBody ℝ)) (rI : ℕ) (w k0 : ℝ) (dw : Option (Vec ℝ))
    (junk : ℕ → ℕ → ℝ) (s0 : SetPoint ℝ) (s s' : ℝ → SetPoint ℝ) (ops : ℝ → List (SetPointOp ℝ)),
    SqrtOK sqrt ∧ 0 < w ∧ SetPoint.make sqrt mbs rI dim k0 dw w junk = .ok s0 ∧
    (∀ t, 0 ≤ t → forEach (ops t) (SetPoint.step sqrt) s0 = .ok (s t)) ∧
    (∀ t, 0 ≤ t → (s t).update (hl t) = .ok (s' t)) ∧
    (∀ t, 0 ≤ t → let v := (ops t).foldl (·.apply rI) (⟨⟨initW dim dw, 0⟩, k0⟩ : SetPointSet ℝ)
      v.k = k ∧ v.b = b ∧ ∀ i < (hl t).jac.rows, 0 < v.W.get i) ∧
    (∀ t, 0 ≤ t → TargetReached (hl t) b fun i =>
      k * (hl t).eval.get i - 2 * Real.sqrt k * (hl t).speed.get i) ∧
    ∀ t, 0 ≤ t → (s' t).c.task ∈ (inp t).tasks

end Spec

variable {mbs : List (MultiBody ℝ)} {n : ℕ} {inp : ℝ → QPInput ℝ} {x : ℝ → Vec ℝ} {bk : ℝ → String}

/-- What the solver returns minimises each of the compatible tasks: the loop of C62 is the one of the solver. -/
theorem setPointLoop_of_solver {dim : ℕ} {k : ℝ} {b : ℕ} {hl : ℝ → HL ℝ}
    (hs : ∀ t, 0 ≤ t → Solved (bk t) mbs n (inp t) (x t)) (hc : ∀ t, 0 ≤ t → Compatible mbs n (inp t))
    (L : SetPointInSolver dim k b hl inp) : SetPointLoop dim k b hl fun t => (x t).get := by
  obtain ⟨sqrt, mbs', rI, w, k0, dw, junk, s0, s, s', ops, h1, h2, h3, h4, h5, h6, h7, h8⟩ := L
  refine ⟨sqrt, mbs', rI, w, k0, dw, junk, s0, s, s', ops, h1, h2, h3, h4, h5, h6, h7, fun t ht => ?_⟩
  obtain ⟨x0, a1, a2, a3⟩ := hc t ht
  exact (C72_compatible_partial (hs t ht) a1 a2 a3).2.1 _ (h8 t ht)

/-- **C74**.  A solver called at every time, whose tasks are compatible: every `SetPointTask` among them follows
the critically damped response of its own stiffness, whatever the weights, the other tasks, the constraints, the
backend and the numerical solver; with a positive stiffness its error tends to zero.  Partial: the common
minimiser must not move the variables that the solver penalises itself (see `WeightEx.C72_counterexample`). -/
theorem C74_together_partial {dim : ℕ} {k : ℝ} {b a : ℕ} {hl : ℝ → HL ℝ}
    (hs : ∀ t, 0 ≤ t → Solved (bk t) mbs n (inp t) (x t)) (hc : ∀ t, 0 ≤ t → Compatible mbs n (inp t))
    (L : SetPointInSolver dim k b hl inp) (ha : ∀ t, a < (hl t).jac.rows)
    (hf : Follows hl b a fun t => (x t).get) :
    (∀ t, 0 ≤ t → (hl t).eval.get a = critical (Real.sqrt k) ((hl 0).eval.get a) (-(hl 0).speed.get a) t) ∧
    (0 < k → Filter.Tendsto (fun t => (hl t).eval.get a) Filter.atTop (nhds 0)) ∧
    ((hl 0).speed.get a = 0 → ∀ t, 0 ≤ t →
      |(hl t).eval.get a| ≤ |(hl 0).eval.get a| ∧ 0 ≤ (hl t).eval.get a * (hl 0).eval.get a) :=
  have L' := setPointLoop_of_solver hs hc L
  ⟨fun _ ht => C62_setpoint L' ha hf ht, C62_converges L' ha hf, fun h0 _ ht => C62_no_overshoot L' ha hf h0 ht⟩

namespace TogetherEx
open ConvEx

/-- Two sliders. -/
def robot : MultiBody ℝ := ⟨[⟨"a", 1, none⟩, ⟨"b", 1, none⟩], 2, [-1, 0], [0, 1]⟩

def mbc : Mbc ℝ Unit := ⟨[[0], [0]], [PT.one, PT.one], [0, 0], [0, 0], ()⟩

/-- Slider `j` goes to its target from `c` away. -/
noncomputable def hlJ (j : ℕ) (c t : ℝ) : HL ℝ :=
  ⟨⟨1, 2, fun _ k => if k = j then 1 else 0⟩, ⟨1, fun _ => -(c * q t)⟩, ⟨1, fun _ => c * v t⟩, ⟨1, fun _ => 0⟩⟩

noncomputable def spJ (w : ℝ) : SetPoint ℝ :=
  ⟨⟨w, Vec.const 1 1, 0, 0, ⟨2, 2, fun _ _ => 7⟩, ⟨2, fun _ => 7⟩, ⟨1, fun _ => 7⟩⟩, 1, 2 * Real.sqrt 1⟩

/-- The accelerations. -/
noncomputable def y (t : ℝ) : ℕ → ℝ := fun i => if i = 0 then acc t else if i = 1 then 3 * acc t else 0

theorem upd (j : ℕ) (c w t : ℝ) : ∃ s', (spJ w).update (hlJ j c t) = .ok s' ∧
    s'.c.task.Sized 2 ∧ s'.c.task.q 0 0 = (if j = 0 then w else 0) ∧ s'.c.task.q 1 1 = if j = 1 then w else 0 := by
  refine ⟨_, setPoint_update_eq_ok.2 ⟨⟨rfl, rfl, rfl, rfl⟩, rfl⟩, ?_, ?_, ?_⟩
  · simp [TaskQC.Sized, SPCommon.task, spJ, lsqQ, lsqC, hlJ]
  · by_cases h : j = 0
    · simp [TaskQC.q, SPCommon.task, spJ, lsqQ, hlJ, Vec.const, h]
    · simp [TaskQC.q, SPCommon.task, spJ, lsqQ, hlJ, Vec.const, h, eq_comm]
  · by_cases h : j = 1
    · simp [TaskQC.q, SPCommon.task, spJ, lsqQ, hlJ, Vec.const, h]
    · simp [TaskQC.q, SPCommon.task, spJ, lsqQ, hlJ, Vec.const, h, eq_comm]

theorem make (w : ℝ) : SetPoint.make RelEx.sqrtR [robot] 0 1 1 none w (fun _ _ => 7) = .ok (spJ w) := by
  simp [SetPoint.make, SPCommon.make, RelEx.sqrtR, vecAt, robot, MultiBody.nrDof, spJ]

theorem row (j : ℕ) (hj : j < 2) (c t : ℝ) (z : ℕ → ℝ) (i : ℕ) : rowAt (hlJ j c t).jac 0 z i = z j := by
  have : j = 0 ∨ j = 1 := by omega
  rcases this with rfl | rfl <;> simp [rowAt, hlJ, Finset.sum_range_succ]

/-- Two tasks of different weights on the two sliders, solved together at every time: both converge. -/
example : ∃ (inp : ℝ → QPInput ℝ) (x : ℝ → Vec ℝ), (∀ t, Solved "QLD" [robot] 2 (inp t) (x t)) ∧
    (∀ t, Compatible [robot] 2 (inp t)) ∧ SetPointInSolver 1 1 0 (hlJ 0 1) inp ∧
    SetPointInSolver 1 1 0 (hlJ 1 3) inp ∧ Follows (hlJ 0 1) 0 0 (fun t => (x t).get) ∧
    Follows (hlJ 1 3) 0 0 (fun t => (x t).get) ∧
    Filter.Tendsto (fun t => (hlJ 1 3 t).eval.get 0) Filter.atTop (nhds 0) := by
  choose s1 u1 z1 a1 b1 using fun t => upd 0 1 10 t
  choose s2 u2 z2 a2 b2 using fun t => upd 1 3 (1/2) t
  let inp : ℝ → QPInput ℝ := fun t => ⟨[(s1 t).c.task, (s2 t).c.task], [], [], [], []⟩
  have reach : ∀ (j : ℕ) (c t : ℝ), j < 2 → y t j = c * acc t → ∀ i < (hlJ j c t).jac.rows,
      rowAt (hlJ j c t).jac 0 (y t) i + (hlJ j c t).normalAcc.get i
        = 1 * (hlJ j c t).eval.get i - 2 * Real.sqrt 1 * (hlJ j c t).speed.get i := by
    intro j c t hj hy i _
    rw [row j hj, hy]
    simp [hlJ, q, v, acc]
    ring
  have opt : ∀ (j : ℕ) (c w t : ℝ) (s' : SetPoint ℝ), j < 2 → 0 < w → y t j = c * acc t →
      (spJ w).update (hlJ j c t) = .ok s' → Minimises s'.c.task (y t) := by
    intro j c w t s' hj hw hy hu z
    obtain ⟨⟨d, d0, d1, hl⟩, -⟩ := C43_setpoint RelEx.sqrtR_ok (ops := []) (make w) rfl hu
    have hd : d = 2 * Real.sqrt 1 := by
      simp at d1 ⊢
      nlinarith
    subst hd
    exact C43_minimiser hl hw.le (fun i _ => by simp [initW]) (reach j c t hj hy) z
  have o1 : ∀ t, Minimises (s1 t).c.task (y t) := fun t => opt 0 1 10 t _ (by norm_num) (by norm_num) (by simp [y]) (u1 t)
  have o2 : ∀ t, Minimises (s2 t).c.task (y t) := fun t =>
    opt 1 3 (1/2) t _ (by norm_num) (by norm_num) (by simp [y]) (u2 t)
  have hreg : ∀ t i, ¬ Regularised 2 (inp t) i := by
    rintro t i ⟨hi, h⟩
    have : i = 0 ∨ i = 1 := by omega
    rcases this with rfl | rfl
    · simp only [accDiag, inp, List.map_cons, List.map_nil, List.sum_cons, List.sum_nil, a1, a2] at h
      norm_num at h
    · simp only [accDiag, inp, List.map_cons, List.map_nil, List.sum_cons, List.sum_nil, b1, b2] at h
      norm_num [abs_of_pos] at h
  have hno : ∀ mb ∈ [robot], NoMimic mb := by
    intro mb hmb j hj
    simp only [List.mem_singleton] at hmb
    subst hmb
    simp only [robot, List.mem_cons, List.not_mem_nil, or_false] at hj
    rcases hj with rfl | rfl <;> rfl
  have hok : ∀ mb ∈ [robot], MimicOK mb := by
    intro mb hmb
    refine ⟨?_, fun j hj l m h => by rw [hno mb hmb j hj] at h; cases h⟩
    simp only [List.mem_singleton] at hmb
    subst hmb
    simp [robot]
  have hsol : ∀ t, ∃ x, Solved "QLD" [robot] 2 (inp t) x ∧ ∀ i, x.get i = y t i := by
    intro t
    refine realise (mbs := [robot]) (uni := []) (bi := []) (mbcs := [mbc]) (inp := inp t) hok hno ?_
      (by intro c hc; simp at hc) rfl ?_ ⟨?_, by simp [inp], by simp [inp], by simp [inp], by simp [inp]⟩
      Nat.two_pos (by simp [inp]) ⟨⟨by simp [inp], by simp [inp], by simp [inp]⟩, by simp [inp]⟩ (fun z _ => ?_)
    · intro mb hmb _
      simp only [List.mem_singleton] at hmb
      subst hmb
      refine ⟨rfl, rfl, rfl, ?_⟩
      intro i p h
      match i with
      | 0 => simp [robot] at h; exact Or.inl h.symm
      | 1 => simp [robot] at h; exact Or.inr ⟨0, by omega, h.symm⟩
      | k + 2 => simp [robot] at h
    · intro r mb m hr hmm
      cases r with
      | zero => simp at hr hmm; subst hr; subst hmm; exact ⟨rfl, fun _ => ⟨rfl, rfl, rfl⟩⟩
      | succ r => simp at hr
    · intro t' ht'
      simp only [inp, List.mem_cons, List.not_mem_nil, or_false] at ht'
      rcases ht' with rfl | rfl
      · exact z1 t
      · exact z2 t
    · have e : nrVariables [robot] ([] : List (UniContact ℝ)) [] = 2 := rfl
      rw [e]
      have hp : ∀ z, objective 2 (inp t) z = (s1 t).c.task.obj z + (s2 t).c.task.obj z := by
        intro z
        unfold objective
        rw [Finset.sum_eq_zero fun i hi => ?_]
        · simp [inp]
        · simp only [mem_filter, mem_range] at hi
          exact absurd hi (hreg t i)
      rw [hp, hp]
      exact add_le_add (o1 t z) (o2 t z)
  choose x hx ex using hsol
  have hcomp : ∀ t, Compatible [robot] 2 (inp t) := fun t =>
    ⟨y t, ⟨⟨⟨by simp [inp], by simp [inp], by simp [inp]⟩, by simp [inp]⟩, mimicJoints_of_noMimic hno _⟩, by
      intro t' ht'
      simp only [inp, List.mem_cons, List.not_mem_nil, or_false] at ht'
      rcases ht' with rfl | rfl
      · exact o1 t
      · exact o2 t, fun i hi => absurd hi (hreg t i)⟩
  have f : ∀ (j : ℕ) (c : ℝ), j < 2 → (∀ t, y t j = c * acc t) → Follows (hlJ j c) 0 0 fun t => (x t).get := by
    intro j c hj hy
    refine ⟨fun t _ => ?_, fun t _ => ?_⟩
    · refine (((q_deriv t).const_mul c).neg).congr_deriv ?_
      simp [hlJ]
    · refine ((v_deriv t).const_mul c).congr_deriv ?_
      rw [row j hj, ex, hy]
      simp [hlJ]
  have f1 := f 0 1 (by norm_num) (fun t => by simp [y])
  have f2 := f 1 3 (by norm_num) (fun t => by simp [y])
  have l : ∀ (j : ℕ) (c w : ℝ) (s' : ℝ → SetPoint ℝ), j < 2 → 0 < w → (∀ t, y t j = c * acc t) →
      (∀ t, (spJ w).update (hlJ j c t) = .ok (s' t)) → (∀ t, (s' t).c.task ∈ (inp t).tasks) →
      SetPointInSolver 1 1 0 (hlJ j c) inp := by
    intro j c w s' hj hw hy hu hmem
    exact ⟨RelEx.sqrtR, [robot], 0, w, 1, none, fun _ _ => 7, _, fun _ => _, s', fun _ => [], RelEx.sqrtR_ok, hw, make w,
      fun t _ => rfl, fun t _ => hu t, fun t _ => ⟨rfl, rfl, fun i _ => by simp [initW]⟩,
      fun t _ => ⟨y t, reach j c t hj (hy t)⟩, fun t _ => hmem t⟩
  have l2 := l 1 3 (1/2) s2 (by norm_num) (by norm_num) (fun t => by simp [y]) u2 (fun t => by simp [inp])
  exact ⟨inp, x, hx, hcomp, l 0 1 10 s1 (by norm_num) (by norm_num) (fun t => by simp [y]) u1 (fun t => by simp [inp]), l2,
    f1, f2, (C74_together_partial (fun t _ => hx t) (fun t _ => hcomp t) l2 (fun t => by simp [hlJ]) f2).2.1 one_pos⟩

end TogetherEx

end Verif
