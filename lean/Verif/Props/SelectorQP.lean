import Verif.Props.Selector
import Verif.Props.SetPoint

/-!
# C46 (continued): when `JointsSelector` is defined, and what the quadratic program gets from it
-/

set_option autoImplicit false
set_option linter.unusedSectionVars false

namespace Verif

open Finset Spec

section
variable {K : Type} [CommRing K]

namespace Spec

/-- The names are joints of the robot, and the ranges given for one of them are inside the joint; with
assertions compiled in they also end before its last dof (see `C46_last_dof_assert`). -/
def SelOK (asserts : Bool) (mb : MultiBody K) (names : List String) (dofs : DofMap) : Prop :=
  ∀ name ∈ names, ∃ i, mb.joints.findIdx? (fun j => j.name == name) = some i ∧
    ∀ l, (name, l) ∈ dofs → ∀ r ∈ l, r.1 + r.2 ≤ jdof mb i ∧ (asserts = true → r.1 + r.2 < jdof mb i)

end Spec

theorem jpos_jdof_le (mb : MultiBody K) {i : ℕ} (hi : i < mb.joints.length) :
    jpos mb i + jdof mb i ≤ mb.nrDof := by
  have h1 : jpos mb i + jdof mb i = ((mb.joints.map Joint.dof).take (i + 1)).sum := by
    rw [List.take_add_one, List.getElem?_map, List.getElem?_eq_getElem hi]
    simp [jpos, jdof, List.map_take, List.getElem?_eq_getElem hi]
  have h2 := congrArg List.sum (List.take_append_drop (i + 1) (mb.joints.map Joint.dof))
  rw [List.sum_append] at h2
  unfold MultiBody.nrDof
  omega

theorem nameStep_defined {asserts : Bool} {mb : MultiBody K} {names : List String} {dofs : DofMap}
    (h : SelOK asserts mb names dofs) {name : String} (hn : name ∈ names) (sel : List (ℕ × ℕ))
    (hsel : ∀ p ∈ sel, p.1 + p.2 ≤ mb.nrDof) :
    ∃ sel', Selector.nameStep asserts mb dofs name sel = .ok sel' ∧ ∀ p ∈ sel', p.1 + p.2 ≤ mb.nrDof := by
  obtain ⟨i, hi, hr⟩ := h name hn
  obtain ⟨hlt, -⟩ := List.findIdx?_eq_some_iff_getElem.1 hi
  have hfit := jpos_jdof_le mb hlt
  have e1 : mb.jointIndexByName name = .ok i := by
    unfold MultiBody.jointIndexByName
    rw [hi]
  have e2 : mb.jointPosInDof i = .ok (jpos mb i) := by
    unfold MultiBody.jointPosInDof
    rw [if_pos hlt]
    rfl
  have e3 : jdof mb i = mb.joints[i].dof := by simp [jdof, List.getElem?_eq_getElem hlt]
  unfold Selector.nameStep
  rw [e1, Out.ok_bind, e2]
  cases hl : dofs.lookup name with
  | none =>
    dsimp only
    rw [Out.ok_bind, vecAt_ok hlt, Out.ok_bind]
    refine ⟨_, rfl, fun p hp => ?_⟩
    rcases List.mem_append.1 hp with hp | hp
    · exact hsel p hp
    · simp only [List.mem_singleton] at hp
      subst hp
      dsimp only
      omega
  | some l =>
    dsimp only
    rw [Out.ok_bind]
    have hr := hr l (lookup_mem hl)
    clear hl
    induction l generalizing sel with
    | nil => exact ⟨sel, rfl, hsel⟩
    | cons r t ih =>
      obtain ⟨g1, g2⟩ := hr r (by simp)
      have : (asserts && !decide (r.1 + r.2 < mb.joints[i].dof)) = false := by
        cases ha : asserts with
        | false => rfl
        | true => simp [← e3, g2 ha]
      obtain ⟨sel', q1, q2⟩ := ih (sel ++ [(jpos mb i + r.1, r.2)]) (by
        intro p hp
        rcases List.mem_append.1 hp with hp | hp
        · exact hsel p hp
        · simp only [List.mem_singleton] at hp
          subst hp
          dsimp only
          omega) (fun q hq => hr q (by simp [hq]))
      refine ⟨sel', ?_, q2⟩
      rw [vecAt_ok hlt] at q1 ⊢
      rw [forEach, Out.ok_bind, this, if_neg (by simp), Out.pure_eq, Out.ok_bind]
      exact q1

/-- The constructor is defined for names and ranges of the robot, and each update is defined when the
Jacobian of the wrapped task has its size. -/
theorem C46_defined {asserts : Bool} {mbs : List (MultiBody K)} {mb : MultiBody K} {rI dim : ℕ}
    {names : List String} {dofs : DofMap} (hmb : mbs[rI]? = some mb) (h : SelOK asserts mb names dofs) :
    ∃ s0, Selector.activeJoints asserts mbs rI dim names dofs = .ok s0 ∧
      ∀ hls : List (HL K), (∀ hl ∈ hls, hl.jac.rows = dim ∧ hl.jac.cols = mb.nrDof) →
        ∃ s, forEach hls (fun hl s => s.update hl) s0 = .ok s := by
  have h1 : ∀ l : List String, (∀ n ∈ l, n ∈ names) → ∀ sel : List (ℕ × ℕ),
      (∀ p ∈ sel, p.1 + p.2 ≤ mb.nrDof) →
      ∃ sel', forEach l (Selector.nameStep asserts mb dofs) sel = .ok sel' ∧
        ∀ p ∈ sel', p.1 + p.2 ≤ mb.nrDof := by
    intro l
    induction l with
    | nil => exact fun _ sel hs => ⟨sel, rfl, hs⟩
    | cons n t ih =>
      intro hl sel hs
      obtain ⟨s1, e1, g1⟩ := nameStep_defined h (hl n (by simp)) sel hs
      obtain ⟨s2, e2, g2⟩ := ih (fun q hq => hl q (by simp [hq])) s1 g1
      exact ⟨s2, by rw [forEach, e1, Out.ok_bind]; exact e2, g2⟩
  obtain ⟨sel, e, hsel⟩ := h1 names (fun _ hn => hn) [] (by simp)
  refine ⟨⟨Mat.zero dim mb.nrDof, sel.insertionSort (fun a b => a.1 ≤ b.1)⟩, ?_, ?_⟩
  · unfold Selector.activeJoints Selector.make
    rw [show vecAt mbs rI = .ok mb from vecAt_eq_ok.2 hmb, Out.ok_bind, e]
    rfl
  · have copy : ∀ (J : Mat K), J.rows = dim → J.cols = mb.nrDof → ∀ (l : List (ℕ × ℕ)),
        (∀ p ∈ l, p.1 + p.2 ≤ mb.nrDof) → ∀ m : Mat K, m.rows = dim → m.cols = mb.nrDof →
        ∃ m', forEach l (Selector.copyStep J) m = .ok m' ∧ m'.rows = dim ∧ m'.cols = mb.nrDof := by
      intro J hJ1 hJ2 l
      induction l with
      | nil => exact fun _ m g1 g2 => ⟨m, rfl, g1, g2⟩
      | cons p t ih =>
        intro hl m g1 g2
        have hp := hl p (by simp)
        have : ∃ m', Selector.copyStep J p m = .ok m' ∧ m'.rows = dim ∧ m'.cols = mb.nrDof := by
          unfold Selector.copyStep Mat.block Mat.setBlock
          rw [if_pos (by omega), Out.ok_bind, if_pos (by dsimp only; omega)]
          exact ⟨_, rfl, g1, g2⟩
        obtain ⟨m', e1, f1, f2⟩ := this
        obtain ⟨m2, e2, f3, f4⟩ := ih (fun q hq => hl q (by simp [hq])) m' f1 f2
        exact ⟨m2, by rw [forEach, e1, Out.ok_bind]; exact e2, f3, f4⟩
    have main : ∀ hls : List (HL K), (∀ hl ∈ hls, hl.jac.rows = dim ∧ hl.jac.cols = mb.nrDof) →
        ∀ s : Selector K, (∀ p ∈ s.sel, p.1 + p.2 ≤ mb.nrDof) → s.jac.rows = dim → s.jac.cols = mb.nrDof →
        ∃ s', forEach hls (fun hl s => s.update hl) s = .ok s' := by
      intro hls
      induction hls with
      | nil => exact fun _ s _ _ _ => ⟨s, rfl⟩
      | cons hl t ih =>
        intro hh s g1 g2 g3
        obtain ⟨m', e1, f1, f2⟩ := copy hl.jac (hh hl (by simp)).1 (hh hl (by simp)).2 s.sel g1 s.jac g2 g3
        obtain ⟨s', e2⟩ := ih (fun q hq => hh q (by simp [hq])) { s with
          jac := m' } g1 f1 f2
        refine ⟨s', ?_⟩
        rw [forEach]
        unfold Selector.update
        rw [e1, Out.ok_bind]
        exact e2
    exact fun hls hh => main hls hh _ (fun p hp => hsel p (by simpa using hp)) rfl rfl

end

section
variable {K : Type} [Field K] [LinearOrder K] [IsStrictOrderedRing K]

/-- A `SetPointTask` on a selector, after any calls on both: the objective is the least squares of the
selected part of the Jacobian with the error, speed and normal acceleration of the wrapped task, and it
does not depend on the accelerations that are not selected. -/
theorem C46_set_point {sqrt : K → Out K} (hs : SqrtOK sqrt) {asserts : Bool} {mbs : List (MultiBody K)}
    {mb : MultiBody K} {rI dim : ℕ} {names : List String} {dofs : DofMap}
    (hn : (dofs.map Prod.fst).Nodup) (hmb : mbs[rI]? = some mb) {c0 c c' : Selector K} {hls : List (HL K)}
    {hl : HL K} (hcm : Selector.activeJoints asserts mbs rI dim names dofs = .ok c0)
    (hcr : forEach hls (fun hl s => s.update hl) c0 = .ok c) (hcu : c.update hl = .ok c')
    {k0 w : K} {dw : Option (Vec K)} {junk : ℕ → ℕ → K} {s0 s s' : SetPoint K} {ops : List (SetPointOp K)}
    (hm : SetPoint.make sqrt mbs rI dim k0 dw w junk = .ok s0)
    (hr : forEach ops (SetPoint.step sqrt) s0 = .ok s) (hu : s.update (c'.hl hl) = .ok s') :
    let v := ops.foldl (·.apply rI) (⟨⟨initW dim dw, 0⟩, k0⟩ : SetPointSet K)
    ∃ (J : Mat K) (d : K), MaskedBy (ActiveCol mb names dofs) mb.nrDof hl.jac J ∧ J.rows = dim ∧
      0 ≤ d ∧ d * d = 4 * v.k ∧
      IsLsq s'.c.task w v.W.get J hl.normalAcc.get (fun i => v.k * hl.eval.get i - d * hl.speed.get i) v.b ∧
      ∀ x y : ℕ → K, (∀ j < mb.nrDof, ActiveCol mb names dofs j → x (v.b + j) = y (v.b + j)) →
        s'.c.task.obj x = s'.c.task.obj y := by
  intro v
  obtain ⟨h1, h2⟩ := C46_active hn hmb hcm hcr hcu
  obtain ⟨⟨d, d0, d1, hl1⟩, -⟩ := C43_setpoint hs hm hr hu
  exact ⟨c'.jac, d, h2, h1, d0, d1, hl1, fun x y hxy => C46_objective h2 hl1 hxy⟩

end

/-- The hypotheses of `C46_defined` and `C46_set_point` hold: on the five-dof robot with joint "c" and the
second dof of "a" selected, a set-point task of stiffness 4 does not see the other three dofs. -/
example : ∃ (c c' : Selector ℚ) (s s' : SetPoint ℚ),
    SelOK true SelectorEx.mb ["c", "a"] [("a", [(1, 1)])] ∧
    Selector.activeJoints true [SelectorEx.mb] 0 1 ["c", "a"] [("a", [(1, 1)])] = .ok c ∧
    c.update SelectorEx.hl = .ok c' ∧
    SetPoint.make (fun x => if x = 4 then .ok 2 else .ub) [SelectorEx.mb] 0 1 4 none 1 (fun _ _ => 7) = .ok s ∧
    s.update (c'.hl SelectorEx.hl) = .ok s' ∧
    s'.c.task.obj (fun j => if j = 0 then 100 else 1) = s'.c.task.obj (fun _ => 1) ∧
    s'.c.task.obj (fun j => if j = 1 then 100 else 1) ≠ s'.c.task.obj (fun _ => 1) := by
  refine ⟨_, _, _, _, ?_, rfl, rfl, rfl, rfl, ?_, ?_⟩
  · intro name hname
    have : name = "c" ∨ name = "a" := by simpa using hname
    rcases this with rfl | rfl
    · exact ⟨2, by decide, by simp⟩
    · exact ⟨0, by decide, by simp [jdof, SelectorEx.mb]⟩
  · norm_num [TaskQC.obj, SPCommon.task, SelectorEx.hl, SelectorEx.mb, Selector.hl, Mat.ofRows,
      Mat.zero, MultiBody.nrDof, Vec.ofList, Finset.sum_range_succ, Vec.const]
  · norm_num [TaskQC.obj, SPCommon.task, SelectorEx.hl, SelectorEx.mb, Selector.hl, Mat.ofRows,
      Mat.zero, MultiBody.nrDof, Vec.ofList, Finset.sum_range_succ, Vec.const]

end Verif
