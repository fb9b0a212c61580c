import Verif.Props.Fill
import Verif.Model.Diag

/-! # C16: diagnostics of a failed LSSOL solve -/

set_option autoImplicit false
set_option linter.unusedSectionVars false

namespace Verif

open Finset Spec

variable {K : Type} [Field K] [LinearOrder K] [IsStrictOrderedRing K]

/-! ## Specification -/

namespace Spec

/-- Line `i` of the problem handed to LSSOL is line `l` of the `idx`-th registered constraint of
list `kind`: same row, same bounds, and `l` is an active line. -/
def IsLine (n : ℕ) (inp : QPInput K) (p : LssolProblem K) (i : ℕ) : LineKind → ℕ → ℕ → Prop
  | .eq, idx, l => ∃ c, inp.eq[idx]? = some c ∧ l < c.nrEq ∧
      (∀ j < n, p.A.get i j = c.A.get l j) ∧ p.AL.get i = .fin (c.b.get l) ∧
      p.AU.get i = .fin (c.b.get l)
  | .inEq, idx, l => ∃ c, inp.inEq[idx]? = some c ∧ l < c.nrInEq ∧
      (∀ j < n, p.A.get i j = c.A.get l j) ∧ p.AL.get i = .negInf ∧ p.AU.get i = c.b.get l
  | .gen, idx, l => ∃ c, inp.gen[idx]? = some c ∧ l < c.nrGen ∧
      (∀ j < n, p.A.get i j = c.A.get l j) ∧ p.AL.get i = c.L.get l ∧ p.AU.get i = c.U.get l

end Spec

/-! ## Helper lemmas -/

theorem constrErr_before (kind : LineKind) (r a : ℕ) (cs : List DiagC) (idx s : ℕ) (h : a < s) :
    constrErrorMsg kind r a cs idx (s, s) = .ok ([], s + (cs.map DiagC.nrLines).sum,
      s + (cs.map DiagC.nrLines).sum) := by
  induction cs generalizing idx s with
  | nil => simp [constrErrorMsg]
  | cons c t ih =>
    unfold constrErrorMsg
    simp only
    rw [if_neg (by omega), ih _ _ (by omega)]
    simp [Nat.add_assoc]

theorem constrErr_after (kind : LineKind) (r a : ℕ) (cs : List DiagC) (idx s : ℕ)
    (h : s + (cs.map DiagC.nrLines).sum ≤ a) :
    constrErrorMsg kind r a cs idx (s, s) = .ok ([], s + (cs.map DiagC.nrLines).sum,
      s + (cs.map DiagC.nrLines).sum) := by
  induction cs generalizing idx s with
  | nil => simp [constrErrorMsg]
  | cons c t ih =>
    simp only [List.map_cons, List.sum_cons] at h
    unfold constrErrorMsg
    simp only
    rw [if_neg (by omega), ih _ _ (by omega)]
    simp [Nat.add_assoc]

theorem constrErr_hit (kind : LineKind) (r a : ℕ) (cs : List DiagC) (idx s : ℕ)
    (hr : ∀ c ∈ cs, c.cols = r) (h1 : s ≤ a) (h2 : a < s + (cs.map DiagC.nrLines).sum) :
    ∃ k l c s', constrErrorMsg kind r a cs idx (s, s) = .ok ([.line kind (idx + k) l], s', s') ∧
      cs[k]? = some c ∧ l < c.nrLines ∧ a = s + ((cs.take k).map DiagC.nrLines).sum + l ∧ a < s' := by
  induction cs generalizing idx s with
  | nil => simp at h2; omega
  | cons c t ih =>
    simp only [List.map_cons, List.sum_cons] at h2
    unfold constrErrorMsg
    simp only
    by_cases hc : s ≤ a ∧ a < s + c.nrLines
    · rw [if_pos hc, if_pos (hr c (by simp))]
      exact ⟨0, a - s, c, s + c.nrLines, rfl, rfl, by omega, by simp; omega, by omega⟩
    · rw [if_neg hc]
      obtain ⟨k, l, c', s', e, h3, h4, h5, h6⟩ := ih (idx + 1) (s + c.nrLines)
        (fun c hc => hr c (by simp [hc])) (by omega) (by omega)
      refine ⟨k + 1, l, c', s', ?_, by simpa using h3, h4, ?_, h6⟩
      · rw [e, show idx + 1 + k = idx + (k + 1) by omega]
      · simp only [List.take_succ_cons, List.map_cons, List.sum_cons]; omega

theorem flatMap_getElem {α β : Type} (f : α → List β) (len : α → ℕ)
    (hlen : ∀ a, (f a).length = len a) (cs : List α) (k l : ℕ) (c : α) (hk : cs[k]? = some c)
    (hl : l < len c) :
    (cs.flatMap f)[((cs.take k).map len).sum + l]? = (f c)[l]? := by
  induction cs generalizing k with
  | nil => simp at hk
  | cons a t ih =>
    cases k with
    | zero =>
      simp only [List.getElem?_cons_zero, Option.some.injEq] at hk
      subst hk
      simp only [List.take_zero, List.map_nil, List.sum_nil, zero_add, List.flatMap_cons]
      rw [List.getElem?_append_left (by rw [hlen]; exact hl)]
    | succ k =>
      simp only [List.getElem?_cons_succ] at hk
      simp only [List.take_succ_cons, List.map_cons, List.sum_cons, List.flatMap_cons]
      rw [List.getElem?_append_right (by rw [hlen]; omega), hlen, ← ih k hk]
      congr 1
      omega

theorem genLines_getElem {n k : ℕ} {A : Mat K} {L U : Vec (Ext K)} {i : ℕ} (h : i < k) :
    (genLines n k A L U)[i]? = some (row n A i, L.get i, U.get i) := by
  simp [genLines, h]

theorem row_eq {n : ℕ} {A B : Mat K} {i l : ℕ} (h : row n A i = row n B l) :
    ∀ j < n, A.get i j = B.get l j := by
  intro j hj
  have := congrFun h j
  simpa [row, hj] using this

/-- The three line lists are concatenated in order. -/
theorem sum_map_flatMap_length {α β : Type} (f : α → List β) (len : α → ℕ)
    (hlen : ∀ a, (f a).length = len a) (cs : List α) :
    (cs.flatMap f).length = (cs.map len).sum := by
  induction cs with
  | nil => rfl
  | cons a t ih => simp [List.flatMap_cons, hlen, ih]

/-! ## Attribution of a violated line -/

/-- Full statement of **C16**: after a failed solve, with `istate` the state LSSOL reports (one
entry per variable, then one per line, negative when violated), the message lists exactly the
violated variables covered by a bound constraint and the violated lines, each with the constraint
and local line it comes from.  It is false, see `C16_bounds_never_reported`,
`C16_reports_satisfied_line` and `C16_undefined_with_mimic`. -/
def C16_full (K : Type) [Field K] [LinearOrder K] : Prop :=
  ∀ (n e i g : ℕ) (inp : QPInput K) (s0 s1 : Lssol K) (p : LssolProblem K) (istate : Vec ℤ),
    InputFits n e i g inp → (∃ deps, DepsAre n deps s0.dep) →
    (s0.updateSize n e i g).updateMatrix inp = .ok s1 → s1.problem = .ok p →
    istate.size = p.C.size + p.A.rows →
    ∃ msg, s1.errorMsg istate inp = .ok msg ∧
      (∀ v < p.C.size, istate.get v < 0 ∧ (∃ c ∈ inp.bound, Covers c v) →
        ∃ idx l, DiagEntry.bound idx l ∈ msg) ∧
      (∀ j < p.A.rows, istate.get (p.C.size + j) < 0 ↔
        ∃ k idx l, DiagEntry.line k idx l ∈ msg ∧ IsLine n inp p j k idx l)

/-- **C16**, the part that holds: for every violated line number `a` of the problem, exactly one
constraint is named and it is the one whose active line was copied to QP line `a`, with the local
line number; for every list of constraints, empty ones included.  Missing for the full statement:
which lines are looked at (`istate` is read at wrong positions) and the bounds. -/
theorem C16_line_attribution_partial {n e i g : ℕ} {hist : List (QPInput K)} {inp : QPInput K}
    (h : ∀ j ∈ hist ++ [inp], InputFits n e i g j) {s0 : Lssol K} (hd : DepsAre n [] s0.dep)
    {p : LssolProblem K} (hp : LssolRun n e i g hist inp s0 p)
    (hcols : (∀ c ∈ inp.eq, c.A.cols = n) ∧ (∀ c ∈ inp.inEq, c.A.cols = n) ∧
      ∀ c ∈ inp.gen, c.A.cols = n)
    (a : ℕ) (ha : a < p.A.rows) :
    ∃ k idx l, lineMsg n a (inp.eq.map fun c => ⟨c.nrEq, c.A.cols⟩)
        (inp.inEq.map fun c => ⟨c.nrInEq, c.A.cols⟩) (inp.gen.map fun c => ⟨c.nrGen, c.A.cols⟩)
        = .ok [.line k idx l] ∧ IsLine n inp p a k idx l := by
  obtain ⟨p', _, hu, _, _, _, _, _, _, hrows, _, _, _, _, hlines⟩ := lssolRun_spec h hd
  rw [hu p hp] at ha ⊢
  have hlines := hlines rfl
  have hget := genLines_getElem (n := n) (A := p'.A) (L := p'.AL) (U := p'.AU) ha
  rw [hlines] at hget
  rw [hrows] at ha
  set es : List DiagC := inp.eq.map fun c => ⟨c.nrEq, c.A.cols⟩ with hes
  set cs : List DiagC := inp.inEq.map fun c => ⟨c.nrInEq, c.A.cols⟩ with hcs
  set gs : List DiagC := inp.gen.map fun c => ⟨c.nrGen, c.A.cols⟩ with hgs
  have se : (es.map DiagC.nrLines).sum = (inp.eq.map EqC.nrEq).sum := by
    simp [hes, Function.comp_def]
  have sc : (cs.map DiagC.nrLines).sum = (inp.inEq.map InEqC.nrInEq).sum := by
    simp [hcs, Function.comp_def]
  have sg : (gs.map DiagC.nrLines).sum = (inp.gen.map GenC.nrGen).sum := by
    simp [hgs, Function.comp_def]
  have le : (inp.eq.flatMap (EqC.gLines n)).length = (inp.eq.map EqC.nrEq).sum :=
    sum_map_flatMap_length _ _ (by intro c; simp [EqC.gLines, genLines]) _
  have lc : (inp.inEq.flatMap (InEqC.gLines n)).length = (inp.inEq.map InEqC.nrInEq).sum :=
    sum_map_flatMap_length _ _ (by intro c; simp [InEqC.gLines, genLines]) _
  unfold lineMsg
  by_cases h1 : a < (inp.eq.map EqC.nrEq).sum
  · obtain ⟨k, l, c, s', e1, f1, f2, f3, f4⟩ := constrErr_hit .eq n a es 0 0
      (by intro c hc; simp only [hes, List.mem_map] at hc; obtain ⟨d, hd, rfl⟩ := hc
          exact hcols.1 d hd) (by omega) (by rw [se]; omega)
    refine ⟨.eq, k, l, ?_, ?_⟩
    · rw [e1, Out.ok_bind]
      dsimp only
      rw [constrErr_before _ _ _ _ _ _ f4, Out.ok_bind]
      dsimp only
      rw [constrErr_before _ _ _ _ _ _ (by omega), Out.ok_bind]
      simp
    · rw [hes, List.getElem?_map, Option.map_eq_some_iff] at f1
      obtain ⟨d, hd, rfl⟩ := f1
      refine ⟨d, hd, f2, ?_⟩
      have ht : ((es.take k).map DiagC.nrLines).sum = ((inp.eq.take k).map EqC.nrEq).sum := by
        simp [hes, Function.comp_def, ← List.map_take]
      rw [ht] at f3
      rw [List.append_assoc, List.getElem?_append_left (by omega), f3, zero_add,
        flatMap_getElem _ EqC.nrEq (by intro c; simp [EqC.gLines, genLines]) _ _ _ _ hd f2] at hget
      unfold EqC.gLines at hget
      rw [genLines_getElem f2] at hget
      simp only [Option.some.injEq, Prod.mk.injEq] at hget
      rw [f3, zero_add]
      exact ⟨row_eq hget.1.symm, hget.2.1.symm, hget.2.2.symm⟩
  · have e1 := constrErr_after .eq n a es 0 0 (by omega)
    rw [e1, Out.ok_bind]
    simp only [zero_add, se]
    by_cases h2 : a < (inp.eq.map EqC.nrEq).sum + (inp.inEq.map InEqC.nrInEq).sum
    · obtain ⟨k, l, c, s', e2, f1, f2, f3, f4⟩ := constrErr_hit .inEq n a cs 0
        (inp.eq.map EqC.nrEq).sum
        (by intro c hc; simp only [hcs, List.mem_map] at hc; obtain ⟨d, hd, rfl⟩ := hc
            exact hcols.2.1 d hd) (by omega) (by rw [sc]; omega)
      refine ⟨.inEq, k, l, ?_, ?_⟩
      · rw [e2, Out.ok_bind]
        dsimp only
        rw [constrErr_before _ _ _ _ _ _ f4, Out.ok_bind]
        simp
      · rw [hcs, List.getElem?_map, Option.map_eq_some_iff] at f1
        obtain ⟨d, hd, rfl⟩ := f1
        refine ⟨d, hd, f2, ?_⟩
        have ht : ((cs.take k).map DiagC.nrLines).sum
            = ((inp.inEq.take k).map InEqC.nrInEq).sum := by
          simp [hcs, Function.comp_def, ← List.map_take]
        rw [ht] at f3
        rw [List.append_assoc, List.getElem?_append_right (by omega),
          List.getElem?_append_left (by omega), le,
          show a - (inp.eq.map EqC.nrEq).sum = ((inp.inEq.take k).map InEqC.nrInEq).sum + l by omega,
          flatMap_getElem _ InEqC.nrInEq (by intro c; simp [InEqC.gLines, genLines]) _ _ _ _ hd f2]
          at hget
        unfold InEqC.gLines at hget
        rw [genLines_getElem f2] at hget
        simp only [Option.some.injEq, Prod.mk.injEq] at hget
        exact ⟨row_eq hget.1.symm, hget.2.1.symm, hget.2.2.symm⟩
    · have e2 := constrErr_after .inEq n a cs 0 (inp.eq.map EqC.nrEq).sum (by omega)
      rw [e2, Out.ok_bind]
      simp only [sc]
      obtain ⟨k, l, c, s', e3, f1, f2, f3, f4⟩ := constrErr_hit .gen n a gs 0
        ((inp.eq.map EqC.nrEq).sum + (inp.inEq.map InEqC.nrInEq).sum)
        (by intro c hc; simp only [hgs, List.mem_map] at hc; obtain ⟨d, hd, rfl⟩ := hc
            exact hcols.2.2 d hd) (by omega) (by rw [sg]; omega)
      refine ⟨.gen, k, l, ?_, ?_⟩
      · rw [e3, Out.ok_bind]
        simp
      · rw [hgs, List.getElem?_map, Option.map_eq_some_iff] at f1
        obtain ⟨d, hd, rfl⟩ := f1
        refine ⟨d, hd, f2, ?_⟩
        have ht : ((gs.take k).map DiagC.nrLines).sum
            = ((inp.gen.take k).map GenC.nrGen).sum := by
          simp [hgs, Function.comp_def, ← List.map_take]
        rw [ht] at f3
        rw [List.getElem?_append_right (by rw [List.length_append]; omega),
          List.length_append, le, lc,
          show a - ((inp.eq.map EqC.nrEq).sum + (inp.inEq.map InEqC.nrInEq).sum)
            = ((inp.gen.take k).map GenC.nrGen).sum + l by omega,
          flatMap_getElem _ GenC.nrGen (by intro c; simp [GenC.gLines, genLines]) _ _ _ _ hd f2]
          at hget
        unfold GenC.gLines at hget
        rw [genLines_getElem f2] at hget
        simp only [Option.some.injEq, Prod.mk.injEq] at hget
        exact ⟨row_eq hget.1.symm, hget.2.1.symm, hget.2.2.symm⟩

/-- The example problem has three lines, all attributed: equality, inequality, general. -/
example : (lineMsg 2 0 [⟨1, 2⟩] [⟨1, 2⟩] [⟨1, 2⟩] = .ok [.line .eq 0 0]) ∧
    (lineMsg 2 1 [⟨1, 2⟩] [⟨1, 2⟩] [⟨1, 2⟩] = .ok [.line .inEq 0 0]) ∧
    (lineMsg 2 4 [⟨0, 2⟩, ⟨1, 2⟩] [⟨1, 2⟩] [⟨0, 2⟩, ⟨3, 2⟩] = .ok [.line .gen 1 2]) :=
  ⟨rfl, rfl, rfl⟩

example : (∀ c ∈ exInp.eq, c.A.cols = 2) ∧ (∀ c ∈ exInp.inEq, c.A.cols = 2) ∧
    ∀ c ∈ exInp.gen, c.A.cols = 2 := by
  refine ⟨?_, ?_, ?_⟩ <;> intro c hc <;> simp only [exInp, List.mem_singleton] at hc <;>
    subst hc <;> rfl

/-! ## The whole message -/

namespace Spec

/-- Lines of the three lists before the list `kind`. -/
def linesBefore (eq inEq : List DiagC) : LineKind → ℕ
  | .eq => 0
  | .inEq => (eq.map DiagC.nrLines).sum
  | .gen => (eq.map DiagC.nrLines).sum + (inEq.map DiagC.nrLines).sum

/-- Local line `l` of constraint `idx` of list `kind` exists, and is number `a` when the lines of the
three lists are numbered one after the other. -/
def LineNo (eq inEq gen : List DiagC) (a : ℕ) (kind : LineKind) (idx l : ℕ) : Prop :=
  let cs := match kind with | .eq => eq | .inEq => inEq | .gen => gen
  (∃ c, cs[idx]? = some c ∧ l < c.nrLines) ∧
    a = linesBefore eq inEq kind + ((cs.take idx).map DiagC.nrLines).sum + l

/-- Bound `idx` is the first one covering variable `v`, on its line `l`. -/
def FirstBound (bounds : List (ℕ × ℕ)) (v idx l : ℕ) : Prop :=
  (∃ len, bounds[idx]? = some (v - l, len) ∧ l < len ∧ l ≤ v) ∧
    ∀ j < idx, ∀ b len, bounds[j]? = some (b, len) → ¬ (b ≤ v ∧ v < b + len)

end Spec

theorem sum_take_lt {cs : List DiagC} {j l : ℕ} {c : DiagC} (h : cs[j]? = some c) (hl : l < c.nrLines) :
    ((cs.take j).map DiagC.nrLines).sum + l < (cs.map DiagC.nrLines).sum := by
  induction cs generalizing j with
  | nil => simp at h
  | cons a t ih =>
    cases j with
    | zero => simp only [List.getElem?_cons_zero, Option.some.injEq] at h; subst h; simp; omega
    | succ j =>
      have := ih (by simpa using h)
      simp only [List.take_succ_cons, List.map_cons, List.sum_cons]
      omega

theorem constrErr_mem (kind : LineKind) (r a : ℕ) (cs : List DiagC) (idx s : ℕ)
    (hr : ∀ c ∈ cs, c.cols = r) :
    ∃ m s', constrErrorMsg kind r a cs idx (s, s) = .ok (m, s', s') ∧
      (∀ e, e ∈ m ↔ ∃ j l c, e = .line kind (idx + j) l ∧ cs[j]? = some c ∧ l < c.nrLines ∧
        a = s + ((cs.take j).map DiagC.nrLines).sum + l) ∧
      ((s ≤ a ∧ a < s + (cs.map DiagC.nrLines).sum ∧ a < s') ∨
        (¬ (s ≤ a ∧ a < s + (cs.map DiagC.nrLines).sum) ∧ s' = s + (cs.map DiagC.nrLines).sum)) := by
  induction cs generalizing idx s with
  | nil => exact ⟨[], s, rfl, by simp, .inr (by simp)⟩
  | cons c t ih =>
    unfold constrErrorMsg
    simp only
    by_cases hc : s ≤ a ∧ a < s + c.nrLines
    · rw [if_pos hc, if_pos (hr c (by simp))]
      refine ⟨_, _, rfl, fun e => ?_, .inl ?_⟩
      · simp only [List.mem_singleton]
        constructor
        · rintro rfl
          exact ⟨0, a - s, c, rfl, rfl, by omega, by simp; omega⟩
        · rintro ⟨j, l, c', rfl, h1, h2, h3⟩
          cases j with
          | zero => simp at h3; rw [h3]; simp
          | succ j =>
            simp only [List.take_succ_cons, List.map_cons, List.sum_cons] at h3
            omega
      · simp only [List.map_cons, List.sum_cons]
        omega
    · rw [if_neg hc]
      obtain ⟨m, s', e, h1, h2⟩ := ih (idx + 1) (s + c.nrLines) (fun c hc => hr c (by simp [hc]))
      refine ⟨m, s', e, fun e => ?_, ?_⟩
      · rw [h1]
        constructor
        · rintro ⟨j, l, c', rfl, g1, g2, g3⟩
          refine ⟨j + 1, l, c', by rw [Nat.add_assoc, Nat.add_comm 1], by simpa using g1, g2, ?_⟩
          simp only [List.take_succ_cons, List.map_cons, List.sum_cons]
          omega
        · rintro ⟨j, l, c', rfl, g1, g2, g3⟩
          cases j with
          | zero =>
            simp only [List.getElem?_cons_zero, Option.some.injEq] at g1
            subst g1
            simp at g3
            omega
          | succ j =>
            refine ⟨j, l, c', by rw [Nat.add_assoc, Nat.add_comm 1], by simpa using g1, g2, ?_⟩
            simp only [List.take_succ_cons, List.map_cons, List.sum_cons] at g3
            omega
      · simp only [List.map_cons, List.sum_cons]
        omega

theorem lineMsg_mem (r a : ℕ) (eq inEq gen : List DiagC) (hr : ∀ c ∈ eq ++ inEq ++ gen, c.cols = r) :
    ∃ m, lineMsg r a eq inEq gen = .ok m ∧
      ∀ e, e ∈ m ↔ ∃ k idx l, e = .line k idx l ∧ LineNo eq inEq gen a k idx l := by
  obtain ⟨m1, s1, e1, p1, q1⟩ := constrErr_mem .eq r a eq 0 0 (fun c h => hr c (by simp [h]))
  obtain ⟨m2, s2, e2, p2, q2⟩ := constrErr_mem .inEq r a inEq 0 s1 (fun c h => hr c (by simp [h]))
  obtain ⟨m3, s3, e3, p3, q3⟩ := constrErr_mem .gen r a gen 0 s2 (fun c h => hr c (by simp [h]))
  refine ⟨m1 ++ m2 ++ m3, ?_, fun e => ?_⟩
  · unfold lineMsg
    simp only [e1, e2, e3, Out.ok_bind]
    rfl
  · simp only [List.mem_append, p1, p2, p3]
    unfold LineNo linesBefore
    constructor
    · rintro ((⟨j, l, c, rfl, h1, h2, h3⟩ | ⟨j, l, c, rfl, h1, h2, h3⟩) | ⟨j, l, c, rfl, h1, h2, h3⟩)
      · exact ⟨.eq, _, _, rfl, ⟨c, by simpa using h1, h2⟩, by simpa using h3⟩
      · have := sum_take_lt h1 h2
        refine ⟨.inEq, _, _, rfl, ⟨c, by simpa using h1, h2⟩, ?_⟩
        simp only [zero_add]
        omega
      · have := sum_take_lt h1 h2
        refine ⟨.gen, _, _, rfl, ⟨c, by simpa using h1, h2⟩, ?_⟩
        simp only [zero_add]
        omega
    · rintro ⟨k, idx, l, rfl, ⟨c, h1, h2⟩, h3⟩
      have := sum_take_lt h1 h2
      cases k with
      | eq => exact .inl (.inl ⟨idx, l, c, by simp, h1, h2, by simpa using h3⟩)
      | inEq =>
        refine .inl (.inr ⟨idx, l, c, by simp, h1, h2, ?_⟩)
        dsimp only at h3 this
        omega
      | gen =>
        refine .inr ⟨idx, l, c, by simp, h1, h2, ?_⟩
        dsimp only at h3 this
        omega

theorem boundMsg_mem (v : ℕ) (bounds : List (ℕ × ℕ)) (i0 : ℕ) (e : DiagEntry) :
    e ∈ boundMsg v bounds i0 ↔ ∃ idx l, e = .bound (i0 + idx) l ∧ FirstBound bounds v idx l := by
  induction bounds generalizing i0 with
  | nil => simp [boundMsg, FirstBound]
  | cons b t ih =>
    obtain ⟨b, len⟩ := b
    unfold boundMsg
    split
    · rename_i h
      simp only [List.mem_singleton]
      constructor
      · rintro rfl
        exact ⟨0, v - b, rfl, ⟨len, by simp; omega, by omega, by omega⟩, by simp⟩
      · rintro ⟨idx, l, rfl, ⟨len', g1, g2, g3⟩, g4⟩
        cases idx with
        | zero => simp at g1; simp; omega
        | succ i => exact absurd h (g4 0 (by omega) b len rfl)
    · rename_i h
      rw [ih]
      constructor
      · rintro ⟨idx, l, rfl, ⟨len', g1, g2, g3⟩, g4⟩
        refine ⟨idx + 1, l, by rw [Nat.add_assoc, Nat.add_comm 1], ⟨len', by simpa using g1, g2, g3⟩, ?_⟩
        intro j hj b' len'' hb
        cases j with
        | zero => simp at hb; obtain ⟨rfl, rfl⟩ := hb; exact h
        | succ j => exact g4 j (by omega) b' len'' (by simpa using hb)
      · rintro ⟨idx, l, rfl, ⟨len', g1, g2, g3⟩, g4⟩
        cases idx with
        | zero => simp at g1; omega
        | succ i =>
          refine ⟨i, l, by rw [Nat.add_assoc, Nat.add_comm 1], ⟨len', by simpa using g1, g2, g3⟩, ?_⟩
          intro j hj b' len'' hb
          exact g4 (j + 1) (by omega) b' len'' (by simpa using hb)

theorem boundLoop_mem (istate : Vec ℤ) (xs rs : ℕ) (bounds : List (ℕ × ℕ)) (q : ℕ) (h1 : q ≤ istate.size)
    (h2 : q ≤ xs) (h3 : q ≤ rs) :
    ∃ m, forRange q (boundStep istate xs rs bounds) [] = .ok m ∧
      ∀ e, e ∈ m ↔ ∃ v < q, istate.get v < 0 ∧ ∃ idx l, e = .bound idx l ∧ FirstBound bounds v idx l := by
  induction q with
  | zero => exact ⟨[], rfl, by simp⟩
  | succ q ih =>
    obtain ⟨m, e, hm⟩ := ih (by omega) (by omega) (by omega)
    rw [forRange, e, Out.ok_bind]
    unfold boundStep Vec.at'
    rw [if_pos (by omega), Out.ok_bind]
    by_cases hs : istate.get q < 0
    · rw [if_pos hs, if_neg (by rintro ⟨-, h⟩; exact h ⟨by omega, by omega⟩)]
      refine ⟨_, rfl, fun e => ?_⟩
      rw [List.mem_append, hm, boundMsg_mem]
      constructor
      · rintro (⟨v, hv, h⟩ | ⟨idx, l, h4, h5⟩)
        · exact ⟨v, by omega, h⟩
        · exact ⟨q, by omega, hs, idx, l, by simpa using h4, h5⟩
      · rintro ⟨v, hv, h, idx, l, h4, h5⟩
        by_cases hq : v = q
        · subst hq; exact .inr ⟨idx, l, by simpa using h4, h5⟩
        · exact .inl ⟨v, by omega, h, idx, l, h4, h5⟩
    · rw [if_neg hs]
      refine ⟨m, rfl, fun e => ?_⟩
      rw [hm]
      constructor
      · rintro ⟨v, hv, h⟩; exact ⟨v, by omega, h⟩
      · rintro ⟨v, hv, h, h'⟩
        refine ⟨v, ?_, h, h'⟩
        by_contra hq
        exact hs (by rwa [show q = v by omega])

theorem lineLoop_mem (istate : Vec ℤ) (q rs : ℕ) (eq inEq gen : List DiagC)
    (hr : ∀ c ∈ eq ++ inEq ++ gen, c.cols = rs) (o : List DiagEntry) (n : ℕ) (h : q + n ≤ istate.size) :
    ∃ m, forRange n (lineStep istate q rs eq inEq gen) o = .ok m ∧
      ∀ e, e ∈ m ↔ e ∈ o ∨ ∃ a < n, istate.get (q + a) < 0 ∧
        ∃ k idx l, e = .line k idx l ∧ LineNo eq inEq gen a k idx l := by
  induction n with
  | zero => exact ⟨o, rfl, by simp⟩
  | succ n ih =>
    obtain ⟨m, e, hm⟩ := ih (by omega)
    rw [forRange, e, Out.ok_bind]
    unfold lineStep Vec.at'
    rw [if_pos (by omega), Out.ok_bind]
    by_cases hs : istate.get (n + q) < 0
    · obtain ⟨m', e', hm'⟩ := lineMsg_mem rs n eq inEq gen hr
      rw [if_pos hs, e', Out.ok_bind]
      refine ⟨_, rfl, fun e => ?_⟩
      rw [List.mem_append, hm, hm']
      constructor
      · rintro ((h | ⟨v, hv, h⟩) | h4)
        · exact .inl h
        · exact .inr ⟨v, by omega, h⟩
        · exact .inr ⟨n, by omega, by rwa [Nat.add_comm], h4⟩
      · rintro (h | ⟨v, hv, h, h4⟩)
        · exact .inl (.inl h)
        · by_cases hq : v = n
          · subst hq; exact .inr h4
          · exact .inl (.inr ⟨v, by omega, h, h4⟩)
    · rw [if_neg hs]
      refine ⟨m, rfl, fun e => ?_⟩
      rw [hm]
      constructor
      · rintro (h | ⟨v, hv, h⟩)
        · exact .inl h
        · exact .inr ⟨v, by omega, h⟩
      · rintro (h | ⟨v, hv, h, h'⟩)
        · exact .inl h
        · refine .inr ⟨v, ?_, h, h'⟩
          by_contra hq
          exact hs (by rwa [show n + q = q + v by omega])

/-- **C16**, the part that holds: the whole message.  With `q` the size of the Hessian the backend
stores (`Q_.rows()`), it lists exactly the variables `v < q` reported violated, each with the first
bound covering it and its line there, and the lines `a` reported violated at position `q + a`, each
with its constraint and its line there.  Missing for the full statement: `q` is the number of
variables only when there are mimic joints (`C16_unsized_hessian`), and then the rows to print do
not have the size of the result (`C16_undefined_with_mimic`). -/
theorem C16_message_partial (q nrALines xs rs : ℕ) (istate : Vec ℤ) (bounds : List (ℕ × ℕ))
    (eq inEq gen : List DiagC) (hs : q + nrALines ≤ istate.size) (hx : q ≤ xs) (hq : q ≤ rs)
    (hr : ∀ c ∈ eq ++ inEq ++ gen, c.cols = rs) :
    ∃ msg, errorMsg q nrALines xs rs istate bounds eq inEq gen = .ok msg ∧
      (∀ idx l, DiagEntry.bound idx l ∈ msg ↔ ∃ v < q, istate.get v < 0 ∧ FirstBound bounds v idx l) ∧
      ∀ k idx l, DiagEntry.line k idx l ∈ msg ↔
        ∃ a < nrALines, istate.get (q + a) < 0 ∧ LineNo eq inEq gen a k idx l := by
  obtain ⟨m1, e1, h1⟩ := boundLoop_mem istate xs rs bounds q (by omega) hx hq
  obtain ⟨m2, e2, h2⟩ := lineLoop_mem istate q rs eq inEq gen hr m1 nrALines hs
  refine ⟨m2, by unfold errorMsg; rw [e1, Out.ok_bind, e2], fun idx l => ?_, fun k idx l => ?_⟩
  · rw [h2, h1]
    constructor
    · rintro (⟨v, hv, h3, i', l', h4, h5⟩ | ⟨a, ha, h3, k', i', l', h4, h5⟩)
      · cases h4; exact ⟨v, hv, h3, h5⟩
      · cases h4
    · rintro ⟨v, hv, h3, h5⟩; exact .inl ⟨v, hv, h3, idx, l, rfl, h5⟩
  · rw [h2, h1]
    constructor
    · rintro (⟨v, hv, h3, i', l', h4, h5⟩ | ⟨a, ha, h3, k', i', l', h4, h5⟩)
      · cases h4
      · cases h4; exact ⟨a, ha, h3, h5⟩
    · rintro ⟨v, hv, h3, h5⟩; exact .inr ⟨v, hv, h3, k, idx, l, rfl, h5⟩

/-- Two variables, two bounds (the second one hidden by the first one on variable 1), three lines;
variable 1 and the last line are violated. -/
example : ∃ msg, errorMsg 2 3 2 2 (Vec.ofList [0, -1, 0, 0, -2]) [(0, 2), (1, 1)] [⟨1, 2⟩] [⟨0, 2⟩, ⟨2, 2⟩] []
    = .ok msg ∧ DiagEntry.bound 0 1 ∈ msg ∧ DiagEntry.line .inEq 1 1 ∈ msg ∧ DiagEntry.bound 1 0 ∉ msg := by
  obtain ⟨msg, e, h1, h2⟩ := C16_message_partial 2 3 2 2 (Vec.ofList [0, -1, 0, 0, -2]) [(0, 2), (1, 1)]
    [⟨1, 2⟩] [⟨0, 2⟩, ⟨2, 2⟩] [] (by decide) le_rfl le_rfl (by simp)
  refine ⟨msg, e, (h1 0 1).2 ⟨1, by norm_num, by decide, ⟨2, rfl, by norm_num, le_rfl⟩, by simp⟩,
    (h2 .inEq 1 1).2 ⟨2, by norm_num, by decide, ⟨⟨2, 2⟩, rfl, by norm_num⟩, rfl⟩, fun h => ?_⟩
  obtain ⟨v, hv, -, ⟨len, h3, -, -⟩, h4⟩ := (h1 1 0).1 h
  simp at h3
  exact h4 0 (by norm_num) 0 2 rfl ⟨by omega, by omega⟩

/-! ## What the code gets wrong -/

theorem boundLoop_zero (istate : Vec ℤ) (xs rs : ℕ) (b : List (ℕ × ℕ)) :
    forRange 0 (boundStep istate xs rs b) [] = .ok [] := rfl

theorem lineStep_no_bound (istate : Vec ℤ) (nv rs : ℕ) (eq inEq gen : List DiagC) (i : ℕ)
    (out out' : List DiagEntry) (h : lineStep istate nv rs eq inEq gen i out = .ok out')
    (h0 : ∀ idx l, DiagEntry.bound idx l ∉ out) : ∀ idx l, DiagEntry.bound idx l ∉ out' := by
  have hmsg : ∀ (kind : LineKind) (cs : List DiagC) (r a idx : ℕ) (se : ℕ × ℕ)
      (res : List DiagEntry × ℕ × ℕ), constrErrorMsg kind r a cs idx se = .ok res →
      ∀ x l, DiagEntry.bound x l ∉ res.1 := by
    intro kind cs
    induction cs with
    | nil => intro r a idx se res h; simp [constrErrorMsg] at h; subst h; simp
    | cons c t ih =>
      intro r a idx se res h
      obtain ⟨s, p⟩ := se
      unfold constrErrorMsg at h
      simp only at h
      split at h
      · split at h
        · cases h; simp
        · cases h
      · exact ih _ _ _ _ _ h
  unfold lineStep at h
  obtain ⟨st, _, h⟩ := Out.bind_eq_ok.mp h
  split at h
  · obtain ⟨m, hm, h⟩ := Out.bind_eq_ok.mp h
    cases h
    unfold lineMsg at hm
    obtain ⟨r1, g1, hm⟩ := Out.bind_eq_ok.mp hm
    obtain ⟨r2, g2, hm⟩ := Out.bind_eq_ok.mp hm
    obtain ⟨r3, g3, hm⟩ := Out.bind_eq_ok.mp hm
    cases hm
    intro idx l
    have a1 := hmsg _ _ _ _ _ _ _ g1 idx l
    have a2 := hmsg _ _ _ _ _ _ _ g2 idx l
    have a3 := hmsg _ _ _ _ _ _ _ g3 idx l
    have a0 := h0 idx l
    simp only [List.mem_append, not_or]
    exact ⟨a0, ⟨a1, a2⟩, a3⟩
  · cases h
    exact h0

/-- **C16** violated: without mimic joints `Q_` keeps its initial size 0, so no bound violation is
ever reported, whatever LSSOL says and whatever the problem. -/
theorem C16_bounds_never_reported (nrALines xs rs : ℕ) (istate : Vec ℤ) (bounds : List (ℕ × ℕ))
    (eq inEq gen : List DiagC) (msg : List DiagEntry)
    (h : errorMsg 0 nrALines xs rs istate bounds eq inEq gen = .ok msg) :
    ∀ idx l, DiagEntry.bound idx l ∉ msg := by
  unfold errorMsg at h
  rw [boundLoop_zero, Out.ok_bind] at h
  clear bounds xs
  induction nrALines generalizing msg with
  | zero => cases h; simp
  | succ m ih =>
    rw [forRange] at h
    obtain ⟨o, ho, h⟩ := Out.bind_eq_ok.mp h
    exact lineStep_no_bound _ _ _ _ _ _ _ _ _ h (ih _ ho)

/-- A fresh LSSOL backend with no dependency indeed has `Q_.rows() = 0` whatever it is used for. -/
theorem C16_unsized_hessian {n e i g : ℕ} {hist : List (QPInput K)} {s : Lssol K}
    (h : ∀ j ∈ hist, InputFits n e i g j)
    (hs : forEach hist Lssol.updateMatrix ((Lssol.init (K := K)).updateSize n e i g) = .ok s) :
    s.Q.rows = 0 := by
  have key : ∀ (s : Lssol K), s.dep.deps.length = 0 → ∀ inp s', s.updateMatrix inp = .ok s' →
      s'.Q = s.Q ∧ s'.dep = s.dep := by
    intro s hd inp s' hu
    unfold Lssol.updateMatrix at hu
    obtain ⟨_, _, hu⟩ := Out.bind_eq_ok.mp hu
    obtain ⟨_, _, hu⟩ := Out.bind_eq_ok.mp hu
    obtain ⟨_, _, hu⟩ := Out.bind_eq_ok.mp hu
    obtain ⟨_, _, hu⟩ := Out.bind_eq_ok.mp hu
    obtain ⟨_, _, hu⟩ := Out.bind_eq_ok.mp hu
    rw [if_neg (by simp [hd])] at hu
    cases hu
    exact ⟨rfl, rfl⟩
  have gen : ∀ (hist : List (QPInput K)) (t s : Lssol K), t.dep.deps.length = 0 → t.Q.rows = 0 →
      forEach hist Lssol.updateMatrix t = .ok s → s.Q.rows = 0 := by
    intro hist
    induction hist with
    | nil => intro t s _ h0 hs; cases hs; exact h0
    | cons a r ih =>
      intro t s hd h0 hs
      rw [forEach] at hs
      obtain ⟨t1, h1, hs⟩ := Out.bind_eq_ok.mp hs
      obtain ⟨k1, k2⟩ := key t hd a t1 h1
      exact ih t1 s (by rw [k2]; exact hd) (by rw [k1]; exact h0) hs
  exact gen hist _ s rfl rfl hs

/-- One variable with one bound constraint. -/
def exOneBound : QPInput ℚ :=
  ⟨[], [], [], [], [⟨0, Vec.ofList [.fin 0], Vec.ofList [.fin 1]⟩]⟩

/-- The full statement of **C16** is false. -/
theorem C16_counterexample : ¬ C16_full ℚ := by
  intro h
  have hf : InputFits 1 0 0 0 exOneBound := by
    refine ⟨⟨by simp [exOneBound], by simp [exOneBound], by simp [exOneBound],
      by simp [exOneBound], ?_⟩, by decide, by decide, by decide⟩
    intro c hc
    simp only [exOneBound, List.mem_singleton] at hc
    subst hc; exact ⟨by decide, by decide⟩
  have hd : DepsAre (K := ℚ) 1 [] (Lssol.init (K := ℚ)).dep :=
    ⟨⟨List.nodup_nil, by simp, by simp⟩, Or.inl ⟨rfl, rfl⟩⟩
  obtain ⟨p, ⟨s, s1, e1, e2, e3⟩, _, hC, _, _, _, _, _, hA, _⟩ := lssolRun_spec (n := 1) (e := 0)
    (i := 0) (g := 0) (hist := []) (inp := exOneBound)
    (by intro j hj; simp at hj; subst hj; exact hf) (s0 := Lssol.init) hd
  cases e1
  have hC : p.C.size = 1 := hC
  have hA : p.A.rows = 0 := hA
  obtain ⟨msg, hm, hb, _⟩ := h 1 0 0 0 exOneBound Lssol.init s1 p (Vec.ofList [-1]) hf ⟨[], hd⟩ e2 e3
    (by rw [hC, hA]; rfl)
  obtain ⟨idx, l, hin⟩ := hb 0 (by omega) ⟨by decide, _, List.mem_singleton.mpr rfl,
    by decide, by decide⟩
  have hQ : s1.Q.rows = 0 := C16_unsized_hessian (hist := [exOneBound]) (n := 1) (e := 0) (i := 0)
    (g := 0) (by intro j hj; simp at hj; subst hj; exact hf)
    (by rw [forEach, e2, Out.ok_bind]; rfl)
  unfold Lssol.errorMsg at hm
  rw [hQ] at hm
  exact C16_bounds_never_reported _ _ _ _ _ _ _ _ _ hm idx l hin

/-- **C16** violated: with one variable violating its bound and every line satisfied (`istate` is
`-1` for the variable, `0` for the line) the message blames the line and not the bound. -/
theorem C16_reports_satisfied_line :
    errorMsg 0 1 0 1 (Vec.ofList [-1, 0]) [(0, 1)] [⟨1, 1⟩] [] [] = .ok [.line .eq 0 0] := rfl

/-- **C16** violated: with mimic joints (reduced result smaller than the full problem) any violated
line of a constraint on all the variables makes the message multiply a full row by the reduced
result. -/
theorem C16_undefined_with_mimic (n r : ℕ) (hr : r < n) (a : ℕ) (eq inEq gen : List DiagC)
    (he : ∀ c ∈ eq ++ inEq ++ gen, c.cols = n)
    (ha : a < ((eq ++ inEq ++ gen).map DiagC.nrLines).sum) :
    lineMsg r a eq inEq gen = .ub := by
  have hub : ∀ (kind : LineKind) (cs : List DiagC) (idx s : ℕ), (∀ c ∈ cs, c.cols = n) → s ≤ a →
      a < s + (cs.map DiagC.nrLines).sum → constrErrorMsg kind r a cs idx (s, s) = .ub := by
    intro kind cs
    induction cs with
    | nil => intro idx s _ h1 h2; simp at h2; omega
    | cons c t ih =>
      intro idx s hc h1 h2
      simp only [List.map_cons, List.sum_cons] at h2
      unfold constrErrorMsg
      simp only
      by_cases hh : s ≤ a ∧ a < s + c.nrLines
      · rw [if_pos hh, if_neg (by rw [hc c (by simp)]; omega)]
      · rw [if_neg hh]
        exact ih _ _ (fun c h => hc c (by simp [h])) (by omega) (by omega)
  simp only [List.map_append, List.sum_append] at ha
  unfold lineMsg
  by_cases h1 : a < (eq.map DiagC.nrLines).sum
  · rw [hub .eq eq 0 0 (fun c h => he c (by simp [h])) (by omega) (by omega)]
    rfl
  · rw [constrErr_after .eq r a eq 0 0 (by omega), Out.ok_bind]
    simp only [zero_add]
    by_cases h2 : a < (eq.map DiagC.nrLines).sum + (inEq.map DiagC.nrLines).sum
    · rw [hub .inEq inEq 0 _ (fun c h => he c (by simp [h])) (by omega) (by omega)]
      rfl
    · rw [constrErr_after .inEq r a inEq 0 _ (by omega), Out.ok_bind]
      dsimp only
      rw [hub .gen gen 0 _ (fun c h => he c (by simp [h])) (by omega) (by omega)]
      rfl

end Verif
