import Verif.Proofs.Solver

/-! # Where the rows of the registered constraints are in the problems handed to the backends -/

set_option autoImplicit false
set_option linter.unusedSectionVars false

namespace Verif

open Finset Spec

variable {K : Type} [Field K] [LinearOrder K] [IsStrictOrderedRing K]

theorem Ext.lowerOK_mono {e : Ext K} {x y : K} (h : e.LowerOK x) (hxy : x ≤ y) : e.LowerOK y := by
  cases e with
  | negInf => trivial
  | fin l => exact le_trans h hxy
  | posInf => exact h

theorem Ext.upperOK_mono {e : Ext K} {x y : K} (h : e.UpperOK x) (hxy : y ≤ x) : e.UpperOK y := by
  cases e with
  | negInf => exact h
  | fin l => exact le_trans hxy h
  | posInf => trivial

theorem row_sum_congr {n : ℕ} {A B : Mat K} {i k : ℕ} (h : row n A i = row n B k) (x : ℕ → K) :
    ∑ j ∈ range n, A.get i j * x j = lineVal n B k x := by
  rw [← row_mul, h, row_mul]
  rfl

theorem stdLines_mem {β : Type} {n k : ℕ} {A : Mat K} {b : Vec β} {r : ℕ → K} {v : β}
    (h : (r, v) ∈ stdLines n k A b) : ∃ i < k, row n A i = r ∧ b.get i = v := by
  simp only [stdLines, List.mem_map, List.mem_range, Prod.mk.injEq] at h
  exact h

theorem genLines_mem {n k : ℕ} {A : Mat K} {L U : Vec (Ext K)} {r : ℕ → K} {l u : Ext K}
    (h : (r, l, u) ∈ genLines n k A L U) : ∃ i < k, row n A i = r ∧ L.get i = l ∧ U.get i = u := by
  simp only [genLines, List.mem_map, List.mem_range, Prod.mk.injEq] at h
  exact h

/-- Every row of a registered constraint is a row of the problem given to QLD. -/
structure Qld.Has (n : ℕ) (inp : QPInput K) (ds : DepSt K) (p : QldProblem K) : Prop where
  eq : ∀ c ∈ inp.eq, ∀ k < c.nrEq, ∃ i < p.Aeq.rows, p.beq.get i = c.b.get k ∧
    ∀ y, p.Aeq.rowMul i y = lineVal n c.A k (fullX ds y)
  inEq : ∀ c ∈ inp.inEq, ∀ k < c.nrInEq, ∃ i < p.Aineq.rows, p.bineq.get i = c.b.get k ∧
    ∀ y, p.Aineq.rowMul i y = lineVal n c.A k (fullX ds y)
  genL : ∀ c ∈ inp.gen, ∀ k < c.nrGen, ∃ i < p.Aineq.rows, p.bineq.get i = (c.L.get k).neg ∧
    ∀ y, p.Aineq.rowMul i y = -lineVal n c.A k (fullX ds y)
  genU : ∀ c ∈ inp.gen, ∀ k < c.nrGen, ∃ i < p.Aineq.rows, p.bineq.get i = c.U.get k ∧
    ∀ y, p.Aineq.rowMul i y = lineVal n c.A k (fullX ds y)

/-- Every row of the problem given to QLD is a row of a registered constraint. -/
structure Qld.Only (n : ℕ) (inp : QPInput K) (ds : DepSt K) (p : QldProblem K) : Prop where
  eq : ∀ i < p.Aeq.rows, ∃ c ∈ inp.eq, ∃ k < c.nrEq, p.beq.get i = c.b.get k ∧
    ∀ y, p.Aeq.rowMul i y = lineVal n c.A k (fullX ds y)
  inEq : ∀ i < p.Aineq.rows,
    (∃ c ∈ inp.inEq, ∃ k < c.nrInEq, p.bineq.get i = c.b.get k ∧
      ∀ y, p.Aineq.rowMul i y = lineVal n c.A k (fullX ds y)) ∨
    ∃ c ∈ inp.gen, ∃ k < c.nrGen,
      (p.bineq.get i = (c.L.get k).neg ∧ ∀ y, p.Aineq.rowMul i y = -lineVal n c.A k (fullX ds y)) ∨
      (p.bineq.get i = c.U.get k ∧ ∀ y, p.Aineq.rowMul i y = lineVal n c.A k (fullX ds y))

/-- Every row of a registered constraint is a row of the problem given to LSSOL. -/
structure Lssol.Has (n : ℕ) (inp : QPInput K) (ds : DepSt K) (p : LssolProblem K) : Prop where
  eq : ∀ c ∈ inp.eq, ∀ k < c.nrEq, ∃ i < p.A.rows, p.AL.get i = .fin (c.b.get k) ∧ p.AU.get i = .fin (c.b.get k) ∧
    ∀ y, p.A.rowMul i y = lineVal n c.A k (fullX ds y)
  inEq : ∀ c ∈ inp.inEq, ∀ k < c.nrInEq, ∃ i < p.A.rows, p.AU.get i = c.b.get k ∧
    ∀ y, p.A.rowMul i y = lineVal n c.A k (fullX ds y)
  gen : ∀ c ∈ inp.gen, ∀ k < c.nrGen, ∃ i < p.A.rows, p.AL.get i = c.L.get k ∧ p.AU.get i = c.U.get k ∧
    ∀ y, p.A.rowMul i y = lineVal n c.A k (fullX ds y)

/-- The rows of a problem, when they are those of `A`, possibly multiplied with the mimic matrix. -/
theorem rows_full {n line : ℕ} {A R : Mat K} {ds : DepSt K} (hA : A.cols = n)
    (hr : if ds.deps.length ≠ 0 then ds.M.rows = n ∧ reduceA A ds.M = .ok R else R = A) (i : ℕ) (y : ℕ → K) :
    (Mat.mk line R.cols fun a c => R.get (0 + a) (0 + c)).rowMul i y
      = ∑ j ∈ range n, A.get i j * fullX ds y j := by
  have f : (Mat.mk line R.cols fun a c => R.get (0 + a) (0 + c)).rowMul i y = R.rowMul i y := by
    simp [Mat.rowMul]
  rw [f]
  unfold fullX
  split at hr
  · rename_i hne
    rw [if_pos hne, reduce_row A ds.M (by rw [hA, hr.1]) hr.2 i y, hA]
  · rename_i hne
    rw [if_neg hne, hr]
    simp [Mat.rowMul, hA]

theorem Qld.assembled_rows {n : ℕ} {inp : QPInput K} (hin : InputSized n inp) {s : Qld K}
    {re ri : ℕ} (hs : s.SizedFor n re ri) (le1 : (inp.eq.map EqC.nrEq).sum ≤ re)
    (le2 : (inp.inEq.map InEqC.nrInEq).sum + (inp.gen.map GenC.nrGen).sum * 2 ≤ ri) (hd : DepOK n s.dep)
    {s1 : Qld K} {p : QldProblem K} (hu : s.updateMatrix inp = .ok s1) (hp : s1.problem = .ok p) :
    Qld.Has n inp s.dep p ∧ Qld.Only n inp s.dep p := by
  obtain ⟨ht, he, hi, hg, hb⟩ := hin
  obtain ⟨e, fe, ⟨e1, e2, e3⟩, e4, e5⟩ := fillEqStd_ok n re inp.eq
    ⟨0, Mat.zero s.AeqFull.rows s.AeqFull.cols, Vec.const s.beq.size 0⟩ he
    ⟨hs.Er, hs.Ec, hs.b⟩ (by simpa using le1)
  obtain ⟨q0, fq0, hq0, q04, q05⟩ := fillInEqStd_ok n ri inp.inEq
    ⟨0, Mat.zero s.AineqFull.rows s.AineqFull.cols, Vec.const s.bineq.size (.fin 0)⟩ hi
    ⟨hs.Ir, hs.Ic, hs.bi⟩ (by simp only; omega)
  obtain ⟨q, fq, ⟨q1, q2, q3⟩, q4, q5⟩ := fillGenStd_ok n ri inp.gen
    q0 hg hq0 (by rw [q04, sum_map_double]; simp only; omega)
  obtain ⟨b, fb, b1, b2, b3, b4⟩ := fillBound_ok n inp.bound
    (Vec.const s.XLFull.size .negInf, Vec.const s.XUFull.size .posInf) hb hs.XL hs.XU
  obtain ⟨o, fo, o1, o2, o3, o4, o5⟩ := fillQC_ok n inp.tasks ht
  have hline_e : e.line = (inp.eq.map EqC.nrEq).sum := by rw [e4]; simp
  have hline_q : q.line = (inp.inEq.map InEqC.nrInEq).sum + (inp.gen.map GenC.nrGen).sum * 2 := by
    rw [q4, q04, sum_map_double]; simp
  have eqL : stdLines n e.line e.A e.b = inp.eq.flatMap (EqC.lines n) := by
    rw [e5]; simp [stdLines]
  have inL : stdLines n q.line q.A q.b
      = inp.inEq.flatMap (InEqC.lines n) ++ inp.gen.flatMap (GenC.lines2 n) := by
    rw [q5, q05]; simp [stdLines]
  -- the problem
  have hprob : ∃ Re Ri XL XU Q C, p = ⟨Q, C, ⟨e.line, Re.cols, fun a c => Re.get (0 + a) (0 + c)⟩,
      ⟨e.line, fun i => e.b.get (0 + i)⟩, ⟨q.line, Ri.cols, fun a c => Ri.get (0 + a) (0 + c)⟩,
      ⟨q.line, fun i => q.b.get (0 + i)⟩, XL, XU⟩ ∧
      (if s.dep.deps.length ≠ 0 then s.dep.M.rows = n ∧ reduceA e.A s.dep.M = .ok Re else Re = e.A) ∧
      (if s.dep.deps.length ≠ 0 then s.dep.M.rows = n ∧ reduceA q.A s.dep.M = .ok Ri else Ri = q.A) := by
    unfold Qld.updateMatrix at hu
    simp only [hs.Qr, hs.Qc, hs.C] at hu
    rw [fe, Out.ok_bind, fq0, Out.ok_bind, fq, Out.ok_bind, fb, Out.ok_bind, fo, Out.ok_bind] at hu
    by_cases hdep : s.dep.deps.length ≠ 0
    · obtain ⟨deps, hwf, hds⟩ : ∃ deps, DepsWF n deps ∧ DepSpec n deps s.dep := by
        rcases hd with h | h
        · rw [h] at hdep; simp at hdep
        · exact h
      obtain ⟨Aeq, r1, r1r, r1c⟩ := reduceA_ok (A := e.A) (M := s.dep.M) (by rw [e2, hds.rows])
      obtain ⟨Ain, r2, r2r, r2c⟩ := reduceA_ok (A := q.A) (M := s.dep.M) (by rw [q2, hds.rows])
      rw [if_pos hdep, r1, Out.ok_bind, r2, Out.ok_bind] at hu
      simp only [Out.bind_eq_ok] at hu
      obtain ⟨X, -, QC, -, hu⟩ := hu
      cases hu
      unfold Qld.problem at hp
      simp only at hp
      rw [if_pos hdep, Mat.block_ok (by omega) (by omega), Out.ok_bind, Vec.segment_ok (by omega),
        Out.ok_bind, Mat.block_ok (by omega) (by omega), Out.ok_bind, Vec.segment_ok (by omega),
        Out.ok_bind] at hp
      cases hp
      exact ⟨Aeq, Ain, _, _, _, _, rfl, by rw [if_pos hdep]; exact ⟨hds.rows, r1⟩,
        by rw [if_pos hdep]; exact ⟨hds.rows, r2⟩⟩
    · rw [if_neg hdep] at hu
      cases hu
      unfold Qld.problem at hp
      simp only at hp
      rw [if_neg hdep, Mat.block_ok (by omega) (by omega), Out.ok_bind, Vec.segment_ok (by omega),
        Out.ok_bind, Mat.block_ok (by omega) (by omega), Out.ok_bind, Vec.segment_ok (by omega),
        Out.ok_bind] at hp
      cases hp
      exact ⟨e.A, q.A, _, _, _, _, rfl, by rw [if_neg hdep], by rw [if_neg hdep]⟩
  obtain ⟨Re, Ri, XL, XU, Q, C, rfl, hRe, hRi⟩ := hprob
  have ve := fun i y => rows_full (line := e.line) e2 hRe i y
  have vq := fun i y => rows_full (line := q.line) q2 hRi i y
  refine ⟨⟨fun c hc k hk => ?_, fun c hc k hk => ?_, fun c hc k hk => ?_, fun c hc k hk => ?_⟩,
    fun i hi => ?_, fun i hi => ?_⟩
  · have hm : (row n c.A k, c.b.get k) ∈ stdLines n e.line e.A e.b := by
      rw [eqL, List.mem_flatMap]
      exact ⟨c, hc, by simp only [EqC.lines, stdLines, List.mem_map, List.mem_range]; exact ⟨k, hk, rfl⟩⟩
    obtain ⟨i, hi, g1, g2⟩ := stdLines_mem hm
    exact ⟨i, hi, by simp only [zero_add]; exact g2, fun y => by rw [ve, row_sum_congr g1]⟩
  · have hm : (row n c.A k, c.b.get k) ∈ stdLines n q.line q.A q.b := by
      rw [inL, List.mem_append, List.mem_flatMap]
      exact Or.inl ⟨c, hc, by simp only [InEqC.lines, stdLines, List.mem_map, List.mem_range]; exact ⟨k, hk, rfl⟩⟩
    obtain ⟨i, hi, g1, g2⟩ := stdLines_mem hm
    exact ⟨i, hi, by simp only [zero_add]; exact g2, fun y => by rw [vq, row_sum_congr g1]⟩
  · have hm : (row n c.A.neg k, (c.L.get k).neg) ∈ stdLines n q.line q.A q.b := by
      rw [inL, List.mem_append, List.mem_flatMap, List.mem_flatMap]
      refine Or.inr ⟨c, hc, ?_⟩
      simp only [GenC.lines2, stdLines, List.mem_append, List.mem_map, List.mem_range]
      exact Or.inl ⟨k, hk, rfl⟩
    obtain ⟨i, hi, g1, g2⟩ := stdLines_mem hm
    exact ⟨i, hi, by simp only [zero_add]; exact g2, fun y => by rw [vq, row_sum_congr g1, lineVal_neg]⟩
  · have hm : (row n c.A k, c.U.get k) ∈ stdLines n q.line q.A q.b := by
      rw [inL, List.mem_append, List.mem_flatMap, List.mem_flatMap]
      refine Or.inr ⟨c, hc, ?_⟩
      simp only [GenC.lines2, stdLines, List.mem_append, List.mem_map, List.mem_range]
      exact Or.inr ⟨k, hk, rfl⟩
    obtain ⟨i, hi, g1, g2⟩ := stdLines_mem hm
    exact ⟨i, hi, by simp only [zero_add]; exact g2, fun y => by rw [vq, row_sum_congr g1]⟩
  · have hm : (row n e.A i, e.b.get i) ∈ stdLines n e.line e.A e.b :=
      List.mem_map.mpr ⟨i, List.mem_range.mpr hi, rfl⟩
    rw [eqL, List.mem_flatMap] at hm
    obtain ⟨c, hc, hm⟩ := hm
    obtain ⟨k, hk, g1, g2⟩ := stdLines_mem hm
    exact ⟨c, hc, k, hk, by simp only [zero_add]; exact g2.symm, fun y => by rw [ve, row_sum_congr g1.symm]⟩
  · have hm : (row n q.A i, q.b.get i) ∈ stdLines n q.line q.A q.b :=
      List.mem_map.mpr ⟨i, List.mem_range.mpr hi, rfl⟩
    rw [inL, List.mem_append, List.mem_flatMap, List.mem_flatMap] at hm
    rcases hm with ⟨c, hc, hm⟩ | ⟨c, hc, hm⟩
    · obtain ⟨k, hk, g1, g2⟩ := stdLines_mem hm
      exact Or.inl ⟨c, hc, k, hk, by simp only [zero_add]; exact g2.symm,
        fun y => by rw [vq, row_sum_congr g1.symm]⟩
    · simp only [GenC.lines2, stdLines, List.mem_append, List.mem_map, List.mem_range, Prod.mk.injEq] at hm
      refine Or.inr ⟨c, hc, ?_⟩
      rcases hm with ⟨k, hk, g1, g2⟩ | ⟨k, hk, g1, g2⟩
      · exact ⟨k, hk, Or.inl ⟨by simp only [zero_add]; exact g2.symm,
          fun y => by rw [vq, row_sum_congr g1.symm, lineVal_neg]⟩⟩
      · exact ⟨k, hk, Or.inr ⟨by simp only [zero_add]; exact g2.symm,
          fun y => by rw [vq, row_sum_congr g1.symm]⟩⟩

theorem Lssol.assembled_rows {n : ℕ} {inp : QPInput K} (hin : InputSized n inp) {s : Lssol K}
    {ra : ℕ} (hs : s.SizedFor n ra) (le : (inp.eq.map EqC.nrEq).sum +
      (inp.inEq.map InEqC.nrInEq).sum + (inp.gen.map GenC.nrGen).sum ≤ ra) (hd : DepOK n s.dep)
    {s1 : Lssol K} {p : LssolProblem K} (hu : s.updateMatrix inp = .ok s1) (hp : s1.problem = .ok p) :
    Lssol.Has n inp s.dep p := by
  obtain ⟨ht, he, hi, hg, hb⟩ := hin
  obtain ⟨a0, fa0, ha0, l0, n0⟩ := fillEqGen_ok n ra inp.eq
    ⟨0, Mat.zero s.AFull.rows s.AFull.cols, Vec.const s.AL.size (.fin 0),
      Vec.const s.AU.size (.fin 0)⟩ he
    ⟨hs.Ar, hs.Ac, hs.AL, hs.AU⟩ (by simp only; omega)
  obtain ⟨a1, fa1, ha1, l1, n1⟩ := fillInEqGen_ok n _ inp.inEq a0 hi ha0
    (by rw [l0]; simp only; omega)
  obtain ⟨a, fa, ⟨z1, z2, z3, z4⟩, l2, n2⟩ := fillGenGen_ok n _ inp.gen a1 hg ha1
    (by rw [l1, l0]; simp only; omega)
  obtain ⟨b, fb, b1, b2, b3, b4⟩ := fillBound_ok n inp.bound
    (Vec.const s.XLFull.size .negInf, Vec.const s.XUFull.size .posInf) hb hs.XL hs.XU
  obtain ⟨o, fo, o1, o2, o3, o4, o5⟩ := fillQC_ok n inp.tasks ht
  have hline : a.line = (inp.eq.map EqC.nrEq).sum + (inp.inEq.map InEqC.nrInEq).sum +
        (inp.gen.map GenC.nrGen).sum := by rw [l2, l1, l0]; simp
  have aL : genLines n a.line a.A a.AL a.AU = inp.eq.flatMap (EqC.gLines n) ++
        inp.inEq.flatMap (InEqC.gLines n) ++ inp.gen.flatMap (GenC.gLines n) := by
    have : genLines n a.line a.A a.AL a.AU = a.lines n := rfl
    rw [this, n2, n1, n0]; simp [genLines, GenSt.lines]
  have hprob : ∃ R XL XU Q C, p = ⟨Q, C, ⟨a.line, R.cols, fun i c => R.get (0 + i) (0 + c)⟩,
      ⟨a.line, fun i => a.AL.get (0 + i)⟩, ⟨a.line, fun i => a.AU.get (0 + i)⟩, XL, XU⟩ ∧
      (if s.dep.deps.length ≠ 0 then s.dep.M.rows = n ∧ reduceA a.A s.dep.M = .ok R else R = a.A) := by
    unfold Lssol.updateMatrix at hu
    simp only [hs.Qr, hs.Qc, hs.C] at hu
    rw [fa0, Out.ok_bind, fa1, Out.ok_bind, fa, Out.ok_bind, fb, Out.ok_bind, fo, Out.ok_bind] at hu
    by_cases hdep : s.dep.deps.length ≠ 0
    · obtain ⟨deps, hwf, hds⟩ : ∃ deps, DepsWF n deps ∧ DepSpec n deps s.dep := by
        rcases hd with h | h
        · rw [h] at hdep; simp at hdep
        · exact h
      obtain ⟨A, r1, r1r, r1c⟩ := reduceA_ok (A := a.A) (M := s.dep.M) (by rw [z2, hds.rows])
      rw [if_pos hdep, r1, Out.ok_bind] at hu
      simp only [Out.bind_eq_ok] at hu
      obtain ⟨X, -, QC, -, hu⟩ := hu
      cases hu
      unfold Lssol.problem at hp
      simp only at hp
      rw [if_pos hdep, Mat.block_ok (by omega) (by omega), Out.ok_bind, Vec.segment_ok (by omega),
        Out.ok_bind, Vec.segment_ok (by omega), Out.ok_bind] at hp
      cases hp
      exact ⟨A, _, _, _, _, rfl, by rw [if_pos hdep]; exact ⟨hds.rows, r1⟩⟩
    · rw [if_neg hdep] at hu
      cases hu
      unfold Lssol.problem at hp
      simp only at hp
      rw [if_neg hdep, Mat.block_ok (by omega) (by omega), Out.ok_bind, Vec.segment_ok (by omega),
        Out.ok_bind, Vec.segment_ok (by omega), Out.ok_bind] at hp
      cases hp
      exact ⟨a.A, _, _, _, _, rfl, by rw [if_neg hdep]⟩
  obtain ⟨R, XL, XU, Q, C, rfl, hR⟩ := hprob
  have v := fun i y => rows_full (line := a.line) z2 hR i y
  refine ⟨fun c hc k hk => ?_, fun c hc k hk => ?_, fun c hc k hk => ?_⟩
  · have hm : (row n c.A k, .fin (c.b.get k), .fin (c.b.get k)) ∈ genLines n a.line a.A a.AL a.AU := by
      rw [aL, List.mem_append, List.mem_append, List.mem_flatMap]
      exact Or.inl (Or.inl ⟨c, hc, by
        simp only [EqC.gLines, genLines, List.mem_map, List.mem_range]; exact ⟨k, hk, rfl⟩⟩)
    obtain ⟨i, hi, g1, g2, g3⟩ := genLines_mem hm
    exact ⟨i, hi, by simp only [zero_add]; exact g2, by simp only [zero_add]; exact g3,
      fun y => by rw [v, row_sum_congr g1]⟩
  · have hm : (row n c.A k, .negInf, c.b.get k) ∈ genLines n a.line a.A a.AL a.AU := by
      rw [aL, List.mem_append, List.mem_append, List.mem_flatMap, List.mem_flatMap]
      exact Or.inl (Or.inr ⟨c, hc, by
        simp only [InEqC.gLines, genLines, List.mem_map, List.mem_range]; exact ⟨k, hk, rfl⟩⟩)
    obtain ⟨i, hi, g1, -, g3⟩ := genLines_mem hm
    exact ⟨i, hi, by simp only [zero_add]; exact g3, fun y => by rw [v, row_sum_congr g1]⟩
  · have hm : (row n c.A k, c.L.get k, c.U.get k) ∈ genLines n a.line a.A a.AL a.AU := by
      rw [aL, List.mem_append, List.mem_append, List.mem_flatMap, List.mem_flatMap, List.mem_flatMap]
      exact Or.inr ⟨c, hc, by
        simp only [GenC.gLines, genLines, List.mem_map, List.mem_range]; exact ⟨k, hk, rfl⟩⟩
    obtain ⟨i, hi, g1, g2, g3⟩ := genLines_mem hm
    exact ⟨i, hi, by simp only [zero_add]; exact g2, by simp only [zero_add]; exact g3,
      fun y => by rw [v, row_sum_congr g1]⟩

/-! ## Numerical solvers that answer approximately -/

namespace Spec

/-- The lines of a QLD problem hold at `y` up to `ε`, and the bounds hold at some point that differs from `y` by at
most `ε` in each variable. -/
def QldNear (ε : K) (p : QldProblem K) (y : ℕ → K) : Prop :=
  (∀ i < p.Aeq.rows, |p.Aeq.rowMul i y - p.beq.get i| ≤ ε) ∧
  (∀ i < p.Aineq.rows, (p.bineq.get i).UpperOK (p.Aineq.rowMul i y - ε)) ∧
  ∃ z, InBounds p.XL p.XU z ∧ ∀ i < p.C.size, |y i - z i| ≤ ε

/-- The same for an LSSOL problem. -/
def LssolNear (ε : K) (p : LssolProblem K) (y : ℕ → K) : Prop :=
  (∀ i < p.A.rows, (p.AL.get i).LowerOK (p.A.rowMul i y + ε) ∧ (p.AU.get i).UpperOK (p.A.rowMul i y - ε)) ∧
  ∃ z, InBounds p.XL p.XU z ∧ ∀ i < p.C.size, |y i - z i| ≤ ε

/-- When a numerical solver reports success its answer is feasible up to `ε`, and no feasible point is better by more
than `δ`. -/
def EngineNear (ε δ : K) (eng : Engines K) : Prop :=
  (∀ p, (eng.qld p).1 = true → QldNear ε p (eng.qld p).2.get ∧
    ∀ z, p.Feasible z → p.obj (eng.qld p).2.get ≤ p.obj z + δ) ∧
  ∀ p, (eng.lssol p).1 = true → LssolNear ε p (eng.lssol p).2.get ∧
    ∀ z, p.Feasible z → p.obj (eng.lssol p).2.get ≤ p.obj z + δ

/-- Every active line of every registered constraint holds at `x` up to `ε`. -/
def LinesNear (ε : K) (n : ℕ) (inp : QPInput K) (x : ℕ → K) : Prop :=
  (∀ c ∈ inp.eq, ∀ i < c.nrEq, |lineVal n c.A i x - c.b.get i| ≤ ε) ∧
  (∀ c ∈ inp.inEq, ∀ i < c.nrInEq, (c.b.get i).UpperOK (lineVal n c.A i x - ε)) ∧
  (∀ c ∈ inp.gen, ∀ i < c.nrGen,
    (c.L.get i).LowerOK (lineVal n c.A i x + ε) ∧ (c.U.get i).UpperOK (lineVal n c.A i x - ε))

end Spec

theorem Qld.Has.near {n : ℕ} {inp : QPInput K} {ds : DepSt K} {p : QldProblem K} (h : Qld.Has n inp ds p) {ε : K}
    {y : ℕ → K} (hy : QldNear ε p y) : LinesNear ε n inp (fullX ds y) := by
  obtain ⟨y1, y2, -⟩ := hy
  refine ⟨fun c hc k hk => ?_, fun c hc k hk => ?_, fun c hc k hk => ⟨?_, ?_⟩⟩
  · obtain ⟨i, hi, e1, e2⟩ := h.eq c hc k hk
    have := y1 i hi
    rwa [e1, e2] at this
  · obtain ⟨i, hi, e1, e2⟩ := h.inEq c hc k hk
    have := y2 i hi
    rwa [e1, e2] at this
  · obtain ⟨i, hi, e1, e2⟩ := h.genL c hc k hk
    have := y2 i hi
    rw [e1, e2, show -lineVal n c.A k (fullX ds y) - ε = -(lineVal n c.A k (fullX ds y) + ε) by ring,
      Ext.upperOK_neg] at this
    exact this
  · obtain ⟨i, hi, e1, e2⟩ := h.genU c hc k hk
    have := y2 i hi
    rwa [e1, e2] at this

/-- The lines of a QLD problem hold up to `ε` where those of the registered constraints do. -/
theorem Qld.Only.near {n : ℕ} {inp : QPInput K} {ds : DepSt K} {p : QldProblem K} (h : Qld.Only n inp ds p) {ε : K}
    {y : ℕ → K} (hy : LinesNear ε n inp (fullX ds y)) :
    (∀ i < p.Aeq.rows, |p.Aeq.rowMul i y - p.beq.get i| ≤ ε) ∧
    ∀ i < p.Aineq.rows, (p.bineq.get i).UpperOK (p.Aineq.rowMul i y - ε) := by
  obtain ⟨y1, y2, y3⟩ := hy
  refine ⟨fun i hi => ?_, fun i hi => ?_⟩
  · obtain ⟨c, hc, k, hk, e1, e2⟩ := h.eq i hi
    rw [e1, e2]
    exact y1 c hc k hk
  · rcases h.inEq i hi with ⟨c, hc, k, hk, e1, e2⟩ | ⟨c, hc, k, hk, ⟨e1, e2⟩ | ⟨e1, e2⟩⟩
    · rw [e1, e2]
      exact y2 c hc k hk
    · rw [e1, e2, show -lineVal n c.A k (fullX ds y) - ε = -(lineVal n c.A k (fullX ds y) + ε) by ring,
        Ext.upperOK_neg]
      exact (y3 c hc k hk).1
    · rw [e1, e2]
      exact (y3 c hc k hk).2

/-- Lines that hold, hold up to any tolerance. -/
theorem Spec.SatLines.near {n : ℕ} {inp : QPInput K} {x : ℕ → K} (h : SatLines n inp x) {ε : K} (hε : 0 ≤ ε) :
    LinesNear ε n inp x := by
  obtain ⟨h1, h2, h3⟩ := h
  refine ⟨fun c hc i hi => ?_, fun c hc i hi => ?_, fun c hc i hi => ⟨?_, ?_⟩⟩
  · rw [h1 c hc i hi]
    simpa using hε
  · exact Ext.upperOK_mono (h2 c hc i hi) (by linarith)
  · exact Ext.lowerOK_mono (h3 c hc i hi).1 (by linarith)
  · exact Ext.upperOK_mono (h3 c hc i hi).2 (by linarith)

theorem Lssol.Has.near {n : ℕ} {inp : QPInput K} {ds : DepSt K} {p : LssolProblem K} (h : Lssol.Has n inp ds p) {ε : K}
    {y : ℕ → K} (hy : LssolNear ε p y) : LinesNear ε n inp (fullX ds y) := by
  obtain ⟨y1, -⟩ := hy
  refine ⟨fun c hc k hk => ?_, fun c hc k hk => ?_, fun c hc k hk => ?_⟩
  · obtain ⟨i, hi, e1, e2, e3⟩ := h.eq c hc k hk
    have := y1 i hi
    rw [e1, e2, e3] at this
    rw [Ext.lowerOK_fin, Ext.upperOK_fin] at this
    rw [abs_le]
    constructor <;> linarith
  · obtain ⟨i, hi, e1, e2⟩ := h.inEq c hc k hk
    have := (y1 i hi).2
    rwa [e1, e2] at this
  · obtain ⟨i, hi, e1, e2, e3⟩ := h.gen c hc k hk
    have := y1 i hi
    rwa [e1, e2, e3] at this

namespace Backend

/-- Assembly followed by an approximate solve, on a backend with the right sizes. -/
theorem assemble_solve_near {eng : Engines K} (hE : EngineSized eng) {b : Backend K} {n e i g : ℕ}
    (hs : b.SizedFor n e i g) (hd : DepOK n b.dep) {inp : QPInput K} (hf : InputFits n e i g inp) :
    ∃ b1 ok b2, b.updateMatrix inp = .ok b1 ∧ b1.solve eng = .ok (ok, b2) ∧ b2.dep = b.dep ∧
      b2.result.size = n ∧ ∃ y : ℕ → K, (∀ v, b2.result.get v = fullX b.dep y v) ∧
        ∀ ε δ, EngineNear ε δ eng → ok = true →
          LinesNear ε n inp (fullX b.dep y) ∧
          (∃ z, BoundsAt n inp b.dep.deps (fullX b.dep z) ∧ ∀ i < n - b.dep.deps.length, |y i - z i| ≤ ε) ∧
          ∀ z, SatLines n inp (fullX b.dep z) → BoundsAt n inp b.dep.deps (fullX b.dep z) →
            objective n inp (fullX b.dep y) ≤ objective n inp (fullX b.dep z) + δ := by
  obtain ⟨hin, m1, m2, m3⟩ := hf
  obtain ⟨l1, l2, l3⟩ := active_le hin
  cases b with
  | qld s =>
    obtain ⟨s1, p, e1, hdep, hs1, e2, c1, _, _, _, _, _, _, _, _, hl, hb, ho, _⟩ :=
      Qld.assembled hin hs (by omega) (by omega) hd
    have e1' : (qld s).updateMatrix inp = .ok (qld s1) := by
      simp only [updateMatrix, e1, Out.ok_bind, Out.pure_eq]
    have hsolve : ∃ ok b2, (qld s1).solve eng = .ok (ok, b2) := by
      simp only [solve, Qld.solve, e2, Out.ok_bind]
      by_cases hne : s1.dep.deps.length ≠ 0
      · rw [if_pos hne]
        have : (eng.qld p).2.size = s1.dep.M.cols := by
          rw [hE.1, c1, hdep]
          rcases hd with h0 | ⟨deps, hwf, hsp⟩
          · rw [hdep] at hne
            exact absurd (by simp [show s.dep.deps = [] from h0]) hne
          · rw [show s.dep.M.cols = _ from hsp.cols, show s.dep.deps.length = _ from hsp.perm.length_eq]
        simp [expandResult, this]
      · rw [if_neg hne]
        exact ⟨_, _, rfl⟩
    obtain ⟨ok, b2, hsol⟩ := hsolve
    have hd1 : DepOK n (qld s1).dep := by
      change DepOK n s1.dep
      rw [hdep]; exact hd
    have hps : ∀ p', s1.problem = .ok p' → p'.C.size = n - (qld s1).dep.deps.length := by
      intro p' hp'
      rw [e2] at hp'
      cases hp'
      change _ = n - s1.dep.deps.length
      rw [hdep]; exact c1
    obtain ⟨r1, y, r2, p', hp', rok, ry⟩ := result_spec hE hd1 hsol hps
    have hdd : (qld s1).dep = (qld s).dep := hdep
    rw [hdd] at r2
    obtain ⟨d1, _⟩ := solve_sized hsol hs1
    refine ⟨qld s1, ok, b2, e1', hsol, by rw [d1, hdd], r1, y, r2, ?_⟩
    intro ε δ hO hok
    rw [e2] at hp'
    cases hp'
    obtain ⟨hfe, hopt⟩ := hO.1 p (by rw [← rok]; exact hok)
    rw [← ry] at hfe hopt
    obtain ⟨z, hz, hyz⟩ := hfe.2.2
    refine ⟨(Qld.assembled_rows hin hs (by omega) (by omega) hd e1 e2).1.near hfe, ⟨z, (hb z).mp hz, fun i hi =>
      hyz i (by rw [c1]; exact hi)⟩, fun z hz1 hz2 => ?_⟩
    have := hopt z ⟨(hl z).mpr hz1, (hb z).mpr hz2⟩
    rw [ho, ho] at this
    exact this
  | lssol s =>
    obtain ⟨s1, p, e1, hdep, hs1, e2, c1, _, _, _, _, _, _, hl, hb, ho, _⟩ :=
      Lssol.assembled hin hs (by omega) hd
    have e1' : (lssol s).updateMatrix inp = .ok (lssol s1) := by
      simp only [updateMatrix, e1, Out.ok_bind, Out.pure_eq]
    have hsolve : ∃ ok b2, (lssol s1).solve eng = .ok (ok, b2) := by
      simp only [solve, Lssol.solve, e2, Out.ok_bind]
      by_cases hne : s1.dep.deps.length ≠ 0
      · rw [if_pos hne]
        have : (eng.lssol p).2.size = s1.dep.M.cols := by
          rw [hE.2, c1, hdep]
          rcases hd with h0 | ⟨deps, hwf, hsp⟩
          · rw [hdep] at hne
            exact absurd (by simp [show s.dep.deps = [] from h0]) hne
          · rw [show s.dep.M.cols = _ from hsp.cols, show s.dep.deps.length = _ from hsp.perm.length_eq]
        simp [expandResult, this]
      · rw [if_neg hne]
        exact ⟨_, _, rfl⟩
    obtain ⟨ok, b2, hsol⟩ := hsolve
    have hd1 : DepOK n (lssol s1).dep := by
      change DepOK n s1.dep
      rw [hdep]; exact hd
    have hps : ∀ p', s1.problem = .ok p' → p'.C.size = n - (lssol s1).dep.deps.length := by
      intro p' hp'
      rw [e2] at hp'
      cases hp'
      change _ = n - s1.dep.deps.length
      rw [hdep]; exact c1
    obtain ⟨r1, y, r2, p', hp', rok, ry⟩ := result_spec hE hd1 hsol hps
    have hdd : (lssol s1).dep = (lssol s).dep := hdep
    rw [hdd] at r2
    obtain ⟨d1, _⟩ := solve_sized hsol hs1
    refine ⟨lssol s1, ok, b2, e1', hsol, by rw [d1, hdd], r1, y, r2, ?_⟩
    intro ε δ hO hok
    rw [e2] at hp'
    cases hp'
    obtain ⟨hfe, hopt⟩ := hO.2 p (by rw [← rok]; exact hok)
    rw [← ry] at hfe hopt
    obtain ⟨z, hz, hyz⟩ := hfe.2
    refine ⟨(Lssol.assembled_rows hin hs (by omega) hd e1 e2).near hfe, ⟨z, (hb z).mp hz, fun i hi =>
      hyz i (by rw [c1]; exact hi)⟩, fun z hz1 hz2 => ?_⟩
    have := hopt z ⟨(hl z).mpr hz1, (hb z).mpr hz2⟩
    rw [ho, ho] at this
    exact this

end Backend

end Verif
