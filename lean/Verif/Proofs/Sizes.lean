import Verif.Proofs.Assembly

/-! # A successful assembly never changes the allocated sizes -/

set_option autoImplicit false
set_option linter.unusedSectionVars false

namespace Verif

variable {K : Type}

theorem Mat.setBlock_size {m b m' : Mat K} {i j : ℕ} (h : m.setBlock i j b = .ok m') :
    m'.rows = m.rows ∧ m'.cols = m.cols := by
  unfold Mat.setBlock at h
  split at h
  · cases h; exact ⟨rfl, rfl⟩
  · cases h

theorem Mat.addBlock_size [Add K] [Mul K] {m b m' : Mat K} {i j : ℕ} {w : K}
    (h : m.addBlock i j w b = .ok m') : m'.rows = m.rows ∧ m'.cols = m.cols := by
  unfold Mat.addBlock at h
  split at h
  · cases h; exact ⟨rfl, rfl⟩
  · cases h

theorem Vec.setSegment_size {α : Type} {v w v' : Vec α} {b : ℕ} (h : v.setSegment b w = .ok v') :
    v'.size = v.size := by
  unfold Vec.setSegment at h
  split at h
  · cases h; rfl
  · cases h

theorem Vec.addSegment_size [Add K] [Mul K] {v w v' : Vec K} {b : ℕ} {c : K}
    (h : v.addSegment b c w = .ok v') : v'.size = v.size := by
  unfold Vec.addSegment at h
  split at h
  · cases h; rfl
  · cases h

theorem Vec.set_size {α : Type} {v v' : Vec α} {i : ℕ} {a : α} (h : v.set i a = .ok v') :
    v'.size = v.size := by
  unfold Vec.set at h
  split at h
  · cases h; rfl
  · cases h

theorem Vec.setI_size {α : Type} {v v' : Vec α} {i : ℤ} {a : α} (h : v.setI i a = .ok v') :
    v'.size = v.size := by
  unfold Vec.setI at h
  split at h
  · cases h
  · exact Vec.set_size h

/-- A successful `forRange` preserves every invariant its successful steps preserve. -/
theorem forRange_pres {σ : Type} {n : ℕ} {f : ℕ → σ → Out σ} (I : σ → Prop) {s s' : σ}
    (h0 : I s) (hs : ∀ i s s', I s → f i s = .ok s' → I s') (h : forRange n f s = .ok s') : I s' := by
  induction n generalizing s' with
  | zero => simp [forRange] at h; exact h ▸ h0
  | succ n ih =>
    simp only [forRange, Out.bind_eq_ok] at h
    obtain ⟨s1, h1, h2⟩ := h
    exact hs n s1 s' (ih h1) h2

/-- Sizes of a standard-form state. -/
def StdSt.SameSize {β : Type} (s s' : StdSt K β) : Prop :=
  s'.A.rows = s.A.rows ∧ s'.A.cols = s.A.cols ∧ s'.b.size = s.b.size

/-- Sizes of a general-form state. -/
def GenSt.SameSize (s s' : GenSt K) : Prop :=
  s'.A.rows = s.A.rows ∧ s'.A.cols = s.A.cols ∧ s'.AL.size = s.AL.size ∧ s'.AU.size = s.AU.size

theorem fillEqStd_size {cs : List (EqC K)} {n : ℕ} {s s' : StdSt K K}
    (h : fillEqStd cs n s = .ok s') : s.SameSize s' := by
  refine forEach_inv (fun t => s.SameSize t) ⟨rfl, rfl, rfl⟩ ?_ h
  intro c _ t t' ht hstep
  simp only [fillEqStdStep, Out.bind_eq_ok, Out.pure_eq, Out.ok.injEq] at hstep
  obtain ⟨Ai, _, A, hA, bi, _, b, hb, rfl⟩ := hstep
  obtain ⟨t1, t2, t3⟩ := ht
  exact ⟨(Mat.setBlock_size hA).1.trans t1, (Mat.setBlock_size hA).2.trans t2,
    (Vec.setSegment_size hb).trans t3⟩

theorem fillInEqStd_size {cs : List (InEqC K)} {n : ℕ} {s s' : StdSt K (Ext K)}
    (h : fillInEqStd cs n s = .ok s') : s.SameSize s' := by
  refine forEach_inv (fun t => s.SameSize t) ⟨rfl, rfl, rfl⟩ ?_ h
  intro c _ t t' ht hstep
  simp only [fillInEqStdStep, Out.bind_eq_ok, Out.pure_eq, Out.ok.injEq] at hstep
  obtain ⟨Ai, _, A, hA, bi, _, b, hb, rfl⟩ := hstep
  obtain ⟨t1, t2, t3⟩ := ht
  exact ⟨(Mat.setBlock_size hA).1.trans t1, (Mat.setBlock_size hA).2.trans t2,
    (Vec.setSegment_size hb).trans t3⟩

theorem fillGenStd_size [Neg K] {cs : List (GenC K)} {n : ℕ} {s s' : StdSt K (Ext K)}
    (h : fillGenStd cs n s = .ok s') : s.SameSize s' := by
  refine forEach_inv (fun t => s.SameSize t) ⟨rfl, rfl, rfl⟩ ?_ h
  intro c _ t t' ht hstep
  simp only [fillGenStdStep, Out.bind_eq_ok, Out.pure_eq, Out.ok.injEq] at hstep
  obtain ⟨Ai, _, A, hA, li, _, b, hb, A2, hA2, ui, _, b2, hb2, rfl⟩ := hstep
  obtain ⟨t1, t2, t3⟩ := ht
  exact ⟨(Mat.setBlock_size hA2).1.trans ((Mat.setBlock_size hA).1.trans t1),
    (Mat.setBlock_size hA2).2.trans ((Mat.setBlock_size hA).2.trans t2),
    (Vec.setSegment_size hb2).trans ((Vec.setSegment_size hb).trans t3)⟩

theorem fillEqGen_size {cs : List (EqC K)} {n : ℕ} {s s' : GenSt K}
    (h : fillEqGen cs n s = .ok s') : s.SameSize s' := by
  refine forEach_inv (fun t => s.SameSize t) ⟨rfl, rfl, rfl, rfl⟩ ?_ h
  intro c _ t t' ht hstep
  simp only [fillEqGenStep, Out.bind_eq_ok, Out.pure_eq, Out.ok.injEq] at hstep
  obtain ⟨Ai, _, A, hA, bi, _, l, hl, u, hu, rfl⟩ := hstep
  obtain ⟨t1, t2, t3, t4⟩ := ht
  exact ⟨(Mat.setBlock_size hA).1.trans t1, (Mat.setBlock_size hA).2.trans t2,
    (Vec.setSegment_size hl).trans t3, (Vec.setSegment_size hu).trans t4⟩

theorem fillInEqGen_size {cs : List (InEqC K)} {n : ℕ} {s s' : GenSt K}
    (h : fillInEqGen cs n s = .ok s') : s.SameSize s' := by
  refine forEach_inv (fun t => s.SameSize t) ⟨rfl, rfl, rfl, rfl⟩ ?_ h
  intro c _ t t' ht hstep
  simp only [fillInEqGenStep, Out.bind_eq_ok, Out.pure_eq, Out.ok.injEq] at hstep
  obtain ⟨Ai, _, A, hA, l, hl, bi, _, u, hu, rfl⟩ := hstep
  obtain ⟨t1, t2, t3, t4⟩ := ht
  exact ⟨(Mat.setBlock_size hA).1.trans t1, (Mat.setBlock_size hA).2.trans t2,
    (Vec.setSegment_size hl).trans t3, (Vec.setSegment_size hu).trans t4⟩

theorem fillGenGen_size {cs : List (GenC K)} {n : ℕ} {s s' : GenSt K}
    (h : fillGenGen cs n s = .ok s') : s.SameSize s' := by
  refine forEach_inv (fun t => s.SameSize t) ⟨rfl, rfl, rfl, rfl⟩ ?_ h
  intro c _ t t' ht hstep
  simp only [fillGenGenStep, Out.bind_eq_ok, Out.pure_eq, Out.ok.injEq] at hstep
  obtain ⟨Ai, _, A, hA, li, _, l, hl, ui, _, u, hu, rfl⟩ := hstep
  obtain ⟨t1, t2, t3, t4⟩ := ht
  exact ⟨(Mat.setBlock_size hA).1.trans t1, (Mat.setBlock_size hA).2.trans t2,
    (Vec.setSegment_size hl).trans t3, (Vec.setSegment_size hu).trans t4⟩

theorem fillBound_size {cs : List (BoundC K)} {s s' : Vec (Ext K) × Vec (Ext K)}
    (h : fillBound cs s = .ok s') : s'.1.size = s.1.size ∧ s'.2.size = s.2.size := by
  refine forEach_inv (fun t => t.1.size = s.1.size ∧ t.2.size = s.2.size) ⟨rfl, rfl⟩ ?_ h
  intro c _ t t' ht hstep
  simp only [fillBoundStep, Out.bind_eq_ok, Out.pure_eq, Out.ok.injEq] at hstep
  obtain ⟨l, hl, u, hu, rfl⟩ := hstep
  exact ⟨(Vec.setSegment_size hl).trans ht.1, (Vec.setSegment_size hu).trans ht.2⟩

variable [Field K] [LinearOrder K]

theorem fillQC_size {ts : List (TaskQC K)} {n : ℕ} {s s' : Mat K × Vec K}
    (h : fillQC ts n s = .ok s') :
    s'.1.rows = s.1.rows ∧ s'.1.cols = s.1.cols ∧ s'.2.size = s.2.size := by
  simp only [fillQC, Out.bind_eq_ok, Out.pure_eq, Out.ok.injEq] at h
  obtain ⟨s1, h1, Q, h2, rfl⟩ := h
  have e1 : s1.1.rows = s.1.rows ∧ s1.1.cols = s.1.cols ∧ s1.2.size = s.2.size := by
    refine forEach_inv (fun t => t.1.rows = s.1.rows ∧ t.1.cols = s.1.cols ∧ t.2.size = s.2.size)
      ⟨rfl, rfl, rfl⟩ ?_ h1
    intro c _ t t' ht hstep
    simp only [fillTask, Out.bind_eq_ok] at hstep
    obtain ⟨Q, hQ, hstep⟩ := hstep
    split at hstep
    · simp only [Out.bind_eq_ok, Out.pure_eq, Out.ok.injEq] at hstep
      obtain ⟨C, hC, rfl⟩ := hstep
      exact ⟨(Mat.addBlock_size hQ).1.trans ht.1, (Mat.addBlock_size hQ).2.trans ht.2.1,
        (Vec.addSegment_size hC).trans ht.2.2⟩
    · cases hstep
  have e2 : Q.rows = s1.1.rows ∧ Q.cols = s1.1.cols := by
    refine forRange_pres (fun t => t.rows = s1.1.rows ∧ t.cols = s1.1.cols) ⟨rfl, rfl⟩ ?_ h2
    intro i t t' ht hstep
    unfold diagStep at hstep
    split at hstep
    · split at hstep <;> · cases hstep; exact ht
    · cases hstep
  exact ⟨e2.1.trans e1.1, e2.2.trans e1.2.1, e1.2.2⟩

theorem reduceBound_size {XL XU : Vec (Ext K)} {ds : DepSt K} {s s' : Vec (Ext K) × Vec (Ext K)}
    (h : reduceBound XL XU ds s = .ok s') : s'.1.size = s.1.size ∧ s'.2.size = s.2.size := by
  simp only [reduceBound, Out.bind_eq_ok] at h
  obtain ⟨s1, h1, h2⟩ := h
  have e1 : s1.1.size = s.1.size ∧ s1.2.size = s.2.size := by
    refine forRange_pres (fun t => t.1.size = s.1.size ∧ t.2.size = s.2.size) ⟨rfl, rfl⟩ ?_ h1
    intro i t t' ht hstep
    simp only [reduceBoundCopy, Out.bind_eq_ok, Out.pure_eq, Out.ok.injEq] at hstep
    obtain ⟨f, _, l, _, L, hL, u, _, U, hU, rfl⟩ := hstep
    exact ⟨(Vec.set_size hL).trans ht.1, (Vec.set_size hU).trans ht.2⟩
  refine forEach_inv (fun t => t.1.size = s.1.size ∧ t.2.size = s.2.size) e1 ?_ h2
  intro d _ t t' ht hstep
  simp only [reduceBoundDep, Out.bind_eq_ok] at hstep
  obtain ⟨p, _, hstep⟩ := hstep
  split at hstep
  · simp only [Out.bind_eq_ok] at hstep
    obtain ⟨xl, _, xu, _, rl, _, ru, _, hstep⟩ := hstep
    split at hstep <;>
    · simp only [Out.bind_eq_ok, Out.pure_eq, Out.ok.injEq] at hstep
      obtain ⟨L, hL, U, hU, rfl⟩ := hstep
      exact ⟨(Vec.setI_size hL).trans ht.1, (Vec.setI_size hU).trans ht.2⟩
  · cases hstep; exact ht

theorem Qld.updateMatrix_sized {inp : QPInput K} {s s' : Qld K} {n e q : ℕ}
    (h : s.updateMatrix inp = .ok s') (hs : s.SizedFor n e q) :
    s'.dep = s.dep ∧ s'.SizedFor n e q := by
  simp only [Qld.updateMatrix, Out.bind_eq_ok] at h
  obtain ⟨a, ha, q0, hq0, q1, hq1, b, hb, o, ho, h⟩ := h
  obtain ⟨a1, a2, a3⟩ := fillEqStd_size ha
  obtain ⟨c1, c2, c3⟩ := fillInEqStd_size hq0
  obtain ⟨d1, d2, d3⟩ := fillGenStd_size hq1
  obtain ⟨b1, b2⟩ := fillBound_size hb
  obtain ⟨o1, o2, o3⟩ := fillQC_size ho
  split at h
  · simp only [Out.bind_eq_ok, Out.pure_eq, Out.ok.injEq] at h
    obtain ⟨Aeq, _, Aineq, _, X, hX, QC, _, rfl⟩ := h
    obtain ⟨x1, x2⟩ := reduceBound_size hX
    exact ⟨rfl, ⟨o1.trans hs.Qr, o2.trans hs.Qc, o3.trans hs.C, a1.trans hs.Er, a2.trans hs.Ec,
      a3.trans hs.b, (d1.trans c1).trans hs.Ir, (d2.trans c2).trans hs.Ic, (d3.trans c3).trans hs.bi,
      b1.trans hs.XL, b2.trans hs.XU, fun hne => x1.trans (hs.rXL hne),
      fun hne => x2.trans (hs.rXU hne)⟩⟩
  · cases h
    exact ⟨rfl, ⟨o1.trans hs.Qr, o2.trans hs.Qc, o3.trans hs.C, a1.trans hs.Er, a2.trans hs.Ec,
      a3.trans hs.b, (d1.trans c1).trans hs.Ir, (d2.trans c2).trans hs.Ic, (d3.trans c3).trans hs.bi,
      b1.trans hs.XL, b2.trans hs.XU, hs.rXL, hs.rXU⟩⟩

theorem Lssol.updateMatrix_sized {inp : QPInput K} {s s' : Lssol K} {n a : ℕ}
    (h : s.updateMatrix inp = .ok s') (hs : s.SizedFor n a) :
    s'.dep = s.dep ∧ s'.SizedFor n a := by
  simp only [Lssol.updateMatrix, Out.bind_eq_ok] at h
  obtain ⟨a0, ha0, a1, ha1, a2, ha2, b, hb, o, ho, h⟩ := h
  obtain ⟨p1, p2, p3, p4⟩ := fillEqGen_size ha0
  obtain ⟨q1, q2, q3, q4⟩ := fillInEqGen_size ha1
  obtain ⟨r1, r2, r3, r4⟩ := fillGenGen_size ha2
  obtain ⟨b1, b2⟩ := fillBound_size hb
  obtain ⟨o1, o2, o3⟩ := fillQC_size ho
  split at h
  · simp only [Out.bind_eq_ok, Out.pure_eq, Out.ok.injEq] at h
    obtain ⟨A, _, X, hX, QC, _, rfl⟩ := h
    obtain ⟨x1, x2⟩ := reduceBound_size hX
    exact ⟨rfl, ⟨o1.trans hs.Qr, o2.trans hs.Qc, o3.trans hs.C,
      ((r1.trans q1).trans p1).trans hs.Ar, ((r2.trans q2).trans p2).trans hs.Ac,
      ((r3.trans q3).trans p3).trans hs.AL, ((r4.trans q4).trans p4).trans hs.AU,
      b1.trans hs.XL, b2.trans hs.XU, fun hne => x1.trans (hs.rXL hne),
      fun hne => x2.trans (hs.rXU hne)⟩⟩
  · cases h
    exact ⟨rfl, ⟨o1.trans hs.Qr, o2.trans hs.Qc, o3.trans hs.C,
      ((r1.trans q1).trans p1).trans hs.Ar, ((r2.trans q2).trans p2).trans hs.Ac,
      ((r3.trans q3).trans p3).trans hs.AL, ((r4.trans q4).trans p4).trans hs.AU,
      b1.trans hs.XL, b2.trans hs.XU, hs.rXL, hs.rXU⟩⟩

end Verif
