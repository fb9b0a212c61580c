import Verif.Model.Fill

/-! # Lemmas on the QP assembly -/

set_option autoImplicit false
set_option linter.unusedSectionVars false

namespace Verif

open Finset

section Lines
variable {K : Type}

theorem Mat.block_ok {m : Mat K} {i j r c : ℕ} (h1 : i + r ≤ m.rows) (h2 : j + c ≤ m.cols) :
    m.block i j r c = .ok ⟨r, c, fun a b => m.get (i + a) (j + b)⟩ := by
  simp [Mat.block, h1, h2]

theorem Vec.segment_ok {α : Type} {v : Vec α} {b n : ℕ} (h : b + n ≤ v.size) :
    v.segment b n = .ok ⟨n, fun i => v.get (b + i)⟩ := by
  simp [Vec.segment, h]

theorem Mat.setBlock_ok {m b : Mat K} {i j : ℕ} (h1 : i + b.rows ≤ m.rows)
    (h2 : j + b.cols ≤ m.cols) :
    m.setBlock i j b = .ok ⟨m.rows, m.cols, fun a c =>
      if (i ≤ a ∧ a < i + b.rows) ∧ (j ≤ c ∧ c < j + b.cols) then b.get (a - i) (c - j)
      else m.get a c⟩ := by
  simp [Mat.setBlock, h1, h2]

theorem Vec.setSegment_ok {α : Type} {v w : Vec α} {b : ℕ} (h : b + w.size ≤ v.size) :
    v.setSegment b w = .ok ⟨v.size, fun i =>
      if b ≤ i ∧ i < b + w.size then w.get (i - b) else v.get i⟩ := by
  simp [Vec.setSegment, h]

/-- The first `n` entries of line `i`. -/
def row [Zero K] (n : ℕ) (A : Mat K) (i : ℕ) : ℕ → K := fun j => if j < n then A.get i j else 0

/-- The first `k` lines, paired with their right-hand side. -/
def stdLines {β : Type} [Zero K] (n k : ℕ) (A : Mat K) (b : Vec β) : List ((ℕ → K) × β) :=
  (List.range k).map fun i => (row n A i, b.get i)

/-- The first `k` two-sided lines. -/
def genLines [Zero K] (n k : ℕ) (A : Mat K) (L U : Vec (Ext K)) :
    List ((ℕ → K) × Ext K × Ext K) :=
  (List.range k).map fun i => (row n A i, L.get i, U.get i)

theorem row_mul [CommRing K] (n : ℕ) (A : Mat K) (i : ℕ) (x : ℕ → K) :
    ∑ j ∈ range n, row n A i j * x j = ∑ j ∈ range n, A.get i j * x j := by
  apply Finset.sum_congr rfl
  intro j hj
  simp [row, Finset.mem_range.mp hj]

theorem mem_stdLines {β : Type} [Zero K] {n k : ℕ} {A : Mat K} {b : Vec β}
    {P : (ℕ → K) → β → Prop} :
    (∀ l ∈ stdLines n k A b, P l.1 l.2) ↔ ∀ i < k, P (row n A i) (b.get i) := by
  simp [stdLines]

theorem mem_genLines [Zero K] {n k : ℕ} {A : Mat K} {L U : Vec (Ext K)}
    {P : (ℕ → K) → Ext K → Ext K → Prop} :
    (∀ l ∈ genLines n k A L U, P l.1 l.2.1 l.2.2) ↔
      ∀ i < k, P (row n A i) (L.get i) (U.get i) := by
  simp [genLines]

/-- Copying a block of lines below the ones already there. -/
theorem row_setBlock [Zero K] {n line : ℕ} {A blk : Mat K} (hc : n = A.cols) (hb : n = blk.cols) :
    let A' : Mat K := ⟨A.rows, A.cols, fun a c =>
      if (line ≤ a ∧ a < line + blk.rows) ∧ (0 ≤ c ∧ c < 0 + blk.cols) then
        blk.get (a - line) (c - 0) else A.get a c⟩
    (∀ i < line, row n A' i = row n A i) ∧
    (∀ i < blk.rows, row n A' (line + i) = row n blk i) := by
  refine ⟨fun i hi => ?_, fun i hi => ?_⟩
  · funext j
    simp only [row]
    have : ¬ line ≤ i := by omega
    simp [this]
  · funext j
    simp only [row]
    by_cases hj : j < n
    · have : j < blk.cols := hb ▸ hj
      simp [hj, hi, this]
    · simp [hj]

theorem get_setSegment {α : Type} {line : ℕ} {v w : Vec α} :
    let v' : Vec α := ⟨v.size, fun i =>
      if line ≤ i ∧ i < line + w.size then w.get (i - line) else v.get i⟩
    (∀ i < line, v'.get i = v.get i) ∧ (∀ i < w.size, v'.get (line + i) = w.get i) := by
  refine ⟨fun i hi => ?_, fun i hi => ?_⟩
  · have : ¬ line ≤ i := by omega
    simp [this]
  · simp [hi]

theorem range_add_map {α : Type} (a b : ℕ) (f : ℕ → α) :
    (List.range (a + b)).map f
      = (List.range a).map f ++ (List.range b).map (fun i => f (a + i)) := by
  rw [List.range_add, List.map_append, List.map_map]; rfl

theorem putStd {β : Type} [Zero K] {n line : ℕ} {A blk : Mat K} {b seg : Vec β} (hc : n = A.cols)
    (hb : n = blk.cols) (hs : seg.size = blk.rows) (hr : line + blk.rows ≤ A.rows)
    (hbs : b.size = A.rows) :
    ∃ A' b', A.setBlock line 0 blk = .ok A' ∧ b.setSegment line seg = .ok b' ∧
      A'.rows = A.rows ∧ A'.cols = A.cols ∧ b'.size = b.size ∧
      stdLines n (line + blk.rows) A' b'
        = stdLines n line A b ++ stdLines n blk.rows blk seg := by
  refine ⟨_, _, Mat.setBlock_ok hr (by omega), Vec.setSegment_ok (by omega), rfl, rfl, rfl, ?_⟩
  obtain ⟨r1, r2⟩ := row_setBlock (line := line) hc hb
  obtain ⟨g1, g2⟩ := get_setSegment (line := line) (v := b) (w := seg)
  simp only at r1 r2 g1 g2
  unfold stdLines
  rw [range_add_map]
  congr 1
  · apply List.map_congr_left
    intro i hi
    rw [List.mem_range] at hi
    rw [Prod.mk.injEq]
    exact ⟨r1 i hi, g1 i hi⟩
  · apply List.map_congr_left
    intro i hi
    rw [List.mem_range] at hi
    rw [Prod.mk.injEq]
    exact ⟨r2 i hi, g2 i (hs ▸ hi)⟩

theorem putGen [Zero K] {n line : ℕ} {A blk : Mat K} {L U l u : Vec (Ext K)} (hc : n = A.cols)
    (hb : n = blk.cols) (hl : l.size = blk.rows) (hu : u.size = blk.rows)
    (hr : line + blk.rows ≤ A.rows) (hL : L.size = A.rows) (hU : U.size = A.rows) :
    ∃ A' L' U', A.setBlock line 0 blk = .ok A' ∧ L.setSegment line l = .ok L' ∧
      U.setSegment line u = .ok U' ∧
      A'.rows = A.rows ∧ A'.cols = A.cols ∧ L'.size = L.size ∧ U'.size = U.size ∧
      genLines n (line + blk.rows) A' L' U'
        = genLines n line A L U ++ genLines n blk.rows blk l u := by
  refine ⟨_, _, _, Mat.setBlock_ok hr (by omega), Vec.setSegment_ok (by omega),
    Vec.setSegment_ok (by omega), rfl, rfl, rfl, rfl, ?_⟩
  obtain ⟨r1, r2⟩ := row_setBlock (line := line) hc hb
  obtain ⟨g1, g2⟩ := get_setSegment (line := line) (v := L) (w := l)
  obtain ⟨k1, k2⟩ := get_setSegment (line := line) (v := U) (w := u)
  simp only at r1 r2 g1 g2 k1 k2
  unfold genLines
  rw [range_add_map]
  congr 1
  · apply List.map_congr_left
    intro i hi
    rw [List.mem_range] at hi
    rw [Prod.mk.injEq, Prod.mk.injEq]
    exact ⟨r1 i hi, g1 i hi, k1 i hi⟩
  · apply List.map_congr_left
    intro i hi
    rw [List.mem_range] at hi
    rw [Prod.mk.injEq, Prod.mk.injEq]
    exact ⟨r2 i hi, g2 i (hl ▸ hi), k2 i (hu ▸ hi)⟩

/-- A loop whose steps append lines appends all of them. -/
theorem forEach_lines {C σ L : Type} {f : C → σ → Out σ} {cnt : C → ℕ} {lines : σ → List L}
    {cl : C → List L} {line : σ → ℕ} {P : σ → Prop} {R : ℕ} {W : C → Prop}
    (step : ∀ c s, W c → P s → line s + cnt c ≤ R → ∃ s', f c s = .ok s' ∧ P s' ∧
      line s' = line s + cnt c ∧ lines s' = lines s ++ cl c) :
    ∀ (cs : List C) (s : σ), (∀ c ∈ cs, W c) → P s → line s + (cs.map cnt).sum ≤ R →
      ∃ s', forEach cs f s = .ok s' ∧ P s' ∧ line s' = line s + (cs.map cnt).sum ∧
        lines s' = lines s ++ cs.flatMap cl := by
  intro cs
  induction cs with
  | nil => intro s _ hp _; exact ⟨s, rfl, hp, by simp, by simp⟩
  | cons c t ih =>
    intro s hw hp hr
    simp only [List.map_cons, List.sum_cons] at hr
    obtain ⟨s1, e1, p1, l1, n1⟩ := step c s (hw c (by simp)) hp (by omega)
    obtain ⟨s2, e2, p2, l2, n2⟩ := ih s1 (fun c hc => hw c (by simp [hc])) p1 (by omega)
    refine ⟨s2, by simp [forEach, e1, e2], p2, ?_, ?_⟩
    · rw [l2, l1]; simp; omega
    · rw [n2, n1]; simp

/-! ### What a well-sized constraint is -/

/-- The matrices of an equality constraint hold its active lines on `n` variables. -/
def EqC.Sized (n : ℕ) (c : EqC K) : Prop :=
  c.nrEq ≤ c.maxEq ∧ c.nrEq ≤ c.A.rows ∧ n ≤ c.A.cols ∧ c.nrEq ≤ c.b.size
/-- Same for an inequality constraint. -/
def InEqC.Sized (n : ℕ) (c : InEqC K) : Prop :=
  c.nrInEq ≤ c.maxInEq ∧ c.nrInEq ≤ c.A.rows ∧ n ≤ c.A.cols ∧ c.nrInEq ≤ c.b.size
/-- Same for a general inequality constraint. -/
def GenC.Sized (n : ℕ) (c : GenC K) : Prop :=
  c.nrGen ≤ c.maxGen ∧ c.nrGen ≤ c.A.rows ∧ n ≤ c.A.cols ∧ c.nrGen ≤ c.L.size ∧
    c.nrGen ≤ c.U.size
/-- A bound constraint inside `n` variables. -/
def BoundC.Sized (n : ℕ) (c : BoundC K) : Prop :=
  c.beginVar + c.lower.size ≤ n ∧ c.beginVar + c.upper.size ≤ n
/-- A task block inside `n` variables. -/
def TaskQC.Sized (n : ℕ) (t : TaskQC K) : Prop :=
  t.begin'.1 + t.Q.rows ≤ n ∧ t.begin'.2 + t.Q.cols ≤ n ∧ t.C.size = t.Q.rows

/-- Active lines of an equality. -/
def EqC.lines [Zero K] (n : ℕ) (c : EqC K) : List ((ℕ → K) × K) := stdLines n c.nrEq c.A c.b
/-- Active lines of an inequality. -/
def InEqC.lines [Zero K] (n : ℕ) (c : InEqC K) : List ((ℕ → K) × Ext K) :=
  stdLines n c.nrInEq c.A c.b
/-- One-sided lines of a general inequality, as QLD gets them. -/
def GenC.lines2 [CommRing K] (n : ℕ) (c : GenC K) : List ((ℕ → K) × Ext K) :=
  stdLines n c.nrGen c.A.neg ⟨c.L.size, fun i => (c.L.get i).neg⟩ ++ stdLines n c.nrGen c.A c.U
/-- Equality lines, two sided. -/
def EqC.gLines [Zero K] (n : ℕ) (c : EqC K) : List ((ℕ → K) × Ext K × Ext K) :=
  genLines n c.nrEq c.A ⟨c.b.size, fun i => .fin (c.b.get i)⟩ ⟨c.b.size, fun i => .fin (c.b.get i)⟩
/-- Inequality lines, two sided. -/
def InEqC.gLines [Zero K] (n : ℕ) (c : InEqC K) : List ((ℕ → K) × Ext K × Ext K) :=
  genLines n c.nrInEq c.A (Vec.const c.nrInEq .negInf) c.b
/-- General inequality lines. -/
def GenC.gLines [Zero K] (n : ℕ) (c : GenC K) : List ((ℕ → K) × Ext K × Ext K) :=
  genLines n c.nrGen c.A c.L c.U

/-- Sizes of a standard-form state. -/
def StdFits {β : Type} (n R : ℕ) (s : StdSt K β) : Prop :=
  s.A.rows = R ∧ s.A.cols = n ∧ s.b.size = R

theorem stdLines_block {β : Type} [Zero K] (n k : ℕ) (A : Mat K) (b : Vec β) :
    stdLines n k ⟨k, n, fun a c => A.get (0 + a) (0 + c)⟩ ⟨k, fun i => b.get (0 + i)⟩
      = stdLines n k A b := by
  simp [stdLines]
  exact fun _ _ => rfl

theorem fillEqStd_ok [Zero K] (n R : ℕ) (cs : List (EqC K)) (s : StdSt K K)
    (hw : ∀ c ∈ cs, c.Sized n) (hs : StdFits n R s) (hr : s.line + (cs.map EqC.nrEq).sum ≤ R) :
    ∃ s', fillEqStd cs n s = .ok s' ∧ StdFits n R s' ∧
      s'.line = s.line + (cs.map EqC.nrEq).sum ∧
      stdLines n s'.line s'.A s'.b = stdLines n s.line s.A s.b ++ cs.flatMap (EqC.lines n) := by
  refine forEach_lines (W := EqC.Sized n) (P := StdFits n R) (line := StdSt.line)
    (lines := fun s => stdLines n s.line s.A s.b) ?_ cs s hw hs hr
  rintro c s ⟨_, h2, h3, h4⟩ ⟨p1, p2, p3⟩ hline
  obtain ⟨A', b', e1, e2, a1, a2, a3, a4⟩ := putStd (n := n) (line := s.line) (A := s.A) (b := s.b)
    (blk := ⟨c.nrEq, n, fun a d => c.A.get (0 + a) (0 + d)⟩)
    (seg := ⟨c.nrEq, fun i => c.b.get (0 + i)⟩) p2.symm rfl rfl
    (by simpa [p1] using hline) (by rw [p3, p1])
  refine ⟨⟨s.line + c.nrEq, A', b'⟩, ?_, ⟨a1.trans p1, a2.trans p2, a3.trans p3⟩, rfl, ?_⟩
  · unfold fillEqStdStep
    rw [Mat.block_ok (by omega) (by omega), Out.ok_bind, e1, Out.ok_bind,
      Vec.segment_ok (by omega), Out.ok_bind, e2]; rfl
  · simp only at a4 ⊢
    rw [a4, stdLines_block]; rfl

theorem fillInEqStd_ok [Zero K] (n R : ℕ) (cs : List (InEqC K)) (s : StdSt K (Ext K))
    (hw : ∀ c ∈ cs, c.Sized n) (hs : StdFits n R s) (hr : s.line + (cs.map InEqC.nrInEq).sum ≤ R) :
    ∃ s', fillInEqStd cs n s = .ok s' ∧ StdFits n R s' ∧
      s'.line = s.line + (cs.map InEqC.nrInEq).sum ∧
      stdLines n s'.line s'.A s'.b = stdLines n s.line s.A s.b ++ cs.flatMap (InEqC.lines n) := by
  refine forEach_lines (W := InEqC.Sized n) (P := StdFits n R) (line := StdSt.line)
    (lines := fun s => stdLines n s.line s.A s.b) ?_ cs s hw hs hr
  rintro c s ⟨_, h2, h3, h4⟩ ⟨p1, p2, p3⟩ hline
  obtain ⟨A', b', e1, e2, a1, a2, a3, a4⟩ := putStd (n := n) (line := s.line) (A := s.A) (b := s.b)
    (blk := ⟨c.nrInEq, n, fun a d => c.A.get (0 + a) (0 + d)⟩)
    (seg := ⟨c.nrInEq, fun i => c.b.get (0 + i)⟩) p2.symm rfl rfl
    (by simpa [p1] using hline) (by rw [p3, p1])
  refine ⟨⟨s.line + c.nrInEq, A', b'⟩, ?_, ⟨a1.trans p1, a2.trans p2, a3.trans p3⟩, rfl, ?_⟩
  · unfold fillInEqStdStep
    rw [Mat.block_ok (by omega) (by omega), Out.ok_bind, e1, Out.ok_bind,
      Vec.segment_ok (by omega), Out.ok_bind, e2]; rfl
  · simp only at a4 ⊢
    rw [a4, stdLines_block]; rfl

theorem stdLines_block_neg [CommRing K] (n k : ℕ) (A : Mat K) (b : Vec (Ext K)) :
    stdLines n k (Mat.neg ⟨k, n, fun a c => A.get (0 + a) (0 + c)⟩)
      ⟨k, fun i => (b.get (0 + i)).neg⟩
      = stdLines n k A.neg ⟨b.size, fun i => (b.get i).neg⟩ := by
  simp [stdLines, Mat.neg]
  exact fun _ _ => rfl

theorem fillGenStd_ok [CommRing K] (n R : ℕ) (cs : List (GenC K)) (s : StdSt K (Ext K))
    (hw : ∀ c ∈ cs, c.Sized n) (hs : StdFits n R s)
    (hr : s.line + (cs.map fun c => c.nrGen + c.nrGen).sum ≤ R) :
    ∃ s', fillGenStd cs n s = .ok s' ∧ StdFits n R s' ∧
      s'.line = s.line + (cs.map fun c => c.nrGen + c.nrGen).sum ∧
      stdLines n s'.line s'.A s'.b = stdLines n s.line s.A s.b ++ cs.flatMap (GenC.lines2 n) := by
  refine forEach_lines (W := GenC.Sized n) (P := StdFits n R) (line := StdSt.line)
    (lines := fun s => stdLines n s.line s.A s.b) ?_ cs s hw hs hr
  rintro c s ⟨_, h2, h3, h4, h5⟩ ⟨p1, p2, p3⟩ hline
  obtain ⟨A', b', e1, e2, a1, a2, a3, a4⟩ := putStd (n := n) (line := s.line) (A := s.A) (b := s.b)
    (blk := Mat.neg ⟨c.nrGen, n, fun a d => c.A.get (0 + a) (0 + d)⟩)
    (seg := ⟨c.nrGen, fun i => (c.L.get (0 + i)).neg⟩) p2.symm rfl rfl
    (by simp only [p1, Mat.neg]; omega) (by rw [p3, p1])
  obtain ⟨A'', b'', e3, e4, c1, c2, c3, c4⟩ := putStd (n := n) (line := s.line + c.nrGen)
    (A := A') (b := b')
    (blk := ⟨c.nrGen, n, fun a d => c.A.get (0 + a) (0 + d)⟩)
    (seg := ⟨c.nrGen, fun i => c.U.get (0 + i)⟩) (by omega) rfl rfl
    (by simp only [p1, a1]; omega) (by omega)
  refine ⟨⟨s.line + c.nrGen + c.nrGen, A'', b''⟩, ?_, ⟨by simp only; omega, by simp only; omega,
    by simp only; omega⟩, by simp only; omega, ?_⟩
  · unfold fillGenStdStep
    rw [Mat.block_ok (by omega) (by omega), Out.ok_bind, e1, Out.ok_bind,
      Vec.segment_ok (by omega), Out.ok_bind]
    simp only
    rw [e2, Out.ok_bind, e3, Out.ok_bind, Vec.segment_ok (by omega), Out.ok_bind, e4]; rfl
  · simp only [Mat.neg] at a4 c4 ⊢
    rw [c4, a4, stdLines_block, List.append_assoc]
    congr 2
    exact stdLines_block_neg n c.nrGen c.A c.L

/-- Sizes of a general-form state. -/
def GenFits (n R : ℕ) (s : GenSt K) : Prop :=
  s.A.rows = R ∧ s.A.cols = n ∧ s.AL.size = R ∧ s.AU.size = R

/-- Lines of a general-form state. -/
def GenSt.lines [Zero K] (n : ℕ) (s : GenSt K) : List ((ℕ → K) × Ext K × Ext K) :=
  genLines n s.line s.A s.AL s.AU

theorem fillEqGen_ok [Zero K] (n R : ℕ) (cs : List (EqC K)) (s : GenSt K)
    (hw : ∀ c ∈ cs, c.Sized n) (hs : GenFits n R s) (hr : s.line + (cs.map EqC.nrEq).sum ≤ R) :
    ∃ s', fillEqGen cs n s = .ok s' ∧ GenFits n R s' ∧
      s'.line = s.line + (cs.map EqC.nrEq).sum ∧
      s'.lines n = s.lines n ++ cs.flatMap (EqC.gLines n) := by
  refine forEach_lines (W := EqC.Sized n) (P := GenFits n R) (line := GenSt.line)
    (lines := GenSt.lines n) ?_ cs s hw hs hr
  rintro c s ⟨_, h2, h3, h4⟩ ⟨p1, p2, p3, p4⟩ hline
  obtain ⟨A', L', U', e1, e2, e3, a1, a2, a3, a4, a5⟩ := putGen (n := n) (line := s.line) (A := s.A)
    (L := s.AL) (U := s.AU) (blk := ⟨c.nrEq, n, fun a d => c.A.get (0 + a) (0 + d)⟩)
    (l := ⟨c.nrEq, fun i => .fin (c.b.get (0 + i))⟩)
    (u := ⟨c.nrEq, fun i => .fin (c.b.get (0 + i))⟩) p2.symm rfl rfl rfl
    (by simpa [p1] using hline) (by rw [p3, p1]) (by rw [p4, p1])
  refine ⟨⟨s.line + c.nrEq, A', L', U'⟩, ?_, ⟨a1.trans p1, a2.trans p2, a3.trans p3, a4.trans p4⟩,
    rfl, ?_⟩
  · unfold fillEqGenStep
    rw [Mat.block_ok (by omega) (by omega), Out.ok_bind, e1, Out.ok_bind,
      Vec.segment_ok (by omega), Out.ok_bind]
    simp only
    rw [e2, Out.ok_bind, e3]; rfl
  · simp only [GenSt.lines] at a5 ⊢
    rw [a5]
    simp [genLines, EqC.gLines]
    exact fun _ _ => rfl

theorem fillInEqGen_ok [Zero K] (n R : ℕ) (cs : List (InEqC K)) (s : GenSt K)
    (hw : ∀ c ∈ cs, c.Sized n) (hs : GenFits n R s) (hr : s.line + (cs.map InEqC.nrInEq).sum ≤ R) :
    ∃ s', fillInEqGen cs n s = .ok s' ∧ GenFits n R s' ∧
      s'.line = s.line + (cs.map InEqC.nrInEq).sum ∧
      s'.lines n = s.lines n ++ cs.flatMap (InEqC.gLines n) := by
  refine forEach_lines (W := InEqC.Sized n) (P := GenFits n R) (line := GenSt.line)
    (lines := GenSt.lines n) ?_ cs s hw hs hr
  rintro c s ⟨_, h2, h3, h4⟩ ⟨p1, p2, p3, p4⟩ hline
  obtain ⟨A', L', U', e1, e2, e3, a1, a2, a3, a4, a5⟩ := putGen (n := n) (line := s.line) (A := s.A)
    (L := s.AL) (U := s.AU) (blk := ⟨c.nrInEq, n, fun a d => c.A.get (0 + a) (0 + d)⟩)
    (l := Vec.const c.nrInEq .negInf)
    (u := ⟨c.nrInEq, fun i => c.b.get (0 + i)⟩) p2.symm rfl rfl rfl
    (by simpa [p1] using hline) (by rw [p3, p1]) (by rw [p4, p1])
  refine ⟨⟨s.line + c.nrInEq, A', L', U'⟩, ?_,
    ⟨a1.trans p1, a2.trans p2, a3.trans p3, a4.trans p4⟩, rfl, ?_⟩
  · unfold fillInEqGenStep
    rw [Mat.block_ok (by omega) (by omega), Out.ok_bind, e1, Out.ok_bind, e2, Out.ok_bind,
      Vec.segment_ok (by omega), Out.ok_bind, e3]; rfl
  · simp only [GenSt.lines] at a5 ⊢
    rw [a5]
    simp [genLines, InEqC.gLines, Vec.const]
    exact fun _ _ => rfl

theorem fillGenGen_ok [Zero K] (n R : ℕ) (cs : List (GenC K)) (s : GenSt K)
    (hw : ∀ c ∈ cs, c.Sized n) (hs : GenFits n R s) (hr : s.line + (cs.map GenC.nrGen).sum ≤ R) :
    ∃ s', fillGenGen cs n s = .ok s' ∧ GenFits n R s' ∧
      s'.line = s.line + (cs.map GenC.nrGen).sum ∧
      s'.lines n = s.lines n ++ cs.flatMap (GenC.gLines n) := by
  refine forEach_lines (W := GenC.Sized n) (P := GenFits n R) (line := GenSt.line)
    (lines := GenSt.lines n) ?_ cs s hw hs hr
  rintro c s ⟨_, h2, h3, h4, h5⟩ ⟨p1, p2, p3, p4⟩ hline
  obtain ⟨A', L', U', e1, e2, e3, a1, a2, a3, a4, a5⟩ := putGen (n := n) (line := s.line) (A := s.A)
    (L := s.AL) (U := s.AU) (blk := ⟨c.nrGen, n, fun a d => c.A.get (0 + a) (0 + d)⟩)
    (l := ⟨c.nrGen, fun i => c.L.get (0 + i)⟩)
    (u := ⟨c.nrGen, fun i => c.U.get (0 + i)⟩) p2.symm rfl rfl rfl
    (by simpa [p1] using hline) (by rw [p3, p1]) (by rw [p4, p1])
  refine ⟨⟨s.line + c.nrGen, A', L', U'⟩, ?_,
    ⟨a1.trans p1, a2.trans p2, a3.trans p3, a4.trans p4⟩, rfl, ?_⟩
  · unfold fillGenGenStep
    rw [Mat.block_ok (by omega) (by omega), Out.ok_bind, e1, Out.ok_bind,
      Vec.segment_ok (by omega), Out.ok_bind, e2, Out.ok_bind, Vec.segment_ok (by omega), Out.ok_bind, e3]; rfl
  · simp only [GenSt.lines] at a5 ⊢
    rw [a5]
    simp [genLines, GenC.gLines]
    exact fun _ _ => rfl

/-! ### Bounds -/

/-- Lower bound seen by variable `v` after the bound constraints of `cs`, starting from `d`:
the last constraint covering `v` wins. -/
def lastLower (cs : List (BoundC K)) (v : ℕ) (d : Ext K) : Ext K :=
  cs.foldl (fun a c =>
    if c.beginVar ≤ v ∧ v < c.beginVar + c.lower.size then c.lower.get (v - c.beginVar) else a) d
/-- Upper bound seen by variable `v`. -/
def lastUpper (cs : List (BoundC K)) (v : ℕ) (d : Ext K) : Ext K :=
  cs.foldl (fun a c =>
    if c.beginVar ≤ v ∧ v < c.beginVar + c.upper.size then c.upper.get (v - c.beginVar) else a) d

theorem fillBound_ok (n : ℕ) (cs : List (BoundC K)) (s : Vec (Ext K) × Vec (Ext K))
    (hw : ∀ c ∈ cs, c.Sized n) (h1 : s.1.size = n) (h2 : s.2.size = n) :
    ∃ s', fillBound cs s = .ok s' ∧ s'.1.size = n ∧ s'.2.size = n ∧
      (∀ v, s'.1.get v = lastLower cs v (s.1.get v)) ∧
      (∀ v, s'.2.get v = lastUpper cs v (s.2.get v)) := by
  induction cs generalizing s with
  | nil => exact ⟨s, rfl, h1, h2, by simp [lastLower], by simp [lastUpper]⟩
  | cons c t ih =>
    have hc := hw c (by simp)
    obtain ⟨b1, b2⟩ := hc
    obtain ⟨s', e, z1, z2, g1, g2⟩ := ih
      (⟨s.1.size, fun i => if c.beginVar ≤ i ∧ i < c.beginVar + c.lower.size
          then c.lower.get (i - c.beginVar) else s.1.get i⟩,
       ⟨s.2.size, fun i => if c.beginVar ≤ i ∧ i < c.beginVar + c.upper.size
          then c.upper.get (i - c.beginVar) else s.2.get i⟩)
      (fun c hc => hw c (by simp [hc])) h1 h2
    refine ⟨s', ?_, z1, z2, ?_, ?_⟩
    · simp only [fillBound, forEach, fillBoundStep]
      rw [Vec.setSegment_ok (by omega), Out.ok_bind, Vec.setSegment_ok (by omega)]
      exact e
    · intro v; rw [g1]; rfl
    · intro v; rw [g2]; rfl

end Lines

/-! ### Objective -/

section Obj
variable {K : Type} [Field K]

/-- Contribution of a task to entry `(a, b)` of the Hessian. -/
def TaskQC.q (t : TaskQC K) (a b : ℕ) : K :=
  if (t.begin'.1 ≤ a ∧ a < t.begin'.1 + t.Q.rows) ∧
     (t.begin'.2 ≤ b ∧ b < t.begin'.2 + t.Q.cols)
  then t.weight * t.Q.get (a - t.begin'.1) (b - t.begin'.2) else 0

/-- Contribution of a task to entry `a` of the linear term. -/
def TaskQC.c (t : TaskQC K) (a : ℕ) : K :=
  if t.begin'.1 ≤ a ∧ a < t.begin'.1 + t.Q.rows then t.weight * t.C.get (a - t.begin'.1) else 0

theorem fillTasks_ok (n : ℕ) (ts : List (TaskQC K)) (s : Mat K × Vec K)
    (hw : ∀ t ∈ ts, t.Sized n) (h1 : s.1.rows = n) (h2 : s.1.cols = n) (h3 : s.2.size = n) :
    ∃ s', forEach ts fillTask s = .ok s' ∧ s'.1.rows = n ∧ s'.1.cols = n ∧ s'.2.size = n ∧
      (∀ a b, s'.1.get a b = s.1.get a b + (ts.map fun t => t.q a b).sum) ∧
      (∀ a, s'.2.get a = s.2.get a + (ts.map fun t => t.c a).sum) := by
  induction ts generalizing s with
  | nil => exact ⟨s, rfl, h1, h2, h3, by simp, by simp⟩
  | cons t ts ih =>
    obtain ⟨b1, b2, b3⟩ := hw t (by simp)
    obtain ⟨s', e, z1, z2, z3, g1, g2⟩ := ih
      (⟨s.1.rows, s.1.cols, fun a c =>
        if (t.begin'.1 ≤ a ∧ a < t.begin'.1 + t.Q.rows) ∧
          (t.begin'.2 ≤ c ∧ c < t.begin'.2 + t.Q.cols)
        then s.1.get a c + t.weight * t.Q.get (a - t.begin'.1) (c - t.begin'.2)
        else s.1.get a c⟩,
       ⟨s.2.size, fun i => if t.begin'.1 ≤ i ∧ i < t.begin'.1 + t.C.size
        then s.2.get i + t.weight * t.C.get (i - t.begin'.1) else s.2.get i⟩)
      (fun c hc => hw c (by simp [hc])) h1 h2 h3
    refine ⟨s', ?_, z1, z2, z3, ?_, ?_⟩
    · simp only [forEach, fillTask]
      rw [show s.1.addBlock t.begin'.1 t.begin'.2 t.weight t.Q = .ok _ from by
        rw [Mat.addBlock, if_pos ⟨by omega, by omega⟩], Out.ok_bind, if_pos b3,
        show s.2.addSegment t.begin'.1 t.weight t.C = .ok _ from by
        rw [Vec.addSegment, if_pos (by omega)], Out.ok_bind]
      exact e
    · intro a b
      rw [g1]
      simp only [List.map_cons, List.sum_cons, TaskQC.q]
      split <;> ring
    · intro a
      rw [g2]
      simp only [List.map_cons, List.sum_cons, TaskQC.c, b3]
      split <;> ring

/-- Contribution of a task to the objective: `w (1/2 x'Qx + C'x)` on its block. -/
def TaskQC.obj (t : TaskQC K) (x : ℕ → K) : K :=
  t.weight * ((∑ a ∈ range t.Q.rows, ∑ b ∈ range t.Q.cols,
      x (t.begin'.1 + a) * t.Q.get a b * x (t.begin'.2 + b)) / 2
    + ∑ a ∈ range t.Q.rows, t.C.get a * x (t.begin'.1 + a))

/-- Summing over a window of the variables. -/
theorem sum_window {M : Type} [AddCommMonoid M] (n b k : ℕ) (h : b + k ≤ n) (f : ℕ → ℕ → M) :
    (∑ i ∈ range n, if b ≤ i ∧ i < b + k then f i (i - b) else 0)
      = ∑ a ∈ range k, f (b + a) a := by
  rw [← Finset.sum_filter]
  apply Finset.sum_bij' (fun i _ => i - b) (fun a _ => b + a)
  · intro i hi; simp only [Finset.mem_filter, Finset.mem_range] at hi ⊢; omega
  · intro i hi; simp only [Finset.mem_filter, Finset.mem_range] at hi ⊢; omega
  · intro i hi; simp only [Finset.mem_filter, Finset.mem_range] at hi; omega
  · intro i hi; omega
  · intro i hi
    simp only [Finset.mem_filter, Finset.mem_range] at hi
    have : b + (i - b) = i := by omega
    rw [this]

theorem TaskQC.quad_q (n : ℕ) (t : TaskQC K) (h : t.Sized n) (x : ℕ → K) :
    ∑ i ∈ range n, ∑ j ∈ range n, x i * t.q i j * x j
      = t.weight * ∑ a ∈ range t.Q.rows, ∑ b ∈ range t.Q.cols,
          x (t.begin'.1 + a) * t.Q.get a b * x (t.begin'.2 + b) := by
  obtain ⟨h1, h2, _⟩ := h
  have inner : ∀ i, ∑ j ∈ range n, x i * t.q i j * x j
      = if t.begin'.1 ≤ i ∧ i < t.begin'.1 + t.Q.rows then
          ∑ b ∈ range t.Q.cols,
            x i * (t.weight * t.Q.get (i - t.begin'.1) b) * x (t.begin'.2 + b) else 0 := by
    intro i
    by_cases hi : t.begin'.1 ≤ i ∧ i < t.begin'.1 + t.Q.rows
    · rw [if_pos hi, ← sum_window n t.begin'.2 t.Q.cols h2
        (fun j b => x i * (t.weight * t.Q.get (i - t.begin'.1) b) * x j)]
      apply Finset.sum_congr rfl
      intro j _
      simp only [TaskQC.q, hi, true_and]
      split <;> simp
    · rw [if_neg hi]
      apply Finset.sum_eq_zero
      intro j _
      simp [TaskQC.q, hi]
  rw [Finset.sum_congr rfl (fun i _ => inner i)]
  rw [sum_window n t.begin'.1 t.Q.rows h1 (fun i a => ∑ b ∈ range t.Q.cols,
            x i * (t.weight * t.Q.get a b) * x (t.begin'.2 + b))]
  rw [Finset.mul_sum]
  apply Finset.sum_congr rfl
  intro a _
  rw [Finset.mul_sum]
  apply Finset.sum_congr rfl
  intro b _
  ring

theorem TaskQC.lin_c (n : ℕ) (t : TaskQC K) (h : t.Sized n) (x : ℕ → K) :
    ∑ i ∈ range n, t.c i * x i
      = t.weight * ∑ a ∈ range t.Q.rows, t.C.get a * x (t.begin'.1 + a) := by
  obtain ⟨h1, h2, _⟩ := h
  rw [Finset.mul_sum, ← sum_window n t.begin'.1 t.Q.rows h1
    (fun i a => t.weight * (t.C.get a * x i))]
  apply Finset.sum_congr rfl
  intro i _
  simp only [TaskQC.c]
  split
  · ring
  · simp

theorem sum_listsum {α : Type} (s : Finset ℕ) (l : List α) (f : α → ℕ → K) :
    ∑ i ∈ s, (l.map fun t => f t i).sum = (l.map fun t => ∑ i ∈ s, f t i).sum := by
  induction l with
  | nil => simp
  | cons a t ih => simp [Finset.sum_add_distrib, ih]

theorem listsum_mul {α : Type} (l : List α) (f : α → K) (c : K) :
    (l.map f).sum * c = (l.map fun t => f t * c).sum := by
  induction l with
  | nil => simp
  | cons a t ih => simp [add_mul, ih]

theorem mul_listsum {α : Type} (l : List α) (f : α → K) (c : K) :
    c * (l.map f).sum = (l.map fun t => c * f t).sum := by
  induction l with
  | nil => simp
  | cons a t ih => simp [mul_add, ih]

variable [LinearOrder K]

/-- Accumulated diagonal entry before the regularisation. -/
def accDiag (ts : List (TaskQC K)) (i : ℕ) : K := (ts.map fun t => t.q i i).sum

theorem diag_ok (n : ℕ) (Q : Mat K) (h1 : Q.rows = n) (h2 : Q.cols = n) :
    ∀ m ≤ n, ∃ Q', forRange m diagStep Q = .ok Q' ∧ Q'.rows = n ∧ Q'.cols = n ∧
      ∀ a b, Q'.get a b = Q.get a b +
        if a = b ∧ a < m ∧ |Q.get a a| < diagConstant K then diagConstant K else 0 := by
  intro m
  induction m with
  | zero => intro _; exact ⟨Q, rfl, h1, h2, by simp⟩
  | succ m ih =>
    intro hm
    obtain ⟨Q', e, r1, r2, g⟩ := ih (by omega)
    simp only [forRange, e, Out.ok_bind, diagStep, r1, r2, if_pos (show m < n ∧ m < n by omega)]
    have gm : Q'.get m m = Q.get m m := by rw [g]; simp
    rw [gm]
    by_cases hd : |Q.get m m| < diagConstant K
    · rw [if_pos hd]
      refine ⟨_, rfl, rfl, rfl, ?_⟩
      intro a b
      simp only
      by_cases hab : a = m ∧ b = m
      · obtain ⟨rfl, rfl⟩ := hab
        simp [hd]
      · rw [if_neg hab, g]
        congr 1
        by_cases he : a = b
        · subst he
          have : a ≠ m := fun h => hab ⟨h, h⟩
          have : a < m + 1 ↔ a < m := by omega
          simp [this]
        · simp [he]
    · rw [if_neg hd]
      refine ⟨Q', rfl, r1, r2, ?_⟩
      intro a b
      rw [g]
      congr 1
      by_cases he : a = b
      · subst he
        by_cases ham : a = m
        · subst ham; simp [hd]
        · have : a < m + 1 ↔ a < m := by omega
          simp [this]
      · simp [he]

theorem fillQC_ok (n : ℕ) (ts : List (TaskQC K)) (hw : ∀ t ∈ ts, t.Sized n) :
    ∃ s', fillQC ts n (Mat.zero n n, Vec.const n 0) = .ok s' ∧ s'.1.rows = n ∧ s'.1.cols = n ∧
      s'.2.size = n ∧
      (∀ a b, s'.1.get a b = (ts.map fun t => t.q a b).sum +
        if a = b ∧ a < n ∧ |accDiag ts a| < diagConstant K then diagConstant K else 0) ∧
      (∀ a, s'.2.get a = (ts.map fun t => t.c a).sum) := by
  obtain ⟨s, e, z1, z2, z3, g1, g2⟩ :=
    fillTasks_ok n ts (Mat.zero n n, Vec.const n 0) hw rfl rfl rfl
  obtain ⟨Q', e', y1, y2, k⟩ := diag_ok n s.1 z1 z2 n le_rfl
  refine ⟨(Q', s.2), ?_, y1, y2, z3, ?_, ?_⟩
  · simp only [fillQC, e, Out.ok_bind, e']; rfl
  · intro a b
    simp only
    rw [k, g1]
    have : s.1.get a a = accDiag ts a := by rw [g1]; simp [Mat.zero, accDiag]
    rw [this]
    simp [Mat.zero]
  · intro a; simp only; rw [g2]; simp [Vec.const]

/-- The assembled objective. -/
theorem assembled_obj (n : ℕ) (ts : List (TaskQC K)) (hw : ∀ t ∈ ts, t.Sized n)
    {Q : Mat K} {C : Vec K}
    (hQ : ∀ a b, Q.get a b = (ts.map fun t => t.q a b).sum +
        if a = b ∧ a < n ∧ |accDiag ts a| < diagConstant K then diagConstant K else 0)
    (hC : ∀ a, C.get a = (ts.map fun t => t.c a).sum) (x : ℕ → K) :
    quadObj n Q.get C.get x = (ts.map fun t => t.obj x).sum +
      (∑ i ∈ (range n).filter (fun i => |accDiag ts i| < diagConstant K),
        diagConstant K * x i ^ 2) / 2 := by
  have quad : ∑ i ∈ range n, ∑ j ∈ range n, x i * Q.get i j * x j
      = (ts.map fun t => ∑ i ∈ range n, ∑ j ∈ range n, x i * t.q i j * x j).sum +
        ∑ i ∈ (range n).filter (fun i => |accDiag ts i| < diagConstant K),
          diagConstant K * x i ^ 2 := by
    rw [Finset.sum_filter]
    rw [← sum_listsum, ← Finset.sum_add_distrib]
    apply Finset.sum_congr rfl
    intro i hi
    rw [← sum_listsum]
    have : ∀ j, x i * Q.get i j * x j = (ts.map fun t => x i * t.q i j * x j).sum +
        if j = i then (if |accDiag ts i| < diagConstant K then diagConstant K * x i ^ 2 else 0)
        else 0 := by
      intro j
      rw [hQ]
      have hin : i < n := Finset.mem_range.mp hi
      rw [← listsum_mul, ← mul_listsum]
      by_cases hij : j = i
      · subst hij
        simp only [hin, true_and]
        split <;> simp <;> ring
      · have : ¬ i = j := fun h => hij h.symm
        simp [hij, this]
    rw [Finset.sum_congr rfl (fun j _ => this j), Finset.sum_add_distrib]
    congr 1
    rw [Finset.sum_ite_eq' (range n) i]
    simp [hi]
  have lin : ∑ i ∈ range n, C.get i * x i
      = (ts.map fun t => ∑ i ∈ range n, t.c i * x i).sum := by
    rw [← sum_listsum]
    apply Finset.sum_congr rfl
    intro i _
    rw [hC, listsum_mul]
  unfold quadObj
  rw [quad, lin]
  have : (ts.map fun t => t.obj x) = ts.map fun t =>
      (∑ i ∈ range n, ∑ j ∈ range n, x i * t.q i j * x j) / 2 + ∑ i ∈ range n, t.c i * x i := by
    apply List.map_congr_left
    intro t ht
    rw [t.quad_q n (hw t ht), t.lin_c n (hw t ht)]
    unfold TaskQC.obj
    ring
  rw [this]
  have split : ∀ l : List (TaskQC K), ∀ f g : TaskQC K → K,
      (l.map fun t => f t / 2 + g t).sum = (l.map f).sum / 2 + (l.map g).sum := by
    intro l f g
    induction l with
    | nil => simp
    | cons a t ih => simp [ih]; ring
  rw [split]
  ring

end Obj

end Verif
