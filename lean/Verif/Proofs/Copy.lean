import Verif.Proofs.Fill

/-! # Where each entry of the matrices handed to the solvers comes from, for any type of numbers -/

set_option autoImplicit false
set_option linter.unusedSectionVars false

namespace Verif

section Copy
variable {α : Type}

/-- A loop whose steps write the next `cnt c` entries and leave the earlier ones writes entry `i` of the `q`-th element
at the sum of the previous counts plus `i`. -/
theorem forEach_at {C σ β : Type} {f : C → σ → Out σ} {cnt : C → ℕ} {At : σ → ℕ → β} {new : C → ℕ → β} {line : σ → ℕ}
    {P : σ → Prop} {R : ℕ} {W : C → Prop}
    (step : ∀ c s, W c → P s → line s + cnt c ≤ R → ∃ s', f c s = .ok s' ∧ P s' ∧ line s' = line s + cnt c ∧
      (∀ l < line s, At s' l = At s l) ∧ ∀ i < cnt c, At s' (line s + i) = new c i) :
    ∀ (cs : List C) (s : σ), (∀ c ∈ cs, W c) → P s → line s + (cs.map cnt).sum ≤ R →
      ∃ s', forEach cs f s = .ok s' ∧ P s' ∧ line s' = line s + (cs.map cnt).sum ∧
        (∀ l < line s, At s' l = At s l) ∧
        ∀ q c, cs[q]? = some c → ∀ i < cnt c, At s' (line s + ((cs.take q).map cnt).sum + i) = new c i := by
  intro cs
  induction cs with
  | nil => intro s _ hp _; exact ⟨s, rfl, hp, by simp, fun _ _ => rfl, by simp⟩
  | cons c t ih =>
    intro s hw hp hr
    simp only [List.map_cons, List.sum_cons] at hr
    obtain ⟨s1, e1, p1, l1, o1, n1⟩ := step c s (hw c (by simp)) hp (by omega)
    obtain ⟨s2, e2, p2, l2, o2, n2⟩ := ih s1 (fun c hc => hw c (by simp [hc])) p1 (by omega)
    refine ⟨s2, by simp [forEach, e1, e2], p2, ?_, fun l hl => ?_, ?_⟩
    · rw [l2, l1]; simp; omega
    · rw [o2 l (by omega), o1 l hl]
    · intro q d hq i hi
      cases q with
      | zero =>
        simp only [List.getElem?_cons_zero, Option.some.injEq] at hq
        subst hq
        simp only [List.take_zero, List.map_nil, List.sum_nil, add_zero]
        rw [o2 _ (by omega), n1 i hi]
      | succ q =>
        rw [List.getElem?_cons_succ] at hq
        have := n2 q d hq i hi
        rw [l1] at this
        rw [← this]
        congr 1
        simp only [List.take_succ_cons, List.map_cons, List.sum_cons]
        omega

/-- Line `l` of a matrix on `n` variables, with the right-hand side. -/
def lineAt {β : Type} (n : ℕ) (A : Mat α) (b : Vec β) (l : ℕ) : (Fin n → α) × β := (fun j => A.get l j, b.get l)

theorem put_at {β : Type} {n line k : ℕ} {A blk : Mat α} {b seg : Vec β} (hc : A.cols = n)
    (hb : blk.cols = n) (hk : blk.rows = k) (hs : seg.size = k) (hr : line + k ≤ A.rows)
    (hbs : b.size = A.rows) :
    ∃ A' b', A.setBlock line 0 blk = .ok A' ∧ b.setSegment line seg = .ok b' ∧
      A'.rows = A.rows ∧ A'.cols = A.cols ∧ b'.size = b.size ∧
      (∀ l < line, lineAt n A' b' l = lineAt n A b l) ∧
      (∀ l, line + k ≤ l → lineAt n A' b' l = lineAt n A b l) ∧
      ∀ i < k, lineAt n A' b' (line + i) = lineAt n blk seg i := by
  subst hk
  refine ⟨_, _, Mat.setBlock_ok (by omega) (by omega), Vec.setSegment_ok (by omega), rfl, rfl, rfl, fun l hl => ?_,
    fun l hl => ?_, fun i hi => ?_⟩
  · have h : ¬ line ≤ l := by omega
    simp [lineAt, h]
  · have h : ¬ l < line + blk.rows := by omega
    have h' : ¬ l < line + seg.size := by omega
    simp [lineAt, h, h']
  · have h' : i < seg.size := by omega
    simp only [lineAt, Prod.mk.injEq]
    constructor
    · funext j
      have := j.2
      rw [if_pos ⟨⟨by omega, by omega⟩, by omega, by omega⟩]
      simp
    · simp [h']

theorem eqStd_at (n R : ℕ) (cs : List (EqC α)) (s : StdSt α α) (hw : ∀ c ∈ cs, c.Sized n) (hs : StdFits n R s)
    (hr : s.line + (cs.map EqC.nrEq).sum ≤ R) :
    ∃ s', fillEqStd cs n s = .ok s' ∧ StdFits n R s' ∧ s'.line = s.line + (cs.map EqC.nrEq).sum ∧
      (∀ l < s.line, lineAt n s'.A s'.b l = lineAt n s.A s.b l) ∧
      ∀ q c, cs[q]? = some c → ∀ i < c.nrEq,
        lineAt n s'.A s'.b (s.line + ((cs.take q).map EqC.nrEq).sum + i) = lineAt n c.A c.b i := by
  refine forEach_at (W := EqC.Sized n) (P := StdFits n R) (line := StdSt.line) (cnt := EqC.nrEq)
    (At := fun s => lineAt n s.A s.b) (new := fun c => lineAt n c.A c.b) ?_ cs s hw hs hr
  rintro c s ⟨_, h2, h3, h4⟩ ⟨p1, p2, p3⟩ hline
  obtain ⟨A', b', e1, e2, a1, a2, a3, a4, -, a5⟩ := put_at (n := n) (line := s.line) (k := c.nrEq) (A := s.A) (b := s.b)
    (blk := ⟨c.nrEq, n, fun a d => c.A.get (0 + a) (0 + d)⟩)
    (seg := ⟨c.nrEq, fun i => c.b.get (0 + i)⟩) p2 rfl rfl rfl (by omega) (by rw [p3, p1])
  refine ⟨⟨s.line + c.nrEq, A', b'⟩, ?_, ⟨a1.trans p1, a2.trans p2, a3.trans p3⟩, rfl, a4, fun i hi => ?_⟩
  · unfold fillEqStdStep
    rw [Mat.block_ok (by omega) (by omega), Out.ok_bind, e1, Out.ok_bind, Vec.segment_ok (by omega), Out.ok_bind, e2]
    rfl
  · exact (a5 i hi).trans (by simp [lineAt])

theorem inEqStd_at (n R : ℕ) (cs : List (InEqC α)) (s : StdSt α (Ext α)) (hw : ∀ c ∈ cs, c.Sized n)
    (hs : StdFits n R s) (hr : s.line + (cs.map InEqC.nrInEq).sum ≤ R) :
    ∃ s', fillInEqStd cs n s = .ok s' ∧ StdFits n R s' ∧ s'.line = s.line + (cs.map InEqC.nrInEq).sum ∧
      (∀ l < s.line, lineAt n s'.A s'.b l = lineAt n s.A s.b l) ∧
      ∀ q c, cs[q]? = some c → ∀ i < c.nrInEq,
        lineAt n s'.A s'.b (s.line + ((cs.take q).map InEqC.nrInEq).sum + i) = lineAt n c.A c.b i := by
  refine forEach_at (W := InEqC.Sized n) (P := StdFits n R) (line := StdSt.line) (cnt := InEqC.nrInEq)
    (At := fun s => lineAt n s.A s.b) (new := fun c => lineAt n c.A c.b) ?_ cs s hw hs hr
  rintro c s ⟨_, h2, h3, h4⟩ ⟨p1, p2, p3⟩ hline
  obtain ⟨A', b', e1, e2, a1, a2, a3, a4, -, a5⟩ := put_at (n := n) (line := s.line) (k := c.nrInEq) (A := s.A)
    (b := s.b) (blk := ⟨c.nrInEq, n, fun a d => c.A.get (0 + a) (0 + d)⟩)
    (seg := ⟨c.nrInEq, fun i => c.b.get (0 + i)⟩) p2 rfl rfl rfl (by omega) (by rw [p3, p1])
  refine ⟨⟨s.line + c.nrInEq, A', b'⟩, ?_, ⟨a1.trans p1, a2.trans p2, a3.trans p3⟩, rfl, a4, fun i hi => ?_⟩
  · unfold fillInEqStdStep
    rw [Mat.block_ok (by omega) (by omega), Out.ok_bind, e1, Out.ok_bind, Vec.segment_ok (by omega), Out.ok_bind, e2]
    rfl
  · exact (a5 i hi).trans (by simp [lineAt])

/-- The two lines QLD gets for a two-sided line: first all the lower sides of the constraint, then the upper sides. -/
def twoLines [Neg α] (n : ℕ) (c : GenC α) (i : ℕ) : (Fin n → α) × Ext α :=
  if i < c.nrGen then (fun j => -c.A.get i j, (c.L.get i).neg) else lineAt n c.A c.U (i - c.nrGen)

theorem genStd_at [Neg α] (n R : ℕ) (cs : List (GenC α)) (s : StdSt α (Ext α)) (hw : ∀ c ∈ cs, c.Sized n)
    (hs : StdFits n R s) (hr : s.line + (cs.map fun c => c.nrGen + c.nrGen).sum ≤ R) :
    ∃ s', fillGenStd cs n s = .ok s' ∧ StdFits n R s' ∧
      s'.line = s.line + (cs.map fun c => c.nrGen + c.nrGen).sum ∧
      (∀ l < s.line, lineAt n s'.A s'.b l = lineAt n s.A s.b l) ∧
      ∀ q c, cs[q]? = some c → ∀ i < c.nrGen + c.nrGen,
        lineAt n s'.A s'.b (s.line + ((cs.take q).map fun c => c.nrGen + c.nrGen).sum + i) = twoLines n c i := by
  refine forEach_at (W := GenC.Sized n) (P := StdFits n R) (line := StdSt.line) (cnt := fun c => c.nrGen + c.nrGen)
    (At := fun s => lineAt n s.A s.b) (new := twoLines n) ?_ cs s hw hs hr
  rintro c s ⟨_, h2, h3, h4, h5⟩ ⟨p1, p2, p3⟩ hline
  obtain ⟨A', b', e1, e2, a1, a2, a3, a4, -, a5⟩ := put_at (n := n) (line := s.line) (k := c.nrGen) (A := s.A)
    (b := s.b) (blk := Mat.neg ⟨c.nrGen, n, fun a d => c.A.get (0 + a) (0 + d)⟩)
    (seg := ⟨c.nrGen, fun i => (c.L.get (0 + i)).neg⟩) p2 rfl rfl rfl (by omega) (by rw [p3, p1])
  obtain ⟨A2, b2, e3, e4, c1, c2, c3, c4, -, c5⟩ := put_at (n := n) (line := s.line + c.nrGen) (k := c.nrGen) (A := A')
    (b := b') (blk := ⟨c.nrGen, n, fun a d => c.A.get (0 + a) (0 + d)⟩)
    (seg := ⟨c.nrGen, fun i => c.U.get (0 + i)⟩) (a2.trans p2) rfl rfl rfl (by omega) (by rw [a3, p3, a1, p1])
  refine ⟨⟨s.line + c.nrGen + c.nrGen, A2, b2⟩, ?_, ⟨c1.trans (a1.trans p1), c2.trans (a2.trans p2),
    c3.trans (a3.trans p3)⟩, by simp only; omega, fun l hl => ?_, fun i hi => ?_⟩
  · unfold fillGenStdStep
    rw [Mat.block_ok (by omega) (by omega), Out.ok_bind, e1, Out.ok_bind, Vec.segment_ok (by omega), Out.ok_bind, e2,
      Out.ok_bind]
    simp only [e3, Out.ok_bind]
    rw [Vec.segment_ok (by omega), Out.ok_bind, e4]
    rfl
  · simp only
    rw [c4 l (by omega), a4 l hl]
  · simp only [twoLines]
    split
    · rename_i h
      rw [c4 _ (by omega), a5 i h]
      simp [lineAt, Mat.neg]
    · rename_i h
      have := c5 (i - c.nrGen) (by omega)
      rw [show s.line + c.nrGen + (i - c.nrGen) = s.line + i by omega] at this
      rw [this]
      simp [lineAt]

/-- Line `l` of the general form. -/
def genLineAt (n : ℕ) (s : GenSt α) (l : ℕ) : (Fin n → α) × Ext α × Ext α :=
  (fun j => s.A.get l j, s.AL.get l, s.AU.get l)

theorem putG_at {n line k : ℕ} {A blk : Mat α} {L U l u : Vec (Ext α)} (hc : A.cols = n)
    (hb : blk.cols = n) (hk : blk.rows = k) (hl : l.size = k) (hu : u.size = k) (hr : line + k ≤ A.rows)
    (hL : L.size = A.rows) (hU : U.size = A.rows) :
    ∃ A' L' U', A.setBlock line 0 blk = .ok A' ∧ L.setSegment line l = .ok L' ∧ U.setSegment line u = .ok U' ∧
      A'.rows = A.rows ∧ A'.cols = A.cols ∧ L'.size = L.size ∧ U'.size = U.size ∧
      (∀ m m' i, i < line → genLineAt n ⟨m, A', L', U'⟩ i = genLineAt n ⟨m', A, L, U⟩ i) ∧
      ∀ m i, i < k → genLineAt n ⟨m, A', L', U'⟩ (line + i) = (fun j : Fin n => blk.get i j, l.get i, u.get i) := by
  obtain ⟨A', L', e1, e2, a1, a2, a3, a4, -, a5⟩ := put_at (n := n) (seg := l) (b := L) hc hb hk hl hr hL
  obtain ⟨A'', U', e1', e3, -, -, b3, b4, -, b5⟩ := put_at (n := n) (seg := u) (b := U) hc hb hk hu hr hU
  have := Out.ok.inj (e1'.symm.trans e1)
  subst this
  simp only [lineAt, Prod.mk.injEq] at a4 a5 b4 b5
  refine ⟨A'', L', U', e1, e2, e3, a1, a2, a3, b3, fun m m' i hi => ?_, fun m i hi => ?_⟩
  · simp only [genLineAt, Prod.mk.injEq]
    exact ⟨(a4 i hi).1, (a4 i hi).2, (b4 i hi).2⟩
  · simp only [genLineAt, Prod.mk.injEq]
    exact ⟨(a5 i hi).1, (a5 i hi).2, (b5 i hi).2⟩

theorem eqGen_at (n R : ℕ) (cs : List (EqC α)) (s : GenSt α) (hw : ∀ c ∈ cs, c.Sized n) (hs : GenFits n R s)
    (hr : s.line + (cs.map EqC.nrEq).sum ≤ R) :
    ∃ s', fillEqGen cs n s = .ok s' ∧ GenFits n R s' ∧ s'.line = s.line + (cs.map EqC.nrEq).sum ∧
      (∀ l < s.line, genLineAt n s' l = genLineAt n s l) ∧
      ∀ q c, cs[q]? = some c → ∀ i < c.nrEq,
        genLineAt n s' (s.line + ((cs.take q).map EqC.nrEq).sum + i)
          = (fun j : Fin n => c.A.get i j, .fin (c.b.get i), .fin (c.b.get i)) := by
  refine forEach_at (W := EqC.Sized n) (P := GenFits n R) (line := GenSt.line) (cnt := EqC.nrEq)
    (At := genLineAt n) (new := fun c i => (fun j : Fin n => c.A.get i j, .fin (c.b.get i), .fin (c.b.get i))) ?_ cs s hw hs hr
  rintro c s ⟨_, h2, h3, h4⟩ ⟨p1, p2, p3, p4⟩ hline
  obtain ⟨A', L', U', e1, e2, e3, a1, a2, a3, a4, a5, a6⟩ := putG_at (n := n) (line := s.line) (k := c.nrEq) (A := s.A)
    (L := s.AL) (U := s.AU) (blk := ⟨c.nrEq, n, fun a d => c.A.get (0 + a) (0 + d)⟩)
    (l := ⟨c.nrEq, fun i => .fin (c.b.get (0 + i))⟩) (u := ⟨c.nrEq, fun i => .fin (c.b.get (0 + i))⟩)
    p2 rfl rfl rfl rfl (by omega) (by rw [p3, p1]) (by rw [p4, p1])
  refine ⟨⟨s.line + c.nrEq, A', L', U'⟩, ?_, ⟨a1.trans p1, a2.trans p2, a3.trans p3, a4.trans p4⟩, rfl,
    fun l hl => a5 _ _ l hl, fun i hi => ?_⟩
  · unfold fillEqGenStep
    rw [Mat.block_ok (by omega) (by omega), Out.ok_bind, e1, Out.ok_bind, Vec.segment_ok (by omega), Out.ok_bind, e2,
      Out.ok_bind, e3]
    rfl
  · rw [a6 _ i hi]
    simp

theorem inEqGen_at (n R : ℕ) (cs : List (InEqC α)) (s : GenSt α) (hw : ∀ c ∈ cs, c.Sized n) (hs : GenFits n R s)
    (hr : s.line + (cs.map InEqC.nrInEq).sum ≤ R) :
    ∃ s', fillInEqGen cs n s = .ok s' ∧ GenFits n R s' ∧ s'.line = s.line + (cs.map InEqC.nrInEq).sum ∧
      (∀ l < s.line, genLineAt n s' l = genLineAt n s l) ∧
      ∀ q c, cs[q]? = some c → ∀ i < c.nrInEq,
        genLineAt n s' (s.line + ((cs.take q).map InEqC.nrInEq).sum + i)
          = (fun j : Fin n => c.A.get i j, .negInf, c.b.get i) := by
  refine forEach_at (W := InEqC.Sized n) (P := GenFits n R) (line := GenSt.line) (cnt := InEqC.nrInEq)
    (At := genLineAt n) (new := fun c i => (fun j : Fin n => c.A.get i j, .negInf, c.b.get i)) ?_ cs s hw hs hr
  rintro c s ⟨_, h2, h3, h4⟩ ⟨p1, p2, p3, p4⟩ hline
  obtain ⟨A', L', U', e1, e2, e3, a1, a2, a3, a4, a5, a6⟩ := putG_at (n := n) (line := s.line) (k := c.nrInEq)
    (A := s.A) (L := s.AL) (U := s.AU) (blk := ⟨c.nrInEq, n, fun a d => c.A.get (0 + a) (0 + d)⟩)
    (l := Vec.const c.nrInEq .negInf) (u := ⟨c.nrInEq, fun i => c.b.get (0 + i)⟩)
    p2 rfl rfl rfl rfl (by omega) (by rw [p3, p1]) (by rw [p4, p1])
  refine ⟨⟨s.line + c.nrInEq, A', L', U'⟩, ?_, ⟨a1.trans p1, a2.trans p2, a3.trans p3, a4.trans p4⟩, rfl,
    fun l hl => a5 _ _ l hl, fun i hi => ?_⟩
  · unfold fillInEqGenStep
    rw [Mat.block_ok (by omega) (by omega), Out.ok_bind, e1, Out.ok_bind, e2, Out.ok_bind, Vec.segment_ok (by omega),
      Out.ok_bind, e3]
    rfl
  · rw [a6 _ i hi]
    simp [Vec.const]

theorem genGen_at (n R : ℕ) (cs : List (GenC α)) (s : GenSt α) (hw : ∀ c ∈ cs, c.Sized n) (hs : GenFits n R s)
    (hr : s.line + (cs.map GenC.nrGen).sum ≤ R) :
    ∃ s', fillGenGen cs n s = .ok s' ∧ GenFits n R s' ∧ s'.line = s.line + (cs.map GenC.nrGen).sum ∧
      (∀ l < s.line, genLineAt n s' l = genLineAt n s l) ∧
      ∀ q c, cs[q]? = some c → ∀ i < c.nrGen,
        genLineAt n s' (s.line + ((cs.take q).map GenC.nrGen).sum + i)
          = (fun j : Fin n => c.A.get i j, c.L.get i, c.U.get i) := by
  refine forEach_at (W := GenC.Sized n) (P := GenFits n R) (line := GenSt.line) (cnt := GenC.nrGen)
    (At := genLineAt n) (new := fun c i => (fun j : Fin n => c.A.get i j, c.L.get i, c.U.get i)) ?_ cs s hw hs hr
  rintro c s ⟨_, h2, h3, h4, h5⟩ ⟨p1, p2, p3, p4⟩ hline
  obtain ⟨A', L', U', e1, e2, e3, a1, a2, a3, a4, a5, a6⟩ := putG_at (n := n) (line := s.line) (k := c.nrGen)
    (A := s.A) (L := s.AL) (U := s.AU) (blk := ⟨c.nrGen, n, fun a d => c.A.get (0 + a) (0 + d)⟩)
    (l := ⟨c.nrGen, fun i => c.L.get (0 + i)⟩) (u := ⟨c.nrGen, fun i => c.U.get (0 + i)⟩)
    p2 rfl rfl rfl rfl (by omega) (by rw [p3, p1]) (by rw [p4, p1])
  refine ⟨⟨s.line + c.nrGen, A', L', U'⟩, ?_, ⟨a1.trans p1, a2.trans p2, a3.trans p3, a4.trans p4⟩, rfl,
    fun l hl => a5 _ _ l hl, fun i hi => ?_⟩
  · unfold fillGenGenStep
    rw [Mat.block_ok (by omega) (by omega), Out.ok_bind, e1, Out.ok_bind, Vec.segment_ok (by omega), Out.ok_bind, e2,
      Out.ok_bind, Vec.segment_ok (by omega), Out.ok_bind, e3]
    rfl
  · rw [a6 _ i hi]
    simp

end Copy

end Verif
