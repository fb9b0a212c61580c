import Verif.Proofs.CollisionRun

/-! # Helper lemmas for the CoM plane constraint -/

set_option autoImplicit false
set_option linter.unusedSectionVars false

namespace Verif

open Finset

section
variable {K : Type} [Field K] [LinearOrder K] [IsStrictOrderedRing K]

open Spec

namespace Spec

/-- CoM acceleration produced by `x`: the CoM Jacobian applied to the selected joint accelerations of
the robot, which start at variable `a`. -/
def comAcc (nrDof : ℕ) (sel : Vec K) (J : Mat K) (a : ℕ) (x : ℕ → K) : V3 K :=
  let row (i : ℕ) : K := ∑ c ∈ range nrDof, J.get i c * (sel.get c * x (a + c))
  ⟨row 0, row 1, row 2⟩

/-- `n·v + dt (n·a + ṅ·v)` with `v` the CoM velocity relative to the plane and `a` the CoM
acceleration: the rate of the distance to the plane one step ahead. -/
def planeRate (nrDof : ℕ) (env : ComEnv K) (sel : Vec K) (a : ℕ) (dt : K) (d : PlaneData K)
    (x : ℕ → K) : K :=
  d.normal.dot (env.vel - d.speed)
    + dt * (d.normal.dot (env.normalAcc + comAcc nrDof sel env.jac a x)
      + d.normalDot.dot (env.vel - d.speed))

/-- `damping * (dist - ds) / (di - ds)`. -/
def planeDamper (d : PlaneData K) : K := d.damping * ((d.dist - d.ds) / (d.di - d.ds))

/-- The CoM is within the interaction distance of the plane. -/
def near (com : V3 K) (d : PlaneData K) : Bool := decide (d.normal.dot com + d.offset ≤ d.di)

/-- Position of plane `j` among those the CoM is near to. -/
def planeRow (com : V3 K) (l : List (PlaneData K)) (j : ℕ) : ℕ := ((l.take j).filter (near com)).length

/-- What an update makes of a plane: the distance is the current one; a plane without damping that is
near gets the damping `-(di - ds) / (dist - ds) * d' + off` (with `dist - ds` replaced by
`(di - ds) / 5` when `dist ≤ ds`), kept until the CoM is farther than `di`. -/
def PlaneUpdated (env : ComEnv K) (d₀ d : PlaneData K) : Prop :=
  d.normal = d₀.normal ∧ d.normalDot = d₀.normalDot ∧ d.offset = d₀.offset ∧ d.di = d₀.di ∧
  d.ds = d₀.ds ∧ d.planeId = d₀.planeId ∧ d.off = d₀.off ∧ d.speed = d₀.speed ∧
  d.dist = d₀.normal.dot env.com + d₀.offset ∧
  if near env.com d₀ = true then
    if d₀.dtype = .free then d.dtype = .soft ∧
      d.damping = -((d.di - d.ds) / (if d.dist ≤ d.ds then (d.di - d.ds) / 5 else d.dist - d.ds))
        * d.normal.dot (env.vel - d.speed) + d.off
    else d.dtype = d₀.dtype ∧ d.damping = d₀.damping
  else d.damping = d₀.damping ∧ d.dtype = if d₀.dtype = .soft then .free else d₀.dtype

end Spec

/-- One plane after the first loop. -/
def scanned (com : V3 K) (d : PlaneData K) : PlaneData K :=
  { d with
    dist := d.normal.dot com + d.offset
    dtype := if d.normal.dot com + d.offset ≤ d.di then d.dtype
      else if d.dtype = .soft then .free else d.dtype }

/-- Shapes `update` needs of a constraint for a robot whose accelerations start at `a`. -/
structure PlaneReady (nrDof a n : ℕ) (env : ComEnv K) (s : ComPlane K) : Prop where
  ha : s.alphaDBegin = some a
  fit : a + nrDof ≤ n
  cols : s.A.cols = n
  jr : env.jac.rows = 3
  jc : env.jac.cols = nrDof
  sel : s.selector.size = nrDof
  outside : ∀ i c, ¬ (a ≤ c ∧ c < a + nrDof) → s.A.get i c = 0

theorem planeRow_ok {mb : MultiBody K} {a n : ℕ} {env : ComEnv K} {s : ComPlane K}
    (R : PlaneReady mb.nrDof a n env s) (i : ℕ) (d₀ : PlaneData K) (hd : s.data[i]? = some (scanned env.com d₀))
    (hnear : near env.com d₀ = true) (hds : d₀.ds ≠ d₀.di) (hrow : s.nrAct < s.A.rows)
    (hb : s.nrAct < s.b.size) :
    ∃ d A b, ComPlane.row mb env i s = .ok { s with
        A := A
        b := b
        data := s.data.set i d
        nrAct := s.nrAct + 1 } ∧ PlaneUpdated env d₀ d ∧
      A.rows = s.A.rows ∧ b.size = s.b.size ∧ A.cols = n ∧
      (∀ i c, ¬ (a ≤ c ∧ c < a + mb.nrDof) → A.get i c = 0) ∧
      (∀ k, k ≠ s.nrAct → ∀ c, A.get k c = s.A.get k c) ∧
      (∀ k, k ≠ s.nrAct → b.get k = s.b.get k) ∧
      ∀ x, slack n A b s.nrAct x = planeDamper d + planeRate mb.nrDof env s.selector a s.step d x := by
  have hne : d₀.di - d₀.ds ≠ 0 := fun h => hds (sub_eq_zero.mp h).symm
  have hn : d₀.normal.dot env.com + d₀.offset ≤ d₀.di := of_decide_eq_true hnear
  -- the damping
  obtain ⟨d, e1, U⟩ : ∃ d, planeActivate (d₀.normal.dot (env.vel - d₀.speed)) (scanned env.com d₀) = .ok d ∧
      PlaneUpdated env d₀ d := by
    unfold planeActivate PlaneUpdated
    have ht : (scanned env.com d₀).dtype = d₀.dtype := by simp [scanned, hn]
    rw [ht]
    by_cases hf : d₀.dtype = .free
    · rw [if_pos hf]
      set D := d₀.normal.dot env.com + d₀.offset with hD
      have hfix : (if (scanned env.com d₀).dist ≤ (scanned env.com d₀).ds then
            (scanned env.com d₀).ds + ((scanned env.com d₀).di - (scanned env.com d₀).ds) * (1 / 5)
            else (scanned env.com d₀).dist) - (scanned env.com d₀).ds
          = if D ≤ d₀.ds then (d₀.di - d₀.ds) / 5 else D - d₀.ds := by
        show (if D ≤ d₀.ds then d₀.ds + (d₀.di - d₀.ds) * (1 / 5) else D) - d₀.ds = _
        split <;> ring
      dsimp only
      rw [hfix]
      have hd0 : (if D ≤ d₀.ds then (d₀.di - d₀.ds) / 5 else D - d₀.ds) ≠ 0 := by
        split
        · exact div_ne_zero hne (by norm_num)
        · rename_i h
          exact fun h' => h (sub_eq_zero.mp h').le
      rw [fdiv_ok hd0]
      refine ⟨_, rfl, rfl, rfl, rfl, rfl, rfl, rfl, rfl, rfl, rfl, ?_⟩
      rw [if_pos hnear, if_pos hf]
      exact ⟨rfl, rfl⟩
    · rw [if_neg hf]
      refine ⟨_, rfl, rfl, rfl, rfl, rfl, rfl, rfl, rfl, rfl, rfl, ?_⟩
      rw [if_pos hnear, if_neg hf]
      exact ⟨ht, rfl⟩
  obtain ⟨u1, u2, u3, u4, u5, u6, u7, u8, u9, _⟩ := id U
  have hil : i < s.data.length := (List.getElem?_eq_some_iff.mp hd).1
  have e2 : s.A.setBlock s.nrAct a ⟨1, mb.nrDof, fun _ c =>
      rows3Dot (-(s.step • d.normal)) env.jac 0 c * s.selector.get c⟩ = .ok ⟨s.A.rows, s.A.cols,
      fun k c => if (s.nrAct ≤ k ∧ k < s.nrAct + 1) ∧ (a ≤ c ∧ c < a + mb.nrDof) then
        rows3Dot (-(s.step • d.normal)) env.jac 0 (c - a) * s.selector.get (c - a)
        else s.A.get k c⟩ := by
    unfold Mat.setBlock
    have := R.fit
    have := R.cols
    rw [if_pos (by simp; omega)]
  have e3 : ∀ v, s.b.set s.nrAct v
      = .ok ⟨s.b.size, fun j => if j = s.nrAct then v else s.b.get j⟩ := fun v => if_pos hb
  refine ⟨d, ⟨s.A.rows, s.A.cols,
      fun k c => if (s.nrAct ≤ k ∧ k < s.nrAct + 1) ∧ (a ≤ c ∧ c < a + mb.nrDof) then
        rows3Dot (-(s.step • d.normal)) env.jac 0 (c - a) * s.selector.get (c - a)
        else s.A.get k c⟩, ⟨s.b.size, fun j => if j = s.nrAct then
          d.damping * ((d.dist - d.ds) / (d.di - d.ds)) + d₀.normal.dot (env.vel - d₀.speed)
            + s.step * (d.normal.dot env.normalAcc + d₀.normalDot.dot (env.vel - d₀.speed))
          else s.b.get j⟩, ?_, U, rfl, rfl, R.cols, ?_, ?_, ?_, ?_⟩
  · unfold ComPlane.row
    rw [vecAt_eq_ok.mpr hd, Out.ok_bind]
    dsimp only [scanned] at e1 ⊢
    rw [e1, Out.ok_bind, fdiv_ok (by rw [u4, u5]; exact hne), Out.ok_bind, R.ha]
    dsimp only
    rw [Out.ok_bind, guardUB_ok ⟨R.jr, R.jc⟩, Out.ok_bind, e2, Out.ok_bind, e3, Out.ok_bind,
      vecSet_ok hil, Out.ok_bind, ← R.ha]
    rfl
  · intro k c hc
    dsimp only
    rw [if_neg (fun h => hc h.2)]
    exact R.outside k c hc
  · intro k hk c
    dsimp only
    rw [if_neg (by omega)]
  · intro k hk
    dsimp only
    rw [if_neg hk]
  · intro x
    unfold slack lineVal
    have hx : ∀ c, (if (s.nrAct ≤ s.nrAct ∧ s.nrAct < s.nrAct + 1) ∧ (a ≤ c ∧ c < a + mb.nrDof) then
        rows3Dot (-(s.step • d.normal)) env.jac 0 (c - a) * s.selector.get (c - a)
        else s.A.get s.nrAct c) * x c
        = if a ≤ c ∧ c < a + mb.nrDof then
          rows3Dot (-(s.step • d.normal)) env.jac 0 (c - a) * s.selector.get (c - a) * x c else 0 := by
      intro c
      by_cases h : a ≤ c ∧ c < a + mb.nrDof
      · rw [if_pos (by omega), if_pos h]
      · rw [if_neg (fun h' => h h'.2), if_neg h, R.outside _ _ h, zero_mul]
    dsimp only
    rw [sum_congr rfl (fun c _ => hx c), sum_shift_ite n a mb.nrDof R.fit
      (fun c => rows3Dot (-(s.step • d.normal)) env.jac 0 (c - a) * s.selector.get (c - a) * x c)]
    have hsum : ∑ c ∈ range mb.nrDof, rows3Dot (-(s.step • d.normal)) env.jac 0 (a + c - a)
          * s.selector.get (a + c - a) * x (a + c)
        = - (s.step * d.normal.dot (comAcc mb.nrDof s.selector env.jac a x)) := by
      unfold comAcc V3.dot
      dsimp only
      rw [mul_sum, mul_sum, mul_sum, ← sum_add_distrib, ← sum_add_distrib, mul_sum, ← sum_neg_distrib]
      apply sum_congr rfl
      intro c _
      rw [Nat.add_sub_cancel_left]
      simp [rows3Dot]
      ring
    rw [hsum, if_pos rfl]
    unfold planeDamper planeRate
    have hs1 : (scanned env.com d₀).normal = d.normal := u1.symm
    have hs2 : (scanned env.com d₀).normalDot = d.normalDot := u2.symm
    have hs3 : (scanned env.com d₀).speed = d.speed := u8.symm
    simp only [V3.dot_add, u1, u2, u8]
    ring

/-- Invariant of the second loop of `update`. -/
structure PlaneInv (mb : MultiBody K) (a n : ℕ) (env : ComEnv K) (s₀ : ComPlane K) (acts : List ℕ)
    (s : ComPlane K) : Prop where
  ready : PlaneReady mb.nrDof a n env s
  len : s.data.length = s₀.data.length
  arows : s.A.rows = s₀.A.rows
  bsize : s.b.size = s₀.b.size
  step : s.step = s₀.step
  sel : s.selector = s₀.selector
  ri : s.robotIndex = s₀.robotIndex
  nv : s.nrVars = s₀.nrVars
  nrAct : s.nrAct = acts.length
  done : ∀ i ∈ acts, ∀ d₀, s₀.data[i]? = some d₀ → ∃ d, s.data[i]? = some d ∧ PlaneUpdated env d₀ d
  rest : ∀ i, i ∉ acts → ∀ d₀, s₀.data[i]? = some d₀ → s.data[i]? = some (scanned env.com d₀)
  rows : ∀ k i, acts[k]? = some i → ∀ d, s.data[i]? = some d → ∀ x,
    slack n s.A s.b k x = planeDamper d + planeRate mb.nrDof env s₀.selector a s₀.step d x

theorem planeLoop {mb : MultiBody K} {a n : ℕ} {env : ComEnv K} {s₀ : ComPlane K}
    (hd : ∀ d ∈ s₀.data, d.ds ≠ d.di) (hr : s₀.data.length ≤ s₀.A.rows)
    (hb : s₀.data.length ≤ s₀.b.size) (l acts : List ℕ) (s : ComPlane K)
    (I : PlaneInv mb a n env s₀ acts s)
    (hl : ∀ i ∈ l, ∃ d, s₀.data[i]? = some d ∧ near env.com d = true)
    (hnd : (acts ++ l).Nodup) (hlen : (acts ++ l).length ≤ s₀.data.length) :
    ∃ s', forEach l (ComPlane.row mb env) s = .ok s' ∧ PlaneInv mb a n env s₀ (acts ++ l) s' := by
  induction l generalizing acts s with
  | nil => exact ⟨s, rfl, by simpa using I⟩
  | cons i t ih =>
    obtain ⟨d₀, h1, h2⟩ := hl i (by simp)
    have hi : i ∉ acts := by
      intro h
      rw [List.nodup_append] at hnd
      exact hnd.2.2 i h i (by simp) rfl
    have hna : s.nrAct < s₀.data.length := by
      rw [I.nrAct]
      simp at hlen
      omega
    obtain ⟨d, A, b, e, U, a1, a2, a3, a4, a5, a6, a7⟩ := planeRow_ok I.ready i d₀ (I.rest i hi d₀ h1) h2
      (hd d₀ (List.mem_of_getElem? h1)) (by rw [I.arows]; omega) (by rw [I.bsize]; omega)
    have hil : i < s.data.length := by
      rw [I.len]; exact (List.getElem?_eq_some_iff.mp h1).1
    have I' : PlaneInv mb a n env s₀ (acts ++ [i]) { s with
        A := A
        b := b
        data := s.data.set i d
        nrAct := s.nrAct + 1 } := by
      refine ⟨⟨I.ready.ha, I.ready.fit, a3, I.ready.jr, I.ready.jc, I.ready.sel, a4⟩,
        by simp [I.len], a1.trans I.arows, a2.trans I.bsize, I.step, I.sel, I.ri, I.nv,
        by simp [I.nrAct], ?_, ?_, ?_⟩
      · intro j hj e0 he0
        show ∃ d', (s.data.set i d)[j]? = some d' ∧ _
        by_cases hji : j = i
        · subst hji
          rw [h1] at he0
          cases he0
          exact ⟨d, by simp [hil], U⟩
        · rw [List.getElem?_set_ne (Ne.symm hji)]
          exact I.done j (by simpa [hji] using hj) e0 he0
      · intro j hj e0 he0
        have hji : j ≠ i := by rintro rfl; simp at hj
        show (s.data.set i d)[j]? = _
        rw [List.getElem?_set_ne (Ne.symm hji)]
        exact I.rest j (by simp at hj; exact hj.1) e0 he0
      · intro k j hk e0 he0 x
        have he1 : (s.data.set i d)[j]? = some e0 := he0
        show slack n A b k x = _
        by_cases hka : k < acts.length
        · rw [List.getElem?_append_left hka] at hk
          have hji : j ≠ i := by
            rintro rfl
            exact hi (List.mem_of_getElem? hk)
          rw [List.getElem?_set_ne (Ne.symm hji)] at he1
          rw [← I.rows k j hk e0 he1 x]
          have hkn : k ≠ s.nrAct := by rw [I.nrAct]; omega
          unfold slack lineVal
          rw [a6 k hkn]
          congr 1
          apply sum_congr rfl
          intro c _
          rw [a5 k hkn]
        · have hk2 : k = acts.length := by
            have := (List.getElem?_eq_some_iff.mp hk).1
            simp at this
            omega
          subst hk2
          simp at hk
          subst hk
          simp [hil] at he1
          subst he1
          rw [← I.nrAct, a7 x, I.sel, I.step]
    obtain ⟨s', e', I''⟩ := ih (acts ++ [i]) _ I' (fun j hj => hl j (by simp [hj]))
      (by simpa using hnd) (by simpa using hlen)
    refine ⟨s', ?_, by simpa using I''⟩
    simp only [forEach, e, Out.ok_bind]
    exact e'

/-- Indices of the near planes. -/
def nearIdx (com : V3 K) (l : List (PlaneData K)) : List ℕ :=
  (List.range l.length).filter fun i => (l[i]?).any (near com)

theorem nearIdx_snd (com : V3 K) (l : List (PlaneData K)) : (planeScan com l).2 = nearIdx com l := rfl

theorem planeScan_fst (com : V3 K) (l : List (PlaneData K)) :
    (planeScan com l).1 = l.map (scanned com) := rfl

theorem mem_nearIdx {com : V3 K} {l : List (PlaneData K)} {i : ℕ} :
    i ∈ nearIdx com l ↔ ∃ d, l[i]? = some d ∧ near com d = true := by
  unfold nearIdx
  rw [List.mem_filter, List.mem_range]
  constructor
  · rintro ⟨h1, h2⟩
    rw [List.getElem?_eq_getElem h1] at h2 ⊢
    exact ⟨_, rfl, by simpa using h2⟩
  · rintro ⟨d, h1, h2⟩
    exact ⟨(List.getElem?_eq_some_iff.mp h1).1, by rw [h1]; simpa using h2⟩

theorem nearIdx_take (com : V3 K) (l : List (PlaneData K)) (j : ℕ) (hj : j ≤ l.length) :
    (((List.range l.length).take j).filter fun i => (l[i]?).any (near com)).length
      = planeRow com l j := by
  unfold planeRow
  induction j with
  | zero => simp
  | succ j ih =>
    have hj' : j < l.length := by omega
    rw [List.take_add_one, List.take_add_one, List.filter_append, List.filter_append,
      List.length_append, List.length_append, ih (by omega)]
    congr 1
    rw [List.getElem?_eq_getElem hj']
    simp only [List.getElem?_range hj', Option.toList, List.filter]
    rw [List.getElem?_eq_getElem hj']
    simp only [Option.any_some]
    cases near com l[j] <;> rfl

theorem nearIdx_get (com : V3 K) (l : List (PlaneData K)) (j : ℕ) (d : PlaneData K)
    (h : l[j]? = some d) (hn : near com d = true) :
    (nearIdx com l)[planeRow com l j]? = some j := by
  have hj := (List.getElem?_eq_some_iff.mp h).1
  rw [← nearIdx_take com l j hj.le]
  apply filter_getElem (fun i => (l[i]?).any (near com)) (List.range l.length) j j
  · simp [hj]
  · rw [h]; simpa using hn

theorem nearIdx_length (com : V3 K) (l : List (PlaneData K)) :
    (nearIdx com l).length = (l.filter (near com)).length := by
  have := nearIdx_take com l l.length le_rfl
  unfold planeRow at this
  rw [List.take_of_length_le (by simp), List.take_of_length_le le_rfl] at this
  exact this

theorem plane_update {mbs : List (MultiBody K)} {mb : MultiBody K} {a n : ℕ} {env : ComEnv K}
    {s : ComPlane K} (hmb : mbs[s.robotIndex]? = some mb) (R : PlaneReady mb.nrDof a n env s)
    (hd : ∀ d ∈ s.data, d.ds ≠ d.di) (hr : s.data.length ≤ s.A.rows) (hb : s.data.length ≤ s.b.size) :
    ∃ s', s.update mbs env = .ok s' ∧
      PlaneInv mb a n env s (nearIdx env.com s.data) s' := by
  have h0 : PlaneInv mb a n env s [] { s with
      data := (planeScan env.com s.data).1
      nrAct := 0 } := by
    refine ⟨⟨R.ha, R.fit, R.cols, R.jr, R.jc, R.sel, R.outside⟩, by simp [planeScan], rfl, rfl, rfl,
      rfl, rfl, rfl, rfl, by simp, ?_, by simp⟩
    intro i _ d₀ h
    show (planeScan env.com s.data).1[i]? = _
    rw [planeScan_fst, List.getElem?_map, h]
    rfl
  have hnd : (nearIdx env.com s.data).Nodup := List.Nodup.filter _ List.nodup_range
  obtain ⟨s', e, I⟩ := planeLoop hd hr hb (nearIdx env.com s.data) [] _ h0
    (fun i hi => mem_nearIdx.mp hi) (by simpa using hnd)
    (by simp only [List.nil_append, nearIdx_length]; exact List.length_filter_le _ _)
  refine ⟨s', ?_, by simpa using I⟩
  unfold ComPlane.update
  rw [vecAt_eq_ok.mpr hmb, Out.ok_bind, guardUB_ok R.sel, Out.ok_bind]
  dsimp only
  rw [nearIdx_snd]
  exact e

end

end Verif
