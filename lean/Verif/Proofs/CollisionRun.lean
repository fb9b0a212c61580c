import Verif.Proofs.Collision

/-! # The loop of `CollisionConstr::update` -/

set_option autoImplicit false
set_option linter.unusedSectionVars false

namespace Verif

open Finset

/-- The `k`-th element satisfying `p` of a list, with its position. -/
theorem filter_index {α : Type} (p : α → Bool) (l : List α) (k : ℕ) (h : k < (l.filter p).length) :
    ∃ (j : ℕ) (d : α), l[j]? = some d ∧ p d = true ∧ ((l.take j).filter p).length = k := by
  induction l generalizing k with
  | nil => simp at h
  | cons a t ih =>
    by_cases ha : p a = true
    · cases k with
      | zero => exact ⟨0, a, rfl, ha, rfl⟩
      | succ k =>
        rw [List.filter_cons_of_pos ha] at h
        obtain ⟨j, d, h1, h2, h3⟩ := ih k (by simpa using h)
        exact ⟨j + 1, d, by simpa using h1, h2, by simp [ha, h3]⟩
    · rw [List.filter_cons_of_neg ha] at h
      obtain ⟨j, d, h1, h2, h3⟩ := ih k h
      exact ⟨j + 1, d, by simpa using h1, h2, by simp [ha, h3]⟩

theorem filter_take_lt {α : Type} (p : α → Bool) (l : List α) (j : ℕ) (d : α) (hj : l[j]? = some d)
    (hd : p d = true) (i : ℕ) (hi : j < i) :
    ((l.take j).filter p).length < ((l.take i).filter p).length := by
  have h1 : ((l.take (j + 1)).filter p).length = ((l.take j).filter p).length + 1 := by
    rw [List.take_add_one, hj]
    simp [hd]
  have h2 : ((l.take (j + 1)).filter p).length ≤ ((l.take i).filter p).length := by
    apply List.Sublist.length_le
    apply List.Sublist.filter
    exact List.take_sublist_take_left (by omega)
  omega

theorem filter_getElem {α : Type} (p : α → Bool) (l : List α) (j : ℕ) (d : α) (hj : l[j]? = some d)
    (hd : p d = true) : (l.filter p)[((l.take j).filter p).length]? = some d := by
  induction l generalizing j with
  | nil => simp at hj
  | cons a t ih =>
    cases j with
    | zero =>
      simp at hj
      subst hj
      simp [hd]
    | succ j =>
      have := ih j (by simpa using hj)
      by_cases ha : p a = true
      · simp [ha, this]
      · simp [ha, this]

section
variable {K : Type} [Field K] [LinearOrder K] [IsStrictOrderedRing K]

open Spec

namespace Spec

/-- Predicted rate, one step ahead, of the distance of the pair `d` (normal `n₀` one step before). -/
def pairRate (mbs : List (MultiBody K)) (data : SolverData K) (env : CollEnv K) (dt : K) (n₀ : V3 K)
    (d : CollData K) (x : ℕ → K) : K :=
  signedSum (d.bodies.map (bodyRate mbs data env dt d.normal n₀ x))

/-- `damping * (d - ds) / (di - ds)`: the largest admissible rate of approach. -/
def damper (d : CollData K) : K := d.damping * ((d.distance - d.ds) / (d.di - d.ds))

/-- The pair is closer than its interaction distance. -/
def active (d : CollData K) : Bool := decide (d.distance < d.di)

/-- Position of pair `j` among the active pairs. -/
def rowOf (l : List (CollData K)) (j : ℕ) : ℕ := ((l.take j).filter active).length

/-- Hull poses when pair `j` is examined: those of the pairs up to `j` have been moved. -/
def posesAt (env : CollEnv K) (l : List (CollData K)) (poses : ℕ → SchPose K) (j : ℕ) :
    ℕ → SchPose K :=
  (l.take j).foldl (fun p d => moved env d.bodies p) poses

end Spec

/-- What `update` needs. -/
structure CollReady (mbs : List (MultiBody K)) (data : SolverData K) (env : CollEnv K) (n tot : ℕ)
    (s : Coll K) : Prop where
  step : s.step ≠ 0
  eps : env.eps ≠ 0
  htot : s.totalAlphaD = some tot
  le : tot ≤ n
  cols : s.A.cols = n
  rows : s.data.length ≤ s.A.rows
  bsize : s.data.length ≤ s.b.size
  hd : s.distJac.rows = 1
  hd' : ∀ mb ∈ mbs, mb.nrDof ≤ s.distJac.cols
  hf : s.fullJac.rows = 1
  hf' : ∀ mb ∈ mbs, mb.nrDof ≤ s.fullJac.cols
  beyond : ∀ i c, tot ≤ c → s.A.get i c = 0
  pairs : ∀ d ∈ s.data, d.ds ≠ d.di ∧ ∀ b ∈ d.bodies, ∃ mb r a, BodyReady mbs data env tot b mb r a

theorem lineVal_zero (n : ℕ) (A : Mat K) (i : ℕ) (x : ℕ → K) (h : ∀ c < n, A.get i c = 0) :
    lineVal n A i x = 0 := by
  unfold lineVal
  apply sum_eq_zero
  intro c hc
  rw [h c (mem_range.mp hc), zero_mul]

theorem collRow_ok {mbs : List (MultiBody K)} {data : SolverData K} {env : CollEnv K} {n tot : ℕ}
    {d : CollData K} (hds : d.ds ≠ d.di)
    (hb : ∀ b ∈ d.bodies, ∃ mb r a, BodyReady mbs data env tot b mb r a) (nf : V3 K) {s : Coll K}
    (hstep : s.step ≠ 0) (htot : s.totalAlphaD = some tot) (hle : tot ≤ n) (hcols : s.A.cols = n)
    (hrow : s.nrAct < s.A.rows) (hbs : s.nrAct < s.b.size) (hd : s.distJac.rows = 1)
    (hd' : ∀ mb ∈ mbs, mb.nrDof ≤ s.distJac.cols) (hf : s.fullJac.rows = 1)
    (hf' : ∀ mb ∈ mbs, mb.nrDof ≤ s.fullJac.cols)
    (hbey : ∀ i c, tot ≤ c → s.A.get i c = 0) :
    ∃ A b D F, collRow mbs data env d nf s = .ok { s with
        A := A
        b := b
        distJac := D
        fullJac := F
        nrAct := s.nrAct + 1 } ∧
      A.rows = s.A.rows ∧ A.cols = n ∧ b.size = s.b.size ∧ D.rows = 1 ∧
      (∀ mb ∈ mbs, mb.nrDof ≤ D.cols) ∧ F.rows = 1 ∧ (∀ mb ∈ mbs, mb.nrDof ≤ F.cols) ∧
      (∀ i, i ≠ s.nrAct → ∀ c, A.get i c = s.A.get i c) ∧
      (∀ i, i ≠ s.nrAct → b.get i = s.b.get i) ∧
      (∀ i c, tot ≤ c → A.get i c = 0) ∧
      ∀ x, slack n A b s.nrAct x = damper d
        + signedSum (d.bodies.map (bodyRate mbs data env s.step nf d.normal x)) := by
  have hne : d.di - d.ds ≠ 0 := fun h => hds (sub_eq_zero.mp h).symm
  have e1 : s.b.set s.nrAct (d.damping * ((d.distance - d.ds) / (d.di - d.ds)))
      = .ok ⟨s.b.size, fun j => if j = s.nrAct then damper d else s.b.get j⟩ := if_pos hbs
  have e2 : s.A.setBlock s.nrAct 0 (Mat.zero 1 tot) = .ok ⟨s.A.rows, s.A.cols, fun a c =>
      if (s.nrAct ≤ a ∧ a < s.nrAct + 1) ∧ (0 ≤ c ∧ c < 0 + tot) then 0 else s.A.get a c⟩ := by
    unfold Mat.setBlock
    rw [if_pos (by simp [Mat.zero]; omega)]
    rfl
  obtain ⟨r, e3, S, F, k⟩ := collBodies (data := data) (env := env) (tot := tot) hstep s.nrAct nf
    d.normal n d.bodies hb
    ⟨1, ⟨s.A.rows, s.A.cols, fun a c =>
      if (s.nrAct ≤ a ∧ a < s.nrAct + 1) ∧ (0 ≤ c ∧ c < 0 + tot) then 0 else s.A.get a c⟩,
      ⟨s.b.size, fun j => if j = s.nrAct then damper d else s.b.get j⟩, s.distJac, s.fullJac⟩
    ⟨hcols, hle, hrow, hbs, hd, hd', hf, hf'⟩ rfl
  refine ⟨r.A, r.b, r.distJac, r.fullJac, ?_, F.rows, S.cols, F.bsize, S.hd, S.hd', S.hf, S.hf',
    ?_, ?_, ?_, ?_⟩
  · unfold collRow
    rw [fdiv_ok hne, Out.ok_bind, fdivV_ok hstep, Out.ok_bind, htot]
    dsimp only
    rw [Out.ok_bind, e1, Out.ok_bind, e2, Out.ok_bind, e3]
    rfl
  · intro i hi c
    rw [F.other i hi c]
    dsimp only
    rw [if_neg (by omega)]
  · intro i hi
    rw [F.otherb i hi]
    simp [hi]
  · intro i c hc
    by_cases hi : i = s.nrAct
    · subst hi
      rw [F.beyond c hc]
      dsimp only
      rw [if_neg (by omega)]
      exact hbey _ _ hc
    · rw [F.other i hi c]
      dsimp only
      rw [if_neg (by omega)]
      exact hbey _ _ hc
  · intro x
    rw [k x]
    congr 1
    unfold slack
    rw [lineVal_zero]
    · simp
    · intro c _
      dsimp only
      by_cases h : c < tot
      · rw [if_pos (by omega)]
      · rw [if_neg (by omega)]
        exact hbey _ _ (by omega)

theorem withPoint_ready {mbs : List (MultiBody K)} {data : SolverData K} {env : CollEnv K} {tot : ℕ}
    {b : BodyColl K} (p : V3 K) (h : ∃ mb r a, BodyReady mbs data env tot b mb r a) :
    ∃ mb r a, BodyReady mbs data env tot (withPoint env p b) mb r a := by
  obtain ⟨mb, r, a, R⟩ := h
  refine ⟨mb, r, a, ?_⟩
  unfold withPoint
  rw [R.hr]
  dsimp only
  rw [List.getElem?_eq_getElem R.hbody]
  exact ⟨R.hmb, R.hr, R.ha, R.hfit, R.hpath, R.hnodup, R.hrows, R.hcols, R.hsel, R.hbody⟩

theorem withPoints_ready {mbs : List (MultiBody K)} {data : SolverData K} {env : CollEnv K} {tot : ℕ}
    {l : List (BodyColl K)} (p1 p2 : V3 K)
    (h : ∀ b ∈ l, ∃ mb r a, BodyReady mbs data env tot b mb r a) :
    ∀ b ∈ withPoints env p1 p2 l, ∃ mb r a, BodyReady mbs data env tot b mb r a := by
  cases l with
  | nil => intro b hb; simp [withPoints] at hb
  | cons b t =>
    intro c hc
    simp only [withPoints, List.mem_cons, List.mem_map] at hc
    rcases hc with rfl | ⟨e, he, rfl⟩
    · exact withPoint_ready _ (h b (by simp))
    · exact withPoint_ready _ (h e (by simp [he]))

/-- The loop invariant. -/
structure CollInv (mbs : List (MultiBody K)) (data : SolverData K) (env : CollEnv K) (n tot : ℕ)
    (s₀ : Coll K) (poses₀ : ℕ → SchPose K) (i : ℕ) (st : Coll K × (ℕ → SchPose K)) : Prop where
  len : st.1.data.length = s₀.data.length
  rest : ∀ j, i ≤ j → st.1.data[j]? = s₀.data[j]?
  done : ∀ j < i, ∀ d₀, s₀.data[j]? = some d₀ → ∃ d, st.1.data[j]? = some d ∧
    GeomOf env (posesAt env s₀.data poses₀ (j + 1)) d₀ d ∧ DampingOf env d₀ d
  poses : st.2 = posesAt env s₀.data poses₀ i
  nrAct : st.1.nrAct = rowOf st.1.data i
  rowsOK : ∀ j < i, ∀ d₀ d, s₀.data[j]? = some d₀ → st.1.data[j]? = some d → active d = true →
    ∀ x, slack n st.1.A st.1.b (rowOf st.1.data j) x
      = damper d + pairRate mbs data env s₀.step d₀.normal d x
  Arows : st.1.A.rows = s₀.A.rows
  Acols : st.1.A.cols = n
  bsize : st.1.b.size = s₀.b.size
  hd : st.1.distJac.rows = 1
  hd' : ∀ mb ∈ mbs, mb.nrDof ≤ st.1.distJac.cols
  hf : st.1.fullJac.rows = 1
  hf' : ∀ mb ∈ mbs, mb.nrDof ≤ st.1.fullJac.cols
  beyond : ∀ i c, tot ≤ c → st.1.A.get i c = 0
  step : st.1.step = s₀.step
  htot : st.1.totalAlphaD = some tot
  nrVars : st.1.nrVars = s₀.nrVars

theorem rowOf_set_lt (l : List (CollData K)) (i j : ℕ) (d : CollData K) (h : j ≤ i) :
    rowOf (l.set i d) j = rowOf l j := by
  unfold rowOf
  rw [List.take_set_of_le h]

theorem rowOf_succ (l : List (CollData K)) (i : ℕ) (d : CollData K) (h : l[i]? = some d) :
    rowOf l (i + 1) = rowOf l i + if active d = true then 1 else 0 := by
  unfold rowOf
  rw [List.take_add_one, h]
  by_cases hd : active d = true <;> simp [hd]

theorem rowOf_lt_of_active (l : List (CollData K)) (i j : ℕ) (d : CollData K) (h : l[j]? = some d)
    (hd : active d = true) (hj : j < i) : rowOf l j < rowOf l i :=
  filter_take_lt active l j d h hd i hj

theorem rowOf_le (l : List (CollData K)) (i : ℕ) : rowOf l i ≤ i := by
  unfold rowOf
  exact (List.length_filter_le _ _).trans (by simp)

theorem posesAt_succ (env : CollEnv K) (l : List (CollData K)) (poses : ℕ → SchPose K) (i : ℕ)
    (d : CollData K) (h : l[i]? = some d) :
    posesAt env l poses (i + 1) = moved env d.bodies (posesAt env l poses i) := by
  unfold posesAt
  rw [List.take_add_one, h]
  simp

theorem pairStep_inv {mbs : List (MultiBody K)} {data : SolverData K} {env : CollEnv K} {n tot : ℕ}
    {s₀ : Coll K} (R : CollReady mbs data env n tot s₀) (poses₀ : ℕ → SchPose K) (i : ℕ)
    (hi : i < s₀.data.length) (st : Coll K × (ℕ → SchPose K))
    (I : CollInv mbs data env n tot s₀ poses₀ i st) :
    ∃ st', Coll.pairStep mbs data env i st = .ok st' ∧
      CollInv mbs data env n tot s₀ poses₀ (i + 1) st' := by
  obtain ⟨s, poses⟩ := st
  have hlen : s.data.length = s₀.data.length := I.len
  obtain ⟨d₀, h0⟩ : ∃ d, s₀.data[i]? = some d := ⟨_, List.getElem?_eq_getElem hi⟩
  have hs : s.data[i]? = some d₀ := by rw [I.rest i le_rfl, h0]
  obtain ⟨hds, hbod⟩ := R.pairs d₀ (List.mem_of_getElem? h0)
  have hposed : ∀ b ∈ d₀.bodies, BodyPosed env b := fun b hb => by
    obtain ⟨mb, r, a, hr⟩ := hbod b hb
    exact hr.posed
  obtain ⟨d', nf, eg, G, g1, g2, g3⟩ := collGeom_ok env R.eps d₀ hposed poses
  have hp : poses = posesAt env s₀.data poses₀ i := I.poses
  have hmv : moved env d₀.bodies poses = posesAt env s₀.data poses₀ (i + 1) := by
    rw [hp, posesAt_succ env _ _ _ _ h0]
  have hb' : ∀ b ∈ d'.bodies, ∃ mb r a, BodyReady mbs data env tot b mb r a := by
    have : d'.bodies = withPoints env d'.p1 d'.p2 d₀.bodies := G.bodies
    rw [this]
    exact withPoints_ready _ _ hbod
  have hposed' : ∀ b ∈ d'.bodies, BodyPosed env b := fun b hb => by
    obtain ⟨mb, r, a, hr⟩ := hb' b hb
    exact hr.posed
  have hds' : d'.ds ≠ d'.di := by
    have a1 : d'.ds = d₀.ds := G.ds
    have a2 : d'.di = d₀.di := G.di
    rw [a1, a2]; exact hds
  have hil : i < s.data.length := by omega
  unfold Coll.pairStep
  dsimp only
  rw [vecAt_eq_ok.mpr hs, Out.ok_bind, eg, Out.ok_bind]
  dsimp only
  by_cases hact : d'.distance < d'.di
  · rw [if_pos hact]
    -- the damping
    have key : ∃ d2, collActivate env d' nf = .ok d2 ∧ GeomOf env (moved env d₀.bodies poses) d₀
        { d2 with normal := nf } ∧ DampingOf env d₀ { d2 with normal := nf } ∧
        d2.normal = d₀.normal ∧ d2.bodies = d'.bodies ∧ d2.ds = d'.ds ∧ d2.di = d'.di ∧
        d2.distance = d'.distance := by
      unfold collActivate
      by_cases hfree : d'.dtype = .free
      · rw [if_pos hfree, collDamping_ok env d' hposed' hds']
        refine ⟨_, rfl, ⟨G.hull1, G.hull2, G.di, G.ds, G.off, G.collId, G.distance, G.p1, G.p2,
          G.normal, G.bodies⟩, ?_, g1, rfl, rfl, rfl, rfl⟩
        unfold DampingOf
        dsimp only
        rw [if_pos hact, if_pos (g3 ▸ hfree)]
        exact ⟨rfl, rfl⟩
      · rw [if_neg hfree]
        refine ⟨_, rfl, G, ?_, g1, rfl, rfl, rfl, rfl⟩
        unfold DampingOf
        dsimp only
        rw [if_pos hact, if_neg (g3 ▸ hfree)]
        exact ⟨g3, g2⟩
    obtain ⟨d2, e2, G2, D2, k1, k2, k3, k4, k5⟩ := key
    have hrl : s.nrAct < s₀.data.length := by
      have h1 : s.nrAct = rowOf s.data i := I.nrAct
      have := rowOf_le s.data i
      omega
    obtain ⟨A, b, D, F, e3, a1, a2, a3, a4, a5, a6, a7, a8, a9, a10, a11⟩ :=
      collRow_ok (mbs := mbs) (data := data) (env := env) (n := n) (tot := tot) (d := d2) (s := s)
        (by rw [k3, k4]; exact hds') (by rw [k2]; exact hb') nf (by rw [I.step]; exact R.step)
        I.htot R.le I.Acols (by rw [I.Arows]; have := R.rows; omega)
        (by rw [I.bsize]; have := R.bsize; omega) I.hd I.hd' I.hf I.hf' I.beyond
    have hact2 : active { d2 with normal := nf } = true := by
      simp only [active, k4, k5]
      exact decide_eq_true hact
    have hget : (s.data.set i { d2 with normal := nf })[i]? = some { d2 with normal := nf } := by
      simp [hil]
    rw [e2, Out.ok_bind, e3, Out.ok_bind, vecSet_ok (by exact hil), Out.ok_bind]
    refine ⟨_, rfl, ?_⟩
    constructor
    · simp [hlen]
    · intro j hj
      show (s.data.set i _)[j]? = _
      rw [List.getElem?_set_ne (by omega)]
      exact I.rest j (by omega)
    · intro j hj e he
      by_cases hji : j = i
      · subst hji
        rw [h0] at he
        cases he
        refine ⟨_, hget, ?_, D2⟩
        rw [← hmv]
        exact G2
      · obtain ⟨d, q1, q2⟩ := I.done j (by omega) e he
        refine ⟨d, ?_, q2⟩
        show (s.data.set i _)[j]? = _
        rw [List.getElem?_set_ne (by omega)]
        exact q1
    · exact hmv
    · show s.nrAct + 1 = rowOf (s.data.set i _) (i + 1)
      rw [rowOf_succ _ _ _ hget, if_pos hact2, rowOf_set_lt _ _ _ _ le_rfl]
      have h1 : s.nrAct = rowOf s.data i := I.nrAct
      rw [h1]
    · intro j hj e d he hd hda x
      show slack n A b (rowOf (s.data.set i _) j) x = _
      rw [rowOf_set_lt _ _ _ _ (by omega)]
      have h1 : s.nrAct = rowOf s.data i := I.nrAct
      by_cases hji : j = i
      · subst hji
        rw [h0] at he
        cases he
        have hd' : (s.data.set j { d2 with normal := nf })[j]? = some d := hd
        rw [hget] at hd'
        cases hd'
        rw [← h1, a11 x]
        have hst : s.step = s₀.step := I.step
        unfold pairRate damper
        dsimp only
        rw [hst, k1]
      · have hd' : (s.data.set i { d2 with normal := nf })[j]? = some d := hd
        rw [List.getElem?_set_ne (by omega)] at hd'
        have hlt := rowOf_lt_of_active s.data i j d hd' hda (by omega)
        rw [← I.rowsOK j (by omega) e d he hd' hda x]
        unfold slack lineVal
        rw [a9 _ (by omega)]
        congr 1
        apply sum_congr rfl
        intro c _
        rw [a8 _ (by omega)]
    · exact a1.trans I.Arows
    · exact a2
    · exact a3.trans I.bsize
    · exact a4
    · exact a5
    · exact a6
    · exact a7
    · exact a10
    · exact I.step
    · exact I.htot
    · exact I.nrVars
  · rw [if_neg hact, vecSet_ok hil, Out.ok_bind]
    refine ⟨_, rfl, ?_⟩
    set e' : CollData K := { d' with
      normal := nf
      dtype := if d'.dtype = .soft then .free else d'.dtype } with he'
    have hget : (s.data.set i e')[i]? = some e' := by simp [hil]
    have hact2 : ¬ active e' = true := by
      simp only [active, he']
      simpa using hact
    constructor
    · simp [hlen]
    · intro j hj
      show (s.data.set i _)[j]? = _
      rw [List.getElem?_set_ne (by omega)]
      exact I.rest j (by omega)
    · intro j hj e he
      by_cases hji : j = i
      · subst hji
        rw [h0] at he
        cases he
        refine ⟨_, hget, ?_, ?_⟩
        · rw [← hmv]
          exact ⟨G.hull1, G.hull2, G.di, G.ds, G.off, G.collId, G.distance, G.p1, G.p2,
            G.normal, G.bodies⟩
        · unfold DampingOf
          rw [if_neg (show ¬ e'.distance < e'.di from hact), ← g3]
          exact ⟨g2, rfl⟩
      · obtain ⟨d, q1, q2⟩ := I.done j (by omega) e he
        refine ⟨d, ?_, q2⟩
        show (s.data.set i _)[j]? = _
        rw [List.getElem?_set_ne (by omega)]
        exact q1
    · exact hmv
    · show s.nrAct = rowOf (s.data.set i _) (i + 1)
      rw [rowOf_succ _ _ _ hget, if_neg hact2, rowOf_set_lt _ _ _ _ le_rfl]
      exact I.nrAct
    · intro j hj e d he hd hda x
      show slack n s.A s.b (rowOf (s.data.set i _) j) x = _
      rw [rowOf_set_lt _ _ _ _ (by omega)]
      by_cases hji : j = i
      · subst hji
        have hd' : (s.data.set j e')[j]? = some d := hd
        rw [hget] at hd'
        cases hd'
        exact absurd hda hact2
      · have hd' : (s.data.set i e')[j]? = some d := hd
        rw [List.getElem?_set_ne (by omega)] at hd'
        exact I.rowsOK j (by omega) e d he hd' hda x
    · exact I.Arows
    · exact I.Acols
    · exact I.bsize
    · exact I.hd
    · exact I.hd'
    · exact I.hf
    · exact I.hf'
    · exact I.beyond
    · exact I.step
    · exact I.htot
    · exact I.nrVars

theorem coll_update {mbs : List (MultiBody K)} {data : SolverData K} {env : CollEnv K} {n tot : ℕ}
    {s₀ : Coll K} (R : CollReady mbs data env n tot s₀) (poses₀ : ℕ → SchPose K) :
    ∃ st', s₀.update mbs data env poses₀ = .ok st' ∧
      CollInv mbs data env n tot s₀ poses₀ s₀.data.length st' := by
  unfold Coll.update
  refine forRange_inv (fun i st => CollInv mbs data env n tot s₀ poses₀ i st) ?_ ?_
  · exact ⟨rfl, fun _ _ => rfl, fun j h => absurd h (by omega), rfl, rfl,
      fun j h => absurd h (by omega), rfl, R.cols, rfl, R.hd, R.hd', R.hf, R.hf', R.beyond, rfl,
      R.htot, rfl⟩
  · intro i hi st I
    exact pairStep_inv R poses₀ i hi st I

end

end Verif
