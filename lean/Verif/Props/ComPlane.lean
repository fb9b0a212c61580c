import Verif.Proofs.ComPlane
import Verif.Props.CollisionEx

/-! # C36, and C35 and C57 for CoM planes

`CoMIncPlaneConstr` (QPConstr.cpp:625-811). -/

set_option autoImplicit false
set_option linter.unusedSectionVars false

namespace Verif

open Finset

section
variable {K : Type} [Field K] [LinearOrder K] [IsStrictOrderedRing K]

namespace Spec

/-- Everything a user can do with a plane constraint. -/
inductive PlaneOp (K : Type)
  | add (planeId : ℤ) (normal : V3 K) (offset di ds damping : K) (speed normalDot : V3 K) (off : K)
  | rm (planeId : ℤ)
  | reset
  | select (v : Vec K)
  | updateNrPlanes
  | updateNrVars (data : SolverData K)
  | update (env : ComEnv K)

/-- The code. -/
def PlaneOp.run (mbs : List (MultiBody K)) (s : ComPlane K) : PlaneOp K → Out (ComPlane K)
  | .add i n o di ds da sp nd off => .ok (s.add i n o di ds da sp nd off)
  | .rm i => .ok (s.rm i).2
  | .reset => .ok s.reset
  | .select v => .ok { s with selector := v }
  | .updateNrPlanes => .ok s.updateNrPlanes
  | .updateNrVars data => s.updateNrVars data
  | .update env => s.update mbs env

/-- The solver data seen by the constraint puts the accelerations of the robot inside the variables. -/
def PlaneOp.OK (mb : MultiBody K) (ri : ℕ) : PlaneOp K → Prop
  | .updateNrVars data => ∀ a, data.alphaDBegin[ri]? = some a → a + mb.nrDof ≤ data.nrVars
  | .select v => v.size = mb.nrDof
  | _ => True

/-- What identifies a plane. -/
structure PlaneKey (K : Type) where
  id : ℤ
  normal : V3 K
  offset : K
  di : K
  ds : K
  speed : V3 K
  normalDot : V3 K
  off : K

/-- The identification of a stored plane. -/
def planeKey (d : PlaneData K) : PlaneKey K :=
  ⟨d.planeId, d.normal, d.offset, d.di, d.ds, d.speed, d.normalDot, d.off⟩

/-- The registry as a plain list: append, remove the first with this id, clear. -/
def PlaneOp.spec (l : List (PlaneKey K)) : PlaneOp K → List (PlaneKey K)
  | .add i n o di ds _ sp nd off => l ++ [⟨i, n, o, di, ds, sp, nd, off⟩]
  | .rm i => l.eraseP fun k => decide (k.id = i)
  | .reset => []
  | _ => l

end Spec

open Spec

/-- Invariant of the reachable states. -/
structure PlaneWF (mb : MultiBody K) (ri : ℕ) (dt : K) (s : ComPlane K) : Prop where
  ri : s.robotIndex = ri
  step : s.step = dt
  sel : s.selector.size = mb.nrDof
  cols : s.A.cols = s.nrVars
  bsize : s.b.size = s.A.rows
  begin : ∀ a, s.alphaDBegin = some a → a + mb.nrDof ≤ s.nrVars ∧
    ∀ i c, ¬ (a ≤ c ∧ c < a + mb.nrDof) → s.A.get i c = 0

theorem planeRow_wf {mb : MultiBody K} {ri : ℕ} {dt : K} {env : ComEnv K} {i : ℕ} {s s' : ComPlane K}
    (W : PlaneWF mb ri dt s) (h : ComPlane.row mb env i s = .ok s') :
    PlaneWF mb ri dt s' ∧ s'.data.map planeKey = s.data.map planeKey ∧ s'.A.rows = s.A.rows ∧
      s'.nrAct = s.nrAct + 1 ∧ s'.nrAct ≤ s.A.rows ∧
      s'.selector = s.selector ∧ s'.alphaDBegin = s.alphaDBegin := by
  unfold ComPlane.row at h
  simp only [Out.bind_eq_ok] at h
  obtain ⟨d0, h0, d, h1, f, _, a, ha, _, _, A, hA, b, hb, l, hl, h⟩ := h
  cases h
  have hk : planeKey d = planeKey d0 := by
    unfold planeActivate at h1
    split at h1
    · simp only [Out.bind_eq_ok] at h1
      obtain ⟨_, _, h1⟩ := h1
      cases h1
      rfl
    · cases h1
      rfl
  have ha' : s.alphaDBegin = some a := by
    split at ha
    · cases ha
    · rename_i e; cases ha; exact e
  unfold Mat.setBlock at hA
  split at hA
  · rename_i hfit
    cases hA
    unfold Vec.set at hb
    split at hb
    · rename_i hbs
      cases hb
      refine ⟨⟨W.ri, W.step, W.sel, W.cols, W.bsize, ?_⟩, ?_, rfl, rfl, ?_, rfl, rfl⟩
      · intro a' e
        have : a' = a := by
          have e' : s.alphaDBegin = some a' := e
          rw [ha'] at e'
          cases e'
          rfl
        subst this
        obtain ⟨w1, w2⟩ := W.begin a' ha'
        refine ⟨w1, fun k c hc => ?_⟩
        show (if _ then _ else _) = _
        rw [if_neg (fun h => hc ⟨h.2.1, h.2.2⟩)]
        exact w2 k c hc
      · unfold vecSet at hl
        split at hl
        · rename_i hil
          cases hl
          rw [List.map_set, hk]
          rw [vecAt_eq_ok] at h0
          apply List.ext_getElem? 
          intro k
          by_cases hk' : i = k
          · subst hk'
            rw [List.getElem?_set_self (by simpa using hil), List.getElem?_map, h0]
            rfl
          · rw [List.getElem?_set_ne hk']
        · cases hl
      · dsimp only at hfit ⊢
        omega
    · cases hb
  · cases hA

theorem planeUpdate_wf {mbs : List (MultiBody K)} {mb : MultiBody K} {ri : ℕ} {dt : K} {env : ComEnv K}
    {s s' : ComPlane K} (hmb : mbs[ri]? = some mb) (W : PlaneWF mb ri dt s)
    (h : s.update mbs env = .ok s') :
    PlaneWF mb ri dt s' ∧ s'.data.map planeKey = s.data.map planeKey ∧ s'.A.rows = s.A.rows ∧
      s'.nrAct = (s.data.filter (near env.com)).length ∧ (s'.nrAct = 0 ∨ s'.nrAct ≤ s.A.rows) ∧
      s'.selector = s.selector ∧ s'.alphaDBegin = s.alphaDBegin := by
  unfold ComPlane.update at h
  simp only [Out.bind_eq_ok] at h
  obtain ⟨mb', h1, _, _, h⟩ := h
  rw [vecAt_eq_ok, W.ri, hmb] at h1
  cases h1
  rw [← nearIdx_length, ← nearIdx_snd]
  have key : ∀ (l : List ℕ) (t t' : ComPlane K), PlaneWF mb ri dt t →
      forEach l (ComPlane.row mb env) t = .ok t' →
      PlaneWF mb ri dt t' ∧ t'.data.map planeKey = t.data.map planeKey ∧ t'.A.rows = t.A.rows ∧
      t'.nrAct = t.nrAct + l.length ∧ (l = [] ∨ t'.nrAct ≤ t.A.rows) ∧
      t'.selector = t.selector ∧ t'.alphaDBegin = t.alphaDBegin := by
    intro l
    induction l with
    | nil => intro t t' W h; cases h; exact ⟨W, rfl, rfl, rfl, Or.inl rfl, rfl, rfl⟩
    | cons i l ih =>
      intro t t' W h
      simp only [forEach, Out.bind_eq_ok] at h
      obtain ⟨u, h1, h2⟩ := h
      obtain ⟨W', e1, e2, e3, e4, e5, e6⟩ := planeRow_wf W h1
      obtain ⟨W'', f1, f2, f3, f4, f5, f6⟩ := ih u t' W' h2
      refine ⟨W'', f1.trans e1, f2.trans e2, by rw [f3, e3]; simp; omega, Or.inr ?_, f5.trans e5,
        f6.trans e6⟩
      rcases f4 with rfl | f4
      · cases h2; exact e4
      · rw [← e2]; exact f4
  obtain ⟨W', e1, e2, e3, e4, e5, e6⟩ := key _ { s with
      data := (planeScan env.com s.data).1
      nrAct := 0 } s'
    ⟨W.ri, W.step, W.sel, W.cols, W.bsize, W.begin⟩ h
  refine ⟨W', ?_, e2, by simpa using e3, ?_, e5, e6⟩
  · rw [e1]
    show (s.data.map (scanned env.com)).map planeKey = _
    rw [List.map_map]
    rfl
  · rcases e4 with e | e
    · left
      rw [e3, e]
      rfl
    · exact Or.inr e

/-- Every reachable state satisfies the invariant. -/
theorem planeWF {mbs : List (MultiBody K)} {mb : MultiBody K} {ri : ℕ} {dt : K}
    (hmb : mbs[ri]? = some mb) (ops : List (PlaneOp K)) (hok : ∀ o ∈ ops, o.OK mb ri) (s s' : ComPlane K)
    (W : PlaneWF mb ri dt s) (h : ops.foldlM (PlaneOp.run mbs) s = .ok s') :
    PlaneWF mb ri dt s' ∧ s'.data.map planeKey = ops.foldl PlaneOp.spec (s.data.map planeKey) := by
  induction ops generalizing s with
  | nil => cases h; exact ⟨W, rfl⟩
  | cons o t ih =>
    simp only [List.foldlM_cons, Out.bind_eq_ok] at h
    obtain ⟨s1, h1, h2⟩ := h
    have ho := hok o (by simp)
    have key : PlaneWF mb ri dt s1 ∧ s1.data.map planeKey = o.spec (s.data.map planeKey) := by
      cases o with
      | add i n o di ds da sp nd off =>
        cases h1
        exact ⟨⟨W.ri, W.step, W.sel, W.cols, W.bsize, W.begin⟩,
          by simp [ComPlane.add, PlaneOp.spec, planeKey]⟩
      | rm i =>
        cases h1
        unfold ComPlane.rm
        split
        · refine ⟨⟨W.ri, W.step, W.sel, W.cols, W.bsize, W.begin⟩, ?_⟩
          show (s.data.eraseP _).map planeKey = _
          show _ = (s.data.map planeKey).eraseP _
          rw [List.eraseP_map]
          rfl
        · refine ⟨W, ?_⟩
          rename_i hn
          show s.data.map planeKey = (s.data.map planeKey).eraseP _
          rw [List.eraseP_of_forall_not]
          intro k hk
          obtain ⟨d, hd, rfl⟩ := List.mem_map.mp hk
          simp only [List.any_eq_true, not_exists, not_and] at hn
          exact hn d hd
      | reset => cases h1; exact ⟨⟨W.ri, W.step, W.sel, W.cols, W.bsize, W.begin⟩, rfl⟩
      | select v => cases h1; exact ⟨⟨W.ri, W.step, ho, W.cols, W.bsize, W.begin⟩, rfl⟩
      | updateNrPlanes =>
        cases h1
        exact ⟨⟨W.ri, W.step, W.sel, rfl, rfl, fun a e => ⟨(W.begin a e).1, fun _ _ _ => rfl⟩⟩, rfl⟩
      | updateNrVars data =>
        simp only [PlaneOp.run, ComPlane.updateNrVars, Out.bind_eq_ok] at h1
        obtain ⟨a, ha, h1⟩ := h1
        cases h1
        rw [vecAt_eq_ok, W.ri] at ha
        refine ⟨⟨W.ri, W.step, W.sel, rfl, rfl, fun a' e => ?_⟩, rfl⟩
        have e' : some a = some a' := e
        cases e'
        exact ⟨ho a ha, fun _ _ _ => rfl⟩
      | update env =>
        obtain ⟨W', e, _⟩ := planeUpdate_wf hmb W h1
        exact ⟨W', e⟩
    rw [List.foldl_cons, ← key.2]
    exact ih (fun o ho => hok o (by simp [ho])) s1 key.1 h2

namespace Spec

/-- States reached from construction by operations that all return. -/
inductive PlaneReach (mbs : List (MultiBody K)) (mb : MultiBody K) (ri : ℕ) (dt : K) : ComPlane K → Prop
  | make : PlaneReach mbs mb ri dt (ComPlane.make mb ri dt)
  | step (s s' : ComPlane K) (o : PlaneOp K) (hs : PlaneReach mbs mb ri dt s) (ho : o.OK mb ri)
      (h : o.run mbs s = .ok s') : PlaneReach mbs mb ri dt s'

/-- The CoM Jacobian has three rows and one column per degree of freedom. -/
def ComEnvOK (mb : MultiBody K) (env : ComEnv K) : Prop :=
  env.jac.rows = 3 ∧ env.jac.cols = mb.nrDof

end Spec

theorem planeReach_wf {mbs : List (MultiBody K)} {mb : MultiBody K} {ri : ℕ} {dt : K} {s : ComPlane K}
    (hmb : mbs[ri]? = some mb) (h : PlaneReach mbs mb ri dt s) : PlaneWF mb ri dt s := by
  induction h with
  | make => exact ⟨rfl, rfl, rfl, rfl, rfl, fun a h => by cases h⟩
  | step s s' o _ ho e ih =>
    refine (planeWF hmb [o] (fun p hp => ?_) _ _ ih ?_).1
    · rw [List.mem_singleton.mp hp]; exact ho
    · simp only [List.foldlM_cons, List.foldlM_nil, e, Out.ok_bind]
      rfl

theorem PlaneWF.ready {mb : MultiBody K} {ri : ℕ} {dt : K} {s : ComPlane K} (W : PlaneWF mb ri dt s)
    {env : ComEnv K} (he : ComEnvOK mb env) {a : ℕ} (ha : s.alphaDBegin = some a) :
    PlaneReady mb.nrDof a s.nrVars env s :=
  ⟨ha, (W.begin a ha).1, W.cols, he.1, he.2, W.sel, (W.begin a ha).2⟩

/-! ## C36 -/

/-- C36: the registry of planes is a plain list to which the same operations are applied. -/
theorem C36_registry {mbs : List (MultiBody K)} {mb : MultiBody K} {ri : ℕ} {dt : K}
    (hmb : mbs[ri]? = some mb) (ops : List (PlaneOp K)) (hok : ∀ o ∈ ops, o.OK mb ri) (s' : ComPlane K)
    (h : ops.foldlM (PlaneOp.run mbs) (ComPlane.make mb ri dt) = .ok s') :
    s'.data.map planeKey = ops.foldl PlaneOp.spec [] ∧
      s'.nrPlanes = (ops.foldl PlaneOp.spec ([] : List (PlaneKey K))).length ∧
      s'.inEq.maxInEq = s'.nrPlanes := by
  have := (planeWF (dt := dt) hmb ops hok _ _
    ⟨rfl, rfl, rfl, rfl, rfl, fun a h => by cases h⟩ h).2
  have e : (ComPlane.make mb ri dt).data.map planeKey = [] := rfl
  rw [e] at this
  refine ⟨this, ?_, rfl⟩
  rw [← this]
  simp [ComPlane.nrPlanes]

/-- C36: `rmPlane` reports whether there was a plane with this id. -/
theorem C36_rm (s : ComPlane K) (id : ℤ) : (s.rm id).1 = true ↔ ∃ d ∈ s.data, d.planeId = id := by
  unfold ComPlane.rm
  split
  · rename_i h
    simp only [List.any_eq_true, decide_eq_true_eq] at h
    simpa using h
  · rename_i h
    simp only [List.any_eq_true, decide_eq_true_eq] at h
    simpa using h

/-- Every plane after an update: from the invariant of the loop. -/
theorem planeInv_updated {mb : MultiBody K} {a n : ℕ} {env : ComEnv K} {s s' : ComPlane K}
    (I : PlaneInv mb a n env s (nearIdx env.com s.data) s') {j : ℕ} {d₀ : PlaneData K}
    (h : s.data[j]? = some d₀) : ∃ d, s'.data[j]? = some d ∧ PlaneUpdated env d₀ d := by
  by_cases hj : j ∈ nearIdx env.com s.data
  · exact I.done j hj d₀ h
  · refine ⟨_, I.rest j hj d₀ h, rfl, rfl, rfl, rfl, rfl, rfl, rfl, rfl, rfl, ?_⟩
    have hn : ¬ near env.com d₀ = true := fun h' => hj (mem_nearIdx.mpr ⟨d₀, h, h'⟩)
    rw [if_neg hn]
    refine ⟨rfl, ?_⟩
    have hn' : ¬ d₀.normal.dot env.com + d₀.offset ≤ d₀.di := fun h => hn (decide_eq_true h)
    simp [scanned, hn']

theorem near_iff_dist {env : ComEnv K} {d₀ d : PlaneData K} (U : PlaneUpdated env d₀ d) :
    near env.com d₀ = true ↔ d.dist ≤ d.di := by
  obtain ⟨-, -, -, u4, -, -, -, -, u9, -⟩ := U
  rw [u9, u4]
  exact decide_eq_true_iff

/-- C36: in every reachable state whose rows are allocated, with distinct distances, `update` returns;
the number of rows is the number of planes at distance at most `di`, the stored planes are refreshed,
row `k` is about the `k`-th of these planes and the rows together say that for each of them the
predicted distance rate is at least minus the damper. -/
theorem C36_update {mbs : List (MultiBody K)} {mb : MultiBody K} {ri : ℕ} {dt : K}
    (hmb : mbs[ri]? = some mb) {s : ComPlane K} (hs : PlaneReach mbs mb ri dt s) {env : ComEnv K}
    (he : ComEnvOK mb env) {a : ℕ} (ha : s.alphaDBegin = some a) (hd : ∀ d ∈ s.data, d.ds ≠ d.di)
    (hr : s.data.length ≤ s.A.rows) :
    ∃ s', s.update mbs env = .ok s' ∧
      (∀ (j : ℕ) d₀, s.data[j]? = some d₀ → ∃ d, s'.data[j]? = some d ∧ PlaneUpdated env d₀ d) ∧
      s'.data.length = s.data.length ∧
      s'.inEq.nrInEq = (s'.data.filter fun d => decide (d.dist ≤ d.di)).length ∧
      (∀ (j : ℕ) d, s'.data[j]? = some d → d.dist ≤ d.di → ∀ x,
        s'.b.get (((s'.data.take j).filter fun d => decide (d.dist ≤ d.di)).length)
          - lineVal s.A.cols s'.A (((s'.data.take j).filter fun d => decide (d.dist ≤ d.di)).length) x
        = planeDamper d + planeRate mb.nrDof env s.selector a dt d x) ∧
      ∀ x, SatInEq s.A.cols s'.inEq x ↔ ∀ d ∈ s'.data, d.dist ≤ d.di →
        -planeDamper d ≤ planeRate mb.nrDof env s.selector a dt d x := by
  have W := planeReach_wf hmb hs
  obtain ⟨s', e, I⟩ := plane_update (mbs := mbs) (by rw [W.ri]; exact hmb) (W.ready he ha) hd hr
    (by rw [W.bsize]; exact hr)
  have hU : ∀ (j : ℕ) d₀, s.data[j]? = some d₀ → ∃ d, s'.data[j]? = some d ∧ PlaneUpdated env d₀ d :=
    fun j d₀ h => planeInv_updated I h
  -- counting near planes before and close planes after is the same
  have hcount : ∀ j, ((s'.data.take j).filter fun d => decide (d.dist ≤ d.di)).length
      = planeRow env.com s.data j := by
    intro j
    unfold planeRow
    induction j with
    | zero => simp
    | succ j ih =>
      rw [List.take_add_one, List.take_add_one, List.filter_append, List.filter_append,
        List.length_append, List.length_append, ih]
      congr 1
      cases h : s.data[j]? with
      | none =>
        have : s'.data[j]? = none := by
          rw [List.getElem?_eq_none_iff] at h ⊢
          rw [I.len]; exact h
        rw [this]
        rfl
      | some d₀ =>
        obtain ⟨d, h', U⟩ := hU j d₀ h
        rw [h']
        have := near_iff_dist U
        simp only [Option.toList, List.filter]
        by_cases hn : near env.com d₀ = true
        · rw [hn, decide_eq_true (this.mp hn)]
          rfl
        · rw [Bool.not_eq_true] at hn
          rw [hn, decide_eq_false (fun h => by simp [this.mpr h] at hn)]
  have hnr : s'.nrAct = (s'.data.filter fun d => decide (d.dist ≤ d.di)).length := by
    have h1 := hcount s.data.length
    rw [List.take_of_length_le (by rw [I.len])] at h1
    rw [h1, I.nrAct, nearIdx_length]
    unfold planeRow
    rw [List.take_of_length_le le_rfl]
  have hback : ∀ (j : ℕ) d, s'.data[j]? = some d → ∃ d₀, s.data[j]? = some d₀ ∧ PlaneUpdated env d₀ d := by
    intro j d h
    have hj := (List.getElem?_eq_some_iff.mp h).1
    rw [I.len] at hj
    obtain ⟨d', h', U⟩ := hU j _ (List.getElem?_eq_getElem hj)
    rw [h] at h'
    cases h'
    exact ⟨_, List.getElem?_eq_getElem hj, U⟩
  have hrow : ∀ (j : ℕ) d, s'.data[j]? = some d → d.dist ≤ d.di → ∀ x,
      slack s.A.cols s'.A s'.b (planeRow env.com s.data j) x
        = planeDamper d + planeRate mb.nrDof env s.selector a dt d x := by
    intro j d h hdd x
    obtain ⟨d₀, h0, U⟩ := hback j d h
    have := I.rows _ j (nearIdx_get env.com s.data j d₀ h0 ((near_iff_dist U).mpr hdd)) d h x
    rw [W.step] at this
    rw [W.cols]
    exact this
  refine ⟨s', e, hU, I.len, hnr, ?_, ?_⟩
  · intro j d h hdd x
    rw [hcount j]
    exact hrow j d h hdd x
  · intro x
    unfold SatInEq
    constructor
    · intro h d hmem hdd
      obtain ⟨j, hj⟩ := List.mem_iff_getElem?.mp hmem
      have h1 := hrow j d hj hdd x
      obtain ⟨d₀, h0, U⟩ := hback j d hj
      have hlt : planeRow env.com s.data j < s'.inEq.nrInEq := by
        show _ < s'.nrAct
        rw [I.nrAct]
        exact (List.getElem?_eq_some_iff.mp
          (nearIdx_get env.com s.data j d₀ h0 ((near_iff_dist U).mpr hdd))).1
      have h2 : lineVal s.A.cols s'.A (planeRow env.com s.data j) x
          ≤ s'.b.get (planeRow env.com s.data j) := h _ hlt
      unfold slack at h1
      linarith
    · intro h i hi
      have hi' : i < (nearIdx env.com s.data).length := by rw [← I.nrAct]; exact hi
      obtain ⟨j, hj⟩ : ∃ j, (nearIdx env.com s.data)[i]? = some j := ⟨_, List.getElem?_eq_getElem hi'⟩
      obtain ⟨d₀, h0, hn⟩ := mem_nearIdx.mp (List.mem_of_getElem? hj)
      obtain ⟨d, hd', U⟩ := hU j d₀ h0
      have h1 := I.rows i j hj d hd' x
      have h2 := h d (List.mem_of_getElem? hd') ((near_iff_dist U).mp hn)
      rw [W.step, ← W.cols] at h1
      unfold slack at h1
      show lineVal s.A.cols s'.A i x ≤ s'.b.get i
      linarith

/-- C36: when no plane is exactly at distance `di`, `descInEq` of a row names the plane of the row. -/
theorem C36_desc_partial {s : ComPlane K} (h : ∀ d ∈ s.data, d.dist ≠ d.di) {j : ℕ} {d : PlaneData K}
    (hj : s.data[j]? = some d) (hd : d.dist ≤ d.di) :
    s.descInEq (((s.data.take j).filter fun d => decide (d.dist ≤ d.di)).length) = some d := by
  have e : ∀ l : List (PlaneData K), (∀ d ∈ l, d.dist ≠ d.di) →
      (l.filter fun d => decide (d.dist ≤ d.di)) = l.filter fun d => decide (d.dist < d.di) := by
    intro l hl
    apply List.filter_congr
    intro d hd
    have := hl d hd
    simp only [decide_eq_decide]
    exact ⟨fun h => lt_of_le_of_ne h this, le_of_lt⟩
  unfold ComPlane.descInEq
  rw [← e s.data h]
  exact filter_getElem (fun d => decide (d.dist ≤ d.di)) s.data j d hj (by simpa using hd)

/-! ## C35 and C57 for planes -/

/-- C35, planes: in any controlled execution in which the distance to a plane evolves with the
predicted rate, a plane with fixed damping `dt * damping ≤ di - ds` from which the CoM starts at least
`ds` away stays at least `ds` away. -/
theorem C35_plane {mbs : List (MultiBody K)} {mb : MultiBody K} {ri : ℕ} {dt : K}
    (hmb : mbs[ri]? = some mb) (hdt : 0 < dt) (s : ℕ → ComPlane K) (env : ℕ → ComEnv K)
    (x : ℕ → ℕ → K) (h0 : PlaneReach mbs mb ri dt (s 0)) (he : ∀ k, ComEnvOK mb (env k)) {a : ℕ}
    (ha : (s 0).alphaDBegin = some a) (hne : ∀ d ∈ (s 0).data, d.ds ≠ d.di)
    (hr : (s 0).data.length ≤ (s 0).A.rows)
    (hu : ∀ k, (s k).update mbs (env k) = .ok (s (k + 1)))
    (hx : ∀ k, SatInEq (s 0).A.cols (s (k + 1)).inEq (x k))
    (j : ℕ) (c di ds : K) (d : ℕ → PlaneData K) (hj : ∀ k, (s k).data[j]? = some (d k))
    (hdi : (d 0).di = di) (hdsd : (d 0).ds = ds) (hdam : (d 0).damping = c) (hhard : (d 0).dtype = .hard)
    (hlt : ds < di) (hc : dt * c ≤ di - ds)
    (heuler : ∀ k, (d (k + 2)).dist = (d (k + 1)).dist
      + dt * planeRate mb.nrDof (env k) (s 0).selector a dt (d (k + 1)) (x k))
    (hfar : ∀ k, di < (d (k + 1)).dist →
      -(di - ds) ≤ dt * planeRate mb.nrDof (env k) (s 0).selector a dt (d (k + 1)) (x k))
    (hstart : ds ≤ (d 1).dist) : ∀ k, ds ≤ (d (k + 1)).dist := by
  have inv : ∀ k, PlaneReach mbs mb ri dt (s k) ∧ (s k).alphaDBegin = some a ∧
      (∀ d ∈ (s k).data, d.ds ≠ d.di) ∧ (s k).data.length ≤ (s k).A.rows ∧
      (s k).A.cols = (s 0).A.cols ∧ (s k).selector = (s 0).selector ∧ (d k).di = di ∧ (d k).ds = ds ∧
      (d k).damping = c ∧ (d k).dtype = .hard := by
    intro k
    induction k with
    | zero => exact ⟨h0, ha, hne, hr, rfl, rfl, hdi, hdsd, hdam, hhard⟩
    | succ k ih =>
      obtain ⟨i1, i2, i3, i4, i5, i6, i7, i8, i9, i10⟩ := ih
      have W := planeReach_wf hmb i1
      obtain ⟨s', e, I⟩ := plane_update (mbs := mbs) (by rw [W.ri]; exact hmb) (W.ready (he k) i2) i3 i4
        (by rw [W.bsize]; exact i4)
      rw [hu k] at e
      cases e
      have R' := PlaneReach.step _ _ (.update (env k)) i1 trivial (hu k)
      obtain ⟨d', q1, U⟩ := planeInv_updated I (hj k)
      rw [hj (k + 1)] at q1
      cases q1
      obtain ⟨-, -, -, u4, u5, -, -, -, -, u10⟩ := U
      have hD : (d (k + 1)).damping = c ∧ (d (k + 1)).dtype = .hard := by
        rw [i10] at u10
        split at u10
        · rw [if_neg (by decide)] at u10
          exact ⟨u10.2.trans i9, u10.1⟩
        · rw [if_neg (by decide)] at u10
          exact ⟨u10.1.trans i9, u10.2⟩
      have W' := planeReach_wf hmb R'
      refine ⟨R', I.ready.ha, ?_, by rw [I.len, I.arows]; exact i4, ?_, I.sel.trans i6, u4.trans i7,
        u5.trans i8, hD⟩
      · intro q hq
        obtain ⟨i, hi⟩ := List.mem_iff_getElem?.mp hq
        have hi' := (List.getElem?_eq_some_iff.mp hi).1
        rw [I.len] at hi'
        obtain ⟨q', hq', U'⟩ := planeInv_updated I (List.getElem?_eq_getElem hi')
        rw [hi] at hq'
        cases hq'
        rw [U'.2.2.2.1, U'.2.2.2.2.1]
        exact i3 _ (List.getElem_mem hi')
      · rw [I.ready.cols, ← i5, W.cols]
  intro k
  induction k with
  | zero => exact hstart
  | succ k ih =>
    obtain ⟨i1, i2, i3, i4, i5, i6, -⟩ := inv k
    obtain ⟨-, -, -, -, -, -, i7, i8, i9, -⟩ := inv (k + 1)
    obtain ⟨s', e, -, -, -, -, hsat⟩ := C36_update hmb i1 (he k) i2 i3 i4
    rw [hu k] at e
    cases e
    have hs := (hsat (x k)).mp (by rw [i5]; exact hx k) _ (List.mem_of_getElem? (hj (k + 1)))
    rw [i6, i7] at hs
    unfold planeDamper at hs
    rw [i7, i8, i9] at hs
    refine damper_step hlt hdt hc ih (heuler k) (fun h => hs h.le) (fun h => ?_)
    rcases h.lt_or_eq with h | h
    · exact hfar k h
    · have h1 := hs h.ge
      rw [← h, div_self (by linarith), mul_one] at h1
      have h2 := mul_le_mul_of_nonneg_left h1 hdt.le
      rw [mul_neg] at h2
      linarith

/-- C57, planes: the automatic damping makes a damper that admits the current distance rate (with a
nonnegative offset, outside the security distance), and admits standing still when the CoM is not
moving away from the plane faster than the offset. -/
theorem C57_plane_partial {env : ComEnv K} {d₀ d : PlaneData K} (U : PlaneUpdated env d₀ d)
    (hn : d.dist ≤ d.di) (hfree : d₀.dtype = .free) (hds : d.ds < d.di) (hoff : 0 ≤ d.off)
    (hd : d.ds < d.dist) :
    -planeDamper d ≤ d.normal.dot (env.vel - d.speed) ∧
      (d.normal.dot (env.vel - d.speed) ≤ 0 → -planeDamper d ≤ 0) := by
  obtain ⟨-, -, -, -, -, -, -, -, -, u⟩ := id U
  rw [if_pos ((near_iff_dist U).mpr hn), if_pos hfree, if_neg (not_le.mpr hd)] at u
  have h1 : 0 < d.di - d.ds := by linarith
  have h2 : 0 < d.dist - d.ds := by linarith
  set v := d.normal.dot (env.vel - d.speed) with hv
  have e : planeDamper d = -v + d.off * ((d.dist - d.ds) / (d.di - d.ds)) := by
    unfold planeDamper
    rw [u.2]
    field_simp
  have h3 : 0 ≤ d.off * ((d.dist - d.ds) / (d.di - d.ds)) :=
    mul_nonneg hoff (div_nonneg h2.le h1.le)
  rw [e]
  exact ⟨by linarith, fun h => by linarith⟩

end

/-! ## Concrete cases and counterexamples -/

namespace PlaneEx

open Spec

/-- A robot with one slider along the x axis. -/
def mb1 : MultiBody ℚ := ⟨[⟨"slide", 1, none⟩], 1, [-1], [0]⟩

/-- CoM at `p` moving at `v` along x. -/
def comAt (p v : ℚ) : ComEnv ℚ :=
  ⟨⟨p, 0, 0⟩, ⟨3, 1, fun i _ => if i = 0 then 1 else 0⟩, ⟨v, 0, 0⟩, 0⟩

theorem comAt_ok (p v : ℚ) : ComEnvOK mb1 (comAt p v) := ⟨rfl, rfl⟩

/-- Plane `x + off = 0`, interaction distance 2, security distance 1/2. -/
def plane (id : ℤ) (off damping dist : ℚ) : PlaneData ℚ :=
  ⟨⟨1, 0, 0⟩, 0, off, dist, 2, 1 / 2, damping, id, if 0 < damping then .hard else .free, 0, 0⟩

def solverData : SolverData ℚ := { (SolverData.init : SolverData ℚ) with
  alphaD := [1], alphaDBegin := [0], totalAlphaD := 1, nrVars := 1 }

/-- The constraint with the given planes (id, offset, damping), allocated. -/
def withPlanes (l : List (ℤ × ℚ × ℚ)) : ComPlane ℚ :=
  ⟨0, some 0, l.map fun q => plane q.1 q.2.1 q.2.2 0, 1, 1, 0, ⟨1, fun _ => 1⟩,
    Mat.zero l.length 1, ⟨l.length, fun _ => 0⟩⟩

theorem withPlanes_reach (l : List (ℤ × ℚ × ℚ)) : PlaneReach [mb1] mb1 0 (1 : ℚ) (withPlanes l) := by
  have key : ∀ l : List (ℤ × ℚ × ℚ), PlaneReach [mb1] mb1 0 (1 : ℚ)
      { (ComPlane.make mb1 0 1) with data := l.map fun q => plane q.1 q.2.1 q.2.2 0 } := by
    intro l
    induction l using List.reverseRecOn with
    | nil => exact .make
    | append_singleton l q ih =>
      refine .step _ _ (.add q.1 ⟨1, 0, 0⟩ q.2.1 2 (1 / 2) q.2.2 0 0 0) ih trivial ?_
      simp [PlaneOp.run, ComPlane.add, plane]
  refine .step _ _ (.updateNrVars solverData) (key l) ?_ ?_
  · intro a h
    simp [solverData] at h
    subst h
    decide
  · simp [PlaneOp.run, ComPlane.updateNrVars, ComPlane.make, vecAt, solverData, withPlanes,
      ComPlane.updateNrPlanes, mb1, MultiBody.nrDof]

theorem one_plane (da p v : ℚ) (hp : p ≤ 2) :
    ∃ s' d, (withPlanes [(7, 0, da)]).update [mb1] (comAt p v) = .ok s' ∧ s'.inEq.nrInEq = 1 ∧
      s'.data = [d] ∧ d.dist = p ∧ PlaneUpdated (comAt p v) (plane 7 0 da 0) d ∧
      ∀ x, SatInEq 1 s'.inEq x ↔ -(d.damping * ((p - 1 / 2) / (2 - 1 / 2))) ≤ v + x 0 := by
  obtain ⟨s', e, hU, hl, hn, _, hx⟩ := C36_update (mb := mb1) rfl
    (withPlanes_reach [(7, 0, da)]) (comAt_ok p v) (a := 0) rfl
    (by intro d hd; simp [withPlanes, plane] at hd; subst hd; norm_num) le_rfl
  obtain ⟨d, hd, U⟩ := hU 0 _ rfl
  obtain ⟨u1, u2, u3, u4, u5, u6, u7, u8, u9, u10⟩ := id U
  have hdata : s'.data = [d] := by
    cases h : s'.data with
    | nil => rw [h] at hd; simp at hd
    | cons a t => rw [h] at hl hd; simp [withPlanes] at hl hd; rw [hl, hd]
  have hdist : d.dist = p := by rw [u9]; simp [plane, comAt, V3.dot]
  have hdi : d.di = 2 := u4
  have hds : d.ds = 1 / 2 := u5
  refine ⟨s', d, e, ?_, hdata, hdist, U, fun x => ?_⟩
  · rw [hn, hdata]; simp [hdist, hdi, hp]
  · have : SatInEq 1 s'.inEq x ↔ _ := hx x
    rw [this, hdata]
    have hr : planeRate mb1.nrDof (comAt p v) (withPlanes [(7, 0, da)]).selector 0 1 d x = v + x 0 := by
      unfold planeRate
      rw [u1, u2, u8]
      simp [plane, comAt, V3.dot, comAcc, withPlanes, mb1, MultiBody.nrDof]
    simp only [List.mem_singleton, forall_eq]
    rw [hr, hdist, hdi]
    unfold planeDamper
    rw [hdist, hdi, hds]
    exact ⟨fun h => h hp, fun h _ => h⟩

/-- The hypotheses of `C36_update` are met: CoM at rest at 1 from the plane `x = 0`; the row is
`-1/2 ≤ x₀`. -/
example : ∃ s', (withPlanes [(7, 0, 3 / 2)]).update [mb1] (comAt 1 0) = .ok s' ∧ s'.inEq.nrInEq = 1 ∧
    ∀ x, SatInEq 1 s'.inEq x ↔ -(1 / 2) ≤ x 0 := by
  obtain ⟨s', d, e, hn, _, _, ⟨_, _, _, _, _, _, _, _, _, u10⟩, hx⟩ := one_plane (3 / 2) 1 0 (by norm_num)
  rw [if_pos (by simp [near, plane, comAt, V3.dot]), if_neg (by simp [plane])] at u10
  have hda : d.damping = 3 / 2 := u10.2
  refine ⟨s', e, hn, fun x => ?_⟩
  rw [hx, hda]
  norm_num

/-- C36 fails for the descriptions of planes exactly at the interaction distance: with the CoM at
distance 2 of plane 7 and 1 of plane 8 there are two rows, row 0 about plane 7, but `descInEq` says row
0 is about plane 8 and knows nothing about row 1. -/
theorem C36_desc_counterexample : ∃ s s' : ComPlane ℚ, PlaneReach [mb1] mb1 0 (1 : ℚ) s ∧
    s.update [mb1] (comAt 2 0) = .ok s' ∧ s'.inEq.nrInEq = 2 ∧ s'.data.map (·.planeId) = [7, 8] ∧
    (s'.descInEq 0).map (·.planeId) = some 8 ∧ s'.descInEq 1 = none := by
  obtain ⟨s', e, hU, hl, hn, _, hx⟩ := C36_update (mb := mb1) rfl
    (withPlanes_reach [(7, 0, 3 / 2), (8, -1, 3 / 2)]) (comAt_ok 2 0) (a := 0) rfl
    (by intro d hd; simp [withPlanes, plane] at hd; rcases hd with rfl | rfl <;> norm_num) le_rfl
  obtain ⟨d, hd, -, -, -, u4, -, u6, -, -, u9, -⟩ := hU 0 _ rfl
  obtain ⟨d', hd', -, -, -, w4, -, w6, -, -, w9, -⟩ := hU 1 _ rfl
  have hlen : s'.data.length = 2 := hl.trans rfl
  have hdata : s'.data = [d, d'] := by
    obtain ⟨a, b, h⟩ := List.length_eq_two.mp hlen
    rw [h] at hd hd'
    simp at hd hd'
    rw [h, hd, hd']
  have h1 : d.dist = 2 := by rw [u9]; simp [plane, comAt, V3.dot]
  have h2 : d'.dist = 1 := by rw [w9]; simp [plane, comAt, V3.dot]; norm_num
  have h3 : d.di = 2 := u4
  have h4 : d'.di = 2 := w4
  have h5 : d.planeId = 7 := u6
  have h6 : d'.planeId = 8 := w6
  have hf : (s'.data.filter fun d => decide (d.dist < d.di)) = [d'] := by
    rw [hdata]; simp [h1, h2, h3, h4]
  refine ⟨_, s', withPlanes_reach _, e, ?_, by rw [hdata]; simp [h5, h6], ?_, ?_⟩
  · rw [hn, hdata]; simp [h1, h2, h3, h4]
  · unfold ComPlane.descInEq; rw [hf]; simp [h6]
  · unfold ComPlane.descInEq; rw [hf]; rfl

/-- C57 fails for planes when the CoM is moving away from the plane: at distance 1 of the plane and
moving away at speed 1, the automatic damping forbids any deceleration. -/
theorem C57_plane_counterexample : ∃ s s' : ComPlane ℚ, PlaneReach [mb1] mb1 0 (1 : ℚ) s ∧
    s.update [mb1] (comAt 1 1) = .ok s' ∧ ∀ x, SatInEq 1 s'.inEq x ↔ 0 ≤ x 0 := by
  obtain ⟨s', d, e, _, _, hdist, ⟨u1, _, _, u4, u5, _, u7, u8, _, u10⟩, hx⟩ := one_plane 0 1 1
    (by norm_num)
  rw [if_pos (by simp [near, plane, comAt, V3.dot]), if_pos (by simp [plane])] at u10
  have hda : d.damping = -3 := by
    rw [u10.2, u1, u4, u5, u7, u8, hdist]
    simp [plane, comAt, V3.dot]
    norm_num
  refine ⟨_, s', withPlanes_reach _, e, fun x => ?_⟩
  rw [hx, hda]
  norm_num

/-- The hypotheses of `C57_plane_partial` are met: approaching at speed 1 at distance 1. -/
example : ∃ s' d, (withPlanes [(7, 0, 0)]).update [mb1] (comAt 1 (-1)) = .ok s' ∧ s'.data = [d] ∧
    -planeDamper d ≤ d.normal.dot ((comAt 1 (-1)).vel - d.speed) ∧ -planeDamper d ≤ 0 := by
  obtain ⟨s', d, e, _, hdata, hdist, U, _⟩ := one_plane 0 1 (-1) (by norm_num)
  obtain ⟨u1, _, _, u4, u5, _, u7, u8, _, u10⟩ := id U
  obtain ⟨h1, h2⟩ := C57_plane_partial U (by rw [hdist, u4]; simp [plane]) (by simp [plane])
    (by rw [u4, u5]; simp [plane]; norm_num) (by rw [u7]; simp [plane])
    (by rw [hdist, u5]; simp [plane]; norm_num)
  refine ⟨s', d, e, hdata, h1, h2 ?_⟩
  rw [u1, u8]
  simp [plane, comAt, V3.dot]

/-- The hypotheses of `C35_plane` are met by an execution in which the excess of the distance over the
security distance halves at every step. -/
example : ∃ (s : ℕ → ComPlane ℚ) (d : ℕ → PlaneData ℚ),
    (∀ k, (s k).update [mb1] (comAt (1 / 2 + (1 / 2) ^ k) 0) = .ok (s (k + 1))) ∧
    (∀ k, (d (k + 1)).dist = 1 / 2 + (1 / 2) ^ k) ∧ ∀ k, (1 / 2 : ℚ) ≤ (d (k + 1)).dist := by
  have hhalf : ∀ k : ℕ, 0 < ((1 : ℚ) / 2) ^ k ∧ ((1 : ℚ) / 2) ^ k ≤ 1 := fun k =>
    ⟨by positivity, pow_le_one₀ (by norm_num) (by norm_num)⟩
  let sel : Vec ℚ := ⟨1, fun _ => 1⟩
  obtain ⟨f, hf0, hf⟩ := CollEx.exists_run (σ := ComPlane ℚ × PlaneData ℚ)
    (fun _ a => PlaneReach [mb1] mb1 0 (1 : ℚ) a.1 ∧ a.1.data = [a.2] ∧ a.1.A.rows = 1 ∧
      a.1.A.cols = 1 ∧ a.1.alphaDBegin = some 0 ∧ a.1.selector = sel ∧
      a.2.di = 2 ∧ a.2.ds = 1 / 2 ∧ a.2.damping = 3 / 2 ∧ a.2.dtype = .hard ∧ a.2.offset = 0 ∧
      a.2.normal = ⟨1, 0, 0⟩ ∧ a.2.normalDot = 0 ∧ a.2.speed = 0)
    (fun k a b => a.1.update [mb1] (comAt (1 / 2 + (1 / 2) ^ k) 0) = .ok b.1 ∧
      b.2.dist = 1 / 2 + (1 / 2) ^ k ∧
      (∀ x, planeRate mb1.nrDof (comAt (1 / 2 + (1 / 2) ^ k) 0) sel 0 1 b.2 x = x 0) ∧
      ∀ x, SatInEq 1 b.1.inEq x ↔ -(1 / 2) ^ k ≤ x 0)
    (withPlanes [(7, 0, 3 / 2)], plane 7 0 (3 / 2) 0)
    ⟨withPlanes_reach _, rfl, rfl, rfl, rfl, rfl, rfl, rfl, rfl, if_pos (by norm_num), rfl, rfl, rfl,
      rfl⟩
    (by
      rintro k ⟨a, d₀⟩ ⟨r1, r2, r3, r4, r5, r6, r7, r8, r9, r10, r11, r12, r13, r14⟩
      dsimp only at r1 r2 r3 r4 r5 r6 r7 r8 r9 r10 r11 r12 r13 r14
      obtain ⟨s', e, hU, hl, hn, _, hx⟩ := C36_update (mb := mb1) rfl r1
        (comAt_ok (1 / 2 + (1 / 2) ^ k) 0) r5
        (by intro d hd; rw [r2, List.mem_singleton] at hd; subst hd; rw [r7, r8]; norm_num)
        (by rw [r2, r3]; rfl)
      obtain ⟨_, _, ea, eb, _, ed, ee⟩ := planeUpdate_wf (mb := mb1) rfl (planeReach_wf rfl r1) e
      have W' := planeReach_wf (mb := mb1) rfl (PlaneReach.step _ _ (.update _) r1 trivial e)
      obtain ⟨d, hd, u1, u2, u3, u4, u5, u6, u7, u8, u9, u10⟩ := hU 0 d₀ (by rw [r2]; rfl)
      have hdist : d.dist = 1 / 2 + (1 / 2) ^ k := by rw [u9, r11, r12]; simp [comAt, V3.dot]
      have hnear : near (comAt (1 / 2 + (1 / 2) ^ k) 0).com d₀ = true := by
        unfold near
        rw [r11, r12, r7]
        apply decide_eq_true
        have : (⟨1, 0, 0⟩ : V3 ℚ).dot (comAt (1 / 2 + (1 / 2) ^ k) 0).com = 1 / 2 + (1 / 2) ^ k := by
          simp [comAt, V3.dot]
        rw [this]
        linarith [hhalf k]
      rw [if_pos hnear, if_neg (by rw [r10]; decide)] at u10
      have hdata : s'.data = [d] := by
        cases h : s'.data with
        | nil => rw [h] at hd; simp at hd
        | cons a t => rw [h, r2] at hl; rw [h] at hd; simp at hl hd; rw [hl, hd]
      have hrate : ∀ x, planeRate mb1.nrDof (comAt (1 / 2 + (1 / 2) ^ k) 0) sel 0 1 d x = x 0 := by
        intro x
        unfold planeRate
        rw [u1, u2, u8, r12, r13, r14]
        simp [comAt, V3.dot, comAcc, mb1, MultiBody.nrDof, sel]
      have hcols : s'.A.cols = a.A.cols := by
        obtain ⟨s'', e'', I⟩ := plane_update (mbs := [mb1]) (mb := mb1)
          (by rw [(planeReach_wf (mb := mb1) rfl r1).ri]; rfl)
          ((planeReach_wf (mb := mb1) rfl r1).ready (comAt_ok (1 / 2 + (1 / 2) ^ k) 0) r5)
          (by intro d hd; rw [r2, List.mem_singleton] at hd; subst hd; rw [r7, r8]; norm_num)
          (by rw [r2, r3]; rfl)
          (by rw [(planeReach_wf (mb := mb1) rfl r1).bsize, r2, r3]; rfl)
        rw [e] at e''
        cases e''
        rw [I.ready.cols, (planeReach_wf (mb := mb1) rfl r1).cols]
      refine ⟨(s', d), ⟨e, hdist, hrate, fun x => ?_⟩, .step _ _ (.update _) r1 trivial e, hdata,
        ea.trans r3, hcols.trans r4, ee.trans r5, ed.trans r6, u4.trans r7, u5.trans r8,
        u10.2.trans r9, u10.1.trans r10, u3.trans r11, u1.trans r12, u2.trans r13, u8.trans r14⟩
      have := hx x
      rw [r4, hdata, r6] at this
      simp only [List.mem_singleton, forall_eq] at this
      dsimp only
      rw [this, hrate, hdist, u4, r7]
      unfold planeDamper
      rw [hdist, u4, u5, u10.2, r7, r8, r9]
      have hq : (3 / 2 : ℚ) * ((1 / 2 + (1 / 2) ^ k - 1 / 2) / (2 - 1 / 2)) = (1 / 2) ^ k := by ring
      rw [hq]
      exact ⟨fun h => h (by linarith [hhalf k]), fun h _ => h⟩)
  refine ⟨fun k => (f k).1, fun k => (f k).2, fun k => (hf k).2.1, fun k => (hf k).2.2.1, ?_⟩
  obtain ⟨r1, r2, r3, r4, r5, r6, r7, r8, r9, r10, -⟩ := (hf 0).1
  refine C35_plane (mb := mb1) (mbs := [mb1]) (ri := 0) rfl one_pos (fun k => (f k).1)
    (fun k => comAt (1 / 2 + (1 / 2) ^ k) 0) (fun k _ => -((1 / 2) ^ k / 2)) r1
    (fun k => comAt_ok _ _) r5
    (by intro d hd; rw [r2, List.mem_singleton] at hd; subst hd; rw [r7, r8]; norm_num)
    (by rw [r2, r3]; rfl) (fun k => (hf k).2.1) ?_ 0 (3 / 2) 2 (1 / 2) (fun k => (f k).2)
    (fun k => by rw [(hf k).1.2.1]; rfl) r7 r8 r9 r10 (by norm_num) (by norm_num) ?_ ?_ ?_
  · intro k
    rw [r4, (hf k).2.2.2.2]
    linarith [hhalf k]
  · intro k
    rw [(hf k).2.2.1, (hf (k + 1)).2.2.1, r6, (hf k).2.2.2.1, pow_succ]
    ring
  · intro k h
    rw [(hf k).2.2.1] at h
    linarith [hhalf k]
  · rw [(hf 0).2.2.1]
    linarith [hhalf 0]

end PlaneEx

end Verif
