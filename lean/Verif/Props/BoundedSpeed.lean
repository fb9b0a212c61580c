import Verif.Proofs.BoundedSpeed
import Verif.Props.Layout

/-!
# C38: bounded speed constraint
-/

set_option autoImplicit false
set_option linter.unusedSectionVars false

namespace Verif

open Finset Spec

section
variable {K : Type} [Field K] [LinearOrder K] [IsStrictOrderedRing K]

namespace Spec

/-- Executions of a `BoundedSpeedConstr` of robot `r` with time step `dt`: construction, then any
sequence of calls.  Indices: whether the matrices have been reallocated (`updateNrVars` or
`updateBoundedSpeeds`) since the entries last changed, the layout of the last `updateNrVars`. -/
inductive SpeedRun (mbs : List (MultiBody K)) (rk : RobotKin K) (r : ℕ) (dt : K) :
    Bool → Option (SolverData K) → BoundedSpeed K → Prop
  | make (junk : ℕ → ℕ → K) (s : BoundedSpeed K) : BoundedSpeed.make mbs r dt junk = .ok s →
      SpeedRun mbs rk r dt false none s
  | add (f : Bool) (d : Option (SolverData K)) (s s' : BoundedSpeed K) (name : String) (p : V3 K)
      (dof : Mat K) (l u : Vec (Ext K)) : SpeedRun mbs rk r dt f d s →
      s.add rk name p dof l u = .ok s' → SpeedRun mbs rk r dt false d s'
  | remove (f : Bool) (d : Option (SolverData K)) (s : BoundedSpeed K) (name : String) :
      SpeedRun mbs rk r dt f d s → SpeedRun mbs rk r dt false d (s.remove name).2
  | reset (f : Bool) (d : Option (SolverData K)) (s : BoundedSpeed K) :
      SpeedRun mbs rk r dt f d s → SpeedRun mbs rk r dt false d s.reset
  | nrVars (f : Bool) (d : Option (SolverData K)) (s s' : BoundedSpeed K) (old d' : SolverData K)
      (uni : List (UniContact K)) (bi : List (BiContact K)) (deps : List (Dep K)) :
      SpeedRun mbs rk r dt f d s → GoodInput mbs bi → layout old mbs uni bi = .ok (d', deps) →
      s.updateNrVars d' = .ok s' → SpeedRun mbs rk r dt true (some d') s'
  | realloc (f : Bool) (d : SolverData K) (s : BoundedSpeed K) : SpeedRun mbs rk r dt f (some d) s →
      SpeedRun mbs rk r dt true (some d) s.updateNrEq
  | update (f : Bool) (d : Option (SolverData K)) (s s' : BoundedSpeed K)
      (kin : String → V3 K → BodyKin6 K) : SpeedRun mbs rk r dt f d s →
      s.update mbs kin = .ok s' → SpeedRun mbs rk r dt f d s'

end Spec

/-- What every call keeps. -/
structure SpeedFrame (mb : MultiBody K) (s s' : BoundedSpeed K) : Prop where
  idx : s'.robotIndex = s.robotIndex
  begin : s'.alphaDBegin = s.alphaDBegin
  cont : s'.cont = s.cont
  nrVars : s'.nrVars = s.nrVars
  step : s'.step = s.step
  fjr : s'.fullJac.rows = s.fullJac.rows
  fjc : s'.fullJac.cols = s.fullJac.cols
  rows : s'.A.rows = s.A.rows
  cols : s'.A.cols = s.A.cols
  lo : s'.lower.size = s.lower.size
  up : s'.upper.size = s.upper.size
  zero : ∀ a, s.alphaDBegin = some a → (∀ i c, ¬ (a ≤ c ∧ c < a + mb.nrDof) → s.A.get i c = 0) →
    ∀ i c, ¬ (a ≤ c ∧ c < a + mb.nrDof) → s'.A.get i c = 0

theorem SpeedFrame.refl (mb : MultiBody K) (s : BoundedSpeed K) : SpeedFrame mb s s :=
  ⟨rfl, rfl, rfl, rfl, rfl, rfl, rfl, rfl, rfl, rfl, rfl, fun _ _ h => h⟩

theorem SpeedFrame.trans {mb : MultiBody K} {s s' s'' : BoundedSpeed K} (h : SpeedFrame mb s s')
    (h' : SpeedFrame mb s' s'') : SpeedFrame mb s s'' :=
  ⟨h'.idx.trans h.idx, h'.begin.trans h.begin, h'.cont.trans h.cont, h'.nrVars.trans h.nrVars,
    h'.step.trans h.step, h'.fjr.trans h.fjr, h'.fjc.trans h.fjc, h'.rows.trans h.rows,
    h'.cols.trans h.cols, h'.lo.trans h.lo, h'.up.trans h.up,
    fun a ha hz => h'.zero a (h.begin.trans ha) (h.zero a ha hz)⟩

theorem setBlock_dims {A B : Mat K} {i j : ℕ} {M : Mat K} (h : A.setBlock i j M = .ok B) :
    B.rows = A.rows ∧ B.cols = A.cols := by
  unfold Mat.setBlock at h
  split at h
  · cases h; exact ⟨rfl, rfl⟩
  · cases h

theorem setSegment_size {α : Type} {v w : Vec α} {b : ℕ} {u : Vec α} (h : v.setSegment b u = .ok w) :
    w.size = v.size := by
  unfold Vec.setSegment at h
  split at h
  · cases h; rfl
  · cases h

theorem fullJacobian_dims {mb : MultiBody K} {path : List ℕ} {jac res R : Mat K}
    (h : fullJacobian mb path jac res = .ok R) : R.rows = res.rows ∧ R.cols = res.cols := by
  unfold fullJacobian at h
  obtain ⟨r0, h0, h⟩ := Out.bind_eq_ok.mp h
  obtain ⟨s, hs, h⟩ := Out.bind_eq_ok.mp h
  cases h
  have key : ∀ (l : List ℕ) (s0 s1 : Mat K × ℕ), forEach l (fun i (s : Mat K × ℕ) => do
      let j ← vecAt mb.joints i
      let p ← mb.jointPosInDof i
      let b ← jac.block 0 s.2 jac.rows j.dof
      let r ← s.1.setBlock 0 p b
      pure (r, s.2 + j.dof)) s0 = .ok s1 → s1.1.rows = s0.1.rows ∧ s1.1.cols = s0.1.cols := by
    intro l
    induction l with
    | nil => intro s0 s1 h; cases h; exact ⟨rfl, rfl⟩
    | cons i t ih =>
      intro s0 s1 h
      obtain ⟨s2, h2, h3⟩ := Out.bind_eq_ok.mp h
      obtain ⟨j, -, h2⟩ := Out.bind_eq_ok.mp h2
      obtain ⟨p, -, h2⟩ := Out.bind_eq_ok.mp h2
      obtain ⟨b, -, h2⟩ := Out.bind_eq_ok.mp h2
      obtain ⟨R, hR, h2⟩ := Out.bind_eq_ok.mp h2
      cases h2
      have h4 := ih _ _ h3
      have h5 := setBlock_dims hR
      exact ⟨h4.1.trans h5.1, h4.2.trans h5.2⟩
  have h1 := key _ _ _ hs
  have h2 := setBlock_dims h0
  exact ⟨h1.1.trans h2.1, h1.2.trans h2.2⟩

theorem speedStep_frame {mb : MultiBody K} {kin : String → V3 K → BodyKin6 K} {c : SpeedData K}
    {t t' : BoundedSpeed K × ℕ} (h : speedStep mb kin c t = .ok t') : SpeedFrame mb t.1 t'.1 := by
  unfold speedStep at h
  dsimp only at h
  obtain ⟨J, hJ, h⟩ := Out.bind_eq_ok.mp h
  obtain ⟨P, hP, h⟩ := Out.bind_eq_ok.mp h
  obtain ⟨a, ha, h⟩ := Out.bind_eq_ok.mp h
  obtain ⟨_, hg, h⟩ := Out.bind_eq_ok.mp h
  obtain ⟨A, hA, h⟩ := Out.bind_eq_ok.mp h
  obtain ⟨_, -, h⟩ := Out.bind_eq_ok.mp h
  obtain ⟨v, -, h⟩ := Out.bind_eq_ok.mp h
  obtain ⟨_, -, h⟩ := Out.bind_eq_ok.mp h
  obtain ⟨_, -, h⟩ := Out.bind_eq_ok.mp h
  obtain ⟨lo, hlo, h⟩ := Out.bind_eq_ok.mp h
  obtain ⟨up, hup, h⟩ := Out.bind_eq_ok.mp h
  cases h
  have hd := fullJacobian_dims hJ
  have hAd := setBlock_dims hA
  refine ⟨rfl, rfl, rfl, rfl, rfl, hd.1, hd.2, hAd.1, hAd.2, setSegment_size hlo, setSegment_size hup, ?_⟩
  intro a' ha' hz i c hc
  rw [ha'] at ha
  cases ha
  have hw := guardUB_eq_ok hg
  unfold Mat.setBlock at hA
  split at hA
  · cases hA
    dsimp only
    rw [if_neg (by rw [hw]; tauto)]
    exact hz i c hc
  · cases hA

theorem speedLoop_frame {mb : MultiBody K} {kin : String → V3 K → BodyKin6 K} (l : List (SpeedData K))
    {t t' : BoundedSpeed K × ℕ} (h : forEach l (speedStep mb kin) t = .ok t') : SpeedFrame mb t.1 t'.1 := by
  induction l generalizing t with
  | nil => cases h; exact SpeedFrame.refl _ _
  | cons c l ih =>
    obtain ⟨t1, h1, h2⟩ := Out.bind_eq_ok.mp h
    exact (speedStep_frame h1).trans (ih h2)

theorem speedUpdate_frame {mbs : List (MultiBody K)} {mb : MultiBody K}
    {kin : String → V3 K → BodyKin6 K} {s s' : BoundedSpeed K} (hmb : mbs[s.robotIndex]? = some mb)
    (h : s.update mbs kin = .ok s') : SpeedFrame mb s s' := by
  unfold BoundedSpeed.update at h
  rw [vecAt_eq_ok.mpr hmb, Out.ok_bind] at h
  obtain ⟨t, h1, h2⟩ := Out.bind_eq_ok.mp h
  cases h2
  exact speedLoop_frame _ h1

/-- What holds at every point of an execution. -/
theorem speedRun_inv {mbs : List (MultiBody K)} {rk : RobotKin K} {r : ℕ} {dt : K} {mb : MultiBody K}
    (hmb : mbs[r]? = some mb) {f : Bool} {d : Option (SolverData K)} {s : BoundedSpeed K}
    (h : SpeedRun mbs rk r dt f d s) :
    s.robotIndex = r ∧ s.step = dt ∧ s.fullJac.rows = 6 ∧ s.fullJac.cols = mb.nrDof ∧
    (∀ d₀, d = some d₀ → ∃ a, d₀.alphaDBegin[r]? = some a ∧ s.alphaDBegin = some a ∧
      a + mb.nrDof ≤ d₀.nrVars ∧ s.nrVars = d₀.nrVars ∧
      (f = true → dt ≠ 0 → SpeedReady mb d₀.nrVars a (rowSum s.cont) s)) := by
  have realloc : ∀ (d₀ : SolverData K) (a : ℕ) (s : BoundedSpeed K), s.fullJac.rows = 6 → s.fullJac.cols = mb.nrDof →
      a + mb.nrDof ≤ d₀.nrVars → s.alphaDBegin = some a → s.nrVars = d₀.nrVars → s.step ≠ 0 →
      SpeedReady mb d₀.nrVars a (rowSum s.cont) s.updateNrEq := by
    intro d₀ a s h1 h2 h3 h4 h5 h6
    exact ⟨h4, h3, rfl, h5, rfl, rfl, h1, h2, h6, fun _ _ _ => rfl⟩
  induction h with
  | make junk s h =>
    unfold BoundedSpeed.make at h
    rw [vecAt_eq_ok.mpr hmb, Out.ok_bind] at h
    cases h
    exact ⟨rfl, rfl, rfl, rfl, fun _ h => by cases h⟩
  | add f d s s' name p dof l u _ h ih =>
    obtain ⟨h1, h2, h3, h4, h5⟩ := ih
    unfold BoundedSpeed.add at h
    obtain ⟨path, -, h⟩ := Out.bind_eq_ok.mp h
    split at h
    · cases h
    · cases h
      refine ⟨h1, h2, h3, h4, fun d₀ hd => ?_⟩
      obtain ⟨a, k1, k2, k3, k4, -⟩ := h5 d₀ hd
      exact ⟨a, k1, k2, k3, k4, fun h => by cases h⟩
  | remove f d s name _ ih =>
    obtain ⟨h1, h2, h3, h4, h5⟩ := ih
    unfold BoundedSpeed.remove
    split
    · refine ⟨h1, h2, h3, h4, fun d₀ hd => ?_⟩
      obtain ⟨a, k1, k2, k3, k4, -⟩ := h5 d₀ hd
      exact ⟨a, k1, k2, k3, k4, fun h => by cases h⟩
    · refine ⟨h1, h2, h3, h4, fun d₀ hd => ?_⟩
      obtain ⟨a, k1, k2, k3, k4, -⟩ := h5 d₀ hd
      exact ⟨a, k1, k2, k3, k4, fun h => by cases h⟩
  | reset f d s _ ih =>
    obtain ⟨h1, h2, h3, h4, h5⟩ := ih
    refine ⟨h1, h2, h3, h4, fun d₀ hd => ?_⟩
    obtain ⟨a, k1, k2, k3, k4, -⟩ := h5 d₀ hd
    exact ⟨a, k1, k2, k3, k4, fun h => by cases h⟩
  | nrVars f d s s' old d' uni bi deps _ hg hl h ih =>
    obtain ⟨h1, h2, h3, h4, h5⟩ := ih
    unfold BoundedSpeed.updateNrVars at h
    obtain ⟨a, ha, h⟩ := Out.bind_eq_ok.mp h
    cases h
    obtain ⟨d'', deps'', e, L⟩ := layout_ok old mbs uni bi hg.1 hg.2
    rw [hl] at e
    cases e
    rw [h1] at ha
    have ha' := vecAt_eq_ok.mp ha
    obtain ⟨hr, hmb'⟩ := List.getElem?_eq_some_iff.mp hmb
    have hfit : a + mb.nrDof ≤ d'.nrVars := by
      rw [L.alphaDBegin] at ha'
      obtain ⟨hlt, hval⟩ := List.getElem?_eq_some_iff.mp ha'
      rw [getElem_starts] at hval
      rw [L.nrVars, L.totalAlphaD, ← hval]
      have h2 : ((mbs.map MultiBody.nrDof).take (r + 1)).sum
          = ((mbs.map MultiBody.nrDof).take r).sum + mb.nrDof := by
        rw [List.take_succ, List.getElem?_map, hmb]; simp
      have h3 := congrArg List.sum (List.take_append_drop (r + 1) (mbs.map MultiBody.nrDof))
      rw [List.sum_append] at h3
      omega
    refine ⟨h1, h2, h3, h4, fun d₀ hd => ?_⟩
    cases hd
    exact ⟨a, ha', rfl, hfit, rfl, fun _ hdt => realloc d' a _ h3 h4 hfit rfl rfl (by
      rw [h2]; exact hdt)⟩
  | realloc f d s _ ih =>
    obtain ⟨h1, h2, h3, h4, h5⟩ := ih
    refine ⟨h1, h2, h3, h4, fun d₀ hd => ?_⟩
    obtain ⟨a, k1, k2, k3, k4, -⟩ := h5 d₀ hd
    exact ⟨a, k1, k2, k3, k4, fun _ hdt => realloc d₀ a s h3 h4 k3 k2 k4 (by rw [h2]; exact hdt)⟩
  | update f d s s' kin _ h ih =>
    obtain ⟨h1, h2, h3, h4, h5⟩ := ih
    have F := speedUpdate_frame (by rw [h1]; exact hmb) h
    refine ⟨F.idx.trans h1, F.step.trans h2, F.fjr.trans h3, F.fjc.trans h4, fun d₀ hd => ?_⟩
    obtain ⟨a, k1, k2, k3, k4, k5⟩ := h5 d₀ hd
    refine ⟨a, k1, F.begin.trans k2, k3, F.nrVars.trans k4, fun hf hdt => ?_⟩
    have R := k5 hf hdt
    rw [F.cont]
    exact ⟨F.begin.trans k2, k3, F.rows.trans R.rows, F.cols.trans R.cols, F.lo.trans R.lo,
      F.up.trans R.up, F.fjr.trans h3, F.fjc.trans h4, by rw [F.step]; exact R.step, F.zero a k2 R.zero⟩

/-- **C38** (rows): at any point of an execution at which the matrices have been reallocated since the
entries last changed, `update` succeeds and `x` satisfies the rows exactly when the selected velocity
components of every registered body after one time step, `dof (v + dt (J α̇ + Ψ))`, are within its
bounds.  The entries need matching sizes: `dof` with 6 columns, bounds with as many entries as `dof` has
rows. There are as many rows as the `dof` matrices have in total. -/
theorem C38_rows (mbs : List (MultiBody K)) (rk : RobotKin K) (r : ℕ) (dt : K) (mb : MultiBody K)
    (hmb : mbs[r]? = some mb) (hdt : 0 < dt) (d : SolverData K) (s : BoundedSpeed K)
    (h : SpeedRun mbs rk r dt true (some d) s) (kin : String → V3 K → BodyKin6 K)
    (hc : ∀ c ∈ s.cont, SpeedShaped mb c) (hk : ∀ c ∈ s.cont, KinShaped mb kin c) :
    ∃ s' a, s.update mbs kin = .ok s' ∧ s'.cont = s.cont ∧ d.alphaDBegin[r]? = some a ∧
      s'.gen.nrGen = (s.cont.map fun c => c.dof.rows).sum ∧ s'.gen.maxGen = s'.gen.nrGen ∧
      s'.A.rows = s'.gen.nrGen ∧ s'.A.cols = d.nrVars ∧ s'.lower.size = s'.gen.nrGen ∧
      s'.upper.size = s'.gen.nrGen ∧
      ∀ x, SatGen d.nrVars s'.gen x ↔ ∀ c ∈ s.cont, SpeedOK mb kin dt a x c := by
  obtain ⟨h1, h2, h3, h4, h5⟩ := speedRun_inv hmb h
  obtain ⟨a, k1, k2, k3, k4, k5⟩ := h5 d rfl
  have R := k5 rfl hdt.ne'
  obtain ⟨s', e, R', p1, p2, p3, p4, hrow⟩ := speed_update (by rw [h1]; exact hmb) hc hk R
  have hdt' : 0 < s'.step := by rw [p1, h2]; exact hdt
  have hst : s'.step = dt := p1.trans h2
  have hN : s'.gen.nrGen = rowSum s.cont := R'.rows
  refine ⟨s', a, e, p2, k1, hN, rfl, rfl, R'.cols, R'.lo.trans hN.symm, R'.up.trans hN.symm, fun x => ?_⟩
  constructor
  · intro hx c hcm r' hr'
    obtain ⟨l₁, l₂, hl⟩ := List.append_of_mem hcm
    have hi : rowSum l₁ + r' < s'.gen.nrGen := by
      rw [hN, hl, rowSum_append, rowSum_cons]; omega
    obtain ⟨e1, e2⟩ := speedRow_iff R' hdt' (hrow l₁ c l₂ hl r' hr') x
    rw [hst] at e1 e2
    obtain ⟨x1, x2⟩ := hx _ hi
    exact ⟨e1.mp x1, e2.mp x2⟩
  · intro hx i hi
    rw [hN] at hi
    obtain ⟨l₁, c, l₂, r', hl, hr', rfl⟩ := rowSum_split _ _ hi
    obtain ⟨e1, e2⟩ := speedRow_iff R' hdt' (hrow l₁ c l₂ hl r' hr') x
    rw [hst] at e1 e2
    obtain ⟨x1, x2⟩ := hx c (by rw [hl]; simp) r' hr'
    exact ⟨e1.mpr x1, e2.mpr x2⟩

/-- **C38** (stacking): the rows of the entries are stacked in registration order: row `q` of an entry
registered after the entries `l₁` is line `(rows of l₁) + q`, it says
`l q ≤ (dof (v + dt a))_q ≤ u q`, and its description is the name of the body of that entry. Lines past the
end have an empty description. -/
theorem C38_stacking (mbs : List (MultiBody K)) (rk : RobotKin K) (r : ℕ) (dt : K) (mb : MultiBody K)
    (hmb : mbs[r]? = some mb) (hdt : 0 < dt) (d : SolverData K) (s : BoundedSpeed K)
    (h : SpeedRun mbs rk r dt true (some d) s) (kin : String → V3 K → BodyKin6 K)
    (hc : ∀ c ∈ s.cont, SpeedShaped mb c) (hk : ∀ c ∈ s.cont, KinShaped mb kin c)
    (bodyNames : List String) (hb : ∀ c ∈ s.cont, bodyNames[c.body]? = some c.bodyName) :
    ∃ s' a, s.update mbs kin = .ok s' ∧ d.alphaDBegin[r]? = some a ∧
      (∀ l₁ c l₂, s.cont = l₁ ++ c :: l₂ → ∀ q < c.dof.rows,
        s'.desc bodyNames ((l₁.map fun c => c.dof.rows).sum + q) = .ok (some c.bodyName) ∧
        ∀ x, let i := (l₁.map fun c => c.dof.rows).sum + q
          ((s'.gen.L.get i).LowerOK (lineVal d.nrVars s'.gen.A i x) ↔
            (c.l.get q).LowerOK (∑ k ∈ range 6, c.dof.get q k * speedAfter mb kin dt a x c k)) ∧
          ((s'.gen.U.get i).UpperOK (lineVal d.nrVars s'.gen.A i x) ↔
            (c.u.get q).UpperOK (∑ k ∈ range 6, c.dof.get q k * speedAfter mb kin dt a x c k))) ∧
      ∀ i, s'.gen.nrGen ≤ i → s'.desc bodyNames i = .ok none := by
  obtain ⟨h1, h2, h3, h4, h5⟩ := speedRun_inv hmb h
  obtain ⟨a, k1, k2, k3, k4, k5⟩ := h5 d rfl
  have R := k5 rfl hdt.ne'
  obtain ⟨s', e, R', p1, p2, p3, p4, hrow⟩ := speed_update (by rw [h1]; exact hmb) hc hk R
  have hdt' : 0 < s'.step := by rw [p1, h2]; exact hdt
  have hst : s'.step = dt := p1.trans h2
  have hN : s'.gen.nrGen = rowSum s.cont := R'.rows
  have desc_in : ∀ (l l₁ : List (SpeedData K)) (c : SpeedData K) (l₂ : List (SpeedData K)) (cur q : ℕ), l = l₁ ++ c :: l₂ →
      q < c.dof.rows → bodyNames[c.body]? = some c.bodyName →
      speedDesc bodyNames (cur + rowSum l₁ + q) l cur = .ok (some c.bodyName) := by
    intro l
    induction l with
    | nil => intro l₁ c l₂ cur q h; simp at h
    | cons e t ih =>
      intro l₁ c l₂ cur q h hq hb
      unfold speedDesc
      cases l₁ with
      | nil =>
        simp only [List.nil_append, List.cons.injEq] at h
        obtain ⟨rfl, rfl⟩ := h
        rw [if_pos (by rw [rowSum_nil]; omega), vecAt_eq_ok.mpr hb]
        rfl
      | cons e' l₁ =>
        simp only [List.cons_append, List.cons.injEq] at h
        obtain ⟨rfl, rfl⟩ := h
        rw [rowSum_cons, if_neg (by omega), ← Nat.add_assoc]
        exact ih l₁ c l₂ (cur + e.dof.rows) q rfl hq hb
  have desc_out : ∀ (l : List (SpeedData K)) (cur i : ℕ), cur + rowSum l ≤ i →
      speedDesc bodyNames i l cur = .ok none := by
    intro l
    induction l with
    | nil => intros; rfl
    | cons e t ih =>
      intro cur i hi
      rw [rowSum_cons] at hi
      unfold speedDesc
      rw [if_neg (by omega)]
      exact ih _ _ (by omega)
  refine ⟨s', a, e, k1, fun l₁ c l₂ hl q hq => ⟨?_, fun x => ?_⟩, fun i hi => ?_⟩
  · have := desc_in s.cont l₁ c l₂ 0 q hl hq (hb c (by rw [hl]; simp))
    rw [Nat.zero_add] at this
    unfold BoundedSpeed.desc
    rw [p2]
    exact this
  · have := speedRow_iff R' hdt' (hrow l₁ c l₂ hl q hq) x
    rw [hst] at this
    exact this
  · unfold BoundedSpeed.desc
    rw [p2]
    exact desc_out _ 0 i (by rw [Nat.zero_add, ← hN]; exact hi)

/-- **C38** (registration): adding appends one entry with the given bounds (the one-speed overload uses
the speed as both bounds); removing takes away the first entry of the body, keeps the others in order, and
reports whether there was one; `reset` removes all; `nrBoundedSpeeds` counts them. -/
theorem C38_registration (rk : RobotKin K) (s : BoundedSpeed K) (name : String) (p : V3 K) (dof : Mat K)
    (l u : Vec (Ext K)) (path : List ℕ) (body : ℕ) (hp : rk.path name = .ok (path ++ [body])) :
    (∃ s', s.add rk name p dof l u = .ok s' ∧
      s'.cont = s.cont ++ [⟨name, p, path ++ [body], dof, l, u, body⟩] ∧ s'.count = s.count + 1) ∧
    s.add1 rk name p dof l = s.add rk name p dof l l ∧
    s.reset.cont = [] ∧ s.reset.count = 0 ∧
    ((∀ c ∈ s.cont, c.bodyName ≠ name) → s.remove name = (false, s)) ∧
    (∀ l₁ c l₂, s.cont = l₁ ++ c :: l₂ → c.bodyName = name → (∀ c ∈ l₁, c.bodyName ≠ name) →
      (s.remove name).1 = true ∧ (s.remove name).2.cont = l₁ ++ l₂ ∧
      (s.remove name).2.count + 1 = s.count) := by
  refine ⟨?_, rfl, rfl, rfl, fun h => ?_, fun l₁ c l₂ h h1 h2 => ?_⟩
  · refine ⟨{ s with cont := s.cont ++ [⟨name, p, path ++ [body], dof, l, u, body⟩] }, ?_, rfl, ?_⟩
    · unfold BoundedSpeed.add
      rw [hp, Out.ok_bind, List.getLast?_concat]
      rfl
    · simp [BoundedSpeed.count]
  · unfold BoundedSpeed.remove
    rw [if_neg]
    simp only [List.any_eq_true, not_exists, not_and, beq_iff_eq]
    exact h
  · have hany : s.cont.any (fun c => c.bodyName == name) = true := by
      rw [List.any_eq_true]
      exact ⟨c, by rw [h]; simp, by simpa using h1⟩
    have he : s.cont.eraseP (fun c => c.bodyName == name) = l₁ ++ l₂ := by
      rw [h, List.eraseP_append_right _ (fun g hg => by simpa using h2 g hg),
        List.eraseP_cons_of_pos (p := fun c : SpeedData K => c.bodyName == name) (by simpa using h1)]
    unfold BoundedSpeed.remove
    rw [if_pos hany]
    refine ⟨rfl, he, ?_⟩
    unfold BoundedSpeed.count
    dsimp only
    rw [he, h]
    simp
    omega

/-- **C38** (sizes): entries whose sizes do not match are undefined behaviour, as is updating before
`updateNrVars`. -/
theorem C38_sizes_ub (mbs : List (MultiBody K)) (mb : MultiBody K) (s : BoundedSpeed K)
    (hmb : mbs[s.robotIndex]? = some mb) (c : SpeedData K) (l : List (SpeedData K)) (hs : s.cont = c :: l)
    (kin : String → V3 K → BodyKin6 K) (hf : s.fullJac.rows = 6)
    (hbad : c.dof.cols ≠ 6 ∨ c.l.size ≠ c.dof.rows ∨ c.u.size ≠ c.dof.rows ∨ s.alphaDBegin = none ∨ s.step = 0)
    (s' : BoundedSpeed K) : s.update mbs kin ≠ .ok s' := by
  intro h
  unfold BoundedSpeed.update at h
  rw [vecAt_eq_ok.mpr hmb, Out.ok_bind, hs] at h
  obtain ⟨t, h, -⟩ := Out.bind_eq_ok.mp h
  obtain ⟨t1, h, -⟩ := Out.bind_eq_ok.mp h
  unfold speedStep at h
  dsimp only at h
  obtain ⟨J, hJ, h⟩ := Out.bind_eq_ok.mp h
  obtain ⟨P, hP, h⟩ := Out.bind_eq_ok.mp h
  obtain ⟨a, ha, h⟩ := Out.bind_eq_ok.mp h
  obtain ⟨_, hg, h⟩ := Out.bind_eq_ok.mp h
  obtain ⟨A, hA, h⟩ := Out.bind_eq_ok.mp h
  obtain ⟨_, h0, h⟩ := Out.bind_eq_ok.mp h
  obtain ⟨v, -, h⟩ := Out.bind_eq_ok.mp h
  obtain ⟨_, hl, h⟩ := Out.bind_eq_ok.mp h
  obtain ⟨_, hu, h⟩ := Out.bind_eq_ok.mp h
  rcases hbad with hb | hb | hb | hb | hb
  · have := (fullJacobian_dims hJ).1
    unfold Mat.mul at hP
    rw [if_neg (by rw [this, hf]; exact hb)] at hP
    cases hP
  · exact hb (guardUB_eq_ok hl)
  · exact hb (guardUB_eq_ok hu)
  · rw [hb] at ha; cases ha
  · exact guardUB_eq_ok h0 hb

end

/-! ### Non-vacuity -/

namespace SpeedEx

def mb : MultiBody ℚ := ⟨[⟨"j0", 1, none⟩, ⟨"j1", 1, none⟩], 2, [-1, 0], [0, 1]⟩
def rk : RobotKin ℚ := ⟨mb, fun n => if n = "arm" then .ok [0, 1] else .ok [0]⟩
/-- Two rows: linear `x`, and the difference of linear `y` and `z`. -/
def dof : Mat ℚ := ⟨2, 6, fun i j => if i = 0 ∧ j = 3 then 1 else if i = 1 ∧ j = 4 then 1
  else if i = 1 ∧ j = 5 then -1 else 0⟩
def kin : String → V3 ℚ → BodyKin6 ℚ := fun n _ =>
  ⟨⟨6, if n = "arm" then 2 else 1, fun i j => i + j⟩, fun k => k, fun _ => 1⟩

def ent : SpeedData ℚ := ⟨"arm", 0, [0, 1], dof, ⟨2, fun _ => .fin (-1)⟩, ⟨2, fun _ => .fin 1⟩, 1⟩

/-- The execution "construct, add, updateNrVars" and the hypotheses of C38. -/
example : ∃ d s, SpeedRun [mb] rk 0 (1/100) true (some d) s ∧ s.cont = [ent] ∧
    (∀ c ∈ s.cont, SpeedShaped mb c) ∧ (∀ c ∈ s.cont, KinShaped mb kin c) ∧
    (∀ c ∈ s.cont, ["base", "arm"][c.body]? = some c.bodyName) := by
  have hg : GoodInput [mb] ([] : List (BiContact ℚ)) := by
    refine ⟨?_, by simp⟩
    intro m hm j hj l q hl
    simp only [List.mem_cons, List.not_mem_nil, or_false] at hm
    subst hm
    simp only [mb, List.mem_cons, List.not_mem_nil, or_false] at hj
    rcases hj with rfl | rfl <;> cases hl
  obtain ⟨d, deps, e, L⟩ := layout_ok SolverData.init [mb] [] [] hg.1 hg.2
  have hd : d.alphaDBegin[0]? = some 0 := by rw [L.alphaDBegin]; rfl
  refine ⟨d, _, .nrVars _ _ _ _ _ _ [] [] deps (.add _ _ _ _ "arm" 0 dof ⟨2, fun _ => .fin (-1)⟩
    ⟨2, fun _ => .fin 1⟩ (.make (fun _ _ => 7) _ rfl) rfl) hg e
    (by unfold BoundedSpeed.updateNrVars; rw [vecAt_eq_ok.mpr hd, Out.ok_bind]; rfl), rfl, ?_, ?_, ?_⟩
  · intro c hc
    change c ∈ [ent] at hc
    simp only [List.mem_cons, List.not_mem_nil, or_false] at hc
    subst hc
    exact ⟨by decide, by decide, rfl, rfl, rfl⟩
  · intro c hc
    change c ∈ [ent] at hc
    simp only [List.mem_cons, List.not_mem_nil, or_false] at hc
    subst hc
    exact ⟨rfl, rfl⟩
  · intro c hc
    change c ∈ [ent] at hc
    simp only [List.mem_cons, List.not_mem_nil, or_false] at hc
    subst hc
    rfl

/-- Reallocating after adding is needed: updating right after `addBoundedSpeed` writes past the end. -/
theorem C38_stale_ub : ∃ s s₁ s₂ : BoundedSpeed ℚ,
    BoundedSpeed.make [mb] 0 (1/100) (fun _ _ => 0) = .ok s ∧
    s.updateNrVars { SolverData.init with
      alphaDBegin := [0]
      nrVars := 2 } = .ok s₁ ∧
    s₁.add rk "arm" 0 dof ⟨2, fun _ => .fin (-1)⟩ ⟨2, fun _ => .fin 1⟩ = .ok s₂ ∧
    s₂.update [mb] kin = .ub := by
  refine ⟨_, _, _, rfl, rfl, rfl, ?_⟩
  rfl

end SpeedEx

end Verif
