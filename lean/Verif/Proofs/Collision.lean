import Verif.Model.Collision
import Verif.Proofs.Jacobian
import Verif.Proofs.Geometry
import Verif.Proofs.Assembly
import Verif.Proofs.Limits

/-! # Helper lemmas for the collision constraint -/

set_option autoImplicit false
set_option linter.unusedSectionVars false

namespace Verif

open Finset

section
variable {K : Type} [Field K] [LinearOrder K] [IsStrictOrderedRing K]

open Spec (onDofs lineVal)

theorem guardUB_ok {p : Prop} [Decidable p] (h : p) : guardUB p = .ok () := if_pos h

theorem guardUB_eq_ok {p : Prop} [Decidable p] {u : Unit} (h : guardUB p = .ok u) : p := by
  unfold guardUB at h
  split at h
  · assumption
  · cases h

theorem fdivV_ok {v : V3 K} {c : K} (h : c ≠ 0) : fdivV v c = .ok ((1 / c) • v) := if_neg h

namespace Spec

/-- What a selector multiplies dof `c` with (an empty selector selects everything). -/
def selected (sel : Vec K) (c : ℕ) : K := if sel.size = 0 then 1 else sel.get c

/-- Acceleration of a body point produced by the decision vector `x`: the linear rows of the point's
Jacobian `J` (columns along `path`) applied to the selected joint accelerations of the robot, which
start at variable `a`. -/
def pointAcc (mb : MultiBody K) (path : List ℕ) (sel : Vec K) (J : Mat K) (a : ℕ) (x : ℕ → K) : V3 K :=
  let row (i : ℕ) : K :=
    ∑ c ∈ range mb.nrDof, onDofs mb path (fun k => J.get i k) c * (selected sel c * x (a + c))
  ⟨row 3, row 4, row 5⟩

/-- `n·v + dt (n·a + ṅ·v)`: the rate, one step ahead, of the coordinate along `n` of a point with
velocity `v` and acceleration `a`, when `n` was `n₀` one step before. -/
def pointRate (dt : K) (n n₀ v a : V3 K) : K :=
  n.dot v + dt * (n.dot a + ((1 / dt) • (n - n₀)).dot v)

/-- The rate of the coordinate along `n` of the point of a pair that lies on body `b`. -/
def bodyRate (mbs : List (MultiBody K)) (data : SolverData K) (env : CollEnv K) (dt : K)
    (n n₀ : V3 K) (x : ℕ → K) (b : BodyColl K) : K :=
  match mbs[b.rIndex]?, env.robots[b.rIndex]?, data.alphaDBegin[b.rIndex]? with
  | some mb, some r, some a => pointRate dt n n₀ (r.vel b.body b.point)
      (r.normalAcc b.body b.point
        + pointAcc mb b.path b.selector (r.jac b.body b.point) a x)
  | _, _, _ => 0

/-- First term counted positively, the next ones negatively. -/
def signedSum : List K → K
  | [] => 0
  | t :: l => t - l.sum

end Spec

open Spec

/-! ## The row of one pair -/

theorem onDofs_congr (mb : MultiBody K) (path : List ℕ) (f g : ℕ → K) (c : ℕ)
    (h : ∀ k < pathDof mb path, f k = g k) : onDofs mb path f c = onDofs mb path g c := by
  induction path generalizing f g with
  | nil => rfl
  | cons i t ih =>
    rw [pathDof_cons] at h
    simp only [onDofs]
    rw [ih _ _ (fun k hk => h (jdof mb i + k) (by omega))]
    split
    · rw [h _ (by omega)]
    · rfl

theorem collPathDof_le (mb : MultiBody K) (path : List ℕ) (hp : ∀ i ∈ path, i < mb.joints.length)
    (hn : path.Nodup) : pathDof mb path ≤ mb.nrDof := by
  have h1 : path ⊆ List.range mb.joints.length := fun i hi => by simpa using hp i hi
  have h2 : path.toFinset ⊆ range mb.joints.length := by
    intro i hi
    simpa using hp i (by simpa using hi)
  have e1 : pathDof mb path = ∑ i ∈ path.toFinset, jdof mb i := by
    rw [List.sum_toFinset _ hn]; rfl
  have e2 : ∀ n ≤ mb.joints.length, ∑ i ∈ range n, jdof mb i = jpos mb n := by
    intro n hn
    induction n with
    | zero => simp [jpos]
    | succ n ih => rw [sum_range_succ, ih (by omega), jpos_succ mb n (by omega)]
  rw [e1, ← jpos_length, ← e2 _ le_rfl]
  exact sum_le_sum_of_subset h2

/-- What the code needs for a movable body of a pair. -/
structure BodyReady (mbs : List (MultiBody K)) (data : SolverData K) (env : CollEnv K) (tot : ℕ)
    (b : BodyColl K) (mb : MultiBody K) (r : PointKin K) (a : ℕ) : Prop where
  hmb : mbs[b.rIndex]? = some mb
  hr : env.robots[b.rIndex]? = some r
  ha : data.alphaDBegin[b.rIndex]? = some a
  hfit : a + mb.nrDof ≤ tot
  hpath : ∀ i ∈ b.path, i < mb.joints.length
  hnodup : b.path.Nodup
  hrows : ∀ p, (r.jac b.body p).rows = 6
  hcols : ∀ p, (r.jac b.body p).cols = pathDof mb b.path
  hsel : b.selector.size = 0 ∨ b.selector.size = mb.nrDof
  hbody : b.bIndex < r.bodyPosW.length

/-- `b(row) - (A x)(row)`. -/
def slack (n : ℕ) (A : Mat K) (b : Vec K) (row : ℕ) (x : ℕ → K) : K :=
  b.get row - lineVal n A row x

theorem collBody_ok {mbs : List (MultiBody K)} {data : SolverData K} {env : CollEnv K} {tot : ℕ}
    {b : BodyColl K} {mb : MultiBody K} {r : PointKin K} {a : ℕ}
    (R : BodyReady mbs data env tot b mb r a) (step : K) (row : ℕ) (nf dn : V3 K) (s : CollRow K)
    (n : ℕ) (hA : s.A.cols = n) (htot : tot ≤ n) (hrow : row < s.A.rows) (hb : row < s.b.size)
    (hd : s.distJac.rows = 1) (hd' : mb.nrDof ≤ s.distJac.cols)
    (hf : s.fullJac.rows = 1) (hf' : mb.nrDof ≤ s.fullJac.cols) :
    ∃ s', collBody mbs data env step row nf dn b s = .ok s' ∧ s'.sign = -1 ∧
      s'.A.rows = s.A.rows ∧ s'.A.cols = n ∧ s'.b.size = s.b.size ∧
      s'.distJac.rows = 1 ∧ s'.distJac.cols = s.distJac.cols ∧
      s'.fullJac.rows = 1 ∧ s'.fullJac.cols = s.fullJac.cols ∧
      (∀ i, i ≠ row → ∀ c, s'.A.get i c = s.A.get i c) ∧
      (∀ i, i ≠ row → s'.b.get i = s.b.get i) ∧
      (∀ c, tot ≤ c → s'.A.get row c = s.A.get row c) ∧
      ∀ x, slack n s'.A s'.b row x = slack n s.A s.b row x
        + s.sign * (nf.dot (r.vel b.body b.point) + dn.dot (r.vel b.body b.point)
          + step * nf.dot (r.normalAcc b.body b.point
              + pointAcc mb b.path b.selector (r.jac b.body b.point) a x)) := by
  have hpd := collPathDof_le mb b.path R.hpath R.hnodup
  set J := r.jac b.body b.point with hJ
  have hJr : J.rows = 6 := R.hrows _
  have hJc : J.cols = pathDof mb b.path := R.hcols _
  have e1 : J.block 3 0 3 (pathDof mb b.path)
      = .ok ⟨3, pathDof mb b.path, fun i c => J.get (3 + i) (0 + c)⟩ := by
    unfold Mat.block; rw [if_pos (by omega)]
  set w : ℕ → K := fun c => rows3Dot ((step * s.sign) • nf)
    ⟨3, pathDof mb b.path, fun i c => J.get (3 + i) (0 + c)⟩ 0 c with hw
  obtain ⟨D, e2, hD1, hD2, hD3⟩ : ∃ D, s.distJac.setBlock 0 0 ⟨1, pathDof mb b.path, fun _ c => w c⟩
      = .ok D ∧ D.rows = 1 ∧ D.cols = s.distJac.cols ∧ ∀ c < pathDof mb b.path, D.get 0 c = w c := by
    refine ⟨_, setBlock_col (by simp [hd]) (by simp; omega), hd, rfl, ?_⟩
    intro c hc
    simp [hc]
  have e3 : D.block 0 0 1 (pathDof mb b.path)
      = .ok ⟨1, pathDof mb b.path, fun i c => D.get (0 + i) (0 + c)⟩ := by
    unfold Mat.block; rw [if_pos (by omega)]
  obtain ⟨F, e4, hF1, hF2, hF3⟩ := fullJacobian_ok mb b.path
    ⟨1, pathDof mb b.path, fun i c => D.get (0 + i) (0 + c)⟩ s.fullJac R.hpath R.hnodup le_rfl
    (by simp [hf]) hf'
  have e5 : F.block 0 0 1 mb.nrDof = .ok ⟨1, mb.nrDof, fun i c => F.get (0 + i) (0 + c)⟩ := by
    unfold Mat.block; rw [if_pos (by omega)]
  have hFw : ∀ c < mb.nrDof, F.get 0 c = onDofs mb b.path w c := by
    intro c hc
    rw [hF3 0 (by simp) c hc]
    apply onDofs_congr
    intro k hk
    simpa using hD3 k hk
  have e6 : s.b.at' row = .ok (s.b.get row) := if_pos hb
  have e7 : ∀ v, s.b.set row v = .ok ⟨s.b.size, fun j => if j = row then v else s.b.get j⟩ :=
    fun v => if_pos hb
  have key : ∃ A', (if b.selector.size = 0 then
      s.A.addBlock row a (-1) ⟨1, mb.nrDof, fun i c => F.get (0 + i) (0 + c)⟩
    else if b.selector.size = mb.nrDof then
      s.A.addBlock row a (-1) ⟨1, mb.nrDof, fun i c => F.get (0 + i) (0 + c) * b.selector.get c⟩
    else .ub) = .ok A' ∧ A'.rows = s.A.rows ∧ A'.cols = n ∧ ∀ i c, A'.get i c =
      if i = row ∧ a ≤ c ∧ c < a + mb.nrDof then
        s.A.get i c - F.get 0 (c - a) * selected b.selector (c - a)
      else s.A.get i c := by
    have hfit := R.hfit
    unfold selected
    by_cases h0 : b.selector.size = 0
    · rw [if_pos h0]
      unfold Mat.addBlock
      rw [if_pos (by simp; omega)]
      refine ⟨_, rfl, rfl, hA, ?_⟩
      intro i c
      dsimp only
      by_cases h : i = row ∧ a ≤ c ∧ c < a + mb.nrDof
      · rw [if_pos h, if_pos (by omega), if_pos h0]
        obtain ⟨rfl, _⟩ := h
        simp; ring
      · rw [if_neg h, if_neg (by omega)]
    · rw [if_neg h0]
      rcases R.hsel with h1 | h1
      · exact absurd h1 h0
      rw [if_pos h1]
      unfold Mat.addBlock
      rw [if_pos (by simp; omega)]
      refine ⟨_, rfl, rfl, hA, ?_⟩
      intro i c
      dsimp only
      by_cases h : i = row ∧ a ≤ c ∧ c < a + mb.nrDof
      · rw [if_pos h, if_pos (by omega), if_neg h0]
        obtain ⟨rfl, _⟩ := h
        simp; ring
      · rw [if_neg h, if_neg (by omega)]
  obtain ⟨A', e8, hA1, hA2, hA3⟩ := key
  refine ⟨⟨-1, A', ⟨s.b.size, fun j => if j = row then s.b.get row + s.sign *
      ((r.vel b.body b.point).dot nf + (r.vel b.body b.point).dot dn
        + (r.normalAcc b.body b.point).dot (step • nf)) else s.b.get j⟩, D, F⟩, ?_, rfl, hA1, hA2,
      rfl, hD1, hD2, hF1 ▸ hf, hF2, ?_, ?_, ?_, ?_⟩
  · unfold collBody
    rw [vecAt_eq_ok.mpr R.hmb, Out.ok_bind, vecAt_eq_ok.mpr R.hr, Out.ok_bind]
    dsimp only
    rw [← hJ, e1, Out.ok_bind, ← hw, e2, Out.ok_bind, e3, Out.ok_bind, e4, Out.ok_bind,
      vecAt_eq_ok.mpr R.ha, Out.ok_bind, e5, Out.ok_bind]
    dsimp only
    rw [e8, Out.ok_bind, e6, Out.ok_bind, e7, Out.ok_bind]
    rfl
  · intro i hi c
    rw [hA3, if_neg (fun h => hi h.1)]
  · intro i hi
    simp [hi]
  · intro c hc
    have := R.hfit
    rw [hA3, if_neg (by omega)]
  · intro x
    have hfit := R.hfit
    have hl : lineVal n A' row x = lineVal n s.A row x
        - step * s.sign * nf.dot (pointAcc mb b.path b.selector J a x) := by
      unfold lineVal
      have : ∀ c, A'.get row c * x c = s.A.get row c * x c
          - (if a ≤ c ∧ c < a + mb.nrDof then
              F.get 0 (c - a) * selected b.selector (c - a) * x c else 0) := by
        intro c
        rw [hA3]
        by_cases h : a ≤ c ∧ c < a + mb.nrDof
        · rw [if_pos ⟨rfl, h⟩, if_pos h]; ring
        · rw [if_neg (fun h' => h h'.2), if_neg h, sub_zero]
      rw [sum_congr rfl (fun c _ => this c), sum_sub_distrib,
        sum_shift_ite n a mb.nrDof (by omega)
          (fun c => F.get 0 (c - a) * selected b.selector (c - a) * x c)]
      congr 1
      unfold pointAcc V3.dot
      dsimp only
      rw [mul_sum, mul_sum, mul_sum, ← sum_add_distrib, ← sum_add_distrib, mul_sum]
      apply sum_congr rfl
      intro c hc
      rw [Nat.add_sub_cancel_left, hFw c (mem_range.mp hc), hw]
      have e := onDofs_lin3 mb b.path (step * s.sign * nf.x) (step * s.sign * nf.y)
        (step * s.sign * nf.z) (fun k => J.get 3 k) (fun k => J.get 4 k) (fun k => J.get 5 k) c
      simp only [rows3Dot, V3.smul_x, V3.smul_y, V3.smul_z, zero_add, add_zero]
      rw [e]; ring
    unfold slack
    rw [hl]
    simp only [if_true, V3.dot_add, V3.dot_smul]
    rw [V3.dot_comm (r.vel b.body b.point) nf, V3.dot_comm (r.vel b.body b.point) dn,
      V3.dot_comm (r.normalAcc b.body b.point) nf]
    ring

/-- Shapes the loop on the bodies needs and keeps. -/
structure RowReady (mbs : List (MultiBody K)) (tot n row : ℕ) (s : CollRow K) : Prop where
  cols : s.A.cols = n
  htot : tot ≤ n
  hrow : row < s.A.rows
  hb : row < s.b.size
  hd : s.distJac.rows = 1
  hd' : ∀ mb ∈ mbs, mb.nrDof ≤ s.distJac.cols
  hf : s.fullJac.rows = 1
  hf' : ∀ mb ∈ mbs, mb.nrDof ≤ s.fullJac.cols

/-- What happens to everything but the slack of row `row`. -/
structure RowFrame (tot row : ℕ) (s s' : CollRow K) : Prop where
  rows : s'.A.rows = s.A.rows
  bsize : s'.b.size = s.b.size
  dcols : s'.distJac.cols = s.distJac.cols
  fcols : s'.fullJac.cols = s.fullJac.cols
  other : ∀ i, i ≠ row → ∀ c, s'.A.get i c = s.A.get i c
  otherb : ∀ i, i ≠ row → s'.b.get i = s.b.get i
  beyond : ∀ c, tot ≤ c → s'.A.get row c = s.A.get row c

theorem RowFrame.refl (tot row : ℕ) (s : CollRow K) : RowFrame tot row s s :=
  ⟨rfl, rfl, rfl, rfl, fun _ _ _ => rfl, fun _ _ => rfl, fun _ _ => rfl⟩

theorem RowFrame.trans {tot row : ℕ} {s s' s'' : CollRow K} (h : RowFrame tot row s s')
    (h' : RowFrame tot row s' s'') : RowFrame tot row s s'' :=
  ⟨h'.rows.trans h.rows, h'.bsize.trans h.bsize, h'.dcols.trans h.dcols, h'.fcols.trans h.fcols,
    fun i hi c => (h'.other i hi c).trans (h.other i hi c),
    fun i hi => (h'.otherb i hi).trans (h.otherb i hi),
    fun c hc => (h'.beyond c hc).trans (h.beyond c hc)⟩

theorem collBody_ok' {mbs : List (MultiBody K)} {data : SolverData K} {env : CollEnv K} {tot : ℕ}
    {b : BodyColl K} (hR : ∃ mb r a, BodyReady mbs data env tot b mb r a) {step : K} (hs : step ≠ 0)
    (row : ℕ) (nf n₀ : V3 K) (s : CollRow K) (n : ℕ) (S : RowReady mbs tot n row s) :
    ∃ s', collBody mbs data env step row nf (step • (1 / step) • (nf - n₀)) b s = .ok s' ∧
      s'.sign = -1 ∧ RowReady mbs tot n row s' ∧ RowFrame tot row s s' ∧
      ∀ x, slack n s'.A s'.b row x
        = slack n s.A s.b row x + s.sign * bodyRate mbs data env step nf n₀ x b := by
  obtain ⟨mb, r, a, R⟩ := hR
  have hm : mb ∈ mbs := List.mem_of_getElem? R.hmb
  obtain ⟨s', e, h1, h2, h3, h4, h5, h6, h7, h8, h9, h10, h11, h12⟩ := collBody_ok R step row nf
    (step • (1 / step) • (nf - n₀)) s n S.cols S.htot S.hrow S.hb S.hd (S.hd' mb hm) S.hf (S.hf' mb hm)
  refine ⟨s', e, h1, ⟨h3, S.htot, h2 ▸ S.hrow, h4 ▸ S.hb, h5, fun m h => h6 ▸ S.hd' m h, h7,
    fun m h => h8 ▸ S.hf' m h⟩, ⟨h2, h4, h6, h8, h9, h10, h11⟩, ?_⟩
  intro x
  rw [h12 x]
  unfold bodyRate
  rw [R.hmb, R.hr, R.ha]
  dsimp only
  unfold pointRate
  rw [V3.smul_dot _ _ step]
  ring

theorem collBodies_tail {mbs : List (MultiBody K)} {data : SolverData K} {env : CollEnv K} {tot : ℕ}
    {step : K} (hs : step ≠ 0) (row : ℕ) (nf n₀ : V3 K) (n : ℕ) (l : List (BodyColl K))
    (hR : ∀ b ∈ l, ∃ mb r a, BodyReady mbs data env tot b mb r a) (s : CollRow K)
    (S : RowReady mbs tot n row s) (hsg : s.sign = -1) :
    ∃ s', forEach l (collBody mbs data env step row nf (step • (1 / step) • (nf - n₀))) s = .ok s' ∧
      RowReady mbs tot n row s' ∧ RowFrame tot row s s' ∧
      ∀ x, slack n s'.A s'.b row x
        = slack n s.A s.b row x - (l.map (bodyRate mbs data env step nf n₀ x)).sum := by
  induction l generalizing s with
  | nil => exact ⟨s, rfl, S, RowFrame.refl _ _ _, fun x => by simp⟩
  | cons b t ih =>
    obtain ⟨s1, e1, g1, S1, F1, k1⟩ := collBody_ok' (hR b (by simp)) hs row nf n₀ s n S
    obtain ⟨s2, e2, S2, F2, k2⟩ := ih (fun b hb => hR b (by simp [hb])) s1 S1 g1
    refine ⟨s2, by simp only [forEach, e1, Out.ok_bind, e2], S2, F1.trans F2, fun x => ?_⟩
    rw [k2, k1, hsg]
    simp; ring

theorem collBodies {mbs : List (MultiBody K)} {data : SolverData K} {env : CollEnv K} {tot : ℕ}
    {step : K} (hs : step ≠ 0) (row : ℕ) (nf n₀ : V3 K) (n : ℕ) (l : List (BodyColl K))
    (hR : ∀ b ∈ l, ∃ mb r a, BodyReady mbs data env tot b mb r a) (s : CollRow K)
    (S : RowReady mbs tot n row s) (hsg : s.sign = 1) :
    ∃ s', forEach l (collBody mbs data env step row nf (step • (1 / step) • (nf - n₀))) s = .ok s' ∧
      RowReady mbs tot n row s' ∧ RowFrame tot row s s' ∧
      ∀ x, slack n s'.A s'.b row x
        = slack n s.A s.b row x + signedSum (l.map (bodyRate mbs data env step nf n₀ x)) := by
  cases l with
  | nil => exact ⟨s, rfl, S, RowFrame.refl _ _ _, fun x => by simp [signedSum]⟩
  | cons b t =>
    obtain ⟨s1, e1, g1, S1, F1, k1⟩ := collBody_ok' (hR b (by simp)) hs row nf n₀ s n S
    obtain ⟨s2, e2, S2, F2, k2⟩ := collBodies_tail hs row nf n₀ n t
      (fun b hb => hR b (by simp [hb])) s1 S1 g1
    refine ⟨s2, by simp only [forEach, e1, Out.ok_bind, e2], S2, F1.trans F2, fun x => ?_⟩
    rw [k2, k1, hsg]
    simp [signedSum]; ring

/-! ## Geometry of one pair -/

namespace Spec

/-- Pose of the hull of a movable body: the hull's placement on the body composed with the pose of
the body. -/
def hullPose (env : CollEnv K) (b : BodyColl K) : SchPose K :=
  match env.robots[b.rIndex]? with
  | some r => match r.bodyPosW[b.bIndex]? with
    | some X => tosch (b.X_op_o.mul X)
    | none => ⟨M3.one, 0⟩
  | none => ⟨M3.one, 0⟩

/-- Poses of the hulls once the hulls of `bodies` have been moved. -/
def moved (env : CollEnv K) (bodies : List (BodyColl K)) (poses : ℕ → SchPose K) : ℕ → SchPose K :=
  bodies.foldl (fun p b h => if h = b.hull then hullPose env b else p h) poses

/-- The body with its controlled point placed at the world position `p`. -/
def withPoint (env : CollEnv K) (p : V3 K) (b : BodyColl K) : BodyColl K :=
  match env.robots[b.rIndex]? with
  | some r => match r.bodyPosW[b.bIndex]? with
    | some X => { b with point := toBody X p }
    | none => b
  | none => b

/-- `p1` on the first movable body, `p2` on the others. -/
def withPoints (env : CollEnv K) (p1 p2 : V3 K) : List (BodyColl K) → List (BodyColl K)
  | [] => []
  | b :: t => withPoint env p1 b :: t.map (withPoint env p2)

/-- Velocity of the controlled point of a body. -/
def bodyVel (env : CollEnv K) (b : BodyColl K) : V3 K :=
  match env.robots[b.rIndex]? with
  | some r => r.vel b.body b.point
  | none => 0

/-- The automatic damping: `(di - ds) / (d - ds)` times the absolute rate of the distance plus the
offset, with `d - ds` replaced by `(di - ds) / 5` when the distance is below `ds`. -/
def autoDamping (env : CollEnv K) (d : CollData K) (n : V3 K) : K :=
  (d.di - d.ds) / (if d.distance ≤ d.ds then (d.di - d.ds) / 5 else d.distance - d.ds)
    * |signedSum (d.bodies.map fun b => n.dot (bodyVel env b))| + d.off

/-- Distance from the signed square of sch: negative in penetration. -/
def signedDistance (env : CollEnv K) (q : K) : K := if q < 0 then -env.sqrt (-q) else env.sqrt q

/-- Distance, closest points, normal and controlled points of `d` are those given by the distance
query for the hull poses `poses`; `d` is otherwise the pair `d₀`, up to the damping. -/
structure GeomOf (env : CollEnv K) (poses : ℕ → SchPose K) (d₀ d : CollData K) : Prop where
  hull1 : d.hull1 = d₀.hull1
  hull2 : d.hull2 = d₀.hull2
  di : d.di = d₀.di
  ds : d.ds = d₀.ds
  off : d.off = d₀.off
  collId : d.collId = d₀.collId
  distance : d.distance
    = signedDistance env (env.closest d.hull1 (poses d.hull1) d.hull2 (poses d.hull2)).1
  p1 : d.p1 = (env.closest d.hull1 (poses d.hull1) d.hull2 (poses d.hull2)).2.1
  p2 : d.p2 = (env.closest d.hull1 (poses d.hull1) d.hull2 (poses d.hull2)).2.2
  normal : d.normal = (1 / (if d.distance ≠ 0 then d.distance else env.eps)) • (d.p1 - d.p2)
  bodies : d.bodies = withPoints env d.p1 d.p2 d₀.bodies

/-- The damping and its kind: an active pair without damping gets the automatic one, kept until the
pair is inactive again. -/
def DampingOf (env : CollEnv K) (d₀ d : CollData K) : Prop :=
  if d.distance < d.di then
    if d₀.dtype = .free then d.dtype = .soft ∧ d.damping = autoDamping env d d.normal
    else d.dtype = d₀.dtype ∧ d.damping = d₀.damping
  else d.damping = d₀.damping ∧ d.dtype = if d₀.dtype = .soft then .free else d₀.dtype

end Spec

theorem signedRoot_eq (env : CollEnv K) (q : K) : signedRoot env q = signedDistance env q := by
  unfold signedRoot signedDistance
  by_cases h : 0 ≤ q
  · rw [if_pos h, if_neg (not_lt.2 h)]
  · rw [if_neg h, if_pos (not_le.1 h)]

/-- What the geometry part needs of a movable body. -/
def BodyPosed (env : CollEnv K) (b : BodyColl K) : Prop :=
  ∃ r, env.robots[b.rIndex]? = some r ∧ b.bIndex < r.bodyPosW.length

theorem BodyReady.posed {mbs : List (MultiBody K)} {data : SolverData K} {env : CollEnv K} {tot : ℕ}
    {b : BodyColl K} {mb : MultiBody K} {r : PointKin K} {a : ℕ}
    (R : BodyReady mbs data env tot b mb r a) : BodyPosed env b := ⟨r, R.hr, R.hbody⟩

theorem moveHulls_ok (env : CollEnv K) (l : List (BodyColl K)) (hl : ∀ b ∈ l, BodyPosed env b)
    (poses : ℕ → SchPose K) : moveHulls env l poses = .ok (moved env l poses) := by
  induction l generalizing poses with
  | nil => rfl
  | cons b t ih =>
    obtain ⟨r, h1, h2⟩ := hl b (by simp)
    have := ih (fun b hb => hl b (by simp [hb]))
    unfold moveHulls at this ⊢
    simp only [forEach, vecAt_eq_ok.mpr h1, vecAt_ok h2, Out.ok_bind, Out.pure_eq, moved,
      List.foldl_cons] at this ⊢
    rw [this]
    congr 2
    funext h
    simp [hullPose, h1, List.getElem?_eq_getElem h2]

theorem setPoints_loop (env : CollEnv K) (p2 : V3 K) (l : List (BodyColl K))
    (hl : ∀ b ∈ l, BodyPosed env b) (acc : List (BodyColl K)) (q : V3 K) :
    ∃ q', forEach l (fun b (s : List (BodyColl K) × V3 K) => do
      let r ← vecAt env.robots b.rIndex
      let X ← vecAt r.bodyPosW b.bIndex
      pure (s.1 ++ [{ b with point := toBody X s.2 }], p2)) (acc, q)
      = .ok (acc ++ withPoints env q p2 l, q') := by
  induction l generalizing acc q with
  | nil => exact ⟨q, by simp [forEach, withPoints]⟩
  | cons b t ih =>
    obtain ⟨r, h1, h2⟩ := hl b (by simp)
    obtain ⟨q', e⟩ := ih (fun b hb => hl b (by simp [hb])) (acc ++ [{ b with
      point := toBody r.bodyPosW[b.bIndex] q }]) p2
    refine ⟨q', ?_⟩
    simp only [forEach, vecAt_eq_ok.mpr h1, vecAt_ok h2, Out.ok_bind, Out.pure_eq] at e ⊢
    rw [e]
    congr 2
    have ht : withPoints env p2 p2 t = t.map (withPoint env p2) := by
      cases t <;> rfl
    rw [ht]
    simp [withPoints, withPoint, h1, List.getElem?_eq_getElem h2]

theorem setPoints_ok (env : CollEnv K) (p1 p2 : V3 K) (l : List (BodyColl K))
    (hl : ∀ b ∈ l, BodyPosed env b) : setPoints env p1 p2 l = .ok (withPoints env p1 p2 l) := by
  obtain ⟨q', e⟩ := setPoints_loop env p2 l hl [] p1
  unfold setPoints
  rw [e]
  simp

theorem collGeom_ok (env : CollEnv K) (he : env.eps ≠ 0) (d : CollData K)
    (hl : ∀ b ∈ d.bodies, BodyPosed env b) (poses : ℕ → SchPose K) :
    ∃ d' n, collGeom env d poses = .ok (moved env d.bodies poses, d', n) ∧
      GeomOf env (moved env d.bodies poses) d { d' with normal := n } ∧
      d'.normal = d.normal ∧ d'.damping = d.damping ∧ d'.dtype = d.dtype := by
  unfold collGeom
  rw [moveHulls_ok env _ hl, Out.ok_bind]
  dsimp only
  rw [fdivV_ok (by split <;> assumption), Out.ok_bind, setPoints_ok env _ _ _ hl, Out.ok_bind]
  exact ⟨_, _, rfl, ⟨rfl, rfl, rfl, rfl, rfl, rfl, signedRoot_eq _ _, rfl, rfl, rfl, rfl⟩, rfl, rfl, rfl⟩

theorem collDamping_loop (env : CollEnv K) (l : List (BodyColl K)) (hl : ∀ b ∈ l, BodyPosed env b)
    (v : V3 K) (n : V3 K) :
    ∃ w c, forEach l (fun b (s : V3 K × K) => do
      let r ← vecAt env.robots b.rIndex
      pure (s.1 + s.2 • r.vel b.body b.point, (-1 : K))) (v, -1) = .ok (w, c) ∧
      w.dot n = v.dot n - (l.map fun b => n.dot (bodyVel env b)).sum := by
  induction l generalizing v with
  | nil => exact ⟨v, -1, rfl, by simp⟩
  | cons b t ih =>
    obtain ⟨r, h1, h2⟩ := hl b (by simp)
    obtain ⟨w, c, e, k⟩ := ih (fun b hb => hl b (by simp [hb])) (v + (-1 : K) • r.vel b.body b.point)
    refine ⟨w, c, ?_, ?_⟩
    · simp only [forEach, vecAt_eq_ok.mpr h1, Out.ok_bind, Out.pure_eq] at e ⊢
      exact e
    · rw [k, V3.add_dot, V3.smul_dot]
      simp [bodyVel, h1, V3.dot_comm n]; ring

theorem collDamping_ok (env : CollEnv K) (d : CollData K) (hl : ∀ b ∈ d.bodies, BodyPosed env b)
    (hds : d.ds ≠ d.di) (n : V3 K) :
    collDamping env d n d.distance = .ok (autoDamping env d n) := by
  have key : ∃ w c, forEach d.bodies (fun b (s : V3 K × K) => do
      let r ← vecAt env.robots b.rIndex
      pure (s.1 + s.2 • r.vel b.body b.point, (-1 : K))) (0, 1) = .ok (w, c) ∧
      w.dot n = signedSum (d.bodies.map fun b => n.dot (bodyVel env b)) := by
    cases hb : d.bodies with
    | nil => exact ⟨0, 1, rfl, by simp [signedSum, V3.zero_dot]⟩
    | cons b t =>
      rw [hb] at hl
      obtain ⟨r, h1, h2⟩ := hl b (by simp)
      obtain ⟨w, c, e, k⟩ := collDamping_loop env t (fun b hb => hl b (by simp [hb]))
        (0 + (1 : K) • r.vel b.body b.point) n
      refine ⟨w, c, ?_, ?_⟩
      · simp only [forEach, vecAt_eq_ok.mpr h1, Out.ok_bind, Out.pure_eq] at e ⊢
        exact e
      · rw [k, V3.add_dot, V3.smul_dot]
        simp [signedSum, bodyVel, h1, V3.zero_dot, V3.dot_comm n]
  obtain ⟨w, c, e, k⟩ := key
  unfold collDamping
  rw [e, Out.ok_bind]
  dsimp only
  have hne : d.di - d.ds ≠ 0 := fun h => hds (sub_eq_zero.mp h).symm
  have hfix : (if d.distance ≤ d.ds then d.ds + (d.di - d.ds) * (1 / 5) else d.distance) - d.ds
      = if d.distance ≤ d.ds then (d.di - d.ds) / 5 else d.distance - d.ds := by
    split <;> ring
  rw [hfix]
  have hd : (if d.distance ≤ d.ds then (d.di - d.ds) / 5 else d.distance - d.ds) ≠ 0 := by
    split
    · exact div_ne_zero hne (by norm_num)
    · rename_i h
      exact fun h' => h (sub_eq_zero.mp h').le
  rw [fdiv_ok hd, Out.ok_bind, k]
  rfl

end

end Verif
