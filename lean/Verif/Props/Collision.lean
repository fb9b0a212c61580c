import Verif.Proofs.CollisionReach

/-!
# C33, C34, C35 (collision part), C57 (collision part)
-/

set_option autoImplicit false
set_option linter.unusedSectionVars false

namespace Verif

open Finset

section
variable {K : Type} [Field K] [LinearOrder K] [IsStrictOrderedRing K]

open Spec

namespace Spec

/-- `x` satisfies the rows an inequality constraint hands to the QP. -/
def SatInEq (n : ℕ) (c : InEqC K) (x : ℕ → K) : Prop :=
  ∀ i < c.nrInEq, (c.b.get i).UpperOK (lineVal n c.A i x)

/-- The velocity damper: the distance of the pair does not decrease faster than the damper allows. -/
def DamperOK (mbs : List (MultiBody K)) (data : SolverData K) (env : CollEnv K) (dt : K) (n₀ : V3 K)
    (d : CollData K) (x : ℕ → K) : Prop :=
  -(d.damping * ((d.distance - d.ds) / (d.di - d.ds))) ≤ pairRate mbs data env dt n₀ d x

/-- A hull always is on the same body at the same place, and a hull used as an obstacle by some pair
is not moved by another pair. -/
def HullsConsistent (env : CollEnv K) (l : List (CollData K)) : Prop :=
  (∀ d ∈ l, ∀ e ∈ l, ∀ b ∈ d.bodies, ∀ c ∈ e.bodies, b.hull = c.hull →
    hullPose env b = hullPose env c) ∧
  ∀ d ∈ l, ∀ h, h = d.hull1 ∨ h = d.hull2 → ∀ e ∈ l, (∃ b ∈ e.bodies, b.hull = h) →
    ∃ b ∈ d.bodies, b.hull = h

end Spec

/-! ## C33 -/

/-- C33: from any reachable state (pairs allocated, layout announced), `update` returns, and its rows
hold at `x` exactly when every pair closer than its interaction distance satisfies the velocity damper;
farther pairs contribute nothing.  The number of rows is the number of active pairs. -/
theorem C33_update {rbs : List (RobotBodies K)} (hR : RobotsOK rbs) {dt : K} (hdt : dt ≠ 0)
    {s : Coll K} (hs : CollReach rbs dt s) {data : SolverData K} {env : CollEnv K}
    (hd : DataOK rbs data) (he : CollEnvOK rbs env) (ht : s.totalAlphaD = some data.totalAlphaD)
    (hf : s.data.length ≤ s.A.rows) (poses : ℕ → SchPose K) :
    ∃ s' poses', s.update (bodiesOf rbs) data env poses = .ok (s', poses') ∧
      s'.inEq.nrInEq = (s'.data.filter fun d => decide (d.distance < d.di)).length ∧
      ∀ x, SatInEq s.A.cols s'.inEq x ↔
        ∀ (j : ℕ) d₀ d, s.data[j]? = some d₀ → s'.data[j]? = some d → d.distance < d.di →
          DamperOK (bodiesOf rbs) data env dt d₀.normal d x := by
  have W := collWF hR hdt hs
  obtain ⟨⟨s', poses'⟩, e, I⟩ := coll_update (W.ready hdt hR hd he ht hf) poses
  have hlen : s'.data.length = s.data.length := I.len
  have hcount : s'.nrAct = rowOf s'.data s.data.length := I.nrAct
  have hfull : rowOf s'.data s.data.length = (s'.data.filter active).length := by
    unfold rowOf
    rw [← hlen, List.take_of_length_le le_rfl]
  refine ⟨s', poses', e, hcount.trans hfull, ?_⟩
  intro x
  have hrow : ∀ (j : ℕ) d₀ d, s.data[j]? = some d₀ → s'.data[j]? = some d → active d = true →
      ((.fin (s'.b.get (rowOf s'.data j)) : Ext K).UpperOK
        (lineVal s.A.cols s'.A (rowOf s'.data j) x) ↔
        DamperOK (bodiesOf rbs) data env dt d₀.normal d x) := by
    intro j d₀ d h1 h2 h3
    have hj := (List.getElem?_eq_some_iff.mp h1).1
    have := I.rowsOK j hj d₀ d h1 h2 h3 x
    unfold slack damper at this
    rw [W.hstep] at this
    unfold DamperOK Ext.UpperOK
    constructor <;> intro h <;> linarith
  constructor
  · intro h j d₀ d h1 h2 h3
    have hj := (List.getElem?_eq_some_iff.mp h1).1
    have h3' : active d = true := decide_eq_true h3
    refine (hrow j d₀ d h1 h2 h3').mp (h _ ?_)
    show rowOf s'.data j < s'.nrAct
    rw [hcount]
    exact rowOf_lt_of_active _ _ _ d h2 h3' hj
  · intro h i hi
    have hi' : i < (s'.data.filter active).length := by
      rw [← hfull, ← hcount]; exact hi
    obtain ⟨j, d, h1, h2, h3⟩ := filter_index active s'.data i hi'
    have hj : j < s.data.length := hlen ▸ (List.getElem?_eq_some_iff.mp h1).1
    have := (hrow j _ d (List.getElem?_eq_getElem hj) h1 h2).mpr
      (h j _ d (List.getElem?_eq_getElem hj) h1 (of_decide_eq_true h2))
    unfold rowOf at this
    rw [h3] at this
    exact this

/-- C33, the row of a pair: it is at the position of the pair among the active ones, and its slack is
the damper plus the predicted rate. -/
theorem C33_row {rbs : List (RobotBodies K)} (hR : RobotsOK rbs) {dt : K} (hdt : dt ≠ 0)
    {s s' : Coll K} (hs : CollReach rbs dt s) {data : SolverData K} {env : CollEnv K}
    (hd : DataOK rbs data) (he : CollEnvOK rbs env) (ht : s.totalAlphaD = some data.totalAlphaD)
    (hf : s.data.length ≤ s.A.rows) {poses poses' : ℕ → SchPose K}
    (h : s.update (bodiesOf rbs) data env poses = .ok (s', poses')) {j : ℕ} {d₀ d : CollData K}
    (h1 : s.data[j]? = some d₀) (h2 : s'.data[j]? = some d) (h3 : d.distance < d.di) (x : ℕ → K) :
    s'.b.get (rowOf s'.data j) - lineVal s.A.cols s'.A (rowOf s'.data j) x
      = d.damping * ((d.distance - d.ds) / (d.di - d.ds))
        + pairRate (bodiesOf rbs) data env dt d₀.normal d x := by
  have W := collWF hR hdt hs
  obtain ⟨st, e, I⟩ := coll_update (W.ready hdt hR hd he ht hf) poses
  rw [h] at e
  cases e
  have := I.rowsOK j (List.getElem?_eq_some_iff.mp h1).1 d₀ d h1 h2 (decide_eq_true h3) x
  rw [W.hstep] at this
  exact this

/-- C33, what the distance, normal, points and damping of a pair are after an update. -/
theorem C33_geometry {rbs : List (RobotBodies K)} (hR : RobotsOK rbs) {dt : K} (hdt : dt ≠ 0)
    {s s' : Coll K} (hs : CollReach rbs dt s) {data : SolverData K} {env : CollEnv K}
    (hd : DataOK rbs data) (he : CollEnvOK rbs env) (ht : s.totalAlphaD = some data.totalAlphaD)
    (hf : s.data.length ≤ s.A.rows) {poses poses' : ℕ → SchPose K}
    (h : s.update (bodiesOf rbs) data env poses = .ok (s', poses')) {j : ℕ} {d₀ : CollData K}
    (h1 : s.data[j]? = some d₀) :
    ∃ d, s'.data[j]? = some d ∧ GeomOf env (posesAt env s.data poses (j + 1)) d₀ d ∧
      DampingOf env d₀ d := by
  have W := collWF hR hdt hs
  obtain ⟨st, e, I⟩ := coll_update (W.ready hdt hR hd he ht hf) poses
  rw [h] at e
  cases e
  exact I.done j (List.getElem?_eq_some_iff.mp h1).1 d₀ h1

/-- C33, two movable bodies: the constrained rate is that of the coordinate along the normal of the
closest point of body 1 relative to the closest point of body 2. -/
theorem C33_two_bodies {mbs : List (MultiBody K)} {data : SolverData K} {env : CollEnv K} {dt : K}
    {n₀ : V3 K} {poses : ℕ → SchPose K} {d₀ d : CollData K} (G : GeomOf env poses d₀ d)
    {b1 b2 : BodyColl K} (hb : d₀.bodies = [b1, b2]) {mb1 mb2 : MultiBody K} {r1 r2 : PointKin K}
    {X1 X2 : PT K} {a1 a2 : ℕ}
    (hm1 : mbs[b1.rIndex]? = some mb1) (hm2 : mbs[b2.rIndex]? = some mb2)
    (hr1 : env.robots[b1.rIndex]? = some r1) (hr2 : env.robots[b2.rIndex]? = some r2)
    (hx1 : r1.bodyPosW[b1.bIndex]? = some X1) (hx2 : r2.bodyPosW[b2.bIndex]? = some X2)
    (ha1 : data.alphaDBegin[b1.rIndex]? = some a1) (ha2 : data.alphaDBegin[b2.rIndex]? = some a2)
    (x : ℕ → K) :
    let q1 := toBody X1 d.p1
    let q2 := toBody X2 d.p2
    let v := r1.vel b1.body q1 - r2.vel b2.body q2
    let a := (r1.normalAcc b1.body q1 + pointAcc mb1 b1.path b1.selector (r1.jac b1.body q1) a1 x)
      - (r2.normalAcc b2.body q2 + pointAcc mb2 b2.path b2.selector (r2.jac b2.body q2) a2 x)
    pairRate mbs data env dt n₀ d x
      = d.normal.dot v + dt * (d.normal.dot a + ((1 / dt) • (d.normal - n₀)).dot v) := by
  intro q1 q2 v a
  unfold pairRate
  rw [G.bodies, hb]
  simp only [withPoints, withPoint, hr1, hr2, hx1, hx2, List.map_cons, List.map_nil, signedSum,
    bodyRate, hm1, hm2, ha1, ha2, List.sum_cons, List.sum_nil, add_zero]
  unfold pointRate
  rw [show v = r1.vel b1.body q1 - r2.vel b2.body q2 from rfl,
    show a = (r1.normalAcc b1.body q1 + pointAcc mb1 b1.path b1.selector (r1.jac b1.body q1) a1 x)
      - (r2.normalAcc b2.body q2 + pointAcc mb2 b2.path b2.selector (r2.jac b2.body q2) a2 x) from rfl]
  simp only [V3.dot_sub]
  ring

/-- C33: the pair stored by `addCollision` lists the movable ones among its two bodies, in order, each
with its robot, name, hull and placement; the selector of a self collision is the first one. -/
theorem C33_add {rbs : List (RobotBodies K)} {a : CollArgs K} {junk : V3 K} {s s' : Coll K}
    (h : Coll.add rbs a junk s = .ok s') :
    ∃ rb1 rb2 d, rbs[a.r1]? = some rb1 ∧ rbs[a.r2]? = some rb2 ∧ s'.data = s.data ++ [d] ∧
      (d.hull1, d.hull2, d.di, d.ds, d.damping, d.off, d.collId)
        = (a.hull1, a.hull2, a.di, a.ds, a.damping, a.off, a.collId) ∧
      d.bodies.map (fun b => (b.rIndex, b.body, b.hull, b.X_op_o, b.selector))
        = (if 0 < rb1.kin.mb.nrDof then [(a.r1, a.body1, a.hull1, a.X1, a.sel1)] else [])
          ++ (if 0 < rb2.kin.mb.nrDof then
            [(a.r2, a.body2, a.hull2, a.X2, if a.r1 = a.r2 then a.sel1 else a.sel2)] else []) := by
  obtain ⟨rb1, rb2, l1, l2, e1, e2, h1, h2, rfl⟩ := coll_add h
  refine ⟨rb1, rb2, _, e1, e2, rfl, rfl, ?_⟩
  dsimp only
  rw [List.map_append]
  congr 1
  · split at h1 <;> rename_i hc
    · obtain ⟨b, rfl, hb, _⟩ := h1
      rw [if_pos hc]
      unfold BodyColl.make at hb
      simp only [Out.bind_eq_ok] at hb
      obtain ⟨_, _, _, _, hb⟩ := hb
      cases hb
      rfl
    · rw [if_neg hc, h1]; rfl
  · split at h2 <;> rename_i hc
    · obtain ⟨b, rfl, hb, _⟩ := h2
      rw [if_pos hc]
      unfold BodyColl.make at hb
      simp only [Out.bind_eq_ok] at hb
      obtain ⟨_, _, _, _, hb⟩ := hb
      cases hb
      rfl
    · rw [if_neg hc, h2]; rfl

/-- C33, one movable body (only): the constrained rate is that of the coordinate along the normal of the
point of this body at `p1`.  This is the distance rate when the movable body is the first of the pair;
see `C33_fixed_first_counterexample` for the other case. -/
theorem C33_one_body {mbs : List (MultiBody K)} {data : SolverData K} {env : CollEnv K} {dt : K}
    {n₀ : V3 K} {poses : ℕ → SchPose K} {d₀ d : CollData K} (G : GeomOf env poses d₀ d)
    {b : BodyColl K} (hb : d₀.bodies = [b]) {mb : MultiBody K} {r : PointKin K} {X : PT K} {a : ℕ}
    (hm : mbs[b.rIndex]? = some mb) (hr : env.robots[b.rIndex]? = some r)
    (hx : r.bodyPosW[b.bIndex]? = some X) (ha : data.alphaDBegin[b.rIndex]? = some a) (x : ℕ → K) :
    let q := toBody X d.p1
    let v := r.vel b.body q
    let acc := r.normalAcc b.body q + pointAcc mb b.path b.selector (r.jac b.body q) a x
    pairRate mbs data env dt n₀ d x
      = d.normal.dot v + dt * (d.normal.dot acc + ((1 / dt) • (d.normal - n₀)).dot v) := by
  intro q v acc
  unfold pairRate
  rw [G.bodies, hb]
  simp only [withPoints, withPoint, hr, hx, List.map_cons, List.map_nil, signedSum,
    bodyRate, hm, ha, List.sum_nil, sub_zero]
  rfl

/-- C33: the controlled point, in body coordinates, is at the world position it is meant to be at. -/
theorem C33_point (X : PT K) (p : V3 K) (h : X.E.IsRot) :
    ((PT.ofTrans (toBody X p)).mul X).r = p := by
  unfold toBody PT.mul PT.ofTrans PT.inv
  dsimp only
  rw [M3.transpose_transpose, M3.mulVec_add, M3.mulVec_neg, h.1.transpose_mulVec,
    h.1.transpose_mulVec]
  ext <;> simp

/-- C33: a point of a hull is, for the distance query, at the world position given by the hull's
placement on the body and the body's pose. -/
theorem C33_hull_pose (X_op_o X : PT K) (h : V3 K) :
    (tosch (X_op_o.mul X)).R.mulVec h + (tosch (X_op_o.mul X)).t
      = (((PT.ofTrans h).mul X_op_o).mul X).r := by
  unfold tosch PT.mul PT.ofTrans
  dsimp only
  ext <;> simp [M3.mul, M3.transpose, M3.mulVec, V3.dot] <;> ring

/-- C33: away from contact the normal is a unit vector from the second closest point to the first. -/
theorem C33_normal {env : CollEnv K} {poses : ℕ → SchPose K} {d₀ d : CollData K}
    (G : GeomOf env poses d₀ d) (hsq : ∀ y, 0 ≤ y → env.sqrt y * env.sqrt y = y)
    (hc : (env.closest d.hull1 (poses d.hull1) d.hull2 (poses d.hull2)).1 = (d.p1 - d.p2).sqNorm)
    (hne : d.p1 ≠ d.p2) : d.normal.sqNorm = 1 ∧ d.p1 - d.p2 = d.distance • d.normal := by
  have hpos : 0 ≤ (d.p1 - d.p2).sqNorm := by
    unfold V3.sqNorm V3.dot
    have := mul_self_nonneg (d.p1 - d.p2).x
    have := mul_self_nonneg (d.p1 - d.p2).y
    have := mul_self_nonneg (d.p1 - d.p2).z
    linarith
  have hd : d.distance = env.sqrt (d.p1 - d.p2).sqNorm := by
    rw [G.distance, ← signedRoot_eq, hc]
    unfold signedRoot
    rw [if_pos hpos]
  have hdd : d.distance * d.distance = (d.p1 - d.p2).sqNorm := by rw [hd]; exact hsq _ hpos
  have hd0 : d.distance ≠ 0 := by
    intro h0
    rw [h0, mul_zero] at hdd
    apply hne
    unfold V3.sqNorm V3.dot at hdd
    have h1 := mul_self_nonneg (d.p1 - d.p2).x
    have h2 := mul_self_nonneg (d.p1 - d.p2).y
    have h3 := mul_self_nonneg (d.p1 - d.p2).z
    have e1 : (d.p1 - d.p2).x = 0 := mul_self_eq_zero.mp (by linarith)
    have e2 : (d.p1 - d.p2).y = 0 := mul_self_eq_zero.mp (by linarith)
    have e3 : (d.p1 - d.p2).z = 0 := mul_self_eq_zero.mp (by linarith)
    ext
    · simpa [sub_eq_zero] using e1
    · simpa [sub_eq_zero] using e2
    · simpa [sub_eq_zero] using e3
  have hn : d.normal = (1 / d.distance) • (d.p1 - d.p2) := by
    rw [G.normal, if_pos hd0]
  constructor
  · rw [hn]
    unfold V3.sqNorm at hdd ⊢
    rw [V3.dot_smul, V3.smul_dot, ← hdd]
    field_simp
  · rw [hn, V3.smul_smul', mul_one_div_cancel hd0, V3.one_smul']

/-! ### Descriptions of the rows -/

theorem moved_consistent {env : CollEnv K} {l : List (BodyColl K)} {poses : ℕ → SchPose K} {h : ℕ}
    {q : SchPose K} (hm : ∀ b ∈ l, b.hull = h → hullPose env b = q) :
    moved env l poses h = if ∃ b ∈ l, b.hull = h then q else poses h := by
  induction l generalizing poses with
  | nil => simp [moved]
  | cons b t ih =>
    unfold moved at ih ⊢
    rw [List.foldl_cons, ih (fun b hb => hm b (by simp [hb]))]
    by_cases ht : ∃ c ∈ t, c.hull = h
    · rw [if_pos ht, if_pos]
      obtain ⟨c, hc, e⟩ := ht
      exact ⟨c, by simp [hc], e⟩
    · rw [if_neg ht]
      by_cases hb : b.hull = h
      · rw [if_pos hb.symm, if_pos ⟨b, by simp, hb⟩, hm b (by simp) hb]
      · rw [if_neg (Ne.symm hb), if_neg]
        rintro ⟨c, hc, e⟩
        rcases List.mem_cons.mp hc with rfl | hc
        · exact hb e
        · exact ht ⟨c, hc, e⟩

theorem posesAt_consistent {env : CollEnv K} {l : List (CollData K)} {poses : ℕ → SchPose K} {h : ℕ}
    {q : SchPose K} (hm : ∀ d ∈ l, ∀ b ∈ d.bodies, b.hull = h → hullPose env b = q) (j : ℕ) :
    posesAt env l poses j h = if ∃ d ∈ l.take j, ∃ b ∈ d.bodies, b.hull = h then q else poses h := by
  induction j with
  | zero => simp [posesAt]
  | succ j ih =>
    by_cases hj : j < l.length
    · have e := List.getElem?_eq_getElem hj
      rw [posesAt_succ env l poses j _ e, moved_consistent (hm _ (List.getElem_mem hj)), ih,
        List.take_add_one, e]
      by_cases h1 : ∃ b ∈ l[j].bodies, b.hull = h
      · rw [if_pos h1, if_pos]
        exact ⟨l[j], by simp only [List.mem_append, Option.toList, List.mem_singleton]; exact Or.inr trivial, h1⟩
      · rw [if_neg h1]
        by_cases h2 : ∃ d ∈ l.take j, ∃ b ∈ d.bodies, b.hull = h
        · rw [if_pos h2, if_pos]
          obtain ⟨d, hd, r⟩ := h2
          exact ⟨d, by simp only [List.mem_append]; exact Or.inl hd, r⟩
        · rw [if_neg h2, if_neg]
          rintro ⟨d, hd, r⟩
          simp only [Option.toList, List.mem_append, List.mem_singleton] at hd
          rcases hd with hd | rfl
          · exact h2 ⟨d, hd, r⟩
          · exact h1 r
    · rw [show posesAt env l poses (j + 1) = posesAt env l poses j by
        unfold posesAt
        rw [List.take_of_length_le (by omega), List.take_of_length_le (by omega)], ih,
        List.take_of_length_le (by omega), List.take_of_length_le (by omega)]

/-- Under consistent hulls, the poses at the time pair `j` is examined are the final ones. -/
theorem posesAt_final {env : CollEnv K} {l : List (CollData K)} (hc : HullsConsistent env l)
    (poses : ℕ → SchPose K) {j : ℕ} {d : CollData K} (hj : l[j]? = some d) {h : ℕ}
    (hh : h = d.hull1 ∨ h = d.hull2) :
    posesAt env l poses (j + 1) h = posesAt env l poses l.length h := by
  have hd : d ∈ l := List.mem_of_getElem? hj
  by_cases hm : ∃ e ∈ l, ∃ b ∈ e.bodies, b.hull = h
  · obtain ⟨e, he, hb⟩ := hm
    obtain ⟨b, hb, hbh⟩ := hc.2 d hd h hh e he hb
    have hq : ∀ d' ∈ l, ∀ c ∈ d'.bodies, c.hull = h → hullPose env c = hullPose env b :=
      fun d' hd' c hc' e => hc.1 d' hd' d hd c hc' b hb (e.trans hbh.symm)
    rw [posesAt_consistent hq, posesAt_consistent hq, if_pos, if_pos]
    · exact ⟨d, by rw [List.take_of_length_le le_rfl]; exact hd, b, hb, hbh⟩
    · refine ⟨d, ?_, b, hb, hbh⟩
      rw [List.take_add_one, hj]
      simp
  · have hq : ∀ d' ∈ l, ∀ c ∈ d'.bodies, c.hull = h → hullPose env c = poses h :=
      fun d' hd' c hc' e => absurd ⟨d', hd', c, hc', e⟩ hm
    rw [posesAt_consistent hq, posesAt_consistent hq]
    simp

/-- C33: `descInEq` describes, for each row of the last update, the pair the row is about, and nothing
for other lines (hulls consistently placed). -/
theorem C33_desc {rbs : List (RobotBodies K)} (hR : RobotsOK rbs) {dt : K} (hdt : dt ≠ 0)
    {s s' : Coll K} (hs : CollReach rbs dt s) {data : SolverData K} {env : CollEnv K}
    (hd : DataOK rbs data) (he : CollEnvOK rbs env) (ht : s.totalAlphaD = some data.totalAlphaD)
    (hf : s.data.length ≤ s.A.rows) {poses poses' : ℕ → SchPose K}
    (h : s.update (bodiesOf rbs) data env poses = .ok (s', poses'))
    (hc : HullsConsistent env s.data) :
    (∀ (j : ℕ) d, s'.data[j]? = some d → d.distance < d.di →
      s'.descInEq env poses' (rowOf s'.data j) = some d) ∧
    ∀ line, s'.inEq.nrInEq ≤ line → s'.descInEq env poses' line = none := by
  have W := collWF hR hdt hs
  obtain ⟨st, e, I⟩ := coll_update (W.ready hdt hR hd he ht hf) poses
  rw [h] at e
  cases e
  have hlen : s'.data.length = s.data.length := I.len
  have hcount : s'.nrAct = rowOf s'.data s.data.length := I.nrAct
  have hp : poses' = posesAt env s.data poses s.data.length := I.poses
  have hfil : (s'.data.filter fun d => decide (signedRoot env
      (env.closest d.hull1 (poses' d.hull1) d.hull2 (poses' d.hull2)).1 < d.di))
      = s'.data.filter active := by
    apply List.filter_congr
    intro d hdm
    obtain ⟨j, hj⟩ := List.getElem?_of_mem hdm
    have hjl : j < s.data.length := hlen ▸ (List.getElem?_eq_some_iff.mp hj).1
    have h0 := List.getElem?_eq_getElem hjl
    obtain ⟨d', k1, G, _⟩ := I.done j hjl _ h0
    rw [hj] at k1
    cases k1
    unfold active
    rw [G.distance, ← signedRoot_eq, hp, posesAt_final hc poses h0 (Or.inl G.hull1),
      posesAt_final hc poses h0 (Or.inr G.hull2)]
  unfold Coll.descInEq
  rw [hfil]
  constructor
  · intro j d hj hda
    exact filter_getElem active s'.data j d hj (decide_eq_true hda)
  · intro line hl
    apply List.getElem?_eq_none
    have : s'.nrAct ≤ line := hl
    rw [hcount] at this
    unfold rowOf at this
    rw [← hlen, List.take_of_length_le le_rfl] at this
    exact this

/-! ## C34 -/

namespace Spec

/-- What identifies a pair for the user. -/
structure PairKey (K : Type) where
  id : ℤ
  hull1 : ℕ
  hull2 : ℕ
  di : K
  ds : K
  off : K

/-- The key of a stored pair. -/
def keyOf (d : CollData K) : PairKey K := ⟨d.collId, d.hull1, d.hull2, d.di, d.ds, d.off⟩

/-- The key of the pair `addCollision` is asked for. -/
def keyArgs (a : CollArgs K) : PairKey K := ⟨a.collId, a.hull1, a.hull2, a.di, a.ds, a.off⟩

/-- Everything a user can do with the constraint. -/
inductive CollOp (K : Type)
  | add (a : CollArgs K) (junk : V3 K)
  | rm (id : ℤ)
  | reset
  | updateNrVars (data : SolverData K)
  | updateNrCollisions
  | update (mbs : List (MultiBody K)) (data : SolverData K) (env : CollEnv K)
      (poses : ℕ → SchPose K)

/-- The code. -/
def CollOp.run (rbs : List (RobotBodies K)) (s : Coll K) : CollOp K → Out (Coll K)
  | .add a junk => s.add rbs a junk
  | .rm id => .ok (s.rm id).2
  | .reset => .ok s.reset
  | .updateNrVars data => s.updateNrVars data
  | .updateNrCollisions => s.updateNrCollisions
  | .update mbs data env poses => do
    let r ← s.update mbs data env poses
    pure r.1

/-- The registry as a plain list: append, remove the first with this id, clear. -/
def CollOp.spec (l : List (PairKey K)) : CollOp K → List (PairKey K)
  | .add a _ => l ++ [keyArgs a]
  | .rm id => l.eraseP fun k => decide (k.id = id)
  | .reset => []
  | _ => l

end Spec

theorem collBody_rows {mbs : List (MultiBody K)} {data : SolverData K} {env : CollEnv K} {step : K}
    {row : ℕ} {nf dn : V3 K} {b : BodyColl K} {s s' : CollRow K}
    (h : collBody mbs data env step row nf dn b s = .ok s') : s'.A.rows = s.A.rows := by
  unfold collBody at h
  simp only [Out.bind_eq_ok] at h
  obtain ⟨_, _, _, _, _, _, _, _, _, _, _, _, _, _, _, _, A, hA, _, _, _, _, h⟩ := h
  cases h
  show A.rows = _
  split at hA
  · unfold Mat.addBlock at hA
    split at hA
    · cases hA; rfl
    · cases hA
  · split at hA
    · unfold Mat.addBlock at hA
      split at hA
      · cases hA; rfl
      · cases hA
    · cases hA

theorem collRow_eq_ok {mbs : List (MultiBody K)} {data : SolverData K} {env : CollEnv K}
    {d : CollData K} {nf : V3 K} {s s' : Coll K} (h : collRow mbs data env d nf s = .ok s') :
    s'.data = s.data ∧ s'.nrAct = s.nrAct + 1 ∧ s'.A.rows = s.A.rows ∧ s.nrAct < s.A.rows ∧
      s.nrAct < s.b.size := by
  unfold collRow at h
  simp only [Out.bind_eq_ok] at h
  obtain ⟨_, _, _, _, _, _, b, hb, A, hA, r, hr, h⟩ := h
  cases h
  unfold Mat.setBlock at hA
  split at hA
  · rename_i hc
    have hr' : r.A.rows = A.rows := forEach_inv (fun r : CollRow K => r.A.rows = A.rows) rfl
      (fun _ _ _ _ h e => (collBody_rows e).trans h) hr
    cases hA
    unfold Vec.set at hb
    split at hb
    · rename_i hb'
      refine ⟨rfl, rfl, hr', ?_, hb'⟩
      have := hc.1
      simp [Mat.zero] at this
      omega
    · cases hb
  · cases hA

theorem pairStep_eq_ok {mbs : List (MultiBody K)} {data : SolverData K} {env : CollEnv K} {i : ℕ}
    {st st' : Coll K × (ℕ → SchPose K)} (h : Coll.pairStep mbs data env i st = .ok st') :
    ∃ d d', st.1.data[i]? = some d ∧ st'.1.data = st.1.data.set i d' ∧ keyOf d' = keyOf d ∧
      st'.1.A.rows = st.1.A.rows ∧
      if active d' = true then st'.1.nrAct = st.1.nrAct + 1 ∧ st.1.nrAct < st.1.A.rows
      else st'.1.nrAct = st.1.nrAct := by
  unfold Coll.pairStep at h
  rw [Out.bind_eq_ok] at h
  obtain ⟨d, hd, h⟩ := h
  rw [Out.bind_eq_ok] at h
  obtain ⟨⟨poses, d1, n⟩, hg, h⟩ := h
  have hk : keyOf d1 = keyOf d := by
    unfold collGeom at hg
    simp only [Out.bind_eq_ok] at hg
    obtain ⟨_, _, _, _, _, _, hg⟩ := hg
    cases hg
    rfl
  dsimp only at h
  split at h
  · rename_i hact
    simp only [Out.bind_eq_ok] at h
    obtain ⟨d2, h2, s1, h3, l, h4, h5⟩ := h
    have hk2 : keyOf d2 = keyOf d1 ∧ d2.distance = d1.distance := by
      unfold collActivate at h2
      split at h2
      · simp only [Out.bind_eq_ok] at h2
        obtain ⟨_, _, h2⟩ := h2
        cases h2
        exact ⟨rfl, rfl⟩
      · cases h2
        exact ⟨rfl, rfl⟩
    obtain ⟨e1, e2, e3, e4, _⟩ := collRow_eq_ok h3
    unfold vecSet at h4
    split at h4
    · cases h4
      cases h5
      refine ⟨d, { d2 with normal := n }, vecAt_eq_ok.mp hd, by rw [e1], ?_, e3, ?_⟩
      · exact hk2.1.trans hk
      · have hdi : d2.di = d1.di := congrArg PairKey.di hk2.1
        rw [if_pos]
        · exact ⟨e2, e4⟩
        · unfold active
          show decide (d2.distance < d2.di) = true
          rw [hk2.2, hdi]
          exact decide_eq_true hact
    · cases h4
  · rename_i hact
    simp only [Out.bind_eq_ok] at h
    obtain ⟨l, h4, h5⟩ := h
    unfold vecSet at h4
    split at h4
    · cases h4
      cases h5
      refine ⟨d, { d1 with
        normal := n
        dtype := if d1.dtype = .soft then .free else d1.dtype }, vecAt_eq_ok.mp hd, rfl, hk, rfl, ?_⟩
      rw [if_neg]
      unfold active
      simpa using hact
    · cases h4

theorem update_eq_ok {mbs : List (MultiBody K)} {data : SolverData K} {env : CollEnv K}
    {poses poses' : ℕ → SchPose K} {s s' : Coll K}
    (h : s.update mbs data env poses = .ok (s', poses')) :
    s'.data.map keyOf = s.data.map keyOf ∧ s'.A.rows = s.A.rows ∧
      s'.nrAct = (s'.data.filter active).length ∧ s'.nrAct ≤ s.A.rows := by
  have key : ∀ n ≤ s.data.length, ∀ st, forRange n (Coll.pairStep mbs data env)
      ({ s with nrAct := 0 }, poses) = .ok st → st.1.data.map keyOf = s.data.map keyOf ∧
        st.1.A.rows = s.A.rows ∧ st.1.nrAct = rowOf st.1.data n ∧ st.1.nrAct ≤ s.A.rows := by
    intro n hn
    induction n with
    | zero =>
      intro st e
      cases e
      exact ⟨rfl, rfl, rfl, Nat.zero_le _⟩
    | succ n ih =>
      intro st e
      simp only [forRange, Out.bind_eq_ok] at e
      obtain ⟨st1, e1, e2⟩ := e
      obtain ⟨k1, k2, k3, k4⟩ := ih (by omega) st1 e1
      obtain ⟨d, d', h1, h2, h3, h4, h5⟩ := pairStep_eq_ok e2
      have hn' := (List.getElem?_eq_some_iff.mp h1).1
      have hget : st.1.data[n]? = some d' := by rw [h2]; simp [hn']
      refine ⟨?_, h4.trans k2, ?_, ?_⟩
      · rw [h2, List.map_set, h3, ← k1]
        apply List.ext_getElem?
        intro j
        by_cases hj : j = n
        · subst hj
          simp [hn', (List.getElem?_eq_some_iff.mp h1).2]
        · rw [List.getElem?_set_ne (Ne.symm hj)]
      · rw [rowOf_succ _ _ _ hget, h2, rowOf_set_lt _ _ _ _ le_rfl, ← k3]
        split at h5
        · rename_i ha
          rw [if_pos ha]
          exact h5.1
        · rename_i ha
          rw [if_neg ha]
          exact h5
      · split at h5
        · rw [h5.1, ← k2]
          exact h5.2
        · rw [h5]; exact k4
  obtain ⟨k1, k2, k3, k4⟩ := key _ le_rfl _ h
  refine ⟨k1, k2, ?_, k4⟩
  dsimp only at k3
  rw [k3]
  unfold rowOf
  have hlen : s.data.length = s'.data.length := by
    have := congrArg List.length k1
    simpa using this.symm
  rw [hlen, List.take_of_length_le le_rfl]

/-- C34: over any history of operations that all return, the stored pairs are those of a plain list to
which the same operations are applied. -/
theorem C34_registry (rbs : List (RobotBodies K)) (ops : List (CollOp K)) (s s' : Coll K)
    (h : ops.foldlM (CollOp.run rbs) s = .ok s') :
    s'.data.map keyOf = ops.foldl CollOp.spec (s.data.map keyOf) ∧
      s'.nrCollisions = (ops.foldl CollOp.spec (s.data.map keyOf)).length := by
  have : s'.data.map keyOf = ops.foldl CollOp.spec (s.data.map keyOf) := by
    induction ops generalizing s with
    | nil => cases h; rfl
    | cons o t ih =>
      simp only [List.foldlM_cons, Out.bind_eq_ok] at h
      obtain ⟨s1, h1, h2⟩ := h
      rw [ih s1 h2, List.foldl_cons]
      congr 1
      cases o with
      | add a junk =>
        obtain ⟨_, _, l1, l2, _, _, _, _, rfl⟩ := coll_add h1
        simp [CollOp.spec, keyOf, keyArgs]
      | rm id =>
        cases h1
        unfold CollOp.spec Coll.rm
        dsimp only
        split
        · show (s.data.eraseP _).map keyOf = _
          rw [List.eraseP_map]
          rfl
        · rename_i hn
          rw [List.eraseP_of_forall_not]
          intro k hk
          obtain ⟨d, hd, rfl⟩ := List.mem_map.mp hk
          simp only [List.any_eq_true, not_exists, not_and] at hn
          exact hn d hd
      | reset => cases h1; rfl
      | updateNrVars data =>
        cases h1
        rfl
      | updateNrCollisions =>
        simp only [CollOp.run, Coll.updateNrCollisions] at h1
        split at h1
        · cases h1
        · cases h1
          rfl
      | update mbs data env poses =>
        simp only [CollOp.run, Out.bind_eq_ok] at h1
        obtain ⟨⟨s2, p2⟩, e, h1⟩ := h1
        cases h1
        exact (update_eq_ok e).1
  refine ⟨this, ?_⟩
  rw [← this]
  simp [Coll.nrCollisions]

/-- C34: `rmCollision` reports whether there was a pair with this id. -/
theorem C34_rm (s : Coll K) (id : ℤ) : (s.rm id).1 = true ↔ ∃ d ∈ s.data, d.collId = id := by
  unfold Coll.rm
  split
  · rename_i h
    simp only [List.any_eq_true, decide_eq_true_eq] at h
    simpa using h
  · rename_i h
    simp only [List.any_eq_true, decide_eq_true_eq] at h
    simpa using h

/-- C34: `getCollisionData` returns the first pair with this id; it throws exactly when there is none. -/
theorem C34_get (s : Coll K) (id : ℤ) :
    (∀ d, s.get id = .ok d ↔ ∃ l₁ l₂, s.data = l₁ ++ d :: l₂ ∧ d.collId = id ∧
      ∀ e ∈ l₁, e.collId ≠ id) ∧
    (s.get id = .throws .runtimeError ↔ ∀ d ∈ s.data, d.collId ≠ id) ∧ s.get id ≠ .ub := by
  unfold Coll.get
  refine ⟨?_, ?_, ?_⟩
  · intro d
    constructor
    · intro h
      split at h
      · rename_i e he
        cases h
        rw [List.find?_eq_some_iff_append] at he
        obtain ⟨h1, l₁, l₂, h2, h3⟩ := he
        exact ⟨l₁, l₂, h2, by simpa using h1, fun e he => by simpa using h3 e he⟩
      · cases h
    · rintro ⟨l₁, l₂, h1, h2, h3⟩
      have : s.data.find? (fun d => decide (d.collId = id)) = some d := by
        rw [List.find?_eq_some_iff_append]
        exact ⟨by simpa using h2, l₁, l₂, h1, fun e he => by simpa using h3 e he⟩
      rw [this]
  · constructor
    · intro h
      split at h
      · cases h
      · rename_i he
        rw [List.find?_eq_none] at he
        intro d hd
        simpa using he d hd
    · intro h
      have : s.data.find? (fun d => decide (d.collId = id)) = none := by
        rw [List.find?_eq_none]
        intro d hd
        simpa using h d hd
      rw [this]
  · split <;> simp

/-- C34: whenever `update` returns, the number of rows is the number of active pairs, which is at most
the maximal number of rows and at most the number of rows allocated. -/
theorem C34_counts {mbs : List (MultiBody K)} {data : SolverData K} {env : CollEnv K}
    {poses poses' : ℕ → SchPose K} {s s' : Coll K}
    (h : s.update mbs data env poses = .ok (s', poses')) :
    s'.inEq.nrInEq = (s'.data.filter fun d => decide (d.distance < d.di)).length ∧
      s'.inEq.nrInEq ≤ s'.inEq.maxInEq ∧ s'.inEq.nrInEq ≤ s.A.rows := by
  obtain ⟨_, _, h3, h4⟩ := update_eq_ok h
  refine ⟨h3, ?_, h4⟩
  show s'.nrAct ≤ s'.data.length
  rw [h3]
  exact List.length_filter_le _ _

/-- C34: reallocating gives one row per pair; before the number of variables has been announced it is
undefined behaviour. -/
theorem C34_alloc (s : Coll K) :
    (∀ n, s.nrVars = some n → ∃ s', s.updateNrCollisions = .ok s' ∧
      s'.A.rows = s'.inEq.maxInEq ∧ s'.A.cols = n ∧ s'.b.size = s'.inEq.maxInEq ∧ s'.data = s.data) ∧
    (s.nrVars = none → s.updateNrCollisions = .ub) := by
  unfold Coll.updateNrCollisions
  constructor
  · intro n h
    rw [h]
    exact ⟨_, rfl, rfl, rfl, rfl, rfl⟩
  · intro h
    rw [h]

/-! ## C35 and C57, collisions -/

/-- One step of a velocity damper. -/
theorem damper_step {d d' ds di c dt rate : K} (hds : ds < di) (hdt : 0 < dt)
    (hc' : dt * c ≤ di - ds) (h : ds ≤ d) (e : d' = d + dt * rate)
    (ha : d < di → -(c * ((d - ds) / (di - ds))) ≤ rate) (hi : di ≤ d → -(di - ds) ≤ dt * rate) :
    ds ≤ d' := by
  by_cases hd : d < di
  · have hpos : 0 < di - ds := by linarith
    have h1 := ha hd
    have h2 : dt * (c * ((d - ds) / (di - ds))) ≤ d - ds := by
      have : dt * (c * ((d - ds) / (di - ds))) = (dt * c) * ((d - ds) / (di - ds)) := by ring
      rw [this]
      have h3 : 0 ≤ (d - ds) / (di - ds) := div_nonneg (by linarith) hpos.le
      calc (dt * c) * ((d - ds) / (di - ds)) ≤ (di - ds) * ((d - ds) / (di - ds)) :=
            mul_le_mul_of_nonneg_right hc' h3
        _ = d - ds := by field_simp
    have h3 := mul_le_mul_of_nonneg_left h1 hdt.le
    rw [e]
    linarith [mul_neg dt (c * ((d - ds) / (di - ds)))]
  · have := hi (not_lt.mp hd)
    rw [e]
    linarith [not_lt.mp hd]

/-- C35, collisions: in any controlled execution (each control satisfies the rows of the update of its
step) in which the distance of a pair evolves with the predicted rate, a pair with a fixed damping
`dt * damping ≤ di - ds` that starts at least `ds` apart stays at least `ds` apart, whatever other
pairs do and however often it is activated and deactivated. -/
theorem C35_collision {rbs : List (RobotBodies K)} (hR : RobotsOK rbs) {dt : K} (hdt : 0 < dt)
    (s : ℕ → Coll K) (data : ℕ → SolverData K) (env : ℕ → CollEnv K)
    (poses : ℕ → ℕ → SchPose K) (x : ℕ → ℕ → K)
    (h0 : CollReach rbs dt (s 0)) (hd : ∀ k, DataOK rbs (data k)) (he : ∀ k, CollEnvOK rbs (env k))
    (ht : ∀ k, (s k).totalAlphaD = some (data k).totalAlphaD) (hf : (s 0).data.length ≤ (s 0).A.rows)
    (hu : ∀ k, (s k).update (bodiesOf rbs) (data k) (env k) (poses k) = .ok (s (k + 1), poses (k + 1)))
    (hx : ∀ k, SatInEq (s 0).A.cols (s (k + 1)).inEq (x k))
    (j : ℕ) (c di ds : K) (d : ℕ → CollData K) (hj : ∀ k, (s k).data[j]? = some (d k))
    (hdi : (d 0).di = di) (hdsd : (d 0).ds = ds) (hdam : (d 0).damping = c) (hhard : (d 0).dtype = .hard)
    (hlt : ds < di) (hc : dt * c ≤ di - ds)
    (heuler : ∀ k, (d (k + 2)).distance = (d (k + 1)).distance
      + dt * pairRate (bodiesOf rbs) (data k) (env k) dt (d k).normal (d (k + 1)) (x k))
    (hfar : ∀ k, di ≤ (d (k + 1)).distance →
      -(di - ds) ≤ dt * pairRate (bodiesOf rbs) (data k) (env k) dt (d k).normal (d (k + 1)) (x k))
    (hstart : ds ≤ (d 1).distance) : ∀ k, ds ≤ (d (k + 1)).distance := by
  have hne : dt ≠ 0 := hdt.ne'
  have inv : ∀ k, CollReach rbs dt (s k) ∧ (s k).data.length ≤ (s k).A.rows ∧
      (s k).A.cols = (s 0).A.cols ∧ (d k).di = di ∧ (d k).ds = ds ∧ (d k).damping = c ∧
      (d k).dtype = .hard := by
    intro k
    induction k with
    | zero => exact ⟨h0, hf, rfl, hdi, hdsd, hdam, hhard⟩
    | succ k ih =>
      obtain ⟨i1, i2, i3, i4, i5, i6, i7⟩ := ih
      have W := collWF hR hne i1
      obtain ⟨st, e, I⟩ := coll_update (W.ready hne hR (hd k) (he k) (ht k) i2) (poses k)
      rw [hu k] at e
      cases e
      obtain ⟨d', q1, G, D⟩ := I.done j (List.getElem?_eq_some_iff.mp (hj k)).1 _ (hj k)
      have q1' : (s (k + 1)).data[j]? = some d' := q1
      rw [hj (k + 1)] at q1'
      cases q1'
      have hD : (d (k + 1)).damping = (d k).damping ∧ (d (k + 1)).dtype = .hard := by
        unfold DampingOf at D
        rw [i7] at D
        split at D
        · rw [if_neg (by decide)] at D
          exact ⟨D.2, D.1⟩
        · rw [if_neg (by decide)] at D
          exact D
      refine ⟨CollReach.update _ _ _ _ _ _ i1 (hd k) (he k) (ht k) i2 (hu k), ?_, ?_, ?_, ?_, ?_,
        hD.2⟩
      · have h1 : (s (k + 1)).data.length = (s k).data.length := I.len
        have h2 : (s (k + 1)).A.rows = (s k).A.rows := I.Arows
        omega
      · exact I.Acols.trans i3
      · rw [G.di]; exact i4
      · rw [G.ds]; exact i5
      · rw [hD.1]; exact i6
  intro k
  induction k with
  | zero => exact hstart
  | succ k ih =>
    obtain ⟨i1, i2, i3, -, -, -, -⟩ := inv k
    obtain ⟨-, -, -, i4, i5, i6, -⟩ := inv (k + 1)
    refine damper_step hlt hdt hc ih (heuler k) ?_ (hfar k)
    intro ha
    obtain ⟨s', p', e, _, hsat⟩ := C33_update hR hne i1 (hd k) (he k) (ht k) i2 (poses k)
    rw [hu k] at e
    cases e
    have := (hsat (x k)).mp (by rw [i3]; exact hx k) j _ _ (hj k) (hj (k + 1)) (by rw [i4]; exact ha)
    unfold DamperOK at this
    rw [i4, i5, i6] at this
    exact this

/-- C57, collisions: with a nonnegative offset the automatic damping makes a damper that, outside the
security distance, admits both the current rate of the distance and standing still. -/
theorem C57_collision (env : CollEnv K) (d : CollData K) (n : V3 K) (hds : d.ds < d.di)
    (hoff : 0 ≤ d.off) (hd : d.ds < d.distance) (hdam : d.damping = autoDamping env d n) :
    -(d.damping * ((d.distance - d.ds) / (d.di - d.ds)))
        ≤ signedSum (d.bodies.map fun b => n.dot (bodyVel env b)) ∧
      -(d.damping * ((d.distance - d.ds) / (d.di - d.ds))) ≤ 0 := by
  have h1 : 0 < d.di - d.ds := by linarith
  have h2 : 0 < d.distance - d.ds := by linarith
  set v := signedSum (d.bodies.map fun b => n.dot (bodyVel env b)) with hv
  have e : d.damping * ((d.distance - d.ds) / (d.di - d.ds))
      = |v| + d.off * ((d.distance - d.ds) / (d.di - d.ds)) := by
    rw [hdam]
    unfold autoDamping
    rw [if_neg (not_le.mpr hd), ← hv]
    field_simp
  have h3 : 0 ≤ d.off * ((d.distance - d.ds) / (d.di - d.ds)) :=
    mul_nonneg hoff (div_nonneg h2.le h1.le)
  rw [e]
  constructor
  · linarith [neg_abs_le v]
  · linarith [abs_nonneg v]

end

end Verif
