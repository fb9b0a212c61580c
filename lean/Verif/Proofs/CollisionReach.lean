import Verif.Proofs.CollisionRun

/-! # Reachable states of the collision constraint -/

set_option autoImplicit false
set_option linter.unusedSectionVars false

namespace Verif

open Finset

section
variable {K : Type} [Field K] [LinearOrder K] [IsStrictOrderedRing K]

open Spec

namespace Spec

/-- RBDyn: a joint path names existing joints, each once. -/
def RobotsOK (rbs : List (RobotBodies K)) : Prop :=
  ∀ rb ∈ rbs, ∀ name p, rb.kin.path name = .ok p →
    (∀ j ∈ p, j < rb.kin.mb.joints.length) ∧ p.Nodup

/-- RBDyn and sch-core: every body has a pose, Jacobians have six rows and a column per dof of the
path, `sch::epsilon` is not zero. -/
def CollEnvOK (rbs : List (RobotBodies K)) (env : CollEnv K) : Prop :=
  env.eps ≠ 0 ∧ ∀ (i : ℕ) rb, rbs[i]? = some rb → ∃ r, env.robots[i]? = some r ∧
    (∀ name b, rb.bodyIndex name = .ok b → b < r.bodyPosW.length) ∧
    ∀ name p q, rb.kin.path name = .ok p →
      (r.jac name q).rows = 6 ∧ (r.jac name q).cols = pathDof rb.kin.mb p

/-- The variable layout has room for every robot (see C01). -/
def DataOK (rbs : List (RobotBodies K)) (data : SolverData K) : Prop :=
  data.totalAlphaD ≤ data.nrVars ∧ ∀ (i : ℕ) rb, rbs[i]? = some rb →
    ∃ a, data.alphaDBegin[i]? = some a ∧ a + rb.kin.mb.nrDof ≤ data.totalAlphaD

/-- The robots' structures. -/
def bodiesOf (rbs : List (RobotBodies K)) : List (MultiBody K) := rbs.map fun r => r.kin.mb

/-- The states a user can bring a collision constraint into: constructed, then any sequence of adding
pairs (with `ds ≠ di`), removing, clearing, resizing, and updating with any configuration (once the
pairs added have been allocated and the layout is the last announced one). -/
inductive CollReach (rbs : List (RobotBodies K)) (step : K) : Coll K → Prop
  | make (junk : ℕ → ℕ → K) (s : Coll K) (h : Coll.make (bodiesOf rbs) step junk = .ok s) :
      CollReach rbs step s
  | add (s s' : Coll K) (a : CollArgs K) (junk : V3 K) (hs : CollReach rbs step s)
      (hd : a.ds ≠ a.di) (h : Coll.add rbs a junk s = .ok s') : CollReach rbs step s'
  | rm (s : Coll K) (id : ℤ) (hs : CollReach rbs step s) : CollReach rbs step (s.rm id).2
  | reset (s : Coll K) (hs : CollReach rbs step s) : CollReach rbs step s.reset
  | updateNrVars (s s' : Coll K) (data : SolverData K) (hs : CollReach rbs step s)
      (hd : DataOK rbs data) (h : s.updateNrVars data = .ok s') : CollReach rbs step s'
  | updateNrCollisions (s s' : Coll K) (hs : CollReach rbs step s)
      (h : s.updateNrCollisions = .ok s') : CollReach rbs step s'
  | update (s s' : Coll K) (data : SolverData K) (env : CollEnv K) (poses poses' : ℕ → SchPose K)
      (hs : CollReach rbs step s) (hd : DataOK rbs data) (he : CollEnvOK rbs env)
      (ht : s.totalAlphaD = some data.totalAlphaD) (hf : s.data.length ≤ s.A.rows)
      (h : s.update (bodiesOf rbs) data env poses = .ok (s', poses')) : CollReach rbs step s'

end Spec

/-- A body as `addCollision` builds it. -/
def BodyFrom (rbs : List (RobotBodies K)) (b : BodyColl K) : Prop :=
  ∃ rb, rbs[b.rIndex]? = some rb ∧ rb.kin.path b.body = .ok b.path ∧
    rb.bodyIndex b.body = .ok b.bIndex ∧
    (b.selector.size = 0 ∨ b.selector.size = rb.kin.mb.nrDof)

/-- Invariant of the reachable states. -/
structure CollWF (rbs : List (RobotBodies K)) (step : K) (s : Coll K) : Prop where
  hstep : s.step = step
  hd : s.distJac.rows = 1
  hd' : ∀ mb ∈ bodiesOf rbs, mb.nrDof ≤ s.distJac.cols
  hf : s.fullJac.rows = 1
  hf' : ∀ mb ∈ bodiesOf rbs, mb.nrDof ≤ s.fullJac.cols
  bsize : s.b.size = s.A.rows
  alloc : (s.totalAlphaD = none ∧ s.nrVars = none ∧ s.A.rows = 0) ∨
    ∃ tot n, s.totalAlphaD = some tot ∧ s.nrVars = some n ∧ tot ≤ n ∧ s.A.cols = n ∧
      ∀ i c, tot ≤ c → s.A.get i c = 0
  pairs : ∀ d ∈ s.data, d.ds ≠ d.di ∧ ∀ b ∈ d.bodies, BodyFrom rbs b

theorem le_foldr_max (l : List ℕ) (a : ℕ) (h : a ∈ l) : a ≤ l.foldr max 0 := by
  induction l with
  | nil => simp at h
  | cons b t ih =>
    rcases List.mem_cons.mp h with rfl | h
    · simp
    · exact (ih h).trans (by simp)

theorem withPoint_from {rbs : List (RobotBodies K)} {env : CollEnv K} {b : BodyColl K} (p : V3 K)
    (h : BodyFrom rbs b) : BodyFrom rbs (withPoint env p b) := by
  unfold withPoint
  split
  · split
    · exact h
    · exact h
  · exact h

theorem withPoints_from {rbs : List (RobotBodies K)} {env : CollEnv K} {l : List (BodyColl K)}
    (p q : V3 K) (h : ∀ b ∈ l, BodyFrom rbs b) : ∀ b ∈ withPoints env p q l, BodyFrom rbs b := by
  cases l with
  | nil => intro b hb; simp [withPoints] at hb
  | cons b t =>
    intro c hc
    simp only [withPoints, List.mem_cons, List.mem_map] at hc
    rcases hc with rfl | ⟨e, he, rfl⟩
    · exact withPoint_from _ (h b (by simp))
    · exact withPoint_from _ (h e (by simp [he]))

theorem bodyMake_from {rbs : List (RobotBodies K)} {rb : RobotBodies K} {r : ℕ} {name : String}
    {hull : ℕ} {X : PT K} {sel : Vec K} {b : BodyColl K} (h : rbs[r]? = some rb)
    (hs : sel.size = 0 ∨ sel.size = rb.kin.mb.nrDof)
    (e : BodyColl.make rb r name hull X sel = .ok b) : BodyFrom rbs b := by
  unfold BodyColl.make at e
  simp only [Out.bind_eq_ok] at e
  obtain ⟨p, h1, i, h2, h3⟩ := e
  cases h3
  exact ⟨rb, h, h1, h2, hs⟩

/-- What `addCollision` does. -/
theorem coll_add {rbs : List (RobotBodies K)} {a : CollArgs K} {junk : V3 K} {s s' : Coll K}
    (h : Coll.add rbs a junk s = .ok s') :
    ∃ rb1 rb2 l1 l2, rbs[a.r1]? = some rb1 ∧ rbs[a.r2]? = some rb2 ∧
      (if 0 < rb1.kin.mb.nrDof then ∃ b, l1 = [b] ∧
          BodyColl.make rb1 a.r1 a.body1 a.hull1 a.X1 a.sel1 = .ok b ∧
          (a.sel1.size = 0 ∨ a.sel1.size = rb1.kin.mb.nrDof) else l1 = []) ∧
      (if 0 < rb2.kin.mb.nrDof then ∃ b, l2 = [b] ∧
          BodyColl.make rb2 a.r2 a.body2 a.hull2 a.X2 (if a.r1 = a.r2 then a.sel1 else a.sel2) = .ok b ∧
          (a.sel2.size = 0 ∨ a.sel2.size = rb2.kin.mb.nrDof) else l2 = []) ∧
      s' = { s with data := s.data ++ [⟨a.hull1, a.hull2, 2 * a.di, junk, junk, 0, a.di, a.ds,
        a.damping, l1 ++ l2, if 0 < a.damping then .hard else .free, a.off, a.collId⟩] } := by
  unfold Coll.add at h
  simp only [Out.bind_eq_ok] at h
  obtain ⟨rb1, h1, rb2, h2, l1, h3, l2, h4, h5⟩ := h
  refine ⟨rb1, rb2, l1, l2, vecAt_eq_ok.mp h1, vecAt_eq_ok.mp h2, ?_, ?_, ?_⟩
  · split at h3 <;> rename_i hc
    · rw [if_pos hc]
      simp only [Out.bind_eq_ok] at h3
      obtain ⟨_, g, b, hb, e⟩ := h3
      cases e
      exact ⟨b, rfl, hb, guardUB_eq_ok g⟩
    · rw [if_neg hc]
      cases h3
      rfl
  · split at h4 <;> rename_i hc
    · rw [if_pos hc]
      simp only [Out.bind_eq_ok] at h4
      obtain ⟨_, g, b, hb, e⟩ := h4
      cases e
      exact ⟨b, rfl, hb, guardUB_eq_ok g⟩
    · rw [if_neg hc]
      cases h4
      rfl
  · cases h5
    rfl

theorem CollWF.ready {rbs : List (RobotBodies K)} {step : K} {s : Coll K} (W : CollWF rbs step s)
    (hs : step ≠ 0) (hR : RobotsOK rbs) {data : SolverData K} {env : CollEnv K}
    (hd : DataOK rbs data) (he : CollEnvOK rbs env) (ht : s.totalAlphaD = some data.totalAlphaD)
    (hf : s.data.length ≤ s.A.rows) :
    CollReady (bodiesOf rbs) data env s.A.cols data.totalAlphaD s := by
  obtain ⟨tot, n, a1, a2, a3, a4, a5⟩ : ∃ tot n, s.totalAlphaD = some tot ∧ s.nrVars = some n ∧
      tot ≤ n ∧ s.A.cols = n ∧ ∀ i c, tot ≤ c → s.A.get i c = 0 := by
    rcases W.alloc with h | h
    · rw [h.1] at ht; cases ht
    · exact h
  have htt : tot = data.totalAlphaD := by rw [a1] at ht; exact Option.some.inj ht
  subst htt
  refine ⟨by rw [W.hstep]; exact hs, he.1, ht, by omega, rfl, hf, by rw [W.bsize]; exact hf, W.hd,
    W.hd', W.hf, W.hf', a5, ?_⟩
  intro d hdm
  obtain ⟨h1, h2⟩ := W.pairs d hdm
  refine ⟨h1, ?_⟩
  intro b hb
  obtain ⟨rb, c1, c2, c3, c4⟩ := h2 b hb
  obtain ⟨r, e1, e2, e3⟩ := he.2 _ _ c1
  obtain ⟨al, f1, f2⟩ := hd.2 _ _ c1
  obtain ⟨g1, g2⟩ := hR rb (List.mem_of_getElem? c1) _ _ c2
  exact ⟨rb.kin.mb, r, al, by simp [bodiesOf, c1], e1, f1, f2, g1, g2,
    fun p => (e3 _ _ p c2).1, fun p => (e3 _ _ p c2).2, c4, e2 _ _ c3⟩

theorem foldl_pick_dof (t : List (MultiBody K)) (a : MultiBody K) :
    let r := t.foldl (fun b x => if compareDof b x then x else b) a
    (r = a ∨ r ∈ t) ∧ a.nrDof ≤ r.nrDof ∧ ∀ mb ∈ t, mb.nrDof ≤ r.nrDof := by
  induction t generalizing a with
  | nil => exact ⟨Or.inl rfl, le_rfl, by simp⟩
  | cons x t ih =>
    have h := ih (if compareDof a x then x else a)
    dsimp only [List.foldl_cons] at h ⊢
    obtain ⟨h1, h2, h3⟩ := h
    have ha : a.nrDof ≤ (if compareDof a x then x else a).nrDof := by
      unfold compareDof; split_ifs with hc <;> simp at hc <;> omega
    have hx : x.nrDof ≤ (if compareDof a x then x else a).nrDof := by
      unfold compareDof; split_ifs with hc <;> simp at hc <;> omega
    refine ⟨?_, ha.trans h2, ?_⟩
    · rcases h1 with h1 | h1
      · rw [h1]
        split_ifs
        · exact Or.inr (by simp)
        · exact Or.inl rfl
      · exact Or.inr (by simp [h1])
    · intro mb hmb
      rcases List.mem_cons.1 hmb with rfl | hmb
      · exact hx.trans h2
      · exact h3 mb hmb

/-- The buffer size is the number of dofs of some robot and at least that of each. -/
theorem maxDof_eq_ok {mbs : List (MultiBody K)} {n : ℕ} (h : maxDof mbs = .ok n) :
    (∃ mb ∈ mbs, n = mb.nrDof) ∧ ∀ mb ∈ mbs, mb.nrDof ≤ n := by
  cases mbs with
  | nil => cases h
  | cons a t =>
    obtain ⟨h1, h2, h3⟩ := foldl_pick_dof t a
    obtain rfl := Out.ok.inj h
    refine ⟨⟨_, ?_, rfl⟩, ?_⟩
    · rcases h1 with h1 | h1
      · rw [h1]; simp
      · simp [h1]
    · intro mb hmb
      rcases List.mem_cons.1 hmb with rfl | hmb
      · exact h2
      · exact h3 mb hmb

theorem collWF {rbs : List (RobotBodies K)} (hR : RobotsOK rbs) {step : K} (hs : step ≠ 0)
    {s : Coll K} (h : CollReach rbs step s) : CollWF rbs step s := by
  induction h with
  | make junk s h =>
    unfold Coll.make at h
    simp only [Out.bind_eq_ok] at h
    obtain ⟨n, hn, h⟩ := h
    cases h
    have hle : ∀ mb ∈ bodiesOf rbs, mb.nrDof ≤ n := by
      exact (maxDof_eq_ok hn).2
    exact ⟨rfl, rfl, hle, rfl, hle, rfl, Or.inl ⟨rfl, rfl, rfl⟩, by simp⟩
  | add s s' a junk _ hd h W =>
    obtain ⟨rb1, rb2, l1, l2, h1, h2, h3, h4, rfl⟩ := coll_add h
    refine ⟨W.hstep, W.hd, W.hd', W.hf, W.hf', W.bsize, W.alloc, ?_⟩
    intro d hdm
    rcases List.mem_append.mp hdm with hdm | hdm
    · exact W.pairs d hdm
    · simp at hdm
      subst hdm
      refine ⟨hd, ?_⟩
      intro b hb
      rcases List.mem_append.mp hb with hb | hb
      · split at h3
        · obtain ⟨b', rfl, e, hs⟩ := h3
          simp at hb
          subst hb
          exact bodyMake_from h1 hs e
        · subst h3; simp at hb
      · split at h4
        · rename_i hc
          obtain ⟨b', rfl, e, hs⟩ := h4
          simp at hb
          subst hb
          refine bodyMake_from h2 ?_ e
          split
          · rename_i hr
            rw [hr, h2] at h1
            cases h1
            rw [if_pos hc] at h3
            obtain ⟨_, _, _, h⟩ := h3
            exact h
          · exact hs
        · subst h4; simp at hb
  | rm s id _ W =>
    unfold Coll.rm
    split
    · refine ⟨W.hstep, W.hd, W.hd', W.hf, W.hf', W.bsize, W.alloc, ?_⟩
      intro d hd
      exact W.pairs d (List.mem_of_mem_eraseP hd)
    · exact W
  | reset s _ W =>
    exact ⟨W.hstep, W.hd, W.hd', W.hf, W.hf', W.bsize, W.alloc, by simp [Coll.reset]⟩
  | updateNrVars s s' data _ hd h W =>
    unfold Coll.updateNrVars Coll.updateNrCollisions at h
    cases h
    exact ⟨W.hstep, W.hd, W.hd', W.hf, W.hf', rfl,
      Or.inr ⟨_, _, rfl, rfl, hd.1, rfl, fun _ _ _ => rfl⟩, W.pairs⟩
  | updateNrCollisions s s' _ h W =>
    unfold Coll.updateNrCollisions at h
    rcases W.alloc with ⟨_, a2, _⟩ | ⟨tot, n, a1, a2, a3, a4, a5⟩
    · rw [a2] at h; cases h
    · rw [a2] at h
      cases h
      exact ⟨W.hstep, W.hd, W.hd', W.hf, W.hf', rfl,
        Or.inr ⟨tot, n, a1, rfl, a3, rfl, fun _ _ _ => rfl⟩, W.pairs⟩
  | update s s' data env poses poses' _ hd he ht hf h W =>
    have R := W.ready hs hR hd he ht hf
    obtain ⟨st, e, I⟩ := coll_update R poses
    rw [h] at e
    cases e
    refine ⟨I.step.trans W.hstep, I.hd, I.hd', I.hf, I.hf', ?_, ?_, ?_⟩
    · rw [I.bsize, I.Arows, W.bsize]
    · rcases W.alloc with h | ⟨tot, n, a1, a2, a3, a4, a5⟩
      · rw [h.1] at ht; cases ht
      · refine Or.inr ⟨data.totalAlphaD, n, I.htot, I.nrVars.trans a2, ?_, ?_, I.beyond⟩
        · rw [a1] at ht; cases ht; exact a3
        · exact I.Acols.trans a4
    · intro d hdm
      obtain ⟨j, hj⟩ := List.getElem?_of_mem hdm
      have hjl : j < s.data.length := by
        rw [← I.len]; exact (List.getElem?_eq_some_iff.mp hj).1
      obtain ⟨d', k1, G, _⟩ := I.done j hjl _ (List.getElem?_eq_getElem hjl)
      rw [hj] at k1
      cases k1
      obtain ⟨w1, w2⟩ := W.pairs _ (List.getElem_mem hjl)
      refine ⟨by rw [G.ds, G.di]; exact w1, ?_⟩
      rw [G.bodies]
      exact withPoints_from _ _ w2

end

end Verif
