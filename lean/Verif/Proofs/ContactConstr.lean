import Verif.Model.ContactConstr
import Verif.Props.Contacts
import Verif.Proofs.Jacobian
import Verif.Proofs.Collision
import Verif.Props.BoundedSpeed
import Verif.Proofs.Image

/-! # Helper lemmas for the contact motion constraints -/

set_option autoImplicit false
set_option linter.unusedSectionVars false

namespace Verif

open Finset Spec

/-! ## Maps keyed by contact ids -/

theorem ContactId.lt_irrefl' (a : ContactId) : a.lt a = false := (C18_contactId_order a a a).1

theorem ContactId.lt_trans' {a b c : ContactId} (h : a.lt b = true) (h' : b.lt c = true) : a.lt c = true :=
  (C18_contactId_order a b c).2.2.1 h h'

theorem ContactId.lt_asymm' {a b : ContactId} (h : a.lt b = true) : b.lt a = false :=
  (C18_contactId_order a b a).2.1 h

theorem ContactId.sep (a b : ContactId) : (a.lt b || b.lt a) = true ↔ a ≠ b := by
  have h := (C18_contactId_order a b a).2.2.2.2.1
  rw [ContactId.eq_iff] at h
  constructor
  · rintro h1 rfl
    rw [ContactId.lt_irrefl'] at h1
    cases h1
  · intro hne
    by_contra hc
    rw [Bool.or_eq_true, not_or, Bool.not_eq_true, Bool.not_eq_true] at hc
    exact hne (h.mp hc)

namespace IdMap
variable {α : Type}

/-- The invariant of `std::map`: strictly increasing keys. -/
def Sorted (m : IdMap α) : Prop := m.Pairwise fun a b => a.1.lt b.1 = true

theorem find_cons (k : ContactId) (h : ContactId × α) (t : IdMap α) :
    find k (h :: t) = if k = h.1 then some h.2 else find k t := by
  conv_lhs => unfold find
  by_cases hk : k = h.1
  · rw [if_pos hk, if_neg]
    rw [hk, ContactId.lt_irrefl']
    simp
  · rw [if_neg hk, if_pos ((ContactId.sep _ _).mpr hk)]

theorem erase_cons (k : ContactId) (h : ContactId × α) (t : IdMap α) :
    erase k (h :: t) = if k = h.1 then t else h :: erase k t := by
  conv_lhs => unfold erase
  by_cases hk : k = h.1
  · rw [if_pos hk, if_neg]
    rw [hk, ContactId.lt_irrefl']
    simp
  · rw [if_neg hk, if_pos ((ContactId.sep _ _).mpr hk)]

theorem find_none_of_lt {k : ContactId} {m : IdMap α} (h : ∀ p ∈ m, k.lt p.1 = true) : find k m = none := by
  induction m with
  | nil => rfl
  | cons p t ih =>
    rw [find_cons, if_neg, ih (fun q hq => h q (by simp [hq]))]
    rintro rfl
    have := h p (by simp)
    rw [ContactId.lt_irrefl'] at this
    cases this

theorem mem_insert {k : ContactId} {v : α} {m : IdMap α} {p : ContactId × α} (h : p ∈ insert k v m) :
    p = (k, v) ∨ p ∈ m := by
  induction m with
  | nil => unfold insert at h; simpa using h
  | cons q t ih =>
    unfold insert at h
    split_ifs at h
    · simpa using h
    · rcases List.mem_cons.mp h with h | h
      · right; simp [h]
      · rcases ih h with h | h
        · exact .inl h
        · right; simp [h]
    · exact .inr h

theorem sorted_insert {k : ContactId} {v : α} {m : IdMap α} (h : Sorted m) : Sorted (insert k v m) := by
  induction m with
  | nil => exact List.pairwise_singleton _ _
  | cons q t ih =>
    have h' := List.pairwise_cons.mp h
    unfold insert
    split_ifs with c1 c2
    · refine List.pairwise_cons.mpr ⟨fun p hp => ?_, h⟩
      rcases List.mem_cons.mp hp with rfl | hp
      · exact c1
      · exact ContactId.lt_trans' c1 (h'.1 p hp)
    · refine List.pairwise_cons.mpr ⟨fun p hp => ?_, ih h'.2⟩
      rcases mem_insert hp with rfl | hp
      · exact c2
      · exact h'.1 p hp
    · exact h

theorem find_insert {m : IdMap α} (h : Sorted m) (k k' : ContactId) (v : α) :
    find k' (insert k v m) = if k' = k then some ((find k m).getD v) else find k' m := by
  induction m with
  | nil => unfold insert; rw [find_cons]; rfl
  | cons q t ih =>
    have h' := List.pairwise_cons.mp h
    unfold insert
    split_ifs with c1 c2 c3 c4 c5
    · subst c2
      rw [find_cons, if_pos rfl, find_none_of_lt]
      · rfl
      · intro p hp
        rcases List.mem_cons.mp hp with rfl | hp
        · exact c1
        · exact ContactId.lt_trans' c1 (h'.1 p hp)
    · rw [find_cons, if_neg c2]
    · subst c4
      have hne : k' ≠ q.1 := by rintro rfl; rw [ContactId.lt_irrefl'] at c3; cases c3
      rw [find_cons, if_neg hne, ih h'.2, if_pos rfl, find_cons, if_neg hne]
    · rw [find_cons, find_cons, ih h'.2, if_neg c4]
    · subst c5
      have : k' = q.1 := by
        by_contra hne
        have := (ContactId.sep _ _).mpr hne
        rw [Bool.or_eq_true] at this
        tauto
      rw [find_cons, if_pos this]
      rfl
    · rfl

theorem mem_erase {k : ContactId} {m : IdMap α} {p : ContactId × α} (h : p ∈ erase k m) : p ∈ m := by
  induction m with
  | nil => exact h
  | cons q t ih =>
    rw [erase_cons] at h
    split_ifs at h
    · simp [h]
    · rcases List.mem_cons.mp h with h | h
      · simp [h]
      · simp [ih h]

theorem sorted_erase {k : ContactId} {m : IdMap α} (h : Sorted m) : Sorted (erase k m) := by
  induction m with
  | nil => exact h
  | cons q t ih =>
    have h' := List.pairwise_cons.mp h
    rw [erase_cons]
    split_ifs
    · exact h'.2
    · exact List.pairwise_cons.mpr ⟨fun p hp => h'.1 p (mem_erase hp), ih h'.2⟩

theorem find_erase {m : IdMap α} (h : Sorted m) (k k' : ContactId) :
    find k' (erase k m) = if k' = k then none else find k' m := by
  induction m with
  | nil => unfold erase find; split <;> rfl
  | cons q t ih =>
    have h' := List.pairwise_cons.mp h
    rw [erase_cons]
    split_ifs with c1 c2 c3
    · subst c2; subst c1; exact find_none_of_lt h'.1
    · subst c1; rw [find_cons, if_neg c2]
    · subst c3; rw [find_cons, if_neg c1, ih h'.2, if_pos rfl]
    · rw [find_cons, find_cons, ih h'.2, if_neg c3]

theorem find_eq_some {m : IdMap α} (h : Sorted m) (k : ContactId) (v : α) :
    find k m = some v ↔ (k, v) ∈ m := by
  induction m with
  | nil => simp [find]
  | cons q t ih =>
    have h' := List.pairwise_cons.mp h
    rw [find_cons]
    split_ifs with c
    · subst c
      constructor
      · intro e; cases e; simp
      · intro hm
        rcases List.mem_cons.mp hm with e | hm
        · rw [← e]
        · have := h'.1 _ hm
          rw [ContactId.lt_irrefl'] at this
          cases this
    · rw [ih h'.2]
      constructor
      · intro hm; simp [hm]
      · intro hm
        rcases List.mem_cons.mp hm with e | hm
        · exact absurd (by rw [← e]) c
        · exact hm

theorem find_isSome {m : IdMap α} (k : ContactId) : (find k m).isSome ↔ k ∈ m.map Prod.fst := by
  induction m with
  | nil => simp [find]
  | cons q t ih =>
    rw [find_cons]
    split_ifs with c
    · simp [c]
    · rw [ih]; simp [c]

theorem sorted_nodup {m : IdMap α} (h : Sorted m) : (m.map Prod.fst).Nodup := by
  rw [List.Nodup, List.pairwise_map]
  refine h.imp fun {a b} hab e => ?_
  rw [e, ContactId.lt_irrefl'] at hab
  cases hab

end IdMap

/-! ## The contacts taken from the problem -/

section
variable {K : Type}

theorem common_aux (virt : IdMap Unit) (l : List (BiContact K)) (m : IdMap (PT K × PT K))
    (hm : IdMap.Sorted m) :
    IdMap.Sorted (l.foldl (fun m c =>
      if (IdMap.find c.id virt).isNone then IdMap.insert c.id (c.X_b1_cf, c.X_b1_b2) m else m) m) ∧
    ∀ id, IdMap.find id (l.foldl (fun m c =>
      if (IdMap.find c.id virt).isNone then IdMap.insert c.id (c.X_b1_cf, c.X_b1_b2) m else m) m)
      = (IdMap.find id m).or (if (IdMap.find id virt).isNone then
          (l.find? fun c => decide (c.id = id)).map fun c => (c.X_b1_cf, c.X_b1_b2) else none) := by
  induction l generalizing m with
  | nil => exact ⟨hm, fun id => by simp⟩
  | cons c t ih =>
    rw [List.foldl_cons]
    by_cases hv : (IdMap.find c.id virt).isNone
    · rw [if_pos hv]
      obtain ⟨h1, h2⟩ := ih _ (IdMap.sorted_insert hm)
      refine ⟨h1, fun id => ?_⟩
      rw [h2 id, IdMap.find_insert hm, List.find?_cons]
      by_cases hc : id = c.id
      · subst hc
        rw [if_pos rfl, if_pos hv]
        simp only [decide_true]
        cases IdMap.find c.id m <;> simp [hv]
      · rw [if_neg hc]
        simp [Ne.symm hc]
    · rw [if_neg hv]
      obtain ⟨h1, h2⟩ := ih _ hm
      refine ⟨h1, fun id => ?_⟩
      rw [h2 id, List.find?_cons]
      by_cases hc : id = c.id
      · subst hc
        rw [if_neg hv, if_neg hv]
      · simp [Ne.symm hc]

theorem common_sorted (d : SolverData K) (s : ContactReg K) : IdMap.Sorted (s.common d) :=
  (common_aux s.virt d.allCont [] List.Pairwise.nil).1

theorem common_find (d : SolverData K) (s : ContactReg K) (id : ContactId) :
    IdMap.find id (s.common d) = if (IdMap.find id s.virt).isNone then
      (d.allCont.find? fun c => decide (c.id = id)).map fun c => (c.X_b1_cf, c.X_b1_b2) else none := by
  have := (common_aux s.virt d.allCont [] List.Pairwise.nil).2 id
  rw [show IdMap.find id ([] : IdMap (PT K × PT K)) = none from rfl, Option.none_or] at this
  exact this

end

/-! ## Construction of the contacts -/

section
variable {K : Type} [Field K] [LinearOrder K] [IsStrictOrderedRing K]

namespace Spec

/-- The contracts of RBDyn: joint paths are valid, body indices are in range. -/
structure ContactRobotsOK (rks : List (RobotKin K)) (bidx : ℕ → String → Out ℕ) : Prop where
  lt : ∀ rk ∈ rks, ∀ name p, rk.path name = .ok p → ∀ i ∈ p, i < rk.mb.joints.length
  nodup : ∀ rk ∈ rks, ∀ name p, rk.path name = .ok p → p.Nodup
  last : ∀ rk ∈ rks, ∀ name p b, rk.path name = .ok p → p.getLast? = some b → b < rk.mb.nrBodies
  body : ∀ (r : ℕ) rk name b, rks[r]? = some rk → bidx r name = .ok b → b < rk.mb.nrBodies

/-- The side of a contact on a robot: there is one exactly when the robot can move. -/
def SideOf (rks : List (RobotKin K)) (bidx : ℕ → String → Out ℕ) (d : SolverData K) (r : ℤ) (body : String)
    (sign : K) (X : PT K) (l : List (ContactSide K)) (b : ℕ) : Prop :=
  0 ≤ r ∧ ∃ rk, rks[r.toNat]? = some rk ∧
    ((0 < rk.mb.nrDof ∧ ∃ a path, d.alphaDBegin[r.toNat]? = some a ∧ rk.path body = .ok path ∧
        path.getLast? = some b ∧ l = [⟨r.toNat, a, b, sign, path, X⟩]) ∨
     (rk.mb.nrDof = 0 ∧ bidx r.toNat body = .ok b ∧ l = []))

end Spec

theorem vecAtI_eq_ok {α : Type} {l : List α} {i : ℤ} {a : α} (h : vecAtI l i = .ok a) :
    0 ≤ i ∧ l[i.toNat]? = some a := by
  unfold vecAtI at h
  split at h
  · cases h
  · exact ⟨by omega, vecAt_eq_ok.mp h⟩

theorem vecAtI_ok {α : Type} {l : List α} {i : ℤ} {a : α} (h0 : 0 ≤ i) (h : l[i.toNat]? = some a) :
    vecAtI l i = .ok a := by
  unfold vecAtI
  rw [if_neg (by omega)]
  exact vecAt_eq_ok.mpr h

theorem addSide_eq_ok {rks : List (RobotKin K)} {bidx : ℕ → String → Out ℕ} {d : SolverData K} {r : ℤ}
    {body : String} {sign : K} {X : PT K} {l : List (ContactSide K)} {o : List (ContactSide K) × ℕ}
    (h : addSide rks bidx d r body sign X l = .ok o) :
    ∃ l', o.1 = l ++ l' ∧ SideOf rks bidx d r body sign X l' o.2 := by
  unfold addSide at h
  obtain ⟨rk, h1, h⟩ := Out.bind_eq_ok.mp h
  obtain ⟨h0, h1⟩ := vecAtI_eq_ok h1
  split at h
  · rename_i hpos
    obtain ⟨a, h2, h⟩ := Out.bind_eq_ok.mp h
    obtain ⟨path, h3, h⟩ := Out.bind_eq_ok.mp h
    split at h
    · cases h
    · rename_i b hb
      cases h
      exact ⟨_, rfl, h0, rk, h1, .inl ⟨hpos, a, path, (vecAtI_eq_ok h2).2, h3, hb, rfl⟩⟩
  · rename_i hpos
    obtain ⟨b, h2, h⟩ := Out.bind_eq_ok.mp h
    cases h
    exact ⟨[], by simp, h0, rk, h1, .inr ⟨by omega, h2, rfl⟩⟩

namespace Spec

/-- What `updateNrVars` builds for a contact: the sides of body 1 and body 2. -/
structure Built (rks : List (RobotKin K)) (bidx : ℕ → String → Out ℕ) (d : SolverData K)
    (reg : ContactReg K) (e : ContactId × PT K × PT K) (c : ContactData K) : Prop where
  id : c.id = e.1
  cf : c.X_b1_cf = e.2.1
  bb : c.X_b1_b2 = e.2.2
  dof : c.dof = reg.dofOf e.1
  rev : revOf (reg.dofOf e.1) = .ok c.rev
  r1 : c.r1 = e.1.r1Index.toNat
  r2 : c.r2 = e.1.r2Index.toNat
  sides : ∃ l1 l2, c.contacts = l1 ++ l2 ∧
    SideOf rks bidx d e.1.r1Index e.1.r1BodyName 1 e.2.1 l1 c.b1 ∧
    SideOf rks bidx d e.1.r2Index e.1.r2BodyName (-1) (e.2.1.mul e.2.2.inv) l2 c.b2

end Spec

theorem buildContact_eq_ok {rks : List (RobotKin K)} {bidx : ℕ → String → Out ℕ} {d : SolverData K}
    {reg : ContactReg K} {e : ContactId × PT K × PT K} {c : ContactData K}
    (h : buildContact rks bidx d reg e = .ok c) : Built rks bidx d reg e c := by
  unfold buildContact at h
  obtain ⟨s1, h1, h⟩ := Out.bind_eq_ok.mp h
  obtain ⟨s2, h2, h⟩ := Out.bind_eq_ok.mp h
  obtain ⟨rev, h3, h⟩ := Out.bind_eq_ok.mp h
  cases h
  obtain ⟨l1, e1, g1⟩ := addSide_eq_ok h1
  obtain ⟨l2, e2, g2⟩ := addSide_eq_ok h2
  exact ⟨rfl, rfl, rfl, rfl, h3, rfl, rfl, l1, l2, by rw [e2, e1]; simp, g1, g2⟩

theorem build_loop {rks : List (RobotKin K)} {bidx : ℕ → String → Out ℕ} {d : SolverData K}
    {reg : ContactReg K} (l : List (ContactId × PT K × PT K)) (acc cs : List (ContactData K))
    (h : forEach l (fun c (l : List (ContactData K)) => do
      let cd ← buildContact rks bidx d reg c
      pure (l ++ [cd])) acc = .ok cs) :
    ∃ l', cs = acc ++ l' ∧ List.Forall₂ (Built rks bidx d reg) l l' := by
  induction l generalizing acc with
  | nil => cases h; exact ⟨[], by simp, .nil⟩
  | cons e t ih =>
    obtain ⟨s1, h1, h⟩ := Out.bind_eq_ok.mp h
    obtain ⟨cd, h2, h1⟩ := Out.bind_eq_ok.mp h1
    cases h1
    obtain ⟨l', e', f⟩ := ih _ h
    exact ⟨cd :: l', by rw [e']; simp, .cons (buildContact_eq_ok h2) f⟩

/-! ## Shapes -/

/-- What does not change in a contact: everything but the frame of body 2. -/
def sideKey (c : ContactSide K) : ℕ × ℕ × ℕ × K × List ℕ :=
  (c.robotIndex, c.alphaDBegin, c.bodyIndex, c.sign, c.path)

structure SameContact (c c' : ContactData K) : Prop where
  sides : c'.contacts.map sideKey = c.contacts.map sideKey
  dof : c'.dof = c.dof
  rev : c'.rev = c.rev
  r1 : c'.r1 = c.r1
  r2 : c'.r2 = c.r2
  b1 : c'.b1 = c.b1
  b2 : c'.b2 = c.b2
  cf : c'.X_b1_cf = c.X_b1_cf
  id : c'.id = c.id

theorem SameContact.refl (c : ContactData K) : SameContact c c :=
  ⟨rfl, rfl, rfl, rfl, rfl, rfl, rfl, rfl, rfl⟩

theorem map_sideKey_set (l : List (ContactSide K)) (i : ℕ) (sd : ContactSide K) (X : PT K)
    (h : l[i]? = some sd) : (l.set i { sd with X_b_p := X }).map sideKey = l.map sideKey := by
  rw [List.map_set]
  apply List.ext_getElem?
  intro j
  rw [List.getElem?_set]
  split_ifs with c1 c2
  · subst c1
    rw [List.getElem?_map, h]
    rfl
  · subst c1
    rw [List.getElem?_eq_none (not_lt.mp c2)]
  · rfl

theorem contactData_update_same {env : ContactEnv K} {c c' : ContactData K} (h : c.update env = .ok c') :
    SameContact c c' := by
  unfold ContactData.update at h
  split at h
  · obtain ⟨sd, h1, h⟩ := Out.bind_eq_ok.mp h
    obtain ⟨r, h2, h⟩ := Out.bind_eq_ok.mp h
    cases h
    exact ⟨map_sideKey_set _ _ _ _ (vecAt_eq_ok.mp h1), rfl, rfl, rfl, rfl, rfl, rfl, rfl, rfl⟩
  · obtain ⟨sd, h1, h⟩ := Out.bind_eq_ok.mp h
    split at h
    · cases h; exact .refl _
    · obtain ⟨r, h2, h⟩ := Out.bind_eq_ok.mp h
      cases h
      exact ⟨map_sideKey_set _ _ _ _ (vecAt_eq_ok.mp h1), rfl, rfl, rfl, rfl, rfl, rfl, rfl, rfl⟩

/-- The part of a side that the updates rely on. -/
structure SideOK (mbs : List (MultiBody K)) (tot maxD : ℕ) (c : ℕ × ℕ × ℕ × K × List ℕ) : Prop where
  ok : ∃ mb, mbs[c.1]? = some mb ∧ (∀ i ∈ c.2.2.2.2, i < mb.joints.length) ∧ c.2.2.2.2.Nodup ∧
    c.2.1 + mb.nrDof ≤ tot ∧ mb.nrDof ≤ maxD ∧ c.2.2.1 < mb.nrBodies

/-- The buffers fit. -/
structure BufOK (n tot N maxD : ℕ) (B : ContactBuf K) : Prop where
  le : tot ≤ n
  rows : B.A.rows = N
  cols : B.A.cols = n
  b : B.b.size = N
  fr : B.fullJac.rows = 6
  fc : B.fullJac.cols = maxD
  dr : B.dofJac.rows = 6
  dc : B.dofJac.cols = maxD
  zero : ∀ (i c : ℕ), tot ≤ c → B.A.get i c = 0

theorem mat_block_dims {m b : Mat K} {i j r c : ℕ} (h : m.block i j r c = .ok b) :
    b.rows = r ∧ b.cols = c := by
  unfold Mat.block at h
  split at h
  · cases h; exact ⟨rfl, rfl⟩
  · cases h

theorem contactSide_frame {mbs : List (MultiBody K)} {env : ContactEnv K} {kind : ContactKind K}
    {dof : Mat K} {index : ℕ} {c : ContactSide K} {B B' : ContactBuf K} {n tot N maxD : ℕ}
    (h : contactSide mbs env kind dof index c B = .ok B') (hs : SideOK mbs tot maxD (sideKey c))
    (R : BufOK n tot N maxD B) : BufOK n tot N maxD B' := by
  obtain ⟨mb, k1, -, -, k4, -, -⟩ := hs.ok
  unfold contactSide at h
  obtain ⟨mb', h1, h⟩ := Out.bind_eq_ok.mp h
  rw [vecAt_eq_ok] at h1
  change mbs[c.robotIndex]? = _ at k1
  rw [k1] at h1
  cases h1
  obtain ⟨X, h2, h⟩ := Out.bind_eq_ok.mp h
  obtain ⟨P, h3, h⟩ := Out.bind_eq_ok.mp h
  obtain ⟨_, h4, h⟩ := Out.bind_eq_ok.mp h
  obtain ⟨dj, h5, h⟩ := Out.bind_eq_ok.mp h
  obtain ⟨blk, h6, h⟩ := Out.bind_eq_ok.mp h
  obtain ⟨fj, h7, h⟩ := Out.bind_eq_ok.mp h
  obtain ⟨fb, h8, h⟩ := Out.bind_eq_ok.mp h
  obtain ⟨A, h9, h⟩ := Out.bind_eq_ok.mp h
  obtain ⟨bias, h10, h⟩ := Out.bind_eq_ok.mp h
  obtain ⟨w, h11, h⟩ := Out.bind_eq_ok.mp h
  obtain ⟨b, h12, h⟩ := Out.bind_eq_ok.mp h
  cases h
  have d5 := setBlock_dims h5
  have d7 := fullJacobian_dims h7
  have d8 := mat_block_dims h8
  unfold Mat.addBlock at h9
  split at h9
  · cases h9
    unfold Vec.addSegment at h12
    split at h12
    · cases h12
      refine ⟨R.le, R.rows, R.cols, R.b, d7.1.trans R.fr, d7.2.trans R.fc, d5.1.trans R.dr,
        d5.2.trans R.dc, fun i q hq => ?_⟩
      dsimp only
      rw [if_neg]
      · exact R.zero i q hq
      · rintro ⟨-, g1, g2⟩
        rw [d8.2] at g2
        change c.alphaDBegin + _ ≤ _ at k4
        omega
    · cases h12
  · cases h9

theorem contactSides_frame {mbs : List (MultiBody K)} {env : ContactEnv K} {kind : ContactKind K}
    {dof : Mat K} {index : ℕ} {l : List (ContactSide K)} {B B' : ContactBuf K} {n tot N maxD : ℕ}
    (h : forEach l (contactSide mbs env kind dof index) B = .ok B')
    (hs : ∀ k ∈ l.map sideKey, SideOK mbs tot maxD k)
    (R : BufOK n tot N maxD B) : BufOK n tot N maxD B' := by
  refine forEach_inv (I := BufOK n tot N maxD) R (fun a ha s s' hI hstep => ?_) h
  exact contactSide_frame hstep (hs _ (List.mem_map_of_mem ha)) hI

theorem contactPosTerm_frame {env : ContactEnv K} {kind : ContactKind K} {c : ContactData K} {index : ℕ}
    {B B' : ContactBuf K} (h : contactPosTerm env kind c index B = .ok B') {n tot N maxD : ℕ}
    (R : BufOK n tot N maxD B) : BufOK n tot N maxD B' := by
  unfold contactPosTerm at h
  split at h
  · cases h; exact R
  · cases h; exact R
  · obtain ⟨e, -, h⟩ := Out.bind_eq_ok.mp h
    obtain ⟨_, -, h⟩ := Out.bind_eq_ok.mp h
    obtain ⟨w, -, h⟩ := Out.bind_eq_ok.mp h
    obtain ⟨b, h1, h⟩ := Out.bind_eq_ok.mp h
    cases h
    unfold Vec.addSegment at h1
    split at h1
    · cases h1
      exact ⟨R.le, R.rows, R.cols, R.b, R.fr, R.fc, R.dr, R.dc, R.zero⟩
    · cases h1

theorem contactClear_frame {kind : ContactKind K} {s : ContactC K} {B : ContactBuf K} {n tot N maxD : ℕ}
    (h : s.clear kind = .ok B) (R : BufOK n tot N maxD s.buf) : BufOK n tot N maxD B := by
  have gen : ∀ (h : (do
      let A ← s.buf.A.setBlock 0 0 (Mat.zero s.nrEq s.totalAlphaD)
      let b ← s.buf.b.setSegment 0 ⟨s.nrEq, fun _ => (0 : K)⟩
      pure { s.buf with
        A := A
        b := b }) = Out.ok B), BufOK n tot N maxD B := by
    intro h
    obtain ⟨A, h1, h⟩ := Out.bind_eq_ok.mp h
    obtain ⟨b, h2, h⟩ := Out.bind_eq_ok.mp h
    cases h
    have d1 := setBlock_dims h1
    have d2 := setSegment_size h2
    unfold Mat.setBlock at h1
    split at h1
    · cases h1
      refine ⟨R.le, R.rows, R.cols, d2.trans R.b, R.fr, R.fc, R.dr, R.dc, fun i c hc => ?_⟩
      dsimp only [Mat.zero]
      by_cases hb : (0 ≤ i ∧ i < 0 + s.nrEq) ∧ 0 ≤ c ∧ c < 0 + s.totalAlphaD
      · exact if_pos hb
      · exact (if_neg hb).trans (R.zero i c hc)
    · cases h1
  unfold ContactC.clear at h
  split at h
  · cases h
    exact ⟨R.le, R.rows, R.cols, R.b, R.fr, R.fc, R.dr, R.dc, fun _ _ _ => rfl⟩
  · exact gen h

theorem contactLoop_frame {mbs : List (MultiBody K)} {env : ContactEnv K} {kind : ContactKind K}
    {n tot N maxD : ℕ} (l : List (ContactData K))
    (hs : ∀ c ∈ l, ∀ k ∈ c.contacts.map sideKey, SideOK mbs tot maxD k)
    (s r : ContactBuf K × ℕ × List (ContactData K)) (R : BufOK n tot N maxD s.1)
    (h : forEach l (contactStep mbs env kind) s = .ok r) :
    BufOK n tot N maxD r.1 ∧ ∃ l', r.2.2 = s.2.2 ++ l' ∧
      List.Forall₂ (fun c c' => c.update env = .ok c') l l' := by
  induction l generalizing s with
  | nil => cases h; exact ⟨R, [], by simp, .nil⟩
  | cons c t ih =>
    obtain ⟨s1, h1, h⟩ := Out.bind_eq_ok.mp h
    obtain ⟨c', h2, h1⟩ := Out.bind_eq_ok.mp h1
    obtain ⟨B1, h3, h1⟩ := Out.bind_eq_ok.mp h1
    obtain ⟨B2, h4, h1⟩ := Out.bind_eq_ok.mp h1
    cases h1
    have same := contactData_update_same h2
    have R1 := contactSides_frame h3 (by rw [same.sides]; exact hs c (by simp)) R
    have R2 := contactPosTerm_frame h4 R1
    obtain ⟨R3, l', e, f⟩ := ih (fun c hc => hs c (by simp [hc])) _ R2 h
    exact ⟨R3, c' :: l', by rw [e]; simp, .cons h2 f⟩

/-! ## Exact rows -/

namespace Spec

/-- Component `k` of the acceleration of the contact frame of a side: `J α̇ + Ψ`. -/
def sideAcc (mbs : List (MultiBody K)) (env : ContactEnv K) (x : ℕ → K) (c : ContactSide K) (k : ℕ) : K :=
  match mbs[c.robotIndex]?, (env.bodyPosW[c.robotIndex]?).bind (fun l => l[c.bodyIndex]?) with
  | some mb, some X => ∑ q ∈ range mb.nrDof, onDofs mb c.path (fun p =>
      (env.jac c.robotIndex c.path (c.X_b_p.mul X)).get k p) q * x (c.alphaDBegin + q)
      + env.nacc c.robotIndex c.path c.X_b_p k
  | _, _ => 0

/-- Component `k` of the velocity of the contact frame of a side. -/
def sideVel (env : ContactEnv K) (c : ContactSide K) (k : ℕ) : K := env.vel c.robotIndex c.path c.X_b_p k

/-- Relative acceleration of the two contact frames: body 1 minus body 2. -/
def relAcc (mbs : List (MultiBody K)) (env : ContactEnv K) (x : ℕ → K) (c : ContactData K) (k : ℕ) : K :=
  (c.contacts.map fun sd => sd.sign * sideAcc mbs env x sd k).sum

/-- Relative velocity of the two contact frames. -/
def relVel (env : ContactEnv K) (c : ContactData K) (k : ℕ) : K :=
  (c.contacts.map fun sd => sd.sign * sideVel env sd k).sum

/-- The pose of the frame of body 2 in the frame of body 1: rotation vector and translation. -/
def relErr (env : ContactEnv K) (c : ContactData K) (k : ℕ) : K :=
  match (env.bodyPosW[c.r1]?).bind (fun l => l[c.b1]?), (env.bodyPosW[c.r2]?).bind (fun l => l[c.b2]?) with
  | some X1, some X2 =>
    let rel := ((c.X_b1_cf.mul c.X_b1_b2.inv).mul X2).mul (c.X_b1_cf.mul X1).inv
    if k < 3 then (env.rotVel rel.E).get k else rel.r.get (k - 3)
  | _, _ => 0

/-- What a row of a contact says. -/
def ContactRow (mbs : List (MultiBody K)) (env : ContactEnv K) (kind : ContactKind K) (x : ℕ → K)
    (c : ContactData K) (r : ℕ) : Prop :=
  match kind with
  | .acc => ∑ k ∈ range 6, c.dof.get r k * relAcc mbs env x c k = 0
  | .speed dt => ∑ k ∈ range 6, c.dof.get r k * (relVel env c k + dt * relAcc mbs env x c k) = 0
  | .pos dt => ∑ k ∈ range 6, c.dof.get r k * (relVel env c k + dt * relAcc mbs env x c k)
      = ∑ k ∈ range 6, c.dof.get r k * relErr env c k

/-- RBDyn's data have the documented sizes. -/
structure ContactEnvOK (rks : List (RobotKin K)) (env : ContactEnv K) : Prop where
  poses : ∀ (r : ℕ) rk, rks[r]? = some rk → ∃ l, env.bodyPosW[r]? = some l ∧ l.length = rk.mb.nrBodies
  jac : ∀ (r : ℕ) rk path X, rks[r]? = some rk →
    (env.jac r path X).rows = 6 ∧ (env.jac r path X).cols = pathDof rk.mb path

/-- The time step of the last two constraints is positive. -/
def KindOK : ContactKind K → Prop
  | .acc => True
  | .speed dt => 0 < dt
  | .pos dt => 0 < dt

end Spec

/-- The residual of a line. -/
def resid (n : ℕ) (B : ContactBuf K) (i : ℕ) (x : ℕ → K) : K := lineVal n B.A i x - B.b.get i

/-- The bias of a side for a kind of constraint. -/
def biasF (env : ContactEnv K) (kind : ContactKind K) (c : ContactSide K) (k : ℕ) : K :=
  match kind with
  | .acc => env.nacc c.robotIndex c.path c.X_b_p k
  | .speed dt => env.nacc c.robotIndex c.path c.X_b_p k + env.vel c.robotIndex c.path c.X_b_p k / dt
  | .pos dt => env.nacc c.robotIndex c.path c.X_b_p k + env.vel c.robotIndex c.path c.X_b_p k / dt

theorem contactBias_ok (env : ContactEnv K) {kind : ContactKind K} (hk : KindOK kind) (c : ContactSide K) :
    contactBias env kind c = .ok (biasF env kind c) := by
  cases kind with
  | acc => rfl
  | speed dt =>
    have : 0 < dt := hk
    unfold contactBias
    dsimp only
    rw [guardUB_ok this.ne', Out.ok_bind]; rfl
  | pos dt =>
    have : 0 < dt := hk
    unfold contactBias
    dsimp only
    rw [guardUB_ok this.ne', Out.ok_bind]; rfl

theorem pose_ok {env : ContactEnv K} {r b : ℕ} {l : List (PT K)} (h : env.bodyPosW[r]? = some l)
    (hb : b < l.length) : env.pose r b = .ok l[b] ∧ (env.bodyPosW[r]?).bind (fun l => l[b]?) = some l[b] := by
  constructor
  · unfold ContactEnv.pose
    rw [vecAt_eq_ok.mpr h, Out.ok_bind, vecAt_ok hb]
  · rw [h]; simp [hb]

/-- What a side contributes to the residual of row `r` of its contact. -/
def sideRes (mbs : List (MultiBody K)) (env : ContactEnv K) (kind : ContactKind K) (dof : Mat K) (x : ℕ → K)
    (c : ContactSide K) (r : ℕ) : K :=
  c.sign * ∑ k ∈ range 6, dof.get r k *
    (sideAcc mbs env x c k + (biasF env kind c k - env.nacc c.robotIndex c.path c.X_b_p k))

theorem contactSide_ok {rks : List (RobotKin K)} {mbs : List (MultiBody K)}
    (hmbs : mbs = rks.map fun rk => rk.mb) {env : ContactEnv K} (he : ContactEnvOK rks env)
    {kind : ContactKind K} (hk : KindOK kind) {dof : Mat K} (hd1 : dof.rows ≤ 6) (hd2 : dof.cols = 6)
    {index : ℕ} {c : ContactSide K} {B : ContactBuf K} {n tot N maxD : ℕ} (hN : index + dof.rows ≤ N)
    (hs : SideOK mbs tot maxD (sideKey c)) (R : BufOK n tot N maxD B) :
    ∃ B', contactSide mbs env kind dof index c B = .ok B' ∧ ∀ i x, resid n B' i x = resid n B i x +
      if index ≤ i ∧ i < index + dof.rows then sideRes mbs env kind dof x c (i - index) else 0 := by
  obtain ⟨mb, k1, k2, k3, k4, k5, k6⟩ := hs.ok
  change mbs[c.robotIndex]? = _ at k1
  change ∀ i ∈ c.path, _ at k2
  change c.path.Nodup at k3
  change c.alphaDBegin + _ ≤ _ at k4
  change c.bodyIndex < _ at k6
  have hrk : ∃ rk, rks[c.robotIndex]? = some rk ∧ rk.mb = mb := by
    rw [hmbs, List.getElem?_map] at k1
    cases hr : rks[c.robotIndex]? with
    | none => rw [hr] at k1; cases k1
    | some rk => rw [hr] at k1; cases k1; exact ⟨rk, rfl, rfl⟩
  obtain ⟨rk, hrk, rfl⟩ := hrk
  obtain ⟨ps, hp1, hp2⟩ := he.poses _ _ hrk
  obtain ⟨p1, p2⟩ := pose_ok hp1 (b := c.bodyIndex) (by omega)
  set X := ps[c.bodyIndex]'(by omega) with hX
  obtain ⟨j1, j2⟩ := he.jac _ _ c.path (c.X_b_p.mul X) hrk
  set J := env.jac c.robotIndex c.path (c.X_b_p.mul X) with hJ
  have hpd : pathDof rk.mb c.path ≤ rk.mb.nrDof := collPathDof_le _ _ k2 k3
  have eP : dof.mul J = .ok ⟨dof.rows, J.cols, fun i j =>
      ∑ k ∈ Finset.range dof.cols, dof.get i k * J.get k j⟩ := if_pos (by rw [hd2, j1])
  set P : Mat K := ⟨dof.rows, J.cols, fun i j => ∑ k ∈ Finset.range dof.cols, dof.get i k * J.get k j⟩ with hP
  obtain ⟨dj, e5, v5⟩ : ∃ dj, B.dofJac.setBlock 0 0 ⟨P.rows, P.cols, fun i j => c.sign * P.get i j⟩ = .ok dj ∧
      dj.rows = 6 ∧ dj.cols = maxD ∧ ∀ i < dof.rows, ∀ j < J.cols, dj.get i j = c.sign * P.get i j := by
    unfold Mat.setBlock
    rw [if_pos ⟨by rw [R.dr]; dsimp only [P]; omega, by rw [R.dc]; dsimp only [P]; omega⟩]
    refine ⟨_, rfl, R.dr, R.dc, fun i hi j hj => ?_⟩
    dsimp only
    rw [if_pos ⟨⟨by omega, by dsimp only [P]; omega⟩, by omega, by dsimp only [P]; omega⟩]
    simp
  have e6 : dj.block 0 0 dof.rows (pathDof rk.mb c.path)
      = .ok ⟨dof.rows, pathDof rk.mb c.path, fun a b => dj.get (0 + a) (0 + b)⟩ :=
    if_pos ⟨by omega, by omega⟩
  obtain ⟨fj, e7, f1, f2, f3⟩ := fullJacobian_ok rk.mb c.path
    ⟨dof.rows, pathDof rk.mb c.path, fun a b => dj.get (0 + a) (0 + b)⟩ B.fullJac k2 k3 le_rfl
    (by rw [R.fr]; exact hd1) (by rw [R.fc]; exact k5)
  have e8 : fj.block 0 0 dof.rows rk.mb.nrDof = .ok ⟨dof.rows, rk.mb.nrDof, fun a b => fj.get (0 + a) (0 + b)⟩ :=
    if_pos ⟨by rw [f1, R.fr]; omega, by rw [f2, R.fc]; omega⟩
  have e9 : B.A.addBlock index c.alphaDBegin 1 ⟨dof.rows, rk.mb.nrDof, fun a b => fj.get (0 + a) (0 + b)⟩
      = .ok { B.A with
        get := fun a b => if (index ≤ a ∧ a < index + dof.rows) ∧ c.alphaDBegin ≤ b ∧
            b < c.alphaDBegin + rk.mb.nrDof then
          B.A.get a b + 1 * fj.get (0 + (a - index)) (0 + (b - c.alphaDBegin)) else B.A.get a b } :=
    if_pos ⟨by rw [R.rows]; exact hN, by rw [R.cols]; have := R.le; dsimp only; omega⟩
  have e10 := contactBias_ok env hk c
  have e11 : dof.mulVec6 (biasF env kind c) = .ok ⟨dof.rows, fun i => ∑ k ∈ Finset.range 6,
      dof.get i k * biasF env kind c k⟩ := if_pos hd2
  have e12 : B.b.addSegment index (-1) ⟨dof.rows, fun i => c.sign * ∑ k ∈ Finset.range 6,
      dof.get i k * biasF env kind c k⟩ = .ok { B.b with
        get := fun a => if index ≤ a ∧ a < index + dof.rows then B.b.get a + -1 * (c.sign *
          ∑ k ∈ Finset.range 6, dof.get (a - index) k * biasF env kind c k) else B.b.get a } :=
    if_pos (by rw [R.b]; exact hN)
  refine Exists.intro (ContactBuf.mk fj dj { B.A with
        get := fun a b => if (index ≤ a ∧ a < index + dof.rows) ∧ c.alphaDBegin ≤ b ∧
            b < c.alphaDBegin + rk.mb.nrDof then
          B.A.get a b + 1 * fj.get (0 + (a - index)) (0 + (b - c.alphaDBegin)) else B.A.get a b }
      { B.b with
        get := fun a => if index ≤ a ∧ a < index + dof.rows then B.b.get a + -1 * (c.sign *
          ∑ k ∈ Finset.range 6, dof.get (a - index) k * biasF env kind c k) else B.b.get a })
    (And.intro ?_ fun i x => ?_)
  · unfold contactSide
    rw [vecAt_eq_ok.mpr k1, Out.ok_bind, p1, Out.ok_bind, eP, Out.ok_bind, guardUB_ok j2, Out.ok_bind, e5,
      Out.ok_bind, e6, Out.ok_bind, e7, Out.ok_bind, e8, Out.ok_bind, e9, Out.ok_bind, e10, Out.ok_bind, e11,
      Out.ok_bind, e12, Out.ok_bind]
    rfl
  · unfold resid lineVal
    dsimp only
    by_cases hi : index ≤ i ∧ i < index + dof.rows
    · rw [if_pos hi, if_pos hi]
      have hr : i - index < dof.rows := by omega
      have hA : ∑ j ∈ range n, (if (index ≤ i ∧ i < index + dof.rows) ∧
          c.alphaDBegin ≤ j ∧ j < c.alphaDBegin + rk.mb.nrDof then
          B.A.get i j + 1 * fj.get (0 + (i - index)) (0 + (j - c.alphaDBegin)) else B.A.get i j) * x j
          = ∑ j ∈ range n, B.A.get i j * x j + ∑ q ∈ range rk.mb.nrDof,
            fj.get (i - index) q * x (c.alphaDBegin + q) := by
        rw [← Nat.sub_add_cancel (show 0 ≤ n by omega)]
        have : ∀ j ∈ range n, (if (index ≤ i ∧ i < index + dof.rows) ∧
            c.alphaDBegin ≤ j ∧ j < c.alphaDBegin + rk.mb.nrDof then
            B.A.get i j + 1 * fj.get (0 + (i - index)) (0 + (j - c.alphaDBegin)) else B.A.get i j) * x j
            = B.A.get i j * x j + (if c.alphaDBegin ≤ j ∧ j < c.alphaDBegin + rk.mb.nrDof then
              fj.get (i - index) (j - c.alphaDBegin) * x j else 0) := by
          intro j _
          by_cases hj : c.alphaDBegin ≤ j ∧ j < c.alphaDBegin + rk.mb.nrDof
          · rw [if_pos ⟨hi, hj⟩, if_pos hj, Nat.zero_add, Nat.zero_add]; ring
          · rw [if_neg (fun h => hj h.2), if_neg hj]; ring
        rw [Nat.sub_add_cancel (Nat.zero_le n)]
        rw [sum_congr rfl this, sum_add_distrib, sum_shift_ite n c.alphaDBegin rk.mb.nrDof
          (by have := R.le; omega) (fun j => fj.get (i - index) (j - c.alphaDBegin) * x j)]
        congr 1
        refine sum_congr rfl fun q _ => ?_
        rw [Nat.add_sub_cancel_left]
      rw [hA]
      have hfj : ∑ q ∈ range rk.mb.nrDof, fj.get (i - index) q * x (c.alphaDBegin + q)
          = c.sign * ∑ k ∈ range 6, dof.get (i - index) k * ∑ q ∈ range rk.mb.nrDof,
            onDofs rk.mb c.path (fun p => J.get k p) q * x (c.alphaDBegin + q) := by
        have : ∀ q ∈ range rk.mb.nrDof, fj.get (i - index) q * x (c.alphaDBegin + q)
            = ∑ k ∈ range 6, c.sign * (dof.get (i - index) k * (onDofs rk.mb c.path (fun p => J.get k p) q
              * x (c.alphaDBegin + q))) := by
          intro q hq
          rw [f3 (i - index) hr q (mem_range.mp hq)]
          have h1 : onDofs rk.mb c.path (fun k => dj.get (0 + (i - index)) (0 + k)) q
              = onDofs rk.mb c.path (fun p => ∑ k ∈ range 6, (c.sign * dof.get (i - index) k) * J.get k p) q := by
            apply onDofs_congr
            intro p hp
            rw [Nat.zero_add, Nat.zero_add, v5.2.2 (i - index) hr p (by omega)]
            dsimp only [P]
            rw [hd2, mul_sum]
            exact sum_congr rfl fun k _ => by ring
          rw [h1, onDofs_sum, sum_mul]
          exact sum_congr rfl fun k _ => by ring
        rw [sum_congr rfl this, sum_comm, mul_sum]
        refine sum_congr rfl fun k _ => ?_
        rw [mul_sum, mul_sum]
      rw [hfj]
      unfold sideRes sideAcc
      rw [k1, p2]
      dsimp only
      have : ∀ k, (∑ q ∈ range rk.mb.nrDof, onDofs rk.mb c.path (fun p => J.get k p) q * x (c.alphaDBegin + q)
          + env.nacc c.robotIndex c.path c.X_b_p k
          + (biasF env kind c k - env.nacc c.robotIndex c.path c.X_b_p k))
          = ∑ q ∈ range rk.mb.nrDof, onDofs rk.mb c.path (fun p => J.get k p) q * x (c.alphaDBegin + q)
            + biasF env kind c k := fun k => by ring
      simp only [← hJ, this, mul_add, sum_add_distrib]
      ring
    · rw [if_neg hi, if_neg hi]
      have : ∀ j ∈ range n, (if (index ≤ i ∧ i < index + dof.rows) ∧
          c.alphaDBegin ≤ j ∧ j < c.alphaDBegin + rk.mb.nrDof then
          B.A.get i j + 1 * fj.get (0 + (i - index)) (0 + (j - c.alphaDBegin)) else B.A.get i j) * x j
          = B.A.get i j * x j := by
        intro j _
        rw [if_neg (fun h => hi h.1)]
      rw [sum_congr rfl this]
      ring

end

end Verif
