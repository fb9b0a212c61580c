import Verif.Model.Selector
import Verif.Proofs.Jacobian
import Verif.Proofs.SetPoint
import Mathlib.Data.List.Dedup

/-!
# C46: `JointsSelector`
-/

set_option autoImplicit false
set_option linter.unusedSectionVars false

namespace Verif

open Finset Spec

namespace Spec

variable {K : Type}

/-- Column `c` belongs to the joint called `name`. -/
def ColOf (mb : MultiBody K) (name : String) (c : ℕ) : Prop :=
  ∃ i, mb.joints.findIdx? (fun j => j.name == name) = some i ∧
    jpos mb i ≤ c ∧ c < jpos mb i + jdof mb i

/-- Column `c` is in one of the dof ranges `l` of the joint called `name`. -/
def ColIn (mb : MultiBody K) (name : String) (l : List (ℕ × ℕ)) (c : ℕ) : Prop :=
  ∃ i, mb.joints.findIdx? (fun j => j.name == name) = some i ∧
    ∃ r ∈ l, jpos mb i + r.1 ≤ c ∧ c < jpos mb i + r.1 + r.2

/-- Column `c` is selected: it belongs to a listed joint, and is in its dof ranges if some are given
for it. -/
def ActiveCol (mb : MultiBody K) (names : List String) (dofs : DofMap) (c : ℕ) : Prop :=
  ∃ name ∈ names, (∃ l, (name, l) ∈ dofs ∧ ColIn mb name l c) ∨
    ((∀ l, (name, l) ∉ dofs) ∧ ColOf mb name c)

/-- `J'` is `J` on the columns that satisfy `P` and zero elsewhere, with `n` columns. -/
def MaskedBy (P : ℕ → Prop) (n : ℕ) (J J' : Mat K) [Zero K] : Prop :=
  J'.cols = n ∧ ∀ r < J'.rows, ∀ c < n,
    (P c → J'.get r c = J.get r c) ∧ (¬ P c → J'.get r c = 0)

end Spec

section
variable {K : Type} [CommRing K]

/-- A column is in one of the stored ranges. -/
def coversCol (sel : List (ℕ × ℕ)) (c : ℕ) : Prop := ∃ p ∈ sel, p.1 ≤ c ∧ c < p.1 + p.2

theorem lookup_mem {α : Type} {m : List (String × α)} {n : String} {l : α}
    (h : m.lookup n = some l) : (n, l) ∈ m := by
  induction m with
  | nil => simp at h
  | cons a t ih =>
    obtain ⟨k, v⟩ := a
    rw [List.lookup_cons] at h
    by_cases hk : n = k
    · subst hk
      simp at h
      simp [h]
    · have : (n == k) = false := by simpa using hk
      simp only [this] at h
      exact List.mem_cons_of_mem _ (ih h)

theorem lookup_none_iff {α : Type} {m : List (String × α)} {n : String} :
    m.lookup n = none ↔ ∀ l, (n, l) ∉ m := by
  induction m with
  | nil => simp
  | cons a t ih =>
    obtain ⟨k, v⟩ := a
    rw [List.lookup_cons]
    by_cases hk : n = k
    · subst hk
      simp only [beq_self_eq_true, reduceCtorEq, false_iff, not_forall, not_not]
      exact ⟨v, List.mem_cons_self⟩
    · have : (n == k) = false := by simpa using hk
      simp only [this, ih, List.mem_cons, Prod.mk.injEq, hk, false_and, false_or]

theorem lookup_unique {α : Type} {m : List (String × α)} (hn : (m.map Prod.fst).Nodup) {n : String}
    {l : α} (h : (n, l) ∈ m) : m.lookup n = some l := by
  induction m with
  | nil => simp at h
  | cons a t ih =>
    obtain ⟨k, v⟩ := a
    rw [List.lookup_cons]
    simp only [List.map_cons, List.nodup_cons] at hn
    rcases List.mem_cons.1 h with h | hm
    · simp only [Prod.mk.injEq] at h
      obtain ⟨rfl, rfl⟩ := h
      simp
    · have hne : n ≠ k := by
        rintro rfl
        exact hn.1 (List.mem_map.2 ⟨(n, l), hm, rfl⟩)
      have : (n == k) = false := by simpa using hne
      simp only [this]
      exact ih hn.2 hm

theorem jointIndex_ok {mb : MultiBody K} {n : String} {i : ℕ} (h : mb.jointIndexByName n = .ok i) :
    mb.joints.findIdx? (fun j => j.name == n) = some i := by
  unfold MultiBody.jointIndexByName at h
  split at h
  · rename_i j hj
    simp only [Out.ok.injEq] at h
    rw [hj, h]
  · cases h

theorem jointPosInDof_eq {mb : MultiBody K} {i p : ℕ} (h : mb.jointPosInDof i = .ok p) :
    p = jpos mb i := by
  unfold MultiBody.jointPosInDof at h
  split at h
  · simp only [Out.ok.injEq] at h
    exact h.symm
  · cases h

theorem joint_ok {mb : MultiBody K} {i : ℕ} {j : Joint K} (h : vecAt mb.joints i = .ok j) :
    j.dof = jdof mb i := by
  rw [vecAt_eq_ok] at h
  simp [jdof, h]

theorem rangesLoop_ok {asserts : Bool} {mb : MultiBody K} {index p : ℕ} {l : List (ℕ × ℕ)}
    {sel sel' : List (ℕ × ℕ)}
    (h : forEach l (fun jdof (sel : List (ℕ × ℕ)) => do
      let j ← vecAt mb.joints index
      if asserts && !decide (jdof.1 + jdof.2 < j.dof) then .ub else
      pure (sel ++ [(p + jdof.1, jdof.2)])) sel = .ok sel') :
    sel' = sel ++ l.map (fun r => (p + r.1, r.2)) := by
  induction l generalizing sel with
  | nil =>
    simp only [forEach, Out.ok.injEq] at h
    simp [h]
  | cons a t ih =>
    simp only [forEach] at h
    obtain ⟨s1, h1, h2⟩ := Out.bind_eq_ok.1 h
    obtain ⟨j, _, h1⟩ := Out.bind_eq_ok.1 h1
    split at h1
    · cases h1
    · simp only [Out.pure_eq, Out.ok.injEq] at h1
      subst h1
      rw [ih h2]
      simp

theorem nameStep_covers {asserts : Bool} {mb : MultiBody K} {dofs : DofMap}
    (hn : (dofs.map Prod.fst).Nodup) {name : String}
    {sel sel' : List (ℕ × ℕ)} (h : Selector.nameStep asserts mb dofs name sel = .ok sel') (c : ℕ) :
    coversCol sel' c ↔ coversCol sel c ∨ (∃ l, (name, l) ∈ dofs ∧ ColIn mb name l c) ∨
      ((∀ l, (name, l) ∉ dofs) ∧ ColOf mb name c) := by
  unfold Selector.nameStep at h
  obtain ⟨i, hi, h⟩ := Out.bind_eq_ok.1 h
  have hi := jointIndex_ok hi
  cases hl : dofs.lookup name with
  | some l =>
    rw [hl] at h
    simp only at h
    obtain ⟨p, hp, h⟩ := Out.bind_eq_ok.1 h
    rw [rangesLoop_ok h, jointPosInDof_eq hp]
    have h1 : ¬ ∀ l, (name, l) ∉ dofs := fun hh => hh l (lookup_mem hl)
    have h2 : ∀ l', (name, l') ∈ dofs ↔ l' = l := by
      intro l'
      constructor
      · intro hm
        have := lookup_unique hn hm
        rw [hl] at this
        exact (Option.some.inj this).symm
      · rintro rfl
        exact lookup_mem hl
    have h3 : ((∃ l, (name, l) ∈ dofs ∧ ColIn mb name l c) ∨
        ((∀ l, (name, l) ∉ dofs) ∧ ColOf mb name c)) ↔ ColIn mb name l c := by
      constructor
      · rintro (⟨l', hl', hh⟩ | ⟨hh, _⟩)
        · rw [h2] at hl'
          subst hl'
          exact hh
        · exact absurd hh h1
      · intro hh
        exact Or.inl ⟨l, (h2 l).2 rfl, hh⟩
    rw [h3]
    unfold coversCol ColIn
    constructor
    · rintro ⟨q, hq, hc⟩
      rcases List.mem_append.1 hq with hq | hq
      · exact Or.inl ⟨q, hq, hc⟩
      · obtain ⟨r, hr, rfl⟩ := List.mem_map.1 hq
        exact Or.inr ⟨i, hi, r, hr, hc⟩
    · rintro (⟨q, hq, hc⟩ | ⟨i', hi', r, hr, hc⟩)
      · exact ⟨q, List.mem_append_left _ hq, hc⟩
      · rw [hi] at hi'
        obtain rfl := Option.some.inj hi'
        exact ⟨_, List.mem_append_right _ (List.mem_map.2 ⟨r, hr, rfl⟩), hc⟩
  | none =>
    rw [hl] at h
    simp only at h
    obtain ⟨p, hp, h⟩ := Out.bind_eq_ok.1 h
    obtain ⟨j, hj, h⟩ := Out.bind_eq_ok.1 h
    simp only [Out.pure_eq, Out.ok.injEq] at h
    subst h
    rw [jointPosInDof_eq hp, joint_ok hj]
    have h1 := lookup_none_iff.1 hl
    have h2 : ¬ ∃ l, (name, l) ∈ dofs ∧ ColIn mb name l c := fun ⟨l, hh, _⟩ => h1 l hh
    simp only [h2, false_or]
    unfold coversCol ColOf
    constructor
    · rintro ⟨q, hq, hc⟩
      rcases List.mem_append.1 hq with hq | hq
      · exact Or.inl ⟨q, hq, hc⟩
      · simp only [List.mem_singleton] at hq
        subst hq
        exact Or.inr ⟨h1, i, hi, hc⟩
    · rintro (⟨q, hq, hc⟩ | ⟨_, i', hi', hc⟩)
      · exact ⟨q, List.mem_append_left _ hq, hc⟩
      · rw [hi] at hi'
        obtain rfl := Option.some.inj hi'
        exact ⟨_, List.mem_append_right _ (List.mem_singleton.2 rfl), hc⟩

theorem namesLoop_covers {asserts : Bool} {mb : MultiBody K} {dofs : DofMap}
    (hn : (dofs.map Prod.fst).Nodup) {names : List String} {sel sel' : List (ℕ × ℕ)}
    (h : forEach names (Selector.nameStep asserts mb dofs) sel = .ok sel') (c : ℕ) :
    coversCol sel' c ↔ coversCol sel c ∨ ActiveCol mb names dofs c := by
  induction names generalizing sel with
  | nil =>
    simp only [forEach, Out.ok.injEq] at h
    subst h
    simp [ActiveCol]
  | cons n t ih =>
    simp only [forEach, Out.bind_eq_ok] at h
    obtain ⟨s1, h1, h2⟩ := h
    rw [ih h2, nameStep_covers hn h1, or_assoc]
    refine or_congr_right ?_
    unfold ActiveCol
    simp only [List.mem_cons, exists_eq_or_imp]

theorem copyStep_ok {jac : Mat K} {sd : ℕ × ℕ} {m m' : Mat K}
    (h : Selector.copyStep jac sd m = .ok m') :
    m'.rows = m.rows ∧ m'.cols = m.cols ∧ ∀ r < m.rows, ∀ c,
      m'.get r c = if sd.1 ≤ c ∧ c < sd.1 + sd.2 then jac.get r c else m.get r c := by
  unfold Selector.copyStep at h
  obtain ⟨b, hb, h⟩ := Out.bind_eq_ok.1 h
  unfold Mat.block at hb
  unfold Mat.setBlock at h
  split at hb
  · simp only [Out.ok.injEq] at hb
    subst hb
    split at h
    · simp only [Out.ok.injEq] at h
      subst h
      refine ⟨rfl, rfl, fun r hr c => ?_⟩
      dsimp only
      by_cases hc : sd.1 ≤ c ∧ c < sd.1 + sd.2
      · rw [if_pos ⟨⟨Nat.zero_le _, by omega⟩, hc⟩, if_pos hc]
        congr 1 <;> omega
      · rw [if_neg (fun hh => hc hh.2), if_neg hc]
    · cases h
  · cases hb

theorem copyLoop_ok {jac : Mat K} {sel : List (ℕ × ℕ)} {m m' : Mat K}
    (h : forEach sel (Selector.copyStep jac) m = .ok m') :
    m'.rows = m.rows ∧ m'.cols = m.cols ∧ ∀ r < m.rows, ∀ c,
      (coversCol sel c → m'.get r c = jac.get r c) ∧ (¬ coversCol sel c → m'.get r c = m.get r c) := by
  induction sel generalizing m with
  | nil =>
    simp only [forEach, Out.ok.injEq] at h
    subst h
    simp [coversCol]
  | cons a t ih =>
    simp only [forEach, Out.bind_eq_ok] at h
    obtain ⟨m1, h1, h2⟩ := h
    obtain ⟨a1, a2, a3⟩ := copyStep_ok h1
    obtain ⟨b1, b2, b3⟩ := ih h2
    refine ⟨b1.trans a1, b2.trans a2, fun r hr c => ?_⟩
    obtain ⟨c1, c2⟩ := b3 r (by omega) c
    have hcov : coversCol (a :: t) c ↔ (a.1 ≤ c ∧ c < a.1 + a.2) ∨ coversCol t c := by
      simp [coversCol]
    rw [hcov]
    constructor
    · intro hh
      by_cases ht : coversCol t c
      · exact c1 ht
      · rw [c2 ht, a3 r hr c, if_pos (hh.resolve_right ht)]
    · intro hh
      push Not at hh
      rw [c2 hh.2, a3 r hr c, if_neg (fun hx => absurd (hh.1 hx.1) (by omega))]

theorem selector_make_ok {asserts : Bool} {mbs : List (MultiBody K)} {mb : MultiBody K} {rI dim : ℕ}
    {names : List String} {dofs : DofMap} (hn : (dofs.map Prod.fst).Nodup)
    (hmb : mbs[rI]? = some mb) {s : Selector K}
    (h : Selector.make asserts mbs rI dim names dofs = .ok s) :
    s.jac = Mat.zero dim mb.nrDof ∧ ∀ c, coversCol s.sel c ↔ ActiveCol mb names dofs c := by
  unfold Selector.make at h
  obtain ⟨mb', hm', h⟩ := Out.bind_eq_ok.1 h
  rw [vecAt_eq_ok, hmb] at hm'
  obtain rfl := Option.some.inj hm'
  obtain ⟨sel, hs, h⟩ := Out.bind_eq_ok.1 h
  simp only [Out.pure_eq, Out.ok.injEq] at h
  subst h
  refine ⟨rfl, fun c => ?_⟩
  have := namesLoop_covers hn hs c
  simp only [coversCol, List.not_mem_nil, false_and, exists_false, false_or] at this
  rw [← this]
  simp only [coversCol, List.mem_insertionSort]

theorem selector_updates {P : ℕ → Prop} {n dim : ℕ} {s0 s s' : Selector K} {hls : List (HL K)}
    {hl : HL K} (hz : s0.jac = Mat.zero dim n) (hc : ∀ c, coversCol s0.sel c ↔ P c)
    (hr : forEach hls (fun hl s => s.update hl) s0 = .ok s) (hu : s.update hl = .ok s') :
    s'.jac.rows = dim ∧ MaskedBy P n hl.jac s'.jac := by
  have key : ∀ {hl : HL K} {a b : Selector K}, a.update hl = .ok b →
      b.sel = a.sel ∧ b.jac.rows = a.jac.rows ∧ b.jac.cols = a.jac.cols ∧
      ∀ r < a.jac.rows, ∀ c, (coversCol a.sel c → b.jac.get r c = hl.jac.get r c) ∧
        (¬ coversCol a.sel c → b.jac.get r c = a.jac.get r c) := by
    intro hl a b h
    unfold Selector.update at h
    obtain ⟨m, hm, h⟩ := Out.bind_eq_ok.1 h
    simp only [Out.pure_eq, Out.ok.injEq] at h
    subst h
    obtain ⟨h1, h2, h3⟩ := copyLoop_ok hm
    exact ⟨rfl, h1, h2, h3⟩
  have inv : s.sel = s0.sel ∧ s.jac.rows = dim ∧ s.jac.cols = n ∧
      ∀ r < dim, ∀ c, ¬ P c → s.jac.get r c = 0 := by
    refine forEach_inv (I := fun s : Selector K => s.sel = s0.sel ∧ s.jac.rows = dim ∧
      s.jac.cols = n ∧ ∀ r < dim, ∀ c, ¬ P c → s.jac.get r c = 0) ?_ ?_ hr
    · rw [hz]
      exact ⟨rfl, rfl, rfl, fun _ _ _ _ => rfl⟩
    · rintro g _ a b ⟨i1, i2, i3, i4⟩ hab
      obtain ⟨k1, k2, k3, k4⟩ := key hab
      refine ⟨k1.trans i1, k2.trans i2, k3.trans i3, fun r hr c hp => ?_⟩
      rw [(k4 r (by omega) c).2 (by rw [i1, hc]; exact hp)]
      exact i4 r hr c hp
  obtain ⟨i1, i2, i3, i4⟩ := inv
  obtain ⟨k1, k2, k3, k4⟩ := key hu
  refine ⟨k2.trans i2, k3.trans i3, fun r hr c _ => ⟨fun hp => ?_, fun hp => ?_⟩⟩
  · exact (k4 r (by omega) c).1 (by rw [i1, hc]; exact hp)
  · rw [(k4 r (by omega) c).2 (by rw [i1, hc]; exact hp)]
    exact i4 r (by omega) c hp

/-- **C46** (`ActiveJoints` and the constructor).  After any updates, the Jacobian of the selector is
the Jacobian of the wrapped task on the columns of the listed joints (of their listed dofs, when some
are given) and zero elsewhere. -/
theorem C46_active {asserts : Bool} {mbs : List (MultiBody K)} {mb : MultiBody K} {rI dim : ℕ}
    {names : List String} {dofs : DofMap} (hn : (dofs.map Prod.fst).Nodup)
    (hmb : mbs[rI]? = some mb) {s0 s s' : Selector K} {hls : List (HL K)} {hl : HL K}
    (hm : Selector.activeJoints asserts mbs rI dim names dofs = .ok s0)
    (hr : forEach hls (fun hl s => s.update hl) s0 = .ok s) (hu : s.update hl = .ok s') :
    s'.jac.rows = dim ∧ MaskedBy (ActiveCol mb names dofs) mb.nrDof hl.jac s'.jac := by
  obtain ⟨h1, h2⟩ := selector_make_ok hn hmb hm
  exact selector_updates h1 h2 hr hu

/-- With distinct joint names, the first joint of a given name is the only one. -/
theorem findIdx_name {mb : MultiBody K} (hd : (mb.joints.map Joint.name).Nodup) {i : ℕ}
    {j : Joint K} (h : mb.joints[i]? = some j) :
    mb.joints.findIdx? (fun a => a.name == j.name) = some i := by
  obtain ⟨hlt, hj⟩ := List.getElem?_eq_some_iff.1 h
  rw [List.findIdx?_eq_some_iff_getElem]
  refine ⟨hlt, by simp [hj], fun k hk => ?_⟩
  have hne : mb.joints[k].name ≠ j.name := by
    intro heq
    have := (List.Nodup.getElem_inj_iff hd (i := k) (j := i)
      (hi := by simpa using by omega) (hj := by simpa using hlt)).1 (by
        simp only [List.getElem_map]; rw [heq, hj])
    omega
  simpa using hne

/-- **C46** (`UnactiveJoints`, partial).  When no dof-level selection is given (more generally,
whenever the call is defined) the selected columns are those of the joints that are not listed.
Missing: dof-level selections, which are ignored (`C46_unactive_counterexample`). -/
theorem C46_unactive_partial {asserts : Bool} {mbs : List (MultiBody K)} {mb : MultiBody K}
    {rI dim : ℕ} {names : List String} {dofs : DofMap}
    (hmb : mbs[rI]? = some mb) (hd : (mb.joints.map Joint.name).Nodup)
    {s0 s s' : Selector K} {hls : List (HL K)} {hl : HL K}
    (hm : Selector.unactiveJoints asserts mbs rI dim names dofs = .ok s0)
    (hr : forEach hls (fun hl s => s.update hl) s0 = .ok s) (hu : s.update hl = .ok s') :
    s'.jac.rows = dim ∧
    MaskedBy (fun c => ∃ (i : ℕ) (j : Joint K), mb.joints[i]? = some j ∧ j.name ∉ names ∧
      jpos mb i ≤ c ∧ c < jpos mb i + j.dof) mb.nrDof hl.jac s'.jac := by
  unfold Selector.unactiveJoints at hm
  obtain ⟨mb', hm', hm⟩ := Out.bind_eq_ok.1 hm
  rw [vecAt_eq_ok, hmb] at hm'
  obtain rfl := Option.some.inj hm'
  obtain ⟨_, _, hm⟩ := Out.bind_eq_ok.1 hm
  obtain ⟨h1, h2⟩ := selector_make_ok (by simp) hmb hm
  refine selector_updates h1 (fun c => ?_) hr hu
  rw [h2 c]
  unfold ActiveCol
  simp only [List.not_mem_nil, false_and, exists_false, not_false_eq_true, implies_true, true_and,
    false_or, List.mem_filter, List.mem_dedup, List.mem_map, decide_eq_true_eq]
  constructor
  · rintro ⟨n, ⟨_, hn⟩, i, hi, hc⟩
    obtain ⟨hlt, hb, _⟩ := List.findIdx?_eq_some_iff_getElem.1 hi
    have hg : mb.joints[i]? = some mb.joints[i] := List.getElem?_eq_getElem hlt
    refine ⟨i, mb.joints[i], hg, ?_, ?_⟩
    · have : mb.joints[i].name = n := by simpa using hb
      rw [this]; exact hn
    · simpa [jdof, hg] using hc
  · rintro ⟨i, j, hj, hn, hc⟩
    refine ⟨j.name, ⟨⟨j, List.mem_of_getElem? hj, rfl⟩, hn⟩, i, findIdx_name hd hj, ?_⟩
    simpa [jdof, hj] using hc

end

/-- **C46** (consequence).  A least-squares objective built on such a Jacobian does not depend on the
variables of the columns that are not selected. -/
theorem C46_objective {K : Type} [Field K] [LinearOrder K] [IsStrictOrderedRing K]
    {P : ℕ → Prop} {n : ℕ} {J J' : Mat K} (hJ : MaskedBy P n J J') {t : TaskQC K} {w : K}
    {W nA tgt : ℕ → K} {b : ℕ} (h : IsLsq t w W J' nA tgt b) {x y : ℕ → K}
    (hxy : ∀ c < n, P c → x (b + c) = y (b + c)) : t.obj x = t.obj y := by
  obtain ⟨_, _, _, _, _, c, hc⟩ := h
  rw [hc x, hc y]
  congr 2
  unfold lsq
  congr 1
  refine Finset.sum_congr rfl fun i hi => ?_
  have : rowAt J' b x i = rowAt J' b y i := by
    unfold rowAt
    refine Finset.sum_congr rfl fun k hk => ?_
    rw [hJ.1] at hk
    by_cases hp : P k
    · rw [hxy k (Finset.mem_range.1 hk) hp]
    · rw [(hJ.2 i (Finset.mem_range.1 hi) k (Finset.mem_range.1 hk)).2 hp]
      ring
  rw [this]

namespace SelectorEx

/-- A robot with a 3-dof joint followed by two 1-dof joints. -/
def mb : MultiBody ℚ :=
  ⟨[⟨"a", 3, none⟩, ⟨"b", 1, none⟩, ⟨"c", 1, none⟩], 3, [-1, 0, 1], [0, 1, 2]⟩

/-- A wrapped task with Jacobian `[1 2 3 4 5]`. -/
def hl : HL ℚ := ⟨Mat.ofRows 5 [[1, 2, 3, 4, 5]], Vec.ofList [0], Vec.ofList [0], Vec.ofList [0]⟩

/-- The entries of a one-row Jacobian. -/
def row (o : Out (Selector ℚ)) : List ℚ :=
  match o with
  | .ok s => (List.range s.jac.cols).map (s.jac.get 0)
  | _ => []

/-- `ActiveJoints` with joints `c` and `a`, of the latter only the second dof. -/
example : ∃ s s', Selector.activeJoints true [mb] 0 1 ["c", "a"] [("a", [(1, 1)])] = .ok s ∧
    s.update hl = .ok s' ∧ row (.ok s') = [0, 2, 0, 0, 5] := by
  refine ⟨_, _, rfl, rfl, ?_⟩
  simp [row, hl, mb, Mat.ofRows, Mat.zero, List.range, List.range.loop, MultiBody.nrDof]

/-- `UnactiveJoints` with joint `b`. -/
example : ∃ s s', Selector.unactiveJoints true [mb] 0 1 ["b"] [] = .ok s ∧
    s.update hl = .ok s' ∧ row (.ok s') = [1, 2, 3, 0, 5] := by
  refine ⟨_, _, rfl, rfl, ?_⟩
  simp [row, hl, mb, Mat.ofRows, Mat.zero, List.range, List.range.loop, MultiBody.nrDof]

end SelectorEx

/-- **C46 is false for `UnactiveJoints` with dof-level selections**: declaring the first dof of joint
`a` unactive has no effect, its column is still selected. -/
theorem C46_unactive_counterexample :
    ∃ s s', Selector.unactiveJoints true [SelectorEx.mb] 0 1 ["b"] [("a", [(0, 1)])] = .ok s ∧
      s.update SelectorEx.hl = .ok s' ∧ s'.jac.get 0 0 = 1 := by
  refine ⟨_, _, rfl, rfl, ?_⟩
  simp [SelectorEx.hl, SelectorEx.mb, Mat.ofRows, Mat.zero, MultiBody.nrDof]

/-- The ranges are increasing and do not overlap, from `ji` on. -/
def Spec.Increasing : List (ℕ × ℕ) → ℕ → Prop
  | [], _ => True
  | (st, n) :: t, ji => ji ≤ st ∧ Spec.Increasing t (st + n)

theorem increasing_le {l : List (ℕ × ℕ)} {ji : ℕ} (h : Spec.Increasing l ji) {r : ℕ × ℕ} (hr : r ∈ l) : ji ≤ r.1 := by
  induction l generalizing ji with
  | nil => cases hr
  | cons a t ih =>
    rcases List.mem_cons.1 hr with rfl | hr
    · exact h.1
    · have := ih h.2 hr
      have := h.1
      omega

theorem gapRanges_covers {l : List (ℕ × ℕ)} {ji : ℕ} (h : Spec.Increasing l ji) (d : ℕ) :
    coversCol (gapRanges l ji) d ↔ ji ≤ d ∧ (∃ r ∈ l, d < r.1) ∧ ¬ coversCol l d := by
  induction l generalizing ji with
  | nil => simp [gapRanges, coversCol]
  | cons a t ih =>
    obtain ⟨st, n⟩ := a
    have hle : ∀ r ∈ t, st + n ≤ r.1 := fun r hr => increasing_le h.2 hr
    have h1 : coversCol (gapRanges ((st, n) :: t) ji) d ↔
        (ji ≤ d ∧ d < st) ∨ coversCol (gapRanges t (st + n)) d := by
      unfold coversCol
      simp only [gapRanges, List.mem_append]
      have hji := h.1
      constructor
      · rintro ⟨p, hp | hp, h2⟩
        · split at hp
          · simp only [List.mem_singleton] at hp
            subst hp
            dsimp only at h2
            exact .inl (by omega)
          · cases hp
        · exact .inr ⟨p, hp, h2⟩
      · rintro (⟨h2, h3⟩ | ⟨p, hp, h2⟩)
        · refine ⟨(ji, st - ji), .inl (by rw [if_pos (by omega)]; simp), ?_⟩
          dsimp only
          omega
        · exact ⟨p, .inr hp, h2⟩
    have h2 : coversCol ((st, n) :: t) d ↔ (st ≤ d ∧ d < st + n) ∨ coversCol t d := by
      simp [coversCol]
    rw [h1, h2, ih h.2]
    have hji := h.1
    constructor
    · rintro (⟨h3, h4⟩ | ⟨h3, ⟨r, hr, h4⟩, h5⟩)
      · refine ⟨h3, ⟨_, List.mem_cons_self, h4⟩, ?_⟩
        rintro (c | ⟨r, hr, c⟩)
        · omega
        · have := hle r hr
          omega
      · refine ⟨by omega, ⟨r, List.mem_cons_of_mem _ hr, h4⟩, ?_⟩
        rintro (c | c)
        · omega
        · exact h5 c
    · rintro ⟨h3, ⟨r, hr, h4⟩, h5⟩
      by_cases c : d < st
      · exact .inl ⟨h3, c⟩
      · refine .inr ⟨?_, ?_, fun c => h5 (.inr c)⟩
        · by_contra c'
          exact h5 (.inl (by omega))
        · rcases List.mem_cons.1 hr with rfl | hr
          · exact absurd h4 c
          · exact ⟨r, hr, h4⟩

theorem increasing_last {l : List (ℕ × ℕ)} {ji : ℕ} (h : Spec.Increasing l ji) {last : ℕ × ℕ}
    (hl : l.getLast? = some last) {r : ℕ × ℕ} (hr : r ∈ l) : r.1 ≤ last.1 ∧ r.1 + r.2 ≤ last.1 + last.2 := by
  induction l generalizing ji with
  | nil => cases hr
  | cons a t ih =>
    cases t with
    | nil =>
      simp only [List.getLast?_singleton, Option.some.injEq] at hl
      subst hl
      rw [List.mem_singleton.1 hr]
      exact ⟨le_rfl, le_rfl⟩
    | cons b u =>
      rw [List.getLast?_cons_cons] at hl
      rcases List.mem_cons.1 hr with rfl | hr
      · have := increasing_le h.2 (List.mem_of_getLast? hl)
        omega
      · exact ih h.2 hl hr

/-- **C46**: the ranges `UnactiveJoints` computes for a joint, and does not use, are the dofs of the joint outside
the given ranges. -/
theorem C46_unactive_dofs {K : Type} [CommRing K] {mb : MultiBody K} {name : String} {l : List (ℕ × ℕ)} {m m' : DofMap} {j : Joint K} {i : ℕ}
    (hi : mb.jointIndexByName name = .ok i) (hj : mb.joints[i]? = some j) (h : Spec.Increasing l 0)
    (e : unactiveStep mb (name, l) m = .ok m') :
    ∃ r, m' = (if r = [] then m else m ++ [(name, r)]) ∧
      ∀ d, d < j.dof → (coversCol r d ↔ ¬ coversCol l d) := by
  unfold unactiveStep at e
  rw [hi, Out.ok_bind, vecAt_eq_ok.2 hj, Out.ok_bind] at e
  dsimp only at e
  cases hl : l.getLast? with
  | none => rw [hl] at e; cases e
  | some last =>
    rw [hl] at e
    cases e
    refine ⟨_, rfl, fun d hd => ?_⟩
    have happ : ∀ (a b : List (ℕ × ℕ)), coversCol (a ++ b) d ↔ coversCol a d ∨ coversCol b d := by
      intro a b
      simp only [coversCol, List.mem_append]
      constructor
      · rintro ⟨p, hp | hp, c⟩
        exacts [.inl ⟨p, hp, c⟩, .inr ⟨p, hp, c⟩]
      · rintro (⟨p, hp, c⟩ | ⟨p, hp, c⟩)
        exacts [⟨p, .inl hp, c⟩, ⟨p, .inr hp, c⟩]
    have hend : coversCol (if last.1 + last.2 < j.dof then [(last.1 + last.2, j.dof - (last.1 + last.2))] else []) d ↔
        last.1 + last.2 ≤ d := by
      split
      · simp only [coversCol, List.mem_singleton, exists_eq_left]
        omega
      · simp only [coversCol, List.not_mem_nil, false_and, exists_false, false_iff]
        omega
    rw [happ, hend, gapRanges_covers h]
    constructor
    · rintro (c | c)
      · exact c.2.2
      · rintro ⟨r, hr, c'⟩
        have := increasing_last h hl hr
        omega
    · intro c
      by_cases c' : last.1 + last.2 ≤ d
      · exact .inr c'
      · refine .inl ⟨Nat.zero_le d, ?_, c⟩
        refine ⟨last, List.mem_of_getLast? hl, ?_⟩
        by_contra c''
        exact c ⟨last, List.mem_of_getLast? hl, by omega⟩

/-- A joint with six dofs of which the second and the last two are given up. -/
example : gapRanges [(1, 1), (4, 2)] 0 = [(0, 1), (2, 2)] := by decide

/-- Selecting the last dof of a joint trips the assertion of the constructor when assertions are
enabled, although the range is inside the joint. -/
theorem C46_last_dof_assert :
    Selector.activeJoints true [SelectorEx.mb] 0 1 ["a"] [("a", [(2, 1)])] = .ub ∧
    ∃ s, Selector.activeJoints false [SelectorEx.mb] 0 1 ["a"] [("a", [(2, 1)])] = .ok s :=
  ⟨rfl, _, rfl⟩

/-- An empty dof list given to `UnactiveJoints` is undefined behaviour (`back()` of an empty
vector). -/
theorem C46_empty_dofs_ub :
    Selector.unactiveJoints true [SelectorEx.mb] 0 1 ["b"] [("a", [])] = .ub := rfl

end Verif
