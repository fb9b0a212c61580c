import Verif.Proofs.ForceTask
import Mathlib.Data.List.GetD

/-!
# C50: tasks on contact forces
-/

set_option autoImplicit false
set_option linter.unusedSectionVars false

namespace Verif

open Finset Spec

namespace Spec

variable {K : Type} [Field K] [LinearOrder K] [IsStrictOrderedRing K]

/-- The executions of a `ContactTask`: the error is set, `updateNrVars` is called with layouts and
`update` is called, in any order.  The data of the last `updateNrVars` and the last error are
recorded. -/
inductive ContactTRun (mbs : List (MultiBody K)) (id : ContactId) (w : K) :
    Option (SolverData K) → V3 K → ContactT K → Prop
  | make : ContactTRun mbs id w none 0 (ContactT.make id w)
  | error {od : Option (SolverData K)} {e : V3 K} {s : ContactT K} (e' : V3 K) :
      ContactTRun mbs id w od e s → ContactTRun mbs id w od e' (s.setError e')
  | errorD {od : Option (SolverData K)} {e : V3 K} {s : ContactT K} (e' : V3 K) :
      ContactTRun mbs id w od e s → ContactTRun mbs id w od e (s.setErrorD e')
  | nrVars {od : Option (SolverData K)} {e : V3 K} {s : ContactT K} (d : SolverData K)
      (junk : ℕ → ℕ → K) (s' : ContactT K) : ContactTRun mbs id w od e s → IsLayout mbs d →
      s.updateNrVars d junk = .ok s' → ContactTRun mbs id w (some d) e s'
  | update {od : Option (SolverData K)} {e : V3 K} {s : ContactT K} (s' : ContactT K) :
      ContactTRun mbs id w od e s → s.update = .ok s' → ContactTRun mbs id w od e s'

/-- The objective is empty: no variable is touched. -/
def EmptyObjective (t : TaskQC K) : Prop :=
  t.Q.rows = 0 ∧ t.Q.cols = 0 ∧ t.C.size = 0 ∧ ∀ x, t.obj x = 0

end Spec

section
variable {K : Type} [Field K] [LinearOrder K] [IsStrictOrderedRing K]

/-- What `updateNrVars` establishes. -/
structure ContactTView (d : SolverData K) (id : ContactId) (s : ContactT K) : Prop where
  found : ∀ k c, FirstContact d.allCont id k c → d.lambdaBegin[k]? = some s.begin' ∧
    (c.r1Cones.length = c.r1Points.length) ∧
    s.conesJac.cols = c.nL ∧ ∀ (b : ℕ) (x : ℕ → K) (a : ℕ), rowAt s.conesJac b x a
        = (combo (c.r1Cones.flatMap FrictionCone.generators) (fun k => x (b + k))).toVec.get a
  absent : (∀ c ∈ d.allCont, c.id ≠ id) → s.conesJac.cols = 0
  rows : s.conesJac.rows = 3
  Q : s.Q = lsqQ (Vec.const 3 1) s.conesJac
  C : s.C.size = s.conesJac.cols

theorem nL_eq_flat (c : BiContact K) (h : c.r1Cones.length = c.r1Points.length) :
    c.nL = (c.r1Cones.flatMap FrictionCone.generators).length := by
  rw [nL_eq_lamBefore c h.ge, flat_length, h]
  rfl

theorem trMul_self_lsqQ (G : Mat K) (h3 : G.rows = 3) :
    G.trMul G = .ok (lsqQ (Vec.const 3 1) G) := by
  rw [trMul_eq_ok]
  refine ⟨rfl, ?_⟩
  unfold lsqQ
  simp [Vec.const]

theorem contactT_nrVars {mbs : List (MultiBody K)} {d : SolverData K} (hd : IsLayout mbs d)
    (s : ContactT K) (junk : ℕ → ℕ → K)
    (hc : ∀ k c, FirstContact d.allCont s.id k c → c.r1Cones.length = c.r1Points.length) :
    ∃ s', s.updateNrVars d junk = .ok s' ∧ ContactTView d s.id s' ∧ s'.id = s.id ∧
      s'.weight = s.weight ∧ s'.error = s.error := by
  obtain ⟨h1, h2, h3, h4, h5, h6⟩ := isLayout_lambda hd
  unfold ContactT.updateNrVars
  rcases contactFind_ok s.id d.allCont d.lambdaBegin0 h4 with ⟨k, c, F, e⟩ | ⟨F, e⟩
  · have hm := hc k c F
    obtain ⟨G, g1, g2, g3, g4⟩ := conesLoop_ok c.r1Cones junk
    rw [← nL_eq_flat c hm] at g1 g3
    refine ⟨{ s with
        begin' := d.lambdaBegin0 + ((d.allCont.take k).map BiContact.nL).sum, conesJac := G,
        Q := lsqQ (Vec.const 3 1) G, C := Vec.const c.nL 0 },
      by rw [e, Out.ok_bind]; dsimp only; rw [g1, Out.ok_bind, trMul_self_lsqQ G g2]; rfl,
      ⟨?_, ?_, g2, rfl, g3.symm⟩, rfl, rfl, rfl⟩
    · intro k' c' F'
      obtain ⟨rfl, rfl⟩ := firstContact_unique F F'
      refine ⟨?_, hm, g3, g4⟩
      have hk : k < (starts d.totalAlphaD (d.allCont.map BiContact.nL)).length := by
        have := (List.getElem?_eq_some_iff.1 F.1).1
        simpa using this
      rw [h1, List.getElem?_eq_getElem hk, getElem_starts, List.map_take]
      rfl
    · intro hne
      exact absurd F.2.1 (hne c (List.mem_of_getElem? F.1))
  · obtain ⟨G, g1, g2, g3, g4⟩ := conesLoop_ok ([] : List (FrictionCone K)) junk
    refine ⟨{ s with
        begin' := d.lambdaBegin0 + (d.allCont.map BiContact.nL).sum, conesJac := G,
        Q := lsqQ (Vec.const 3 1) G, C := Vec.const 0 0 }, by
      rw [e, Out.ok_bind]
      dsimp only
      rw [show conesLoop [] (⟨3, 0, junk⟩, 0) = .ok (G, 0) from g1, Out.ok_bind,
        trMul_self_lsqQ G g2]
      rfl, ⟨?_, fun _ => g3, g2, rfl, g3.symm⟩, rfl, rfl, rfl⟩
    intro k c F'
    exact absurd F'.2.1 (F c (List.mem_of_getElem? F'.1))

theorem contactT_update {d : SolverData K} {id : ContactId} {s : ContactT K}
    (v : ContactTView d id s) : ∃ s', s.update = .ok s' ∧ ContactTView d id s' ∧ s'.id = s.id ∧
      s'.weight = s.weight ∧ s'.error = s.error ∧ s'.begin' = s.begin' ∧
      s'.conesJac = s.conesJac ∧
      s'.C = lsqC (Vec.const 3 1) s.conesJac (fun i => s.error.toVec.get i - 0) := by
  have e : s.conesJac.negTrMulVec s.error.toVec
      = .ok (lsqC (Vec.const 3 1) s.conesJac (fun i => s.error.toVec.get i - 0)) := by
    rw [negTrMulVec_eq_ok]
    refine ⟨v.rows, ?_⟩
    unfold lsqC
    simp [Vec.const]
  refine ⟨{ s with
      C := lsqC (Vec.const 3 1) s.conesJac (fun i => s.error.toVec.get i - 0) },
    by unfold ContactT.update; rw [e]; rfl, ⟨v.found, v.absent, v.rows, v.Q, rfl⟩,
    rfl, rfl, rfl, rfl, rfl, rfl⟩

theorem contactT_run {mbs : List (MultiBody K)} {id : ContactId} {w : K}
    {od : Option (SolverData K)} {e : V3 K} {s : ContactT K} (R : ContactTRun mbs id w od e s) :
    s.id = id ∧ s.weight = w ∧ s.error = e ∧ ∀ d, od = some d → IsLayout mbs d ∧
      ((∀ k c, FirstContact d.allCont id k c → c.r1Cones.length = c.r1Points.length) →
        ContactTView d id s) := by
  induction R with
  | make => exact ⟨rfl, rfl, rfl, fun d hd => by cases hd⟩
  | error e' R ih =>
    obtain ⟨i1, i2, i3, i4⟩ := ih
    refine ⟨i1, i2, rfl, fun d hd => ⟨(i4 d hd).1, fun hc => ?_⟩⟩
    have v := (i4 d hd).2 hc
    exact ⟨v.found, v.absent, v.rows, v.Q, v.C⟩
  | errorD e' R ih =>
    obtain ⟨i1, i2, i3, i4⟩ := ih
    refine ⟨i1, i2, i3, fun d hd => ⟨(i4 d hd).1, fun hc => ?_⟩⟩
    have v := (i4 d hd).2 hc
    exact ⟨v.found, v.absent, v.rows, v.Q, v.C⟩
  | @nrVars od e s0 d junk s' R hd h ih =>
    obtain ⟨i1, i2, i3, i4⟩ := ih
    have hs : s'.id = id ∧ s'.weight = w ∧ s'.error = e := by
      unfold ContactT.updateNrVars at h
      obtain ⟨_, _, h⟩ := Out.bind_eq_ok.1 h
      obtain ⟨_, _, h⟩ := Out.bind_eq_ok.1 h
      obtain ⟨_, _, h⟩ := Out.bind_eq_ok.1 h
      simp only [Out.pure_eq, Out.ok.injEq] at h
      subst h
      exact ⟨i1, i2, i3⟩
    refine ⟨hs.1, hs.2.1, hs.2.2, fun d' hd' => ?_⟩
    cases hd'
    refine ⟨hd, fun hc => ?_⟩
    rw [← i1] at hc
    obtain ⟨s2, h2, v, _⟩ := contactT_nrVars hd _ junk hc
    rw [h] at h2
    cases h2
    rw [i1] at v
    exact v
  | @update od e s0 s' R h ih =>
    obtain ⟨i1, i2, i3, i4⟩ := ih
    have hs : s'.id = id ∧ s'.weight = w ∧ s'.error = e := by
      unfold ContactT.update at h
      obtain ⟨_, _, h⟩ := Out.bind_eq_ok.1 h
      simp only [Out.pure_eq, Out.ok.injEq] at h
      subst h
      exact ⟨i1, i2, i3⟩
    refine ⟨hs.1, hs.2.1, hs.2.2, fun d hd => ⟨(i4 d hd).1, fun hc => ?_⟩⟩
    obtain ⟨s2, h2, v, _⟩ := contactT_update ((i4 d hd).2 hc)
    rw [h] at h2
    cases h2
    exact v

/-- `ContactTask`, after every history of calls, for every layout in which the contact with the
task's id (if there is one; unilateral or bilateral) has one cone per point: `update` succeeds; the
objective is on the weights of that contact and equals half the squared distance between the total
force of the contact (as `BilateralContact::force` computes it from these weights) and the last given
error, up to a constant; without such a contact it is empty. -/
theorem C50_contact_task {mbs : List (MultiBody K)} {id : ContactId} {w : K}
    {d : SolverData K} {e : V3 K} {s : ContactT K} (R : ContactTRun mbs id w (some d) e s)
    (hc : ∀ k c, FirstContact d.allCont id k c → c.r1Cones.length = c.r1Points.length) :
    ∃ s', s.update = .ok s' ∧
      (∀ k c, FirstContact d.allCont id k c → ∃ a, d.lambdaBegin[k]? = some a ∧
        s'.task.begin' = (a, a) ∧ s'.task.Q.rows = c.nL ∧ s'.task.Q.cols = c.nL ∧
        s'.task.C.size = c.nL ∧ d.lambda[k]? = some c.nL ∧ a + c.nL ≤ d.nrVars ∧
        ∀ x : Vec K, x.size = d.nrVars → ∃ lam F, lambdaVecAt d x k = .ok lam ∧
          c.forceTotal lam c.r1Cones = .ok F ∧
          s'.task.obj x.get = w * ((F - e).dot (F - e) / 2) - w * (e.dot e / 2)) ∧
      ((∀ c ∈ d.allCont, c.id ≠ id) → EmptyObjective s'.task) := by
  obtain ⟨i1, i2, i3, i4⟩ := contactT_run R
  obtain ⟨hd, hv⟩ := i4 d rfl
  have v := hv hc
  obtain ⟨s', h1, v', j1, j2, j3, j4, j5, j6⟩ := contactT_update v
  refine ⟨s', h1, ?_, ?_⟩
  · intro k c F
    obtain ⟨f1, f2, f3, f4⟩ := v.found k c F
    obtain ⟨l1, l2, l3, l4, _, _⟩ := isLayout_lambda hd
    have hk := (List.getElem?_eq_some_iff.1 F.1).1
    have hlam : d.lambda[k]? = some c.nL := by
      rw [l2, List.getElem?_map, F.1]
      rfl
    have hfit : s.begin' + c.nL ≤ d.nrVars := by
      have hk' : k < (starts d.totalAlphaD (d.allCont.map BiContact.nL)).length := by simpa using hk
      rw [l1, List.getElem?_eq_getElem hk', getElem_starts] at f1
      have f1' := Option.some.inj f1
      rw [← f1', l3, Nat.add_assoc]
      refine Nat.add_le_add_left ?_ _
      have h2 : ((d.allCont.map BiContact.nL).take (k + 1)).sum
          = ((d.allCont.map BiContact.nL).take k).sum + c.nL := by
        rw [List.take_add_one, List.getElem?_map, F.1]
        simp
      rw [← h2]
      conv_rhs => rw [← List.take_append_drop (k + 1) (d.allCont.map BiContact.nL), List.sum_append]
      omega
    refine ⟨s.begin', f1, ?_, ?_, ?_, ?_, hlam, hfit, ?_⟩
    · simp only [ContactT.task, j4]
    · simp only [ContactT.task]
      rw [v'.Q, j5]
      exact f3
    · simp only [ContactT.task]
      rw [v'.Q, j5]
      exact f3
    · simp only [ContactT.task]
      rw [v'.C, j5]
      exact f3
    · intro x hx
      have hnL := nL_eq_lamBefore c f2.ge
      refine ⟨⟨c.nL, fun i => x.get (s.begin' + i)⟩, _, ?_,
        bi_forceTotal c _ c.r1Cones f2.ge f2.ge (fun _ _ => le_rfl) hnL.ge, ?_⟩
      · unfold lambdaVecAt
        rw [vecAt_eq_ok.mpr f1, Out.ok_bind, vecAt_eq_ok.mpr hlam, Out.ok_bind]
        exact if_pos (by rw [hx]; exact hfit)
      · have hF := combo_cones c.r1Cones (fun k => x.get (s.begin' + k))
        rw [f2] at hF
        dsimp only
        unfold lamBefore
        rw [← hF]
        have ho : s'.task = ⟨lsqQ (Vec.const 3 1) s.conesJac,
            lsqC (Vec.const 3 1) s.conesJac (fun i => e.toVec.get i - 0),
            (s.begin', s.begin'), w⟩ := by
          unfold ContactT.task
          rw [v'.Q, j6, j5, j4, j2, i2, i3]
        rw [ho, lsq_expand (nA := fun _ => 0)]
        unfold lsq
        rw [v.rows]
        simp only [f4, Vec.const, Finset.sum_range_succ, Finset.sum_range_zero, V3.toVec, V3.dot,
          V3.sub_x, V3.sub_y, V3.sub_z]
        norm_num
        ring
  · intro hne
    have h0 := v.absent hne
    have q1 : s'.task.Q.rows = 0 := by
      simp only [ContactT.task]
      rw [v'.Q, j5]
      exact h0
    have q3 : s'.task.C.size = 0 := by
      simp only [ContactT.task]
      rw [v'.C, j5]
      exact h0
    refine ⟨q1, by simp only [ContactT.task]; rw [v'.Q, j5]; exact h0, q3, fun x => ?_⟩
    unfold TaskQC.obj
    rw [q1]
    simp [ContactT.task, v'.C, j5, h0]

/-- Updating before the first `updateNrVars` is undefined behaviour. -/
theorem C50_contact_task_not_ready (id : ContactId) (w : K) (e : V3 K) :
    ((ContactT.make id w).setError e).update = .ub := rfl

/-! ## GripperTorqueTask -/

theorem gripTaskGens_ok (axis T : V3 K) (gens : List (V3 K)) (C : Vec K) (i : ℕ)
    (h : i + gens.length ≤ C.size) :
    gripTaskGens axis T gens (C, i)
      = .ok (⟨C.size, fun c => if i ≤ c ∧ c < i + gens.length then
          |axis.dot (T.cross (gens.getD (c - i) 0))| else C.get c⟩, i + gens.length) := by
  unfold gripTaskGens
  induction gens generalizing C i with
  | nil =>
    simp only [forEach, List.length_nil, Nat.add_zero]
    have hno : ∀ c, ¬ (i ≤ c ∧ c < i) := fun c => by omega
    simp only [hno, if_false]
  | cons g t ih =>
    simp only [List.length_cons] at h ⊢
    have e : C.set i |axis.dot (T.cross g)| = .ok ⟨C.size, fun c =>
        if c = i then |axis.dot (T.cross g)| else C.get c⟩ := if_pos (by omega)
    simp only [forEach, e, Out.ok_bind]
    refine (ih ⟨C.size, fun c => if c = i then |axis.dot (T.cross g)| else C.get c⟩ (i + 1)
      (show i + 1 + t.length ≤ C.size by omega)).trans ?_
    congr 2
    · congr
      funext c
      dsimp only
      by_cases h1 : c = i
      · subst h1
        rw [if_neg (by omega), if_pos rfl, if_pos (by omega)]
        simp
      · by_cases h2 : i + 1 ≤ c ∧ c < i + 1 + t.length
        · rw [if_pos h2, if_pos (by omega)]
          have : c - i = (c - (i + 1)) + 1 := by omega
          rw [this, List.getD_cons_succ]
        · rw [if_neg h2, if_neg h1, if_neg (by omega)]
    · omega

theorem gripTaskPoints_ok (origin axis : V3 K) (c : BiContact K)
    (hc : c.r1Cones.length = c.r1Points.length) (junk : ℕ → K) :
    ∃ C, gripTaskPoints origin axis c (⟨lamBefore c c.r1Points.length, junk⟩, 0)
        = .ok (C, lamBefore c c.r1Points.length) ∧ C.size = lamBefore c c.r1Points.length ∧
      ∀ (a : ℕ) (id : ContactId) (lim : K) (x : ℕ → K),
        ∑ p ∈ range (lamBefore c c.r1Points.length), C.get p * x (a + p)
          = absTorque ⟨id, lim, origin, axis⟩ c a x := by
  unfold gripTaskPoints
  rw [hc]
  obtain ⟨s', e, hs⟩ := forRange_inv (n := c.r1Points.length)
    (s := ((⟨lamBefore c c.r1Points.length, junk⟩, 0) : Vec K × ℕ))
    (f := fun i s => do
      let p ← vecAt c.r1Points i
      let cone ← vecAt c.r1Cones i
      gripTaskGens axis (p - origin) cone.generators s)
    (fun m s => s.2 = lamBefore c m ∧ s.1.size = lamBefore c c.r1Points.length ∧
      ∀ (a : ℕ) (x : ℕ → K), ∑ p ∈ range (lamBefore c m), s.1.get p * x (a + p)
        = ∑ i ∈ range m, ∑ k ∈ range (c.r1Cones.getD i ⟨[]⟩).generators.length,
          |axis.dot ((c.r1Points.getD i 0 - origin).cross
            ((c.r1Cones.getD i ⟨[]⟩).generators.getD k 0))| * x (a + lamBefore c i + k))
    ⟨by simp [lamBefore], rfl, fun a x => by simp [lamBefore]⟩
    (by
      rintro i hi ⟨C, pos⟩ ⟨rfl, hsz, hx⟩
      have hi' : i < c.r1Cones.length := by omega
      have e1 : c.r1Points.getD i 0 = c.r1Points[i] := by simp [hi]
      have e2 : c.r1Cones.getD i ⟨[]⟩ = c.r1Cones[i] := by simp [List.getElem?_eq_getElem hi']
      have e3 : lamBefore c (i + 1) = lamBefore c i + c.r1Cones[i].generators.length := by
        rw [← e2]; simp [lamBefore, Finset.sum_range_succ]
      have hle := lamBefore_mono c (show i + 1 ≤ c.r1Points.length by omega)
      dsimp only at hsz hx
      have hgen := gripTaskGens_ok axis (c.r1Points[i] - origin) c.r1Cones[i].generators C
        (lamBefore c i) (by rw [hsz]; omega)
      refine Exists.intro _ ⟨by
        rw [vecAt_ok hi, Out.ok_bind, vecAt_ok hi', Out.ok_bind]
        exact hgen, ?_, ?_, ?_⟩
      · exact e3.symm
      · exact hsz
      · intro a x
        dsimp only
        rw [sum_range_succ, e3, Finset.sum_range_add, ← hx a x, e1, e2]
        congr 1
        · refine Finset.sum_congr rfl fun p hp => ?_
          rw [mem_range] at hp
          rw [if_neg (by omega)]
        · refine Finset.sum_congr rfl fun p hp => ?_
          rw [mem_range] at hp
          rw [if_pos (by omega), Nat.add_sub_cancel_left, Nat.add_assoc])
  obtain ⟨h1, h2, h3⟩ := hs
  refine ⟨s'.1, by rw [e, ← h1], h2, fun a id lim x => h3 a x⟩

theorem gripTaskFind_ok (s : GripperT K) (junk : ℕ → K) (l : List (BiContact K)) (b : ℕ)
    (h : ∀ c ∈ l, c.r1Points.length ≤ c.r1Cones.length)
    (hm : ∀ k c, FirstContact l s.id k c → c.r1Cones.length = c.r1Points.length) :
    (∃ k c C, FirstContact l s.id k c ∧ gripTaskFind s junk l b
        = .ok (some (b + ((l.take k).map BiContact.nL).sum, Mat.zero c.nL c.nL, C)) ∧
      C.size = c.nL ∧ ∀ (a : ℕ) (id : ContactId) (lim : K) (x : ℕ → K),
        ∑ p ∈ range c.nL, C.get p * x (a + p)
          = absTorque ⟨id, lim, s.origin, s.axis⟩ c a x) ∨
    ((∀ c ∈ l, c.id ≠ s.id) ∧ gripTaskFind s junk l b = .ok none) := by
  induction l generalizing b with
  | nil => exact Or.inr ⟨by simp, rfl⟩
  | cons c t ih =>
    have hc : c.nrLambda = .ok c.nL := BiContact.nrLambda_ok c (h c (by simp))
    unfold gripTaskFind
    rw [hc, Out.ok_bind]
    by_cases he : c.id.eq s.id = true
    · have F : FirstContact (c :: t) s.id 0 c :=
        ⟨rfl, (ContactId.eq_iff _ _).mp he, fun j _ hj => by omega⟩
      have hcm := hm 0 c F
      obtain ⟨C, g1, g2, g3⟩ := gripTaskPoints_ok s.origin s.axis c hcm junk
      rw [← nL_eq_lamBefore c hcm.ge] at g1 g2 g3
      refine Or.inl ⟨0, c, C, F, ?_, g2, g3⟩
      rw [if_pos he, g1]
      simp
    · rw [if_neg he]
      have he' : c.id ≠ s.id := fun h => he ((ContactId.eq_iff _ _).mpr h)
      have shift : ∀ k c', FirstContact t s.id k c' → FirstContact (c :: t) s.id (k + 1) c' := by
        rintro k c' ⟨f1, f2, f3⟩
        refine ⟨f1, f2, ?_⟩
        intro j e' hj hje
        cases j with
        | zero =>
          simp at hje
          subst hje
          exact he'
        | succ j => exact f3 j e' (by omega) hje
      rcases ih (b + c.nL) (fun c' hc' => h c' (by simp [hc']))
        (fun k c' F => hm (k + 1) c' (shift k c' F)) with ⟨k, c', C, F, e, g⟩ | ⟨f, e⟩
      · refine Or.inl ⟨k + 1, c', C, shift k c' F, ?_, g⟩
        rw [e]
        simp [add_assoc]
      · exact Or.inr ⟨by simpa using ⟨he', f⟩, e⟩

/-- `GripperTorqueTask`, whatever the task did before, for every layout in which the bilateral contact
with the task's id (if there is one) has one cone per point: the objective is linear, on the weights
of that contact, and is the weight times the sum over the generators of the absolute torque about the
gripper axis of each generator times its weight; without such a contact it is empty.  `update`
changes nothing. -/
theorem C50_gripper_task {mbs : List (MultiBody K)} {d : SolverData K} (hd : IsLayout mbs d)
    (s : GripperT K) (junk : ℕ → K)
    (hm : ∀ k c, FirstContact d.biCont s.id k c → c.r1Cones.length = c.r1Points.length) :
    ∃ s', s.updateNrVars d junk = .ok s' ∧ s'.update = s' ∧
      (s'.id = s.id ∧ s'.origin = s.origin ∧ s'.axis = s.axis ∧ s'.weight = s.weight) ∧
      (∀ k c, FirstContact d.biCont s.id k c → ∃ a, d.lambdaBegin[d.uniCont.length + k]? = some a ∧
        s'.task.begin' = (a, a) ∧ s'.task.Q.rows = c.nL ∧ s'.task.Q.cols = c.nL ∧
        s'.task.C.size = c.nL ∧ d.lambda[d.uniCont.length + k]? = some c.nL ∧
        ∀ x lim, s'.task.obj x = s.weight * absTorque ⟨s.id, lim, s.origin, s.axis⟩ c a x) ∧
      ((∀ c ∈ d.biCont, c.id ≠ s.id) → EmptyObjective s'.task) := by
  obtain ⟨l1, l2, l3, l4, l5, l6⟩ := isLayout_lambda hd
  unfold GripperT.updateNrVars
  rcases gripTaskFind_ok s junk d.biCont d.bilateralBegin
    (fun c hc => l4 c (by rw [l5]; simp [hc])) hm with ⟨k, c, C, F, e, g1, g2⟩ | ⟨F, e⟩
  · refine ⟨{ s with
        begin' := d.bilateralBegin + ((d.biCont.take k).map BiContact.nL).sum,
        Q := Mat.zero c.nL c.nL, C := C }, by rw [e, Out.ok_bind]; rfl, rfl, ⟨rfl, rfl, rfl, rfl⟩, ?_, ?_⟩
    · intro k' c' F'
      obtain ⟨rfl, rfl⟩ := firstContact_unique F F'
      have hk := (List.getElem?_eq_some_iff.1 F.1).1
      have hk' : d.uniCont.length + k
          < (starts d.totalAlphaD (d.allCont.map BiContact.nL)).length := by
        rw [l5]
        simp
        omega
      refine ⟨_, ?_, rfl, rfl, rfl, g1, ?_, ?_⟩
      · rw [l1, List.getElem?_eq_getElem hk', getElem_starts, l6, ← List.map_take, l5,
          List.take_append, List.take_of_length_le (by simp)]
        simp [add_assoc]
      · rw [l2, List.getElem?_map, l5, List.getElem?_append_right (by simp)]
        simp [F.1]
      · intro x lim
        unfold TaskQC.obj GripperT.task
        dsimp only
        rw [← g2 _ s.id lim]
        simp [Mat.zero]
    · intro hne
      exact absurd F.2.1 (hne c (List.mem_of_getElem? F.1))
  · refine ⟨{ s with
        begin' := 0, Q := Mat.zero 0 0, C := Vec.const 0 0 }, by rw [e, Out.ok_bind]; rfl, rfl,
      ⟨rfl, rfl, rfl, rfl⟩, ?_, ?_⟩
    · intro k c F'
      exact absurd F'.2.1 (F c (List.mem_of_getElem? F'.1))
    · intro _
      refine ⟨rfl, rfl, rfl, fun x => ?_⟩
      simp [TaskQC.obj, GripperT.task, Mat.zero, Vec.const]

/-- Physical meaning: with nonnegative weights the objective bounds (times the weight) the absolute
torque about the gripper axis through the gripper origin of the wrench the contact applies, and equals
that torque when the generators all turn the gripper in the positive direction. -/
theorem C50_gripper_torque_partial {mbs : List (MultiBody K)} {d : SolverData K} (hd : IsLayout mbs d)
    (s : GripperT K) (hw : 0 ≤ s.weight) (junk : ℕ → K) {k : ℕ} {c : BiContact K}
    (F : FirstContact d.biCont s.id k c) (hc : c.r1Cones.length = c.r1Points.length)
    (x : Vec K) (hx : x.size = d.nrVars) :
    ∃ s' lam W, s.updateNrVars d junk = .ok s' ∧
      lambdaVecAt d x (d.uniCont.length + k) = .ok lam ∧
      c.forceWrench lam c.r1Points c.r1Cones = .ok W ∧
      ((∀ i < lam.size, 0 ≤ lam.get i) →
        s.weight * |s.axis.dot (W.couple - s.origin.cross W.force)| ≤ s'.task.obj x.get) ∧
      ((∀ i < c.r1Points.length, ∀ g ∈ (c.r1Cones.getD i ⟨[]⟩).generators,
          0 ≤ s.axis.dot ((c.r1Points.getD i 0 - s.origin).cross g)) →
        s.weight * s.axis.dot (W.couple - s.origin.cross W.force) = s'.task.obj x.get) := by
  obtain ⟨s', e, -, -, hf, -⟩ := C50_gripper_task hd s junk (fun k' c' F' => by
    obtain ⟨rfl, rfl⟩ := firstContact_unique F F'
    exact hc)
  obtain ⟨a, ha, -, -, -, -, hn, hobj⟩ := hf k c F
  obtain ⟨l1, l2, l3, l4, l5, l6⟩ := isLayout_lambda hd
  have hnL := nL_eq_lamBefore c hc.ge
  have hfit : a + c.nL ≤ d.nrVars := by
    have hk' : d.uniCont.length + k
        < (starts d.totalAlphaD (d.allCont.map BiContact.nL)).length := by
      have := (List.getElem?_eq_some_iff.1 ha).1
      rwa [l1] at this
    rw [l1, List.getElem?_eq_getElem hk', getElem_starts] at ha
    have f1' := Option.some.inj ha
    rw [← f1', l3, Nat.add_assoc]
    refine Nat.add_le_add_left ?_ _
    have h2 : ((d.allCont.map BiContact.nL).take (d.uniCont.length + k + 1)).sum
        = ((d.allCont.map BiContact.nL).take (d.uniCont.length + k)).sum + c.nL := by
      rw [l2] at hn
      rw [List.take_add_one, hn]
      simp
    rw [← h2]
    conv_rhs => rw [← List.take_append_drop (d.uniCont.length + k + 1)
      (d.allCont.map BiContact.nL), List.sum_append]
    omega
  refine ⟨s', ⟨c.nL, fun i => x.get (a + i)⟩, _, e, ?_,
    bi_forceWrench c _ _ _ hc.ge hc.ge (fun _ _ => le_rfl) hnL.ge, ?_, ?_⟩
  · unfold lambdaVecAt
    rw [vecAt_eq_ok.mpr ha, Out.ok_bind, vecAt_eq_ok.mpr hn, Out.ok_bind]
    exact if_pos (by rw [hx]; exact hfit)
  · intro hpos
    dsimp only at hpos ⊢
    rw [hobj x.get 0]
    refine mul_le_mul_of_nonneg_left ?_ hw
    unfold absTorque
    rw [V3.cross_sum, ← Finset.sum_sub_distrib, V3.dot_sum]
    refine (Finset.abs_sum_le_sum_abs _ _).trans (Finset.sum_le_sum fun i hi => ?_)
    rw [← V3.sub_cross]
    unfold combo
    rw [V3.cross_sum, V3.dot_sum]
    refine (Finset.abs_sum_le_sum_abs _ _).trans (Finset.sum_le_sum fun j hj => ?_)
    rw [V3.cross_smul, V3.dot_smul, abs_mul, mul_comm]
    have hi' := mem_range.mp hi
    have hj' := mem_range.mp hj
    have hle := lamBefore_mono c (show i + 1 ≤ c.r1Points.length by omega)
    have e3 : lamBefore c (i + 1) = lamBefore c i + (c.r1Cones.getD i ⟨[]⟩).generators.length := by
      simp [lamBefore, Finset.sum_range_succ]
    rw [abs_of_nonneg (hpos (lamBefore c i + j) (by omega)), Nat.add_assoc]
  · intro hpos
    dsimp only
    rw [hobj x.get 0]
    congr 1
    unfold absTorque
    rw [V3.cross_sum, ← Finset.sum_sub_distrib, V3.dot_sum]
    refine Finset.sum_congr rfl fun i hi => ?_
    rw [← V3.sub_cross]
    unfold combo
    rw [V3.cross_sum, V3.dot_sum]
    refine Finset.sum_congr rfl fun j hj => ?_
    rw [mem_range] at hi hj
    have hmem : (c.r1Cones.getD i ⟨[]⟩).generators.getD j 0
        ∈ (c.r1Cones.getD i ⟨[]⟩).generators := by
      rw [List.getD_eq_getElem _ _ hj]
      exact List.getElem_mem _
    rw [V3.cross_smul, V3.dot_smul, mul_comm, abs_of_nonneg (hpos i hi _ hmem), Nat.add_assoc]

end

/-! ## Examples -/

namespace ForceTaskEx

open GripEx

theorem isLayout_data : IsLayout mbs data := ⟨SolverData.init, [], [con], [], good, layout_data⟩

/-- A task on a contact that is in the problem. -/
example : ∃ s, ContactTRun mbs con.id 3 (some data) ⟨1, 2, 3⟩ s ∧
    FirstContact data.allCont con.id 0 con := by
  obtain ⟨s', h, -⟩ := contactT_nrVars isLayout_data (ContactT.make con.id (3 : ℚ)) (fun _ _ => 7)
    (by
      rintro k c ⟨h1, h2, h3⟩
      have : c ∈ data.allCont := List.mem_of_getElem? h1
      have hc : data.allCont = [con] := rfl
      rw [hc] at this
      simp at this
      subst this
      rfl)
  exact ⟨_, .error ⟨1, 2, 3⟩ (.nrVars data _ s' .make isLayout_data h), rfl, rfl,
    fun j _ hj => by omega⟩

/-- Its objective for the weights 1, 0, 2 of the generators `y`, `-y`, `y`: the force is `(0, 3, 0)`. -/
example : ∃ s' s2, (ContactT.make con.id (3 : ℚ)).updateNrVars data (fun _ _ => 7) = .ok s' ∧
    (s'.setError ⟨1, 2, 3⟩).update = .ok s2 ∧ s2.begin' = 2 ∧
    s2.task.obj (fun i => [0, 0, 1, 0, 2].getD i 0)
      = 3 * ((1 + 1 + 9) / 2) - 3 * ((1 + 4 + 9) / 2) := by
  refine ⟨_, _, rfl, rfl, rfl, ?_⟩
  have hl : data.lambdaBegin0 = 2 := rfl
  simp [TaskQC.obj, ContactT.task, ContactT.setError, Finset.sum_range_succ, V3.toVec, hl,
    ContactT.make]
  norm_num

/-- The gripper task on the same contact. -/
example : ∃ s', (GripperT.make con.id 0 ⟨0, 0, 1⟩ (3 : ℚ)).updateNrVars data (fun _ => 7) = .ok s' ∧
    s'.begin' = 2 ∧ s'.C.get 0 = 1 ∧ s'.C.get 1 = 1 ∧ s'.C.get 2 = 0 := by
  refine ⟨_, rfl, rfl, ?_, ?_, ?_⟩ <;> simp [V3.dot, V3.cross, GripperT.make]

end ForceTaskEx

open GripEx in
/-- In general the objective is not the torque: with opposite generators the torque cancels and the
objective is positive. -/
theorem C50_gripper_counterexample : ∃ s' lam W,
    (GripperT.make con.id 0 ⟨0, 0, 1⟩ (3 : ℚ)).updateNrVars data (fun _ => 7) = .ok s' ∧
    lambdaVecAt data ⟨5, fun i => [0, 0, 1, 1, 0].getD i 0⟩ 0 = .ok lam ∧
    con.forceWrench lam con.r1Points con.r1Cones = .ok W ∧
    (⟨0, 0, 1⟩ : V3 ℚ).dot (W.couple - (0 : V3 ℚ).cross W.force) = 0 ∧
    s'.task.obj (fun i => [0, 0, 1, 1, 0].getD i 0) = 6 := by
  refine ⟨_, _, _, rfl, rfl, bi_forceWrench con _ _ _ (by decide) (by decide) (fun _ _ => le_rfl)
    (by decide), ?_, ?_⟩
  · simp [con, combo, lamBefore, Finset.sum_range_succ, V3.dot, V3.cross,
      MultiBody.nrDof]
  · simp [TaskQC.obj, GripperT.task, GripperT.make, Finset.sum_range_succ, V3.dot, V3.cross,
      show data.bilateralBegin = 2 from rfl, Mat.zero]
    try norm_num

open GripEx in
/-- A cone without a point is undefined behaviour for both tasks: the Jacobian of the cones is written
past its end, the points are read past their end. -/
theorem C50_extra_cone_ub : ∃ d, layout SolverData.init mbs [] [{ con with
      r1Points := [⟨1, 0, 0⟩] }] = .ok (d, []) ∧
    (ContactT.make con.id (1 : ℚ)).updateNrVars d (fun _ _ => 0) = .ub ∧
    (GripperT.make con.id 0 ⟨0, 0, 1⟩ (1 : ℚ)).updateNrVars d (fun _ => 0) = .ub := by
  refine ⟨_, rfl, ?_, ?_⟩
  · rfl
  · rfl

end Verif
