import Verif.Model.Getters
import Verif.Model.Motion
import Verif.Props.Wrappers

/-!
# C110: a getter returns the last value set
# C111: the bounds as Python sees them
-/

set_option autoImplicit false
set_option linter.unusedSectionVars false

namespace Verif

open Spec

section
variable {K : Type} [Field K] [LinearOrder K]

namespace Spec

/-- What a setter gives to a getter. -/
def gives : HLSet K → HLGet → Option (HLVal K)
  | .position p, .position => some (.v3 p)
  | .bodyPoint p, .bodyPoint => some (.v3 p)
  | .orientation m, .orientation => some (.m3 m)
  | .target X, .target => some (.pt X)
  | .X_b_p X, .X_b_p => some (.pt X)
  | .E_0_c m, .E_0_c => some (.m3 m)
  | .com c, .com => some (.v3 c)
  | .momentum m, .momentum => some (.fv m)
  | .velocity v, .velocity => some (.v3 v)
  | .trackedPoint p, .trackedPoint => some (.v3 p)
  | .bodyAxis v, .bodyAxis => some (.v3 v)
  | .bodyVector v, .bodyVector => some (.v3 v)
  | .targetVector v, .targetVector => some (.v3 v)
  | _, _ => none

/-- What the constructor gives to a getter; `none` when the class does not have it. -/
def firstGiven : HLArgs K → HLGet → Option (HLVal K)
  | .position _ p _, .position => some (.v3 p)
  | .position _ _ p, .bodyPoint => some (.v3 p)
  | .orientation _ m, .orientation => some (.m3 m)
  | .surfaceOrientation _ m _, .orientation => some (.m3 m)
  | .surfaceTransform _ X _, .target => some (.pt X)
  | .surfaceTransform _ _ X, .X_b_p => some (.pt X)
  | .transform _ X _ _, .target => some (.pt X)
  | .transform _ _ X _, .X_b_p => some (.pt X)
  | .transform _ _ _ m, .E_0_c => some (.m3 m)
  | .com c, .com => some (.v3 c)
  | .comW c _, .com => some (.v3 c)
  | .momentum m, .momentum => some (.fv m)
  | .linVelocity _ v _, .velocity => some (.v3 v)
  | .linVelocity _ _ p, .bodyPoint => some (.v3 p)
  | .tracking _ _ _ _ p, .trackedPoint => some (.v3 p)
  | .tracking _ p _ _ _, .bodyPoint => some (.v3 p)
  | .tracking _ _ v _ _, .bodyAxis => some (.v3 v)
  | .vectorOrientation _ v _, .bodyVector => some (.v3 v)
  | .vectorOrientation _ _ v, .targetVector => some (.v3 v)
  | _, _ => none

/-- The last value given to a getter by a list of setters, `v` if none does. -/
def lastGiven (g : HLGet) : List (HLSet K) → HLVal K → HLVal K
  | [], v => v
  | o :: l, v => lastGiven g l ((gives o g).getD v)

end Spec

theorem make_get {R : RobotDesc K} {junk : ℕ → ℕ → ℕ → K} {a : HLArgs K} {t : HLTask K}
    (h : HLTask.make R junk a = .ok t) (g : HLGet) : t.get g = firstGiven a g := by
  cases a with
  | position body p pt =>
    simp only [HLTask.make, Out.bind_eq_ok] at h
    obtain ⟨bp, _, h⟩ := h
    cases h
    cases g <;> rfl
  | orientation body m =>
    simp only [HLTask.make, OriT.make, Out.bind_eq_ok] at h
    obtain ⟨t, ⟨bp, _, ht⟩, h⟩ := h
    cases ht
    cases h
    cases g <;> rfl
  | surfaceOrientation body m X =>
    simp only [HLTask.make, SurfOriT.make, Out.bind_eq_ok] at h
    obtain ⟨t, ⟨bp, _, ht⟩, h⟩ := h
    cases ht
    cases h
    cases g <;> rfl
  | surfaceTransform body X Y =>
    simp only [HLTask.make, TransCT.make, Out.bind_eq_ok] at h
    obtain ⟨t, ⟨bp, _, ht⟩, h⟩ := h
    cases ht
    cases h
    cases g <;> rfl
  | transform body X Y m =>
    simp only [HLTask.make, TransT.make, TransCT.make, Out.bind_eq_ok] at h
    obtain ⟨t, ⟨c, ⟨bp, _, hc⟩, ht⟩, h⟩ := h
    cases hc
    cases ht
    cases h
    cases g <;> rfl
  | gaze2 body q d X ref =>
    simp only [HLTask.make, Out.bind_eq_ok] at h
    obtain ⟨bp, _, h⟩ := h
    cases h
    cases g <;> rfl
  | gaze3 body q X ref =>
    simp only [HLTask.make, Out.bind_eq_ok] at h
    obtain ⟨bp, _, t, _, h⟩ := h
    cases h
    cases g <;> rfl
  | pbvs body X Y =>
    simp only [HLTask.make, Out.bind_eq_ok] at h
    obtain ⟨bp, _, h⟩ := h
    cases h
    cases g <;> rfl
  | com c =>
    simp only [HLTask.make, CoMT.make, Out.bind_eq_ok] at h
    obtain ⟨t, ht, h⟩ := h
    cases h
    first
      | (obtain ⟨J, _, ht⟩ := ht; cases ht; cases g <;> rfl)
      | (simp only [CoMT.makeW, Out.bind_eq_ok] at ht; obtain ⟨J, _, ht⟩ := ht; cases ht; cases g <;> rfl)
  | comW c w =>
    simp only [HLTask.make, CoMT.makeW, Out.bind_eq_ok] at h
    obtain ⟨t, ⟨J, _, ht⟩, h⟩ := h
    cases ht
    cases h
    cases g <;> rfl
  | momentum m =>
    simp only [HLTask.make] at h
    cases h
    cases g <;> rfl
  | linVelocity body v pt =>
    simp only [HLTask.make, Out.bind_eq_ok] at h
    obtain ⟨bp, _, h⟩ := h
    cases h
    cases g <;> rfl
  | tracking body pt ax js tp =>
    simp only [HLTask.make, TrackQ.make, Out.bind_eq_ok] at h
    obtain ⟨t, ht, h⟩ := h
    obtain ⟨bp, _, ht⟩ := ht
    obtain ⟨js, _, ht⟩ := ht
    cases ht
    cases h
    cases g <;> rfl
  | relDist dt b1 b2 r1 e1 r2 e2 u1 u2 =>
    simp only [HLTask.make, Out.bind_eq_ok] at h
    obtain ⟨bp, _, bp2, _, h⟩ := h
    cases h
    cases g <;> rfl
  | vectorOrientation body v t =>
    simp only [HLTask.make, VecOriT.make, Out.bind_eq_ok] at h
    obtain ⟨t, ⟨bp, _, ht⟩, h⟩ := h
    cases ht
    cases h
    cases g <;> rfl

theorem set_get {r : ℕ} {o : HLSet K} {t t' : HLTask K} (h : t.set r o = .ok t') (g : HLGet) :
    t'.get g = (t.get g).map fun v => (gives o g).getD v := by
  cases t <;> cases o <;> simp only [HLTask.set, Out.bind_eq_ok] at h <;> first
    | (cases h; cases g <;> rfl)
    | (obtain ⟨t1, _, h⟩ := h; cases h; cases g <;> rfl)
    | (obtain ⟨R, _, t1, ht, h⟩ := h
       simp only [CoMT.updateInertial, Out.bind_eq_ok] at ht
       obtain ⟨J, _, ht⟩ := ht
       cases ht
       cases h
       cases g <;> rfl)

theorem updateOn_get {f : Fns K} {R : RobotDesc K} {st : KState K} {junk : ℕ → ℕ → ℕ → K} {t t' : HLTask K}
    (h : t.updateOn f R st junk = .ok t') (g : HLGet) : t'.get g = t.get g := by
  cases t with
  | position t =>
    simp only [HLTask.updateOn, PositionT.update, Out.bind_eq_ok] at h
    obtain ⟨t1, ⟨_, _, _, _, _, _, _, _, _, _, M, hM, h1⟩, h⟩ := h
    cases h1
    cases h
    cases g <;> rfl
  | orientation t =>
    simp only [HLTask.updateOn, OriT.update, Out.bind_eq_ok] at h
    obtain ⟨t1, ⟨o, ho, h1⟩, h⟩ := h
    cases h1
    cases h
    cases g <;> rfl
  | surfaceOrientation t =>
    simp only [HLTask.updateOn, SurfOriT.update, Out.bind_eq_ok] at h
    obtain ⟨t1, ⟨o, ho, h1⟩, h⟩ := h
    cases h1
    cases h
    cases g <;> rfl
  | surfaceTransform t =>
    simp only [HLTask.updateOn, TransCT.update, Out.bind_eq_ok] at h
    obtain ⟨t1, ⟨o, ho, h1⟩, h⟩ := h
    cases h1
    cases h
    cases g <;> rfl
  | transform t =>
    simp only [HLTask.updateOn, TransT.update, Out.bind_eq_ok] at h
    obtain ⟨t1, ⟨o, ho, h1⟩, h⟩ := h
    cases h1
    cases h
    cases g <;> rfl
  | gaze t =>
    simp only [HLTask.updateOn, Out.bind_eq_ok] at h
    obtain ⟨t1, _, h⟩ := h
    cases h
    cases g <;> rfl
  | pbvs t =>
    simp only [HLTask.updateOn, Out.bind_eq_ok] at h
    obtain ⟨t1, _, h⟩ := h
    cases h
    cases g <;> rfl
  | com t =>
    simp only [HLTask.updateOn, CoMT.update, CoMT.updateAt, Out.bind_eq_ok] at h
    obtain ⟨t1, ⟨_, _, _, _, _, _, M, hM, h1⟩, h⟩ := h
    cases h1
    cases h
    cases g <;> rfl
  | momentum t =>
    simp only [HLTask.updateOn, MomentumT.update, Out.bind_eq_ok] at h
    obtain ⟨t1, ⟨_, _, _, _, _, _, _, _, M, hM, h1⟩, h⟩ := h
    cases h1
    cases h
    cases g <;> rfl
  | linVelocity t =>
    simp only [HLTask.updateOn, LinVelT.update, Out.bind_eq_ok] at h
    obtain ⟨t1, ⟨_, _, _, _, _, _, _, _, M, hM, h1⟩, h⟩ := h
    cases h1
    cases h
    cases g <;> rfl
  | tracking t =>
    simp only [HLTask.updateOn, TrackQ.update, Out.bind_eq_ok] at h
    obtain ⟨t1, h1, h⟩ := h
    obtain ⟨_, _, h1⟩ := h1
    cases h1
    cases h
    cases g <;> rfl
  | relDist t =>
    simp only [HLTask.updateOn, Out.bind_eq_ok] at h
    obtain ⟨t1, _, h⟩ := h
    cases h
    cases g <;> rfl
  | vectorOrientation t =>
    simp only [HLTask.updateOn, VecOriT.update, Out.bind_eq_ok] at h
    obtain ⟨t1, ⟨o, ho, h1⟩, h⟩ := h
    cases h1
    cases h
    cases g <;> rfl

theorem runs_get {f : Fns K} (g : HLGet) : ∀ {calls : List (HLCall K)} {q q' : QPTask K},
    forEach calls (HLCall.run f) q = .ok q' →
    q'.task.get g = (q.task.get g).map (lastGiven g (calls.filterMap setterOf))
  | [], q, q', h => by
    simp only [forEach] at h
    cases h
    simp only [List.filterMap_nil]
    cases q.task.get g <;> rfl
  | .set o :: l, q, q', h => by
    simp only [forEach, HLCall.run, QPTask.set, Out.bind_eq_ok] at h
    obtain ⟨q1, ⟨t1, ht1, h1⟩, h⟩ := h
    cases h1
    rw [runs_get g h, set_get ht1 g, Option.map_map]
    rfl
  | .update mbs mbcs na j :: l, q, q', h => by
    simp only [forEach, HLCall.run, QPTask.update, Out.bind_eq_ok] at h
    obtain ⟨q1, ⟨R1, _, st, _, n, _, t1, ht1, h1⟩, h⟩ := h
    cases h1
    rw [runs_get g h, updateOn_get ht1 g]
    rfl

/-- After any history of setters and updates, a getter of a task returns the last value its setter was given,
and the one of the constructor if there is none: no other setter and no update changes it. -/
theorem C110_getters {f : Fns K} {mbs : List (RobotDesc K)} {rI : ℕ} {junk : ℕ → ℕ → ℕ → K} {a : HLArgs K}
    {q q' : QPTask K} {calls : List (HLCall K)} (hm : QPTask.make mbs rI junk a = .ok q)
    (h : forEach calls (HLCall.run f) q = .ok q') (g : HLGet) :
    q'.task.get g = (firstGiven a g).map (lastGiven g (calls.filterMap setterOf)) := by
  simp only [QPTask.make, Out.bind_eq_ok] at hm
  obtain ⟨R, _, t, ht, hq⟩ := hm
  cases hq
  rw [runs_get g h, make_get ht g]

/-- Giving a getter's value back to the setter changes nothing that is ever reported by a getter. -/
theorem C110_set_back {r : ℕ} {o : HLSet K} {t t' : HLTask K} (h : t.set r o = .ok t')
    (ho : ∀ g v, gives o g = some v → ∀ w, t.get g = some w → w = v) (g : HLGet) : t'.get g = t.get g := by
  rw [set_get h g]
  cases hg : t.get g with
  | none => rfl
  | some w =>
    simp only [Option.map_some, Option.some.injEq]
    cases hv : gives o g with
    | none => rfl
    | some v => exact (ho g v hv w hg).symm

/-- `MultiRobotTransformTask`: the two frames (Tasks.cpp:300-310). -/
theorem C110_multi (X : PT K) (s : MultiTransT K) :
    (s.setX1 X).X_r1b_r1s = X ∧ (s.setX1 X).X_r2b_r2s = s.X_r2b_r2s ∧
      (s.setX2 X).X_r2b_r2s = X ∧ (s.setX2 X).X_r1b_r1s = s.X_r1b_r1s :=
  ⟨rfl, rfl, rfl, rfl⟩

namespace GetEx

/-- Two targets, another setter and no update: the second target. -/
example (X Y Z : PT ℚ) : lastGiven .target [HLSet.target X, .X_b_p Z, .target Y, .velocity ⟨1, 2, 3⟩] (.pt X) = .pt Y := rfl

end GetEx

end

/-! ## C111 -/

namespace PyBound

variable {α : Type}

/-- The last value written to an attribute, `v` if none. -/
def Spec.lastWritten (a : Attr) : List (Attr × α) → α → α
  | [], v => v
  | w :: l, v => Spec.lastWritten a l (if w.1 = a then w.2 else v)

/-- The last value written to any attribute, `v` if none. -/
def Spec.lastAny : List (Attr × α) → α → α
  | [], v => v
  | w :: l, _ => Spec.lastAny l w.2

/-- For every class but `PolyTorqueBound`, after any writes the attributes and the C++ members are the last values
written to each. -/
theorem C111_bounds_partial {c : Cls} (hc : c ≠ .polyTorque) (l : List (Attr × α)) (b : Bnd α) :
    (sets c b l).lower = Spec.lastWritten .l l b.lower ∧ (sets c b l).upper = Spec.lastWritten .u l b.upper ∧
      get c (sets c b l) .l = Spec.lastWritten .l l b.lower ∧
      get c (sets c b l) .u = Spec.lastWritten .u l b.upper := by
  have key : (sets c b l).lower = Spec.lastWritten .l l b.lower ∧
      (sets c b l).upper = Spec.lastWritten .u l b.upper := by
    induction l generalizing b with
    | nil => exact ⟨rfl, rfl⟩
    | cons w l ih =>
      obtain ⟨a, v⟩ := w
      have := ih (set c b a v)
      cases a
      · exact this
      · simp only [set, if_neg hc] at this
        simpa only [sets, List.foldl_cons, set, if_neg hc, Spec.lastWritten, if_true, reduceCtorEq, if_false] using this
  exact ⟨key.1, key.2, key.1, by rw [get, if_neg hc]; exact key.2⟩

/-- `PolyTorqueBound`: both attributes are the lower bound, the last value written to either; the upper bound
stays the one of the constructor whatever the program writes. -/
theorem C111_poly (l : List (Attr × α)) (b : Bnd α) :
    (sets .polyTorque b l).lower = Spec.lastAny l b.lower ∧ (sets .polyTorque b l).upper = b.upper ∧
      get .polyTorque (sets .polyTorque b l) .u = get .polyTorque (sets .polyTorque b l) .l := by
  refine ⟨?_, ?_, rfl⟩
  · induction l generalizing b with
    | nil => rfl
    | cons w l ih =>
      obtain ⟨a, v⟩ := w
      cases a <;> exact ih _
  · induction l generalizing b with
    | nil => rfl
    | cons w l ih =>
      obtain ⟨a, v⟩ := w
      cases a <;> exact ih _

/-- A `PolyTorqueBound` made without arguments and given both bounds through its attributes has no upper bound:
the constructor of the constraint reads past the end for every robot with a joint of one dof. -/
theorem C111_poly_ub {K : Type} [Field K] [LinearOrder K] {mb : MultiBody K} {r : ℕ}
    {l : List (Attr × List (List (List K)))} {i : ℕ} {j : Joint K} (hj : mb.joints[i]? = some j) (hd : j.dof = 1) :
    MotionPoly.make mb r (sets .polyTorque ⟨[], []⟩ l).lower (sets .polyTorque ⟨[], []⟩ l).upper = .ub := by
  rw [(C111_poly l ⟨[], []⟩).2.1]
  generalize (sets .polyTorque ⟨[], []⟩ l).lower = lP
  unfold MotionPoly.make
  generalize hs : (⟨MotionCommon.make mb r, [], [], []⟩ : MotionPoly K) = s0
  have hi : i < mb.nrJoints := (List.getElem?_eq_some_iff.1 hj).1
  have hnu : ∀ k, nested (([] : List (List (List K)))) k 0 = .ub := fun k => rfl
  have hnl : ∀ k, (∃ v, nested lP k 0 = .ok v) ∨ nested lP k 0 = .ub := by
    intro k
    unfold nested vecAt
    cases lP[k]? with
    | none => exact .inr rfl
    | some v =>
      rw [Out.ok_bind]
      cases v[0]? with
      | none => exact .inr rfl
      | some w => exact .inl ⟨w, rfl⟩
  suffices H : ∀ n, n ≤ mb.nrJoints → i < n → forRange n (fun i (s : MotionPoly K) => do
      let j ← vecAt mb.joints i
      if j.dof = 1 then do
        let l ← nested lP i 0
        let u ← nested [] i 0
        pure { s with
          torqueL := s.torqueL ++ [l], torqueU := s.torqueU ++ [u], jointIndex := s.jointIndex ++ [i] }
      else pure s) s0 = .ub from H _ le_rfl hi
  have H2 : ∀ n, n ≤ mb.nrJoints → (∃ s, forRange n (fun i (s : MotionPoly K) => do
      let j ← vecAt mb.joints i
      if j.dof = 1 then do
        let l ← nested lP i 0
        let u ← nested [] i 0
        pure { s with
          torqueL := s.torqueL ++ [l], torqueU := s.torqueU ++ [u], jointIndex := s.jointIndex ++ [i] }
      else pure s) s0 = .ok s ∧ ¬ i < n) ∨ forRange n (fun i (s : MotionPoly K) => do
      let j ← vecAt mb.joints i
      if j.dof = 1 then do
        let l ← nested lP i 0
        let u ← nested [] i 0
        pure { s with
          torqueL := s.torqueL ++ [l], torqueU := s.torqueU ++ [u], jointIndex := s.jointIndex ++ [i] }
      else pure s) s0 = .ub := by
    intro n
    induction n with
    | zero => exact fun _ => .inl ⟨s0, rfl, by omega⟩
    | succ n ih =>
      intro hn
      rcases ih (by omega) with ⟨s, e, he⟩ | e
      · simp only [forRange, e, Out.ok_bind]
        have hlt : n < mb.joints.length := hn
        rw [vecAt_ok hlt, Out.ok_bind]
        by_cases h1 : (mb.joints[n]).dof = 1
        · rw [if_pos h1]
          rcases hnl n with ⟨v, hv⟩ | hv
          · exact .inr (by rw [hv, Out.ok_bind, hnu n, Out.ub_bind])
          · exact .inr (by rw [hv, Out.ub_bind])
        · rw [if_neg h1]
          refine .inl ⟨s, rfl, fun c => ?_⟩
          obtain rfl : i = n := by omega
          rw [List.getElem?_eq_getElem hlt] at hj
          exact h1 (Option.some.inj hj ▸ hd)
      · exact .inr (by simp only [forRange, e, Out.ub_bind])
  intro n hn h
  rcases H2 n hn with ⟨s, _, c⟩ | e
  · exact absurd h c
  · exact e

namespace BoundEx

/-- Lower bound -1 and upper bound 1 for one joint, written through the attributes: the object has the lower
bound 1, and reports it twice. -/
theorem C111_poly_counterexample :
    sets .polyTorque ⟨[], []⟩ [(.l, [[[(-1 : ℤ)]]]), (.u, [[[1]]])] = ⟨[[[1]]], []⟩ ∧
      get .polyTorque (sets .polyTorque ⟨[], []⟩ [(.l, [[[(-1 : ℤ)]]]), (.u, [[[1]]])]) .l = [[[1]]] := by decide

/-- The same for `TorqueBound`. -/
example : sets .torque ⟨[], []⟩ [(.l, [[(-1 : ℤ)]]), (.u, [[1]])] = ⟨[[-1]], [[1]]⟩ := by decide

end BoundEx

end PyBound

end Verif
