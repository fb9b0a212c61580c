import Verif.Props.Wrappers

/-!
# C108: setting a target is building the task with it

Every setter of a high-level task leaves it as if it had been constructed with the new value, so a task that
was retargeted any number of times, between any number of updates, reports what a fresh one reports.  The two
setters that do not do this are named.
-/

set_option autoImplicit false
set_option linter.unusedSectionVars false

namespace Verif

open Spec

section
variable {K : Type} [Field K] [LinearOrder K]

namespace Spec

/-- `name` is the body of index `i` of the robot. -/
def isBody (R : RobotDesc K) (i : ℕ) (name : String) : Bool :=
  match R.rb.bodyIndex name with
  | .ok b => b == i
  | _ => false

/-- `x` with the value `v` when `name` is the body of index `i`. -/
def atBody {α : Type} (R : RobotDesc K) (i : ℕ) (name : String) (v x : α) : α :=
  if isBody R i name then v else x

/-- The arguments a constructor would have to be given after a setter. -/
def withSet (R : RobotDesc K) : HLSet K → HLArgs K → HLArgs K
  | .position p, .position b _ pt => .position b p pt
  | .bodyPoint p, .position b x _ => .position b x p
  | .bodyPoint p, .linVelocity b v _ => .linVelocity b v p
  | .bodyPoint p, .tracking b _ ax js tp => .tracking b p ax js tp
  | .orientation m, .orientation b _ => .orientation b m
  | .orientation m, .surfaceOrientation b _ X => .surfaceOrientation b m X
  | .target X, .surfaceTransform b _ Y => .surfaceTransform b X Y
  | .target X, .transform b _ Y m => .transform b X Y m
  | .X_b_p Y, .surfaceTransform b X _ => .surfaceTransform b X Y
  | .X_b_p Y, .transform b X _ m => .transform b X Y m
  | .E_0_c m, .transform b X Y _ => .transform b X Y m
  | .error2 q ref, .gaze2 b _ d X _ => .gaze2 b q d X ref
  | .error2 q ref, .gaze3 b p X _ => .gaze2 b q p.z X ref
  | .error3 p ref, .gaze2 b _ _ X _ => .gaze3 b p X ref
  | .error3 p ref, .gaze3 b _ X _ => .gaze3 b p X ref
  | .errorX X, .pbvs b _ Y => .pbvs b X Y
  | .com c, .com _ => .com c
  | .com c, .comW _ w => .comW c w
  | .momentum m, .momentum _ => .momentum m
  | .velocity v, .linVelocity b _ pt => .linVelocity b v pt
  | .trackedPoint tp, .tracking b pt ax js _ => .tracking b pt ax js tp
  | .bodyAxis ax, .tracking b pt _ js tp => .tracking b pt ax js tp
  | .robotPoint i p, .relDist dt b1 b2 r1 e1 r2 e2 u1 u2 =>
    .relDist dt b1 b2 (atBody R i b1 p r1) e1 (atBody R i b2 p r2) e2 u1 u2
  | .envPoint i p, .relDist dt b1 b2 r1 e1 r2 e2 u1 u2 =>
    .relDist dt b1 b2 r1 (atBody R i b1 p e1) r2 (atBody R i b2 p e2) u1 u2
  | .vector i u, .relDist dt b1 b2 r1 e1 r2 e2 u1 u2 =>
    .relDist dt b1 b2 r1 e1 r2 e2 (atBody R i b1 u u1) (atBody R i b2 u u2)
  | .bodyVector v, .vectorOrientation b _ t => .vectorOrientation b v t
  | .targetVector t, .vectorOrientation b v _ => .vectorOrientation b v t
  | _, a => a

/-- The setters that can stand for a construction: not the body point of a position task, unless it is the one
it has; not a direction of a relative distance task that would make it measure in another way; and not new
inertial parameters, which are no argument of a constructor. -/
def Rebuilds (R : RobotDesc K) : HLSet K → HLArgs K → Prop
  | .bodyPoint p, .position _ _ pt => p = pt
  | .vector i u, .relDist _ b1 b2 _ _ _ _ u1 u2 =>
    ((atBody R i b1 u u1 ≠ 0 ∧ atBody R i b2 u u2 ≠ 0) ↔ (u1 ≠ 0 ∧ u2 ≠ 0))
  | .updateInertial _, _ => False
  | _, _ => True

/-- All the setters of a list, each for the arguments the ones before lead to. -/
def RebuildAll (R : RobotDesc K) : List (HLSet K) → HLArgs K → Prop
  | [], _ => True
  | o :: l, a => Rebuilds R o a ∧ RebuildAll R l (withSet R o a)

end Spec

theorem find_isBody {R : RobotDesc K} {name : String} {bp : ℕ × List ℕ} (h : R.find name = .ok bp) (i : ℕ) :
    isBody R i name = decide (bp.1 = i) := by
  simp only [RobotDesc.find, Out.bind_eq_ok] at h
  obtain ⟨b, hb, p, _, h⟩ := h
  cases h
  simp only [isBody, hb]
  exact (Bool.eq_iff_iff.2 (by simp))

/-- Right after the construction, a setter leaves the very state a construction with the new value would. -/
theorem C108_set_is_build {R : RobotDesc K} {junk : ℕ → ℕ → ℕ → K} {a : HLArgs K} {t : HLTask K}
    {r : ℕ} {o : HLSet K} (hm : HLTask.make R junk a = .ok t) (ho : Rebuilds R o a) :
    t.set r o = HLTask.make R junk (withSet R o a) := by
  cases a with
  | position body pos pt =>
    simp only [HLTask.make, Out.bind_eq_ok] at hm
    obtain ⟨bp, hb, h⟩ := hm
    cases h
    cases o <;> simp only [withSet, HLTask.make, HLTask.set, hb] <;> first
      | rfl
      | exact ho.elim
      | (obtain rfl := ho; rfl)
  | orientation body m =>
    simp only [HLTask.make, OriT.make, Out.bind_eq_ok] at hm
    obtain ⟨t, ⟨bp, hb, ht⟩, h⟩ := hm
    cases ht
    cases h
    cases o <;> simp only [withSet, HLTask.make, HLTask.set, OriT.make, hb] <;> first | rfl | exact ho.elim
  | surfaceOrientation body m X =>
    simp only [HLTask.make, SurfOriT.make, Out.bind_eq_ok] at hm
    obtain ⟨t, ⟨bp, hb, ht⟩, h⟩ := hm
    cases ht
    cases h
    cases o <;> simp only [withSet, HLTask.make, HLTask.set, SurfOriT.make, hb] <;> first | rfl | exact ho.elim
  | surfaceTransform body X Y =>
    simp only [HLTask.make, TransCT.make, Out.bind_eq_ok] at hm
    obtain ⟨t, ⟨bp, hb, ht⟩, h⟩ := hm
    cases ht
    cases h
    cases o <;> simp only [withSet, HLTask.make, HLTask.set, TransCT.make, hb] <;> first | rfl | exact ho.elim
  | transform body X Y m =>
    simp only [HLTask.make, TransT.make, TransCT.make, Out.bind_eq_ok] at hm
    obtain ⟨t, ⟨c, ⟨bp, hb, hc⟩, ht⟩, h⟩ := hm
    cases hc
    cases ht
    cases h
    cases o <;> simp only [withSet, HLTask.make, HLTask.set, TransT.make, TransCT.make, hb] <;> first
      | rfl | exact ho.elim
  | gaze2 body q d X ref =>
    simp only [HLTask.make, Out.bind_eq_ok] at hm
    obtain ⟨bp, hb, h⟩ := hm
    cases h
    cases o <;> simp only [withSet, HLTask.make, HLTask.set, GazeT.make3, GazeT.error3, hb] <;> first
      | rfl
      | exact ho.elim
      | (rename_i p' ref'; simp only [Out.ok_bind]; cases project p' <;> rfl)
  | gaze3 body q X ref =>
    simp only [HLTask.make, GazeT.make3, Out.bind_eq_ok] at hm
    obtain ⟨bp, hb, t, ⟨q2, hq, ht⟩, h⟩ := hm
    cases ht
    cases h
    cases o <;> simp only [withSet, HLTask.make, HLTask.set, GazeT.make3, GazeT.error3, hb, hq] <;> first
      | rfl
      | exact ho.elim
      | (rename_i p' ref'; simp only [Out.ok_bind]; cases project p' <;> rfl)
  | pbvs body X Y =>
    simp only [HLTask.make, Out.bind_eq_ok] at hm
    obtain ⟨bp, hb, h⟩ := hm
    cases h
    cases o <;> simp only [withSet, HLTask.make, HLTask.set, hb] <;> first | rfl | exact ho.elim
  | com c =>
    simp only [HLTask.make, CoMT.make, CoMT.makeW, Out.bind_eq_ok] at hm
    obtain ⟨t, ⟨J, hJ, ht⟩, h⟩ := hm
    cases ht
    cases h
    cases o <;> first
      | exact ho.elim
      | (simp only [withSet, HLTask.make, HLTask.set, CoMT.make, CoMT.makeW, hJ]; rfl)
  | comW c w =>
    simp only [HLTask.make, CoMT.makeW, Out.bind_eq_ok] at hm
    obtain ⟨t, ⟨J, hJ, ht⟩, h⟩ := hm
    cases ht
    cases h
    cases o <;> first
      | exact ho.elim
      | (simp only [withSet, HLTask.make, HLTask.set, CoMT.makeW, hJ]; rfl)
  | momentum m =>
    cases hm
    cases o <;> first | rfl | exact ho.elim
  | linVelocity body v pt =>
    simp only [HLTask.make, Out.bind_eq_ok] at hm
    obtain ⟨bp, hb, h⟩ := hm
    cases h
    cases o <;> simp only [withSet, HLTask.make, HLTask.set, hb] <;> first | rfl | exact ho.elim
  | tracking body pt ax js tp =>
    simp only [HLTask.make, TrackQ.make, Out.bind_eq_ok] at hm
    obtain ⟨t, ⟨bp, hb, tt, h1, ht⟩, h⟩ := hm
    cases ht
    cases h
    cases o <;> first
      | exact ho.elim
      | (simp only [withSet, HLTask.make, HLTask.set, TrackQ.make, hb, Out.ok_bind, h1]; rfl)
  | relDist dt body1 body2 r1 e1 r2 e2 u1 u2 =>
    simp only [HLTask.make, Out.bind_eq_ok] at hm
    obtain ⟨bp1, hb1, bp2, hb2, h⟩ := hm
    cases h
    cases o with
    | robotPoint i p =>
      simp only [withSet, HLTask.make, HLTask.set, hb1, hb2, Out.ok_bind, Out.pure_eq, atBody, find_isBody hb1,
        find_isBody hb2, RelDistT.robotPoint, RelDistT.make, RelBody.make, List.map_cons, List.map_nil,
        decide_eq_true_eq]
      split_ifs <;> rfl
    | envPoint i p =>
      simp only [withSet, HLTask.make, HLTask.set, hb1, hb2, Out.ok_bind, Out.pure_eq, atBody, find_isBody hb1,
        find_isBody hb2, RelDistT.envPoint, RelDistT.make, RelBody.make, List.map_cons, List.map_nil,
        decide_eq_true_eq]
      split_ifs <;> rfl
    | vector i u =>
      have e : decide (atBody R i body1 u u1 ≠ 0 ∧ atBody R i body2 u u2 ≠ 0) = decide (u1 ≠ 0 ∧ u2 ≠ 0) :=
        decide_eq_decide.2 ho
      simp only [atBody, find_isBody hb1, find_isBody hb2, decide_eq_true_eq] at e
      simp only [withSet, HLTask.make, HLTask.set, hb1, hb2, Out.ok_bind, Out.pure_eq, atBody, find_isBody hb1,
        find_isBody hb2, RelDistT.vector, RelDistT.make, RelBody.make, List.map_cons, List.map_nil,
        decide_eq_true_eq]
      split_ifs at e ⊢ <;> (rw [e]; rfl)
    | updateInertial => exact ho.elim
    | _ => simp only [withSet, HLTask.make, HLTask.set, hb1, hb2]; rfl
  | vectorOrientation body v tg =>
    simp only [HLTask.make, VecOriT.make, Out.bind_eq_ok] at hm
    obtain ⟨t, ⟨bp, hb, ht⟩, h⟩ := hm
    cases ht
    cases h
    cases o <;> simp only [withSet, HLTask.make, HLTask.set, VecOriT.make, hb] <;> first | rfl | exact ho.elim

/-- Several setters in a row. -/
theorem C108_sets_are_build {R : RobotDesc K} {junk : ℕ → ℕ → ℕ → K} {r : ℕ} :
    ∀ {os : List (HLSet K)} {a : HLArgs K} {t t' : HLTask K}, HLTask.make R junk a = .ok t →
      RebuildAll R os a → forEach os (fun o t => t.set r o) t = .ok t' →
      HLTask.make R junk (os.foldl (fun a o => withSet R o a) a) = .ok t'
  | [], a, t, t', hm, _, h => by
    simp only [forEach] at h
    cases h
    exact hm
  | o :: os, a, t, t', hm, ho, h => by
    simp only [forEach, Out.bind_eq_ok] at h
    obtain ⟨t1, h1, h⟩ := h
    rw [C108_set_is_build hm ho.1] at h1
    rw [List.foldl_cons]
    exact C108_sets_are_build h1 ho.2 h

end

section
variable {K : Type} [Field K] [LinearOrder K] [IsStrictOrderedRing K]

theorem withSet_plain {R : RobotDesc K} {o : HLSet K} {a : HLArgs K} (ha : PlainArgs a) :
    PlainArgs (withSet R o a) := by
  cases o <;> cases a <;> exact ha

/-- Whether a construction succeeds does not depend on the memory it happens in. -/
theorem make_junk {R : RobotDesc K} {junk junk' : ℕ → ℕ → ℕ → K} {a : HLArgs K} {t : HLTask K}
    (ha : PlainArgs a) (h : HLTask.make R junk a = .ok t) : ∃ t', HLTask.make R junk' a = .ok t' := by
  cases a <;> first
    | exact ha.elim
    | exact ⟨_, rfl⟩
    | (simp only [HLTask.make, Out.bind_eq_ok] at h ⊢; obtain ⟨bp, hb, h⟩ := h; exact ⟨_, bp, hb, rfl⟩)
    | (simp only [HLTask.make, OriT.make, SurfOriT.make, TransCT.make, VecOriT.make, CoMT.make, CoMT.makeW,
        Out.bind_eq_ok] at h ⊢
       obtain ⟨_, ⟨x, hx, _⟩, _⟩ := h
       exact ⟨_, _, ⟨x, hx, rfl⟩, rfl⟩)
    | (simp only [HLTask.make, TransT.make, TransCT.make, Out.bind_eq_ok] at h ⊢
       obtain ⟨_, ⟨_, ⟨x, hx, _⟩, _⟩, _⟩ := h
       exact ⟨_, _, ⟨_, ⟨x, hx, rfl⟩, rfl⟩, rfl⟩)
    | (simp only [HLTask.make, GazeT.make3, Out.bind_eq_ok] at h ⊢
       obtain ⟨x, hx, _, ⟨y, hy, _⟩, _⟩ := h
       exact ⟨_, x, hx, _, ⟨y, hy, rfl⟩, rfl⟩)

/-- A history leaves the settings of the task built with the last values. -/
theorem runs_build {f : Fns K} {R : RobotDesc K} {junk : ℕ → ℕ → ℕ → K} :
    ∀ {calls : List (HLCall K)} {a : HLArgs K} {t : HLTask K} {q q' : QPTask K},
      HLTask.make R junk a = .ok t → PlainArgs a → settings q.task = settings t → Plain q.task →
      RebuildAll R (calls.filterMap setterOf) a → forEach calls (HLCall.run f) q = .ok q' →
      ∃ t', HLTask.make R junk ((calls.filterMap setterOf).foldl (fun a o => withSet R o a) a) = .ok t' ∧
        settings q'.task = settings t'
  | [], a, t, q, q', hm, _, hs, _, _, h => by
    simp only [forEach] at h
    cases h
    exact ⟨t, hm, hs⟩
  | .set o :: l, a, t, q, q', hm, ha, hs, hp, ho, h => by
    simp only [forEach, HLCall.run, QPTask.set, Out.bind_eq_ok] at h
    obtain ⟨q1, ⟨t1, ht1, h1⟩, h⟩ := h
    cases h1
    simp only [List.filterMap_cons, setterOf] at ho ⊢
    have k := set_settings q.robotIndex o q.task
    have k' := set_settings q.robotIndex o t
    rw [hs, ← k', ht1] at k
    cases hx : t.set q.robotIndex o with
    | ok t2 =>
      rw [hx] at k
      rw [C108_set_is_build hm ho.1] at hx
      exact runs_build (q := { q with task := t1 }) hx (withSet_plain ha) (Out.ok.inj k) (set_plain ht1 hp) ho.2 h
    | ub => rw [hx] at k; cases k
    | throws e => rw [hx] at k; cases k
  | .update mbs mbcs na j :: l, a, t, q, q', hm, ha, hs, hp, ho, h => by
    simp only [forEach, HLCall.run, QPTask.update, Out.bind_eq_ok] at h
    obtain ⟨q1, ⟨R1, _, st, _, n, _, t1, ht1, h1⟩, h⟩ := h
    cases h1
    obtain ⟨e1, e2⟩ := updateOn_settings ht1 hp
    simp only [List.filterMap_cons, setterOf] at ho ⊢
    exact runs_build (q := { q with task := t1 }) hm ha (e1.trans hs) e2 ho h

/-- A task retargeted any number of times between any number of updates reports, after the next update, what a
task just constructed with the last targets reports. -/
theorem C108_history {f : Fns K} {mbs : List (RobotDesc K)} {rI : ℕ} {junk0 junk1 : ℕ → ℕ → ℕ → K}
    {a : HLArgs K} {q q' : QPTask K} {calls : List (HLCall K)} {R : RobotDesc K}
    (ha : PlainArgs a) (hR : mbs[rI]? = some R) (hm : QPTask.make mbs rI junk0 a = .ok q)
    (hk : ∀ c ∈ calls, c.Keeps rI R.mb.nrDof) (ho : RebuildAll R (calls.filterMap setterOf) a)
    (h : forEach calls (HLCall.run f) q = .ok q') :
    ∃ p, QPTask.make mbs rI junk1 ((calls.filterMap setterOf).foldl (fun a o => withSet R o a) a) = .ok p ∧
      ∀ {mbs1 : List (RobotDesc K)} {mbcs : List (KState K)} {na : List (List (MV K))}
        {junk : ℕ → ℕ → ℕ → K}, (∀ R1, mbs1[rI]? = some R1 → R1.mb.nrDof = R.mb.nrDof) →
        (∀ st, mbcs[rI]? = some st → st.alpha.flatten.length = R.mb.nrDof) →
        Out.Rel (fun r r' : QPTask K => HL.Agree r.hl r'.hl) (q'.update f mbs1 mbcs na junk)
          (p.update f mbs1 mbcs na junk) := by
  obtain ⟨R1, hR1, t1, i1, s1, -⟩ := make_qp hm
  obtain rfl : R1 = R := Option.some.inj (hR1.symm.trans hR)
  obtain ⟨t0, ht0⟩ := make_junk (junk' := junk1) ha t1
  obtain ⟨es, pl1, -⟩ := make_settings ha t1 ht0
  obtain ⟨t', ht', hs'⟩ := runs_build ht0 ha es pl1 ho h
  obtain ⟨k1, -, k3⟩ := runs_shaped h (by rw [i1]; exact hk) s1
  refine ⟨⟨rI, t'⟩, ?_, fun {mbs1 mbcs na junk} hk1 hα => ?_⟩
  · simp only [QPTask.make, Out.bind_eq_ok]
    exact ⟨R1, vecAt_eq_ok.2 hR, t', ht', rfl⟩
  · have l1 := (make_shaped ht').1
    unfold QPTask.update
    rw [k3, i1]
    refine Out.Rel.same _ fun R3 hR3 => Out.Rel.same _ fun st hst => Out.Rel.same _ fun n _ => ?_
    have e3 := hk1 R3 (vecAt_eq_ok.1 hR3)
    exact (updateOn_rel (by rw [e3]; exact k1) (by rw [e3]; exact l1) hs'
      (by rw [e3]; exact hα st (vecAt_eq_ok.1 hst))).bind fun x y hxy => hxy.2

/-! ## The two setters that do not -/

/-- `bodyPoint` of a position task moves the point whose velocity and Jacobian are reported and not the point
whose error is. -/
theorem C108_position_bodyPoint {mb : MultiBody K} {st : KState K} {t t' : PositionT K} {p : V3 K}
    (h : (t.setBodyPoint p).update mb st = .ok t') :
    ∃ X, vecAt st.bodyPosW t.bodyIndex = .ok X ∧ t'.out.eval = t.pos - ((PT.ofTrans t.point).mul X).r ∧
      ∀ b : PositionT K, (PositionT.make t.bodyIndex t.jac.path t.pos p t.out).update mb st = .ok b →
        b.out.eval = t.pos - ((PT.ofTrans p).mul X).r ∧ b.out.speed = t'.out.speed ∧
          b.out.normalAcc = t'.out.normalAcc ∧ b.out.jacMat = t'.out.jacMat := by
  simp only [PositionT.update, PositionT.setBodyPoint, Out.bind_eq_ok] at h
  obtain ⟨X, hX, v, hv, n, hn, J, hJ, sh, hsh, M, hM, h⟩ := h
  cases h
  refine ⟨X, hX, rfl, fun b hb => ?_⟩
  simp only [PositionT.update, PositionT.make, Out.bind_eq_ok] at hb
  obtain ⟨X', hX', v', hv', n', hn', J', hJ', sh', hsh', M', hM', hb⟩ := hb
  cases hb
  rw [hX] at hX'
  cases hX'
  rw [hv] at hv'
  cases hv'
  rw [hn] at hn'
  cases hn'
  rw [hJ] at hJ'
  cases hJ'
  rw [hsh] at hsh'
  cases hsh'
  rw [hM] at hM'
  cases hM'
  exact ⟨rfl, rfl, rfl, rfl⟩

/-- The same entry but for the direction. -/
def Spec.SameButU (b b' : RelBody K) : Prop := b' = { b with u := b'.u }

theorem bodyStep_noU {sqrt : K → Out K} {mb : MultiBody K} {st : KState K} {dt : K} {junk : ℕ → ℕ → K}
    {junkA : ℕ → K} {sign : K} {b b' : RelBody K} (h : SameButU b b') (a : RelDistT.Acc K) :
    Out.Rel (fun r r' : RelBody K × RelDistT.Acc K => SameButU r.1 r'.1 ∧ r.2 = r'.2)
      (RelDistT.bodyStep sqrt mb st dt false junk junkA sign b a)
      (RelDistT.bodyStep sqrt mb st dt false junk junkA sign b' a) := by
  unfold SameButU at h
  obtain ⟨i, r, e, J, u, o⟩ := b
  obtain ⟨i', r', e', J', u', o'⟩ := b'
  simp only [RelBody.mk.injEq, and_true] at h
  obtain ⟨rfl, rfl, rfl, rfl, -, rfl⟩ := h
  unfold RelDistT.bodyStep
  refine Out.Rel.same _ fun X _ => ?_
  have e1 : RelDistT.direction sqrt dt false X ⟨i', r', e', J', u, o'⟩
      = RelDistT.direction sqrt dt false X ⟨i', r', e', J', u', o'⟩ := rfl
  rw [e1]
  refine Out.Rel.same _ fun d _ => Out.Rel.same _ fun s _ => Out.Rel.same _ fun s2 _ =>
    Out.Rel.same _ fun fl _ => ?_
  dsimp only
  split
  · trivial
  · exact Out.Rel.same _ fun v _ => Out.Rel.same _ fun al _ => Out.Rel.same _ fun na _ => ⟨rfl, rfl⟩

theorem relLoop_noU {sqrt : K → Out K} {mb : MultiBody K} {st : KState K} {dt : K} {junk : ℕ → ℕ → K}
    {junkA : ℕ → K} : ∀ {l l' : List (RelBody K)} (sign : K) (a : RelDistT.Acc K), List.Forall₂ SameButU l l' →
      Out.Rel (fun r r' : List (RelBody K) × RelDistT.Acc K => List.Forall₂ SameButU r.1 r'.1 ∧ r.2 = r'.2)
        (RelDistT.loop sqrt mb st dt false junk junkA sign l a)
        (RelDistT.loop sqrt mb st dt false junk junkA sign l' a)
  | [], _, _, a, .nil => ⟨.nil, rfl⟩
  | b :: l, b' :: l', sign, a, .cons h hl => by
    simp only [RelDistT.loop]
    refine (bodyStep_noU h a).bind ?_
    rintro ⟨b1, a1⟩ ⟨b2, a2⟩ ⟨h1, rfl⟩
    refine (relLoop_noU (-sign) a1 hl).bind ?_
    rintro ⟨l1, a1⟩ ⟨l2, a2⟩ ⟨h2, rfl⟩
    exact ⟨.cons h1 h2, rfl⟩

/-- `vector` of a relative distance task constructed with a zero direction has no effect on anything that is
ever reported: one setter more, and each later update reports the same and leaves tasks that again differ in
the unused directions only. -/
theorem C108_vector_ignored {sqrt : K → Out K} {mb : MultiBody K} {st : KState K} {junk : ℕ → ℕ → K}
    {junkA : ℕ → K} {s s' : RelDistT K} (hf : s.isVectorFixed = false)
    (h : s' = { s with infos := s'.infos } ∧ List.Forall₂ SameButU s.infos s'.infos) :
    (∀ i u, s'.vector i u = { s with infos := (s'.vector i u).infos } ∧
      List.Forall₂ SameButU s.infos (s'.vector i u).infos) ∧
    Out.Rel (fun r r' : RelDistT K => (HLTask.relDist r).hl = (HLTask.relDist r').hl ∧
        r.isVectorFixed = false ∧ r' = { r with infos := r'.infos } ∧
        List.Forall₂ SameButU r.infos r'.infos)
      (s.update sqrt mb st junk junkA) (s'.update sqrt mb st junk junkA) := by
  obtain ⟨dt, fx, e, sp, na, M, l⟩ := s
  obtain ⟨dt', fx', e', sp', na', M', l'⟩ := s'
  simp only [RelDistT.mk.injEq, and_true] at h
  obtain ⟨⟨rfl, rfl, rfl, rfl, rfl, rfl⟩, hl⟩ := h
  dsimp only at hf hl
  subst hf
  refine ⟨fun i u => ⟨rfl, ?_⟩, ?_⟩
  · simp only [RelDistT.vector]
    rw [List.forall₂_map_right_iff]
    refine hl.imp fun b b' hb => ?_
    unfold SameButU at hb ⊢
    rw [hb]
    split <;> rfl
  · unfold RelDistT.update
    refine (relLoop_noU 1 _ hl).bind ?_
    rintro ⟨l1, a1⟩ ⟨l2, a2⟩ ⟨h2, h3⟩
    dsimp only at h2 h3
    subst h3
    exact ⟨rfl, rfl, rfl, h2⟩

end

namespace TargetEx

open KineEx WrapEx

/-- A position task whose target is moved, updated and moved again reports what a task with the last target
does. -/
example : ∃ p, QPTask.make [other, robot] 1 (fun _ _ _ => 3) (.position "tip" ⟨0, 2, 0⟩ ⟨1, 0, 0⟩) = .ok p ∧
    ∀ q, forEach [.set (.position ⟨0, 1, 0⟩), .update [other, robot] [st, st] [[], [0, 0]] fun _ _ _ => 0,
      .set (.position ⟨0, 2, 0⟩)] (HLCall.run fns) tip = .ok q →
    Out.Rel (fun r r' : QPTask ℚ => HL.Agree r.hl r'.hl)
      (q.update fns [other, robot] [st, st] [[], [0, 0]] fun _ _ _ => 0)
      (p.update fns [other, robot] [st, st] [[], [0, 0]] fun _ _ _ => 0) := by
  refine ⟨_, rfl, fun q h => ?_⟩
  obtain ⟨p, hp, hu⟩ := C108_history (f := fns) (junk1 := fun _ _ _ => 3) (R := robot)
    (a := .position "tip" 0 ⟨1, 0, 0⟩)
    (calls := [.set (.position ⟨0, 1, 0⟩), .update [other, robot] [st, st] [[], [0, 0]] fun _ _ _ => 0,
      .set (.position ⟨0, 2, 0⟩)]) trivial rfl tip_make
    (by simp [HLCall.Keeps, robot]) ⟨trivial, trivial, trivial⟩ h
  cases hp
  exact hu (by simp) (fun s hs => by cases hs; rfl)

/-- The body point of a position task at the joint, moved to the tip one metre further: the error stays that of
the joint, `(0, 0, 0) - (0, 1, 0)` and not `(0, 0, 0) - (0, 2, 0)`. -/
theorem C108_position_bodyPoint_counterexample :
    ∃ t' b' : PositionT ℚ,
      ((PositionT.make 1 [0, 1] 0 0 (junk3 2 fun _ _ _ => 0)).setBodyPoint ⟨1, 0, 0⟩).update mb st = .ok t' ∧
      (PositionT.make 1 [0, 1] 0 ⟨1, 0, 0⟩ (junk3 2 fun _ _ _ => 0)).update mb st = .ok b' ∧
      t'.out.eval = ⟨0, -1, 0⟩ ∧ b'.out.eval = ⟨0, -2, 0⟩ := by
  obtain ⟨t', h1, -⟩ := C51_position
    ((PositionT.make 1 [0, 1] 0 0 (junk3 2 fun _ _ _ => 0)).setBodyPoint ⟨1, 0, 0⟩) moves rfl rfl rfl
  obtain ⟨b', h2, -⟩ := C51_position
    (PositionT.make 1 [0, 1] 0 ⟨1, 0, 0⟩ (junk3 2 fun _ _ _ => 0)) moves rfl rfl rfl
  refine ⟨t', b', h1, h2, ?_⟩
  obtain ⟨X, hX, e1, e2⟩ := C108_position_bodyPoint h1
  obtain ⟨e2, -⟩ := e2 b' h2
  cases hX
  rw [e1, e2]
  constructor <;> ext <;>
    simp [PositionT.make, X0, P1, PT.mul, PT.ofTrans, M3.mul, M3.one, M3.transpose, M3.mulVec, V3.dot] <;>
    norm_num

/-- A relative distance task constructed with zero directions and given others is not the task constructed with
them: it goes on measuring distances instead of projections. -/
theorem C108_vector_counterexample :
    ∃ t b : RelDistT ℚ,
      HLTask.make robot (fun _ _ _ => 0) (.relDist 1 "tip" "tip" 0 0 0 0 0 0) = .ok (.relDist t) ∧
      HLTask.make robot (fun _ _ _ => 0) (withSet robot (.vector 1 ⟨0, 0, 1⟩)
        (.relDist 1 "tip" "tip" 0 0 0 0 0 0)) = .ok (.relDist b) ∧
      t.isVectorFixed = false ∧ (t.vector 1 ⟨0, 0, 1⟩).isVectorFixed = false ∧ b.isVectorFixed = true ∧
      (t.vector 1 ⟨0, 0, 1⟩).infos = b.infos := by
  refine ⟨_, _, rfl, rfl, ?_, ?_, ?_, rfl⟩ <;> decide

end TargetEx

end Verif
