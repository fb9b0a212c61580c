import Verif.Props.Contacts
import Verif.Props.Motion
import Verif.Props.Image
import Verif.Props.CoM
import Verif.Props.Visual

/-!
# Further constructors and setters (C18, C24, C39, C61, C65)
-/

set_option autoImplicit false
set_option linter.unusedSectionVars false

namespace Verif

open Finset Spec

/-- **C18** (default id): the id of a default-constructed contact comes before every id whose first robot
index is one of a list of robots, hence equals none of them: it never names a contact of the problem. -/
theorem C18_default (a : ContactId) (h : 0 ≤ a.r1Index) :
    ContactId.default.lt a = true ∧ ContactId.default.eq a = false ∧ a.lt ContactId.default = false := by
  have h1 : ContactId.default.lt a = true := by
    simp only [ContactId.lt, Bool.or_eq_true, decide_eq_true_eq]
    exact .inl (.inl (.inl (.inl (show (-1 : ℤ) < a.r1Index by omega))))
  obtain ⟨-, h2, -, -, h3, -⟩ := C18_contactId_order ContactId.default a a
  refine ⟨h1, ?_, h2 h1⟩
  rw [← Bool.not_eq_true, ← h3, h1]
  rintro ⟨h, -⟩
  cases h

example := C18_default ⟨0, 1, "foot", "ground", -1⟩ (by norm_num)

section
variable {K : Type} [Field K] [LinearOrder K] [IsStrictOrderedRing K]

/-- **C24** (construction): before the first `updateNrVars` the constraint bounds no variable and describes
no line. -/
theorem C24_fresh (x : ℕ → K) (line : ℤ) :
    SatBound (PositiveLambda.init : PositiveLambda K).bound x ∧
    (PositiveLambda.init : PositiveLambda K).descBound line = none :=
  ⟨⟨fun i hi => absurd hi (Nat.not_lt_zero i), fun i hi => absurd hi (Nat.not_lt_zero i)⟩, rfl⟩

/-- **C39** (a point of space): `updatePoint` projects it; undefined at depth 0 and for ids that were not
given; no other point changes. -/
theorem C39_update_point3 (s : Image K) (id : ℕ) (q : V3 K) :
    (q.z = 0 → s.updatePoint3 id q = .ub) ∧
    (s.points.length ≤ id → s.updatePoint3 id q = .ub) ∧
    (q.z ≠ 0 → id < s.points.length → ∃ s' pt, s.updatePoint3 id q = .ok s' ∧
      s'.points[id]? = some pt ∧ pt.p 0 = q.x / q.z ∧ pt.p 1 = q.y / q.z ∧ pt.depth = q.z ∧
      (∀ j, j ≠ id → s'.points[j]? = s.points[j]?) ∧ s'.robotPoints = s.robotPoints) := by
  have hf : q.z ≠ 0 → s.updatePoint3 id q
      = s.updatePointD id (fun i => if i = 0 then q.x / q.z else q.y / q.z) q.z := by
    intro hz
    unfold Image.updatePoint3
    rw [show fdiv q.x q.z = .ok (q.x / q.z) from if_neg hz, Out.ok_bind,
      show fdiv q.y q.z = .ok (q.y / q.z) from if_neg hz, Out.ok_bind]
  have hub : q.z = 0 → s.updatePoint3 id q = .ub := by
    intro hz
    unfold Image.updatePoint3
    rw [show fdiv q.x q.z = .ub from if_pos hz]
    rfl
  refine ⟨hub, fun hid => ?_, fun hz hid => ?_⟩
  · by_cases hz : q.z = 0
    · exact hub hz
    · rw [hf hz]
      exact ((C39_points s _ q.z q id).2.2.2.2.1 hid).2
  · rw [hf hz]
    unfold Image.updatePointD
    rw [vecAt_ok hid, Out.ok_bind]
    exact ⟨_, ⟨fun i => if i = 0 then q.x / q.z else q.y / q.z, q.z⟩, rfl, by simp [hid], by simp, by simp, rfl,
      fun j hj => by simp [List.getElem?_set_ne (Ne.symm hj)], rfl⟩

example : ∃ s : Image ℚ, 0 < s.points.length ∧ (⟨1, 2, 4⟩ : V3 ℚ).z ≠ 0 :=
  ⟨((⟨[], [], 0, [], none, 0, 1, 1, 0, Mat.zero 2 1, fun _ => 0, fun _ => 0, fun _ => 0, fun _ => 0, 0, 0, 1, 1,
    Mat.zero 0 0, ⟨0, fun _ => 0⟩⟩ : Image ℚ).addPoint (fun _ => 0) 1).1, by simp [Image.addPoint], by norm_num⟩

/-- **C65** (constructor from a point of space): the task is the one that the other constructor gives for the
projected point at its depth; with depth 0 it is undefined. -/
theorem C65_gaze_make (mb : MultiBody K) (b : ℕ) (path : List ℕ) (p : V3 K) (X : PT K) (ref : K × K)
    (junk : ℕ → ℕ → K) :
    (p.z = 0 → GazeT.make3 mb b path p X ref junk = .ub) ∧
    (p.z ≠ 0 → ∃ s, GazeT.make3 mb b path p X ref junk = .ok s ∧
      s = GazeT.make2 mb b path (p.x / p.z, p.y / p.z) p.z X ref junk ∧
      s.point2d = (p.x / p.z, p.y / p.z) ∧ s.depth = p.z ∧ s.ref = ref ∧ s.bodyIndex = b ∧ s.jac.path = path ∧
      s.X_b_gaze = X ∧ s.jacMat.rows = 2 ∧ s.jacMat.cols = mb.nrDof) := by
  refine ⟨fun h => ?_, fun h => ⟨_, ?_, rfl, rfl, rfl, rfl, rfl, rfl, rfl, rfl, rfl⟩⟩
  · simp [GazeT.make3, project, fdiv, h]
  · simp [GazeT.make3, project, fdiv, h]

end

/-- **C61** (constructor without weights): along every motion the task reports the error to the centre of mass,
which decreases at the reported speed; the speed changes by the reported Jacobian and normal acceleration. -/
theorem C61_unweighted {bs : List (BodyM ℝ)} {com : V3 ℝ} (jA : V3 ℝ) (j : Out3 ℝ) (hm : MassOK bs)
    (hM : massSum bs ≠ 0) :
    ∃ s, CoMT.make bs com jA j = .ok s ∧
      ∀ {t : ℝ} {mb : MultiBody ℝ} {st : ℝ → KState ℝ} {x : ℝ → ℕ → ℝ} {xd : ℕ → ℝ},
        BodiesEvolve bs mb st x xd t →
        ∃ s' : ℝ → CoMT ℝ, (∀ τ, s.update bs mb (st τ) = .ok (s' τ) ∧
            IsCoM bs (st τ) (s' τ).actual ∧ (s' τ).out.eval = com - (s' τ).actual) ∧
          HasD3 (fun τ => (s' τ).out.eval) (-(s' t).out.speed) t ∧ SpeedDrift3 (fun τ => (s' τ).out) xd t := by
  obtain ⟨s, hs⟩ := (C61_rejected (bs := bs) com (List.replicate bs.length 1) jA j).2.1 (by simp) hM
  refine ⟨s, hs, fun {t mb st x xd} h => ?_⟩
  have R : CoMRun (List.replicate bs.length 1) bs com s := .make jA j hs
  obtain ⟨q, q1, q2⟩ := C61_error_rate R h hm hM (fun i hi => by simp [List.getD, hi])
  obtain ⟨p, p1, p2⟩ := C61_drift R h hm hM
  have e : p = q := funext fun τ => Out.ok.inj ((p1 τ).symm.trans (q1 τ))
  subst e
  refine ⟨p, fun τ => ?_, q2, p2⟩
  obtain ⟨r, r1, r2, r3, -⟩ := C61_speed_is_jac R (h.moves τ) hm hM
  have e := Out.ok.inj (r1.symm.trans (p1 τ))
  subst e
  exact ⟨r1, r2, r3⟩

example := C61_unweighted (com := ⟨5, 0, 0⟩) 0 ComEx.junk ComEx.massOK ComEx.massNe
example := ComEx.ev 4

end Verif
