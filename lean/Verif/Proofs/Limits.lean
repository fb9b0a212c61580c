import Verif.Model.Limits
import Verif.Proofs.Jacobian

/-!
# Helper lemmas for the joint limit constraints
-/

set_option autoImplicit false
set_option linter.unusedSectionVars false

namespace Verif

open Spec

variable {K : Type} [Field K] [LinearOrder K] [IsStrictOrderedRing K]

theorem paramToVector_ok {α : Type} (v : List (List α)) (e : Vec α) (h : v.flatten.length ≤ e.size) :
    paramToVector v e = .ok ⟨e.size, fun i => (v.flatten[i]?).getD (e.get i)⟩ := by
  unfold paramToVector; rw [if_pos h]

theorem paramToVector_eq_ok {α : Type} {v : List (List α)} {e r : Vec α}
    (h : paramToVector v e = .ok r) :
    v.flatten.length ≤ e.size ∧ r = ⟨e.size, fun i => (v.flatten[i]?).getD (e.get i)⟩ := by
  unfold paramToVector at h
  split at h
  · exact ⟨by assumption, (Out.ok.inj h).symm⟩
  · cases h

theorem vec_set_eq_ok {α : Type} {v r : Vec α} {i : ℕ} {x : α} (h : v.set i x = .ok r) :
    i < v.size ∧ r = ⟨v.size, fun j => if j = i then x else v.get j⟩ := by
  unfold Vec.set at h
  split at h
  · exact ⟨by assumption, (Out.ok.inj h).symm⟩
  · cases h

theorem cwiseMax_eq_ok {a b r : Vec (Ext K)} (h : cwiseMax a b = .ok r) :
    a.size = b.size ∧ r = ⟨a.size, fun i => (a.get i).max (b.get i)⟩ := by
  unfold cwiseMax at h
  split at h
  · exact ⟨by assumption, (Out.ok.inj h).symm⟩
  · cases h

theorem cwiseMin_eq_ok {a b r : Vec (Ext K)} (h : cwiseMin a b = .ok r) :
    a.size = b.size ∧ r = ⟨a.size, fun i => (a.get i).min (b.get i)⟩ := by
  unfold cwiseMin at h
  split at h
  · exact ⟨by assumption, (Out.ok.inj h).symm⟩
  · cases h

theorem addVec_eq_ok {a r : Vec (Ext K)} {v : Vec K} (h : addVec a v = .ok r) :
    a.size = v.size ∧ r = ⟨a.size, fun i => (a.get i).addFin (v.get i)⟩ := by
  unfold addVec at h
  split at h
  · exact ⟨by assumption, (Out.ok.inj h).symm⟩
  · cases h

theorem fdiv_eq_ok {a b r : K} (h : fdiv a b = .ok r) : b ≠ 0 ∧ r = a / b := by
  unfold fdiv at h
  split at h
  · cases h
  · exact ⟨by assumption, (Out.ok.inj h).symm⟩

theorem fdiv_ok {a b : K} (h : b ≠ 0) : fdiv a b = .ok (a / b) := by
  unfold fdiv; rw [if_neg h]

/-! ## One joint of the damped limits -/

/-- The fields of `DampData` the update does not change. -/
def DampData.Same (d d' : DampData K) : Prop :=
  d'.min = d.min ∧ d'.max = d.max ∧ d'.minVel = d.minVel ∧ d'.maxVel = d.maxVel ∧
  d'.iDist = d.iDist ∧ d'.sDist = d.sDist ∧ d'.jointIndex = d.jointIndex ∧
  d'.alphaDBegin = d.alphaDBegin

/-- Which limit is within the interaction distance: the lower one first. -/
def Spec.zone (q : K) (mn mx iD : Ext K) : DampState :=
  if (distTo q mn).lt iD then .low else if (distFrom q mx).lt iD then .upp else .free

theorem dampJoint_same {step off q a : K} {d d' : DampData K} {l u : Ext K}
    (h : dampJoint step off q a d = .ok (d', l, u)) :
    d.Same d' ∧ d'.state = zone q d.min d.max d.iDist ∧ step ≠ 0 ∧
    (d'.damping = d.damping ∨ zone q d.min d.max d.iDist ≠ .free) := by
  unfold dampJoint at h
  unfold zone
  split at h
  · cases h
  · rename_i hs
    dsimp only at h
    split at h
    · rename_i h1
      rw [if_pos h1]
      split at h
      · simp only [Out.bind_eq_ok, Out.pure_eq, Out.ok.injEq, Prod.mk.injEq] at h
        obtain ⟨c, _, damper, _, rfl, _, _⟩ := h
        exact ⟨⟨rfl, rfl, rfl, rfl, rfl, rfl, rfl, rfl⟩, rfl, hs, .inr (by simp)⟩
      · cases h
    · rename_i h1
      rw [if_neg h1]
      split at h
      · rename_i h2
        rw [if_pos h2]
        split at h
        · simp only [Out.bind_eq_ok, Out.pure_eq, Out.ok.injEq, Prod.mk.injEq] at h
          obtain ⟨c, _, damper, _, rfl, _, _⟩ := h
          exact ⟨⟨rfl, rfl, rfl, rfl, rfl, rfl, rfl, rfl⟩, rfl, hs, .inr (by simp)⟩
        · cases h
      · rename_i h2
        rw [if_neg h2]
        simp only [Out.pure_eq, Out.ok.injEq, Prod.mk.injEq] at h
        obtain ⟨rfl, _, _⟩ := h
        exact ⟨⟨rfl, rfl, rfl, rfl, rfl, rfl, rfl, rfl⟩, rfl, hs, .inl rfl⟩

theorem distTo_lt_fin {q l iD : K} : (distTo q (.fin l)).lt (.fin iD) = true ↔ q - l < iD := by
  simp [distTo, Ext.lt]

theorem distFrom_lt_fin {q u iD : K} : (distFrom q (.fin u)).lt (.fin iD) = true ↔ u - q < iD := by
  simp [distFrom, Ext.lt]

theorem vel_lower {m : Ext K} {a step x : K} (hs : 0 < step) :
    ((m.addFin (-a)).divBy step).LowerOK x ↔ m.LowerOK (a + x * step) := by
  rw [Ext.lowerOK_divBy_pos hs, Ext.lowerOK_addFin]
  have : step * x - -a = a + x * step := by ring
  rw [this]

theorem vel_upper {m : Ext K} {a step x : K} (hs : 0 < step) :
    ((m.addFin (-a)).divBy step).UpperOK x ↔ m.UpperOK (a + x * step) := by
  rw [Ext.upperOK_divBy_pos hs, Ext.upperOK_addFin]
  have : step * x - -a = a + x * step := by ring
  rw [this]

theorem fin_lower {d a step x : K} (hs : 0 < step) :
    (Ext.fin ((d - a) / step)).LowerOK x ↔ d ≤ a + x * step := by
  simp only [Ext.LowerOK]
  rw [div_le_iff₀ hs]
  constructor <;> intro h <;> linarith

theorem fin_upper {d a step x : K} (hs : 0 < step) :
    (Ext.fin ((d - a) / step)).UpperOK x ↔ a + x * step ≤ d := by
  simp only [Ext.UpperOK]
  rw [le_div_iff₀ hs]
  constructor <;> intro h <;> linarith

/-- The result for a joint with finite limits. -/
theorem dampJoint_fin {step off q a l u iD : K} {d d' : DampData K} {lo up : Ext K} (hs : 0 < step)
    (hl : d.min = .fin l) (hu : d.max = .fin u) (hi : d.iDist = .fin iD)
    (h : dampJoint step off q a d = .ok (d', lo, up)) :
    (∀ x : K, lo.LowerOK x ∧ up.UpperOK x ↔
      d.minVel.LowerOK (a + x * step) ∧ d.maxVel.UpperOK (a + x * step) ∧
      (q - l < iD → -(d'.damping * ((q - l - d.sDist) / (iD - d.sDist))) ≤ a + x * step) ∧
      (¬ q - l < iD → u - q < iD →
        a + x * step ≤ d'.damping * ((u - q - d.sDist) / (iD - d.sDist)))) ∧
    (q - l < iD → iD - d.sDist ≠ 0 ∧ ((d.state = .low ∧ d'.damping = d.damping) ∨
      (d.state ≠ .low ∧ q - l - d.sDist ≠ 0 ∧
        d'.damping = |(iD - d.sDist) / (q - l - d.sDist) * a| + off))) ∧
    (¬ q - l < iD → u - q < iD → iD - d.sDist ≠ 0 ∧ ((d.state = .upp ∧ d'.damping = d.damping) ∨
      (d.state ≠ .upp ∧ u - q - d.sDist ≠ 0 ∧
        d'.damping = |(iD - d.sDist) / (u - q - d.sDist) * a| + off))) := by
  unfold dampJoint at h
  rw [if_neg hs.ne', hl, hu, hi] at h
  by_cases h1 : q - l < iD
  · rw [if_pos (distTo_lt_fin.mpr h1)] at h
    simp only [distTo, Out.bind_eq_ok, Out.pure_eq, Out.ok.injEq, Prod.mk.injEq, computeDamper] at h
    obtain ⟨c, hc, damper, ⟨f, hf, rfl⟩, rfl, rfl, rfl⟩ := h
    obtain ⟨hne, rfl⟩ := fdiv_eq_ok hf
    refine ⟨fun x => ?_, fun _ => ⟨hne, ?_⟩, fun h => absurd h1 h⟩
    · rw [Ext.lowerOK_max, vel_lower hs, vel_upper hs, fin_lower hs]
      simp only [h1, true_implies, not_true_eq_false, false_implies, and_true]
      tauto
    · unfold newDamping at hc
      split at hc
      · rename_i hst
        simp only [computeDamping, Out.bind_eq_ok, Out.pure_eq, Out.ok.injEq] at hc
        obtain ⟨_, ⟨f, hf, rfl⟩, rfl⟩ := hc
        obtain ⟨hne', rfl⟩ := fdiv_eq_ok hf
        exact .inr ⟨hst, hne', rfl⟩
      · rename_i hst
        exact .inl ⟨not_not.mp hst, (Out.ok.inj hc).symm⟩
  · rw [if_neg (fun hh => h1 (distTo_lt_fin.mp hh))] at h
    by_cases h2 : u - q < iD
    · rw [if_pos (distFrom_lt_fin.mpr h2)] at h
      simp only [distFrom, Out.bind_eq_ok, Out.pure_eq, Out.ok.injEq, Prod.mk.injEq,
        computeDamper] at h
      obtain ⟨c, hc, damper, ⟨f, hf, rfl⟩, rfl, rfl, rfl⟩ := h
      obtain ⟨hne, rfl⟩ := fdiv_eq_ok hf
      refine ⟨fun x => ?_, fun h => absurd h h1, fun _ _ => ⟨hne, ?_⟩⟩
      · rw [Ext.upperOK_min, vel_lower hs, vel_upper hs, fin_upper hs]
        simp only [h1, h2, true_implies, not_false_eq_true, false_implies, true_and]
        tauto
      · unfold newDamping at hc
        split at hc
        · rename_i hst
          simp only [computeDamping, Out.bind_eq_ok, Out.pure_eq, Out.ok.injEq] at hc
          obtain ⟨_, ⟨f, hf, rfl⟩, rfl⟩ := hc
          obtain ⟨hne', rfl⟩ := fdiv_eq_ok hf
          exact .inr ⟨hst, hne', rfl⟩
        · rename_i hst
          exact .inl ⟨not_not.mp hst, (Out.ok.inj hc).symm⟩
    · rw [if_neg (fun hh => h2 (distFrom_lt_fin.mp hh))] at h
      simp only [Out.pure_eq, Out.ok.injEq, Prod.mk.injEq] at h
      obtain ⟨rfl, rfl, rfl⟩ := h
      refine ⟨fun x => ?_, fun h => absurd h h1, fun _ h => absurd h h2⟩
      rw [vel_lower hs, vel_upper hs]
      simp only [h1, h2, false_implies, implies_true, and_true]

/-! ## The loop -/

theorem dampLoop {q alpha : List (List K)} (m : ℕ) {s s' : DamperLimits K} (hm : m ≤ s.data.length)
    (hnd : (s.data.map DampData.alphaDBegin).Nodup)
    (h : forRange m (DamperLimits.jointStep q alpha) s = .ok s') :
    s' = { s with lower := s'.lower, upper := s'.upper, data := s'.data } ∧
    s'.lower.size = s.lower.size ∧ s'.upper.size = s.upper.size ∧
    s'.data.length = s.data.length ∧
    (∀ (t : ℕ) (d : DampData K), m ≤ t → s.data[t]? = some d → s'.data[t]? = some d) ∧
    (∀ (t : ℕ) (d : DampData K), t < m → s.data[t]? = some d → ∃ qi ai d' l u,
      nested q d.jointIndex 0 = .ok qi ∧ nested alpha d.jointIndex 0 = .ok ai ∧
      dampJoint s.step s.off qi ai d = .ok (d', l, u) ∧ s'.data[t]? = some d' ∧
      s'.lower.get d.alphaDBegin = l ∧ s'.upper.get d.alphaDBegin = u ∧
      d.alphaDBegin < s.lower.size ∧ d.alphaDBegin < s.upper.size) ∧
    (∀ a, (∀ d ∈ s.data, d.alphaDBegin ≠ a) →
      s'.lower.get a = s.lower.get a ∧ s'.upper.get a = s.upper.get a) := by
  induction m generalizing s' with
  | zero =>
    simp only [forRange, Out.ok.injEq] at h
    subst h
    exact ⟨rfl, rfl, rfl, rfl, fun _ _ _ h => h, fun _ _ h => by omega, fun _ _ => ⟨rfl, rfl⟩⟩
  | succ m ih =>
    simp only [forRange, Out.bind_eq_ok] at h
    obtain ⟨s1, h1, h2⟩ := h
    obtain ⟨g1, g2, g3, g4, g5, g6, g7⟩ := ih (by omega) h1
    have hget := List.getElem?_eq_getElem (l := s.data) (i := m) (by omega)
    generalize s.data[m] = d at hget
    have hget1 := g5 m d le_rfl hget
    have hstep : s1.step = s.step := by rw [g1]
    have hoff : s1.off = s.off := by rw [g1]
    unfold DamperLimits.jointStep at h2
    rw [vecAt_eq_ok.mpr hget1, Out.ok_bind] at h2
    simp only [Out.bind_eq_ok] at h2
    obtain ⟨qi, hq, ai, ha, ⟨d', l, u⟩, hd, h2⟩ := h2
    simp only [Out.bind_eq_ok, Out.pure_eq, Out.ok.injEq] at h2
    obtain ⟨lo, hlo, up, hup, dat, hdat, rfl⟩ := h2
    rw [hstep, hoff] at hd
    obtain ⟨hlt, rfl⟩ := vec_set_eq_ok hlo
    obtain ⟨hlt', rfl⟩ := vec_set_eq_ok hup
    have hml : m < s1.data.length := by omega
    rw [vecSet_ok hml] at hdat
    obtain rfl := Out.ok.inj hdat
    refine ⟨?_, g2, g3, by simp [g4], ?_, ?_, ?_⟩
    · rw [g1]
    · intro t d'' ht hd''
      dsimp only
      rw [List.getElem?_set_ne (by omega)]
      exact g5 t d'' (by omega) hd''
    · intro t dt ht hdt
      by_cases htm : t = m
      · subst htm
        rw [hget] at hdt
        cases hdt
        refine ⟨qi, ai, d', l, u, hq, ha, hd, ?_, ?_, ?_, by omega, by omega⟩
        · dsimp only; rw [List.getElem?_set_self hml]
        · dsimp only; rw [if_pos rfl]
        · dsimp only; rw [if_pos rfl]
      · obtain ⟨qi', ai', d1, l1, u1, k1, k2, k3, k4, k5, k6, k7⟩ := g6 t dt (by omega) hdt
        have hne : dt.alphaDBegin ≠ d.alphaDBegin := by
          intro e
          apply htm
          have e1 : (s.data.map DampData.alphaDBegin)[t]? = some dt.alphaDBegin := by simp [hdt]
          have e2 : (s.data.map DampData.alphaDBegin)[m]? = some d.alphaDBegin := by simp [hget]
          rw [e] at e1
          exact (List.getElem?_inj (by simp; omega) hnd).mp (e1.trans e2.symm)
        refine ⟨qi', ai', d1, l1, u1, k1, k2, k3, ?_, ?_, ?_, k7⟩
        · dsimp only; rw [List.getElem?_set_ne (by omega)]; exact k4
        · dsimp only; rw [if_neg hne]; exact k5
        · dsimp only; rw [if_neg hne]; exact k6
    · intro a hane
      have hne : a ≠ d.alphaDBegin := fun e => hane d (List.mem_of_getElem? hget) e.symm
      dsimp only
      rw [if_neg hne, if_neg hne]
      exact g7 a hane

theorem dampLoop_ok {q alpha : List (List K)} (m : ℕ) (s : DamperLimits K) (hm : m ≤ s.data.length)
    (hnd : (s.data.map DampData.alphaDBegin).Nodup)
    (h : ∀ (t : ℕ) (d : DampData K), t < m → s.data[t]? = some d → ∃ qi ai r,
      nested q d.jointIndex 0 = .ok qi ∧ nested alpha d.jointIndex 0 = .ok ai ∧
      dampJoint s.step s.off qi ai d = .ok r ∧
      d.alphaDBegin < s.lower.size ∧ d.alphaDBegin < s.upper.size) :
    ∃ s', forRange m (DamperLimits.jointStep q alpha) s = .ok s' := by
  induction m with
  | zero => exact ⟨s, rfl⟩
  | succ m ih =>
    obtain ⟨s1, h1⟩ := ih (by omega) (fun t d ht => h t d (by omega))
    obtain ⟨g1, g2, g3, g4, g5, _, _⟩ := dampLoop m (by omega) hnd h1
    have hget := List.getElem?_eq_getElem (l := s.data) (i := m) (by omega)
    generalize s.data[m] = d at hget
    have hget1 := g5 m d le_rfl hget
    obtain ⟨qi, ai, r, hq, ha, hr, hl, hu⟩ := h m d (by omega) hget
    have hstep : s1.step = s.step := by rw [g1]
    have hoff : s1.off = s.off := by rw [g1]
    simp only [forRange, h1, Out.ok_bind]
    unfold DamperLimits.jointStep
    rw [vecAt_eq_ok.mpr hget1, Out.ok_bind, hq, Out.ok_bind, ha, Out.ok_bind, hstep, hoff, hr,
      Out.ok_bind]
    obtain ⟨d', l, u⟩ := r
    dsimp only
    have e1 : s1.lower.set d.alphaDBegin l = .ok ⟨s1.lower.size, fun j =>
        if j = d.alphaDBegin then l else s1.lower.get j⟩ := by
      unfold Vec.set; rw [if_pos (by omega)]
    have e2 : s1.upper.set d.alphaDBegin u = .ok ⟨s1.upper.size, fun j =>
        if j = d.alphaDBegin then u else s1.upper.get j⟩ := by
      unfold Vec.set; rw [if_pos (by omega)]
    rw [e1, e2, Out.ok_bind, Out.ok_bind, vecSet_ok (by omega)]
    exact ⟨_, rfl⟩

end Verif
