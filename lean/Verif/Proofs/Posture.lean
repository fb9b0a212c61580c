import Verif.Model.Posture
import Verif.Props.Selector
import Verif.Props.SetPoint
import Verif.Props.TargetObj

/-!
# Lemmas about the posture task
-/

set_option autoImplicit false
set_option linter.unusedSectionVars false

namespace Verif

open Finset Spec

namespace Spec

variable {K : Type}

/-- `err` is the posture error of a robot: for each joint after the first, target minus current
position for a one-dof joint, rotation error to the target quaternion for a three-dof joint, each at
the dofs of that joint; zero for the first joint. -/
def IsPostureErr [CommRing K] (mb : MultiBody K) (q : List (List K)) (env : PostureEnv K)
    (err : ℕ → K) : Prop :=
  (∀ c < jpos mb 1, err c = 0) ∧
  ∀ i (j : Joint K), 1 ≤ i → mb.joints[i]? = some j →
    (j.dof = 1 → ∃ a b, nested q i 0 = .ok a ∧ nested env.q i 0 = .ok b ∧
      err (jpos mb i) = a - b) ∧
    (j.dof = 3 → ∃ q0 q1 q2 q3, nested q i 0 = .ok q0 ∧ nested q i 1 = .ok q1 ∧
      nested q i 2 = .ok q2 ∧ nested q i 3 = .ok q3 ∧
      err (jpos mb i) = (env.rotErr i q0 q1 q2 q3).x ∧
      err (jpos mb i + 1) = (env.rotErr i q0 q1 q2 q3).y ∧
      err (jpos mb i + 2) = (env.rotErr i q0 q1 q2 q3).z)

/-- A gain setting: stiffness, and damping unless critical damping was asked for. -/
abbrev Gain (K : Type) := K × Option K

/-- `(k, d)` is what the setting asks for. -/
def GainIs [Field K] [LinearOrder K] (kd : K × K) (g : Gain K) : Prop :=
  kd.1 = g.1 ∧ match g.2 with
    | some d => kd.2 = d
    | none => 0 ≤ kd.2 ∧ kd.2 * kd.2 = 4 * g.1

/-- The gain that holds for dof `c`: the one of the last listed joint that owns `c`, the default one
if there is none. -/
def GainFor (mb : MultiBody K) (dflt : Gain K) (js : List (String × Gain K)) (c : ℕ) (g : Gain K) :
    Prop :=
  ((∀ e ∈ js, ¬ ColOf mb e.1 c) ∧ g = dflt) ∨
  ∃ l1 e l2, js = l1 ++ e :: l2 ∧ ColOf mb e.1 c ∧ (∀ e' ∈ l2, ¬ ColOf mb e'.1 c) ∧ g = e.2

/-- The settings of a posture task after a history of calls. -/
structure PostureSet (K : Type) where
  W : Vec K
  b : ℕ
  q : List (List K)
  g : Gain K
  js : List (String × Gain K)
  vel : Vec K
  acc : Vec K

/-- Effect of a call on the settings. -/
def PostureSet.apply (rI : ℕ) (s : PostureSet K) : PostureOp K → PostureSet K
  | .posture q => { s with
      q := q }
  | .stiffness k => { s with
      g := (k, none) }
  | .gains k d => { s with
      g := (k, some d) }
  | .jointsStiffness l => { s with
      js := l.map fun e => (e.1, e.2, none) }
  | .jointsGains l => { s with
      js := l.map fun e => (e.1, e.2.1, some e.2.2) }
  | .refVel v => { s with
      vel := v }
  | .refAccel a => { s with
      acc := a }
  | .dimWeight w => { s with
      W := w }
  | .updateNrVars d => { s with
      b := d.alphaDBegin.getD rI 0 }
  | .update _ => s

end Spec

section
variable {K : Type} [CommRing K]

theorem vecSet_eq_ok {v w : Vec K} {i : ℕ} {c : K} (h : v.set i c = .ok w) :
    i < v.size ∧ w = ⟨v.size, fun j => if j = i then c else v.get j⟩ := by
  unfold Vec.set at h
  split at h
  · simp only [Out.ok.injEq] at h
    exact ⟨by assumption, h.symm⟩
  · cases h

theorem vecSetSegment_eq_ok {v w u : Vec K} {b : ℕ} (h : v.setSegment b w = .ok u) :
    b + w.size ≤ v.size ∧
      u = ⟨v.size, fun i => if b ≤ i ∧ i < b + w.size then w.get (i - b) else v.get i⟩ := by
  unfold Vec.setSegment at h
  split at h
  · simp only [Out.ok.injEq] at h
    exact ⟨by assumption, h.symm⟩
  · cases h

theorem vecSegment_eq_ok {v u : Vec K} {b n : ℕ} (h : v.segment b n = .ok u) :
    b + n ≤ v.size ∧ u = ⟨n, fun i => v.get (b + i)⟩ := by
  unfold Vec.segment at h
  split at h
  · simp only [Out.ok.injEq] at h
    exact ⟨by assumption, h.symm⟩
  · cases h

/-- The posture error, when every joint after the first has 0, 1 or 3 dofs. -/
theorem postureHL_update_ok {mb : MultiBody K} {env : PostureEnv K} {s s' : PostureHL K}
    (hdof : ∀ i (j : Joint K), 1 ≤ i → mb.joints[i]? = some j → j.dof = 0 ∨ j.dof = 1 ∨ j.dof = 3)
    (h0 : ∀ c < jpos mb 1, s.eval.get c = 0)
    (h : s.update mb env = .ok s') :
    IsPostureErr mb s.q env s'.eval.get ∧ s'.q = s.q ∧ s'.jac = s.jac ∧
      s'.eval.size = s.eval.size := by
  unfold PostureHL.update at h
  obtain ⟨pos, hpos, h⟩ := Out.bind_eq_ok.1 h
  obtain ⟨r, hr, h⟩ := Out.bind_eq_ok.1 h
  simp only [Out.pure_eq, Out.ok.injEq] at h
  have hpos := jointPosInDof_eq hpos
  let J : (ℕ → K) → ℕ → Prop := fun err i => ∀ (j : Joint K), mb.joints[i]? = some j →
    (j.dof = 1 → ∃ a b, nested s.q i 0 = .ok a ∧ nested env.q i 0 = .ok b ∧
      err (jpos mb i) = a - b) ∧
    (j.dof = 3 → ∃ q0 q1 q2 q3, nested s.q i 0 = .ok q0 ∧ nested s.q i 1 = .ok q1 ∧
      nested s.q i 2 = .ok q2 ∧ nested s.q i 3 = .ok q3 ∧
      err (jpos mb i) = (env.rotErr i q0 q1 q2 q3).x ∧
      err (jpos mb i + 1) = (env.rotErr i q0 q1 q2 q3).y ∧
      err (jpos mb i + 2) = (env.rotErr i q0 q1 q2 q3).z)
  have hmono : ∀ {err err' : ℕ → K} {i n : ℕ}, i < n →
      (∀ c < jpos mb n, err' c = err c) → J err i → J err' i := by
    intro err err' i n hin he hj j hji
    have hp := jpos_le_of_lt mb hin
    have hd : jdof mb i = j.dof := by simp [jdof, hji]
    obtain ⟨h1, h3⟩ := hj j hji
    refine ⟨fun hdj => ?_, fun hdj => ?_⟩
    · obtain ⟨a, b, e1, e2, e3⟩ := h1 hdj
      exact ⟨a, b, e1, e2, by rw [he _ (by omega)]; exact e3⟩
    · obtain ⟨q0, q1, q2, q3, e0, e1, e2, e3, e4, e5, e6⟩ := h3 hdj
      exact ⟨q0, q1, q2, q3, e0, e1, e2, e3, by rw [he _ (by omega)]; exact e4,
        by rw [he _ (by omega)]; exact e5, by rw [he _ (by omega)]; exact e6⟩
  have inv := forRange_ok_inv (I := fun n (p : Vec K × ℕ) => p.2 = jpos mb (n + 1) ∧
      p.1.size = s.eval.size ∧ (∀ c < jpos mb 1, p.1.get c = 0) ∧
      ∀ i, 1 ≤ i → i < n + 1 → J p.1.get i)
    ⟨hpos, rfl, h0, fun i h1 h2 => by omega⟩ (by
      rintro k hk ⟨e, p⟩ ⟨e', p'⟩ ⟨i1, i2, i3, i4⟩ hs
      simp only at i1 i2 i3 i4 ⊢
      unfold PostureHL.jointStep at hs
      obtain ⟨j, hj, hs⟩ := Out.bind_eq_ok.1 hs
      rw [vecAt_eq_ok] at hj
      have hd : jdof mb (k + 1) = j.dof := by simp [jdof, hj]
      have hlt : k + 1 < mb.joints.length := by
        obtain ⟨hlt, _⟩ := List.getElem?_eq_some_iff.1 hj
        exact hlt
      have hsucc := jpos_succ mb (k + 1) hlt
      have hle1 : jpos mb 1 ≤ jpos mb (k + 1) := by
        rcases Nat.eq_zero_or_pos k with rfl | hk0
        · exact le_refl _
        · have := jpos_le_of_lt mb (i := 1) (j := k + 1) (by omega)
          omega
      have fin : ∀ {err : ℕ → K}, (∀ c < jpos mb (k + 1), err c = e.get c) → J err (k + 1) →
          (∀ c < jpos mb 1, err c = 0) ∧ ∀ i, 1 ≤ i → i < k + 1 + 1 → J err i := by
        intro err he hj
        refine ⟨fun c hc => by rw [he c (by omega)]; exact i3 c hc, fun i h1 h2 => ?_⟩
        rcases Nat.lt_succ_iff_lt_or_eq.1 h2 with h2 | rfl
        · exact hmono h2 he (i4 i h1 h2)
        · exact hj
      rcases hdof (k + 1) j (by omega) hj with h0d | h1d | h3d
      · rw [if_neg (by omega), if_neg (by omega)] at hs
        simp only [Out.pure_eq, Out.ok.injEq, Prod.mk.injEq] at hs
        obtain ⟨rfl, rfl⟩ := hs
        refine ⟨by omega, i2, ?_⟩
        refine fin (fun _ _ => rfl) ?_
        intro j' hj'
        rw [hj] at hj'
        obtain rfl := Option.some.inj hj'
        exact ⟨fun hh => by omega, fun hh => by omega⟩
      · rw [if_pos h1d] at hs
        obtain ⟨a, ha, hs⟩ := Out.bind_eq_ok.1 hs
        obtain ⟨b, hb, hs⟩ := Out.bind_eq_ok.1 hs
        obtain ⟨w, hw, hs⟩ := Out.bind_eq_ok.1 hs
        simp only [Out.pure_eq, Out.ok.injEq, Prod.mk.injEq] at hs
        obtain ⟨rfl, rfl⟩ := hs
        obtain ⟨hw1, rfl⟩ := vecSet_eq_ok hw
        refine ⟨by omega, i2, ?_⟩
        refine fin (fun c hc => if_neg (by omega)) ?_
        intro j' hj'
        rw [hj] at hj'
        obtain rfl := Option.some.inj hj'
        exact ⟨fun _ => ⟨a, b, ha, hb, if_pos i1.symm⟩, fun hh => by omega⟩
      · rw [if_neg (by omega), if_pos h3d] at hs
        obtain ⟨q0, hq0, hs⟩ := Out.bind_eq_ok.1 hs
        obtain ⟨q1, hq1, hs⟩ := Out.bind_eq_ok.1 hs
        obtain ⟨q2, hq2, hs⟩ := Out.bind_eq_ok.1 hs
        obtain ⟨q3, hq3, hs⟩ := Out.bind_eq_ok.1 hs
        obtain ⟨w, hw, hs⟩ := Out.bind_eq_ok.1 hs
        simp only [Out.pure_eq, Out.ok.injEq, Prod.mk.injEq] at hs
        obtain ⟨rfl, rfl⟩ := hs
        obtain ⟨hw1, rfl⟩ := vecSetSegment_eq_ok hw
        refine ⟨by omega, i2, ?_⟩
        refine fin (fun c hc => if_neg (by dsimp only; omega)) ?_
        intro j' hj'
        rw [hj] at hj'
        obtain rfl := Option.some.inj hj'
        refine ⟨fun hh => by omega, fun _ => ⟨q0, q1, q2, q3, hq0, hq1, hq2, hq3, ?_, ?_, ?_⟩⟩
        · refine (if_pos (by dsimp only; omega)).trans ?_
          simp only [i1, Nat.sub_self, if_true]
        · refine (if_pos (by dsimp only; omega)).trans ?_
          have : jpos mb (k + 1) + 1 - p = 1 := by omega
          simp [this]
        · refine (if_pos (by dsimp only; omega)).trans ?_
          have : jpos mb (k + 1) + 2 - p = 2 := by omega
          simp [this]) hr
  obtain ⟨_, i2, i3, i4⟩ := inv
  subst h
  refine ⟨⟨i3, fun i j h1 hj => ?_⟩, rfl, rfl, i2⟩
  have hlt : i < mb.joints.length := by
    obtain ⟨hlt, _⟩ := List.getElem?_eq_some_iff.1 hj
    exact hlt
  exact i4 i h1 (by unfold MultiBody.nrJoints; omega) j hj

/-- `-k * err + d * (alpha - refVel) - refAccel` at dof `c`. -/
def postureF (s : Posture K) (eval alpha : Vec K) (k d : K) (c : ℕ) : K :=
  -k * eval.get c + d * (alpha.get c - s.refVel.get c) - s.refAccel.get c

theorem postureSeg_ok {s : Posture K} {eval alpha : Vec K} {k d : K} {b n : ℕ} {g : Vec K}
    (h : s.seg eval alpha k d b n = .ok g) :
    g.size = n ∧ ∀ i, g.get i = postureF s eval alpha k d (b + i) := by
  unfold Posture.seg at h
  obtain ⟨e, he, h⟩ := Out.bind_eq_ok.1 h
  obtain ⟨a, ha, h⟩ := Out.bind_eq_ok.1 h
  obtain ⟨v, hv, h⟩ := Out.bind_eq_ok.1 h
  obtain ⟨r, hr, h⟩ := Out.bind_eq_ok.1 h
  simp only [Out.pure_eq, Out.ok.injEq] at h
  obtain ⟨_, rfl⟩ := vecSegment_eq_ok he
  obtain ⟨_, rfl⟩ := vecSegment_eq_ok ha
  obtain ⟨_, rfl⟩ := vecSegment_eq_ok hv
  obtain ⟨_, rfl⟩ := vecSegment_eq_ok hr
  subst h
  exact ⟨rfl, fun i => rfl⟩

end

section
variable {K : Type} [Field K] [LinearOrder K] [IsStrictOrderedRing K]

/-- A stored joint gain is the one asked for by name. -/
def JointGainIs (mb : MultiBody K) (p : JointGain K) (e : String × Gain K) : Prop :=
  ∃ i, mb.joints.findIdx? (fun j => j.name == e.1) = some i ∧ p.start = jpos mb i ∧
    p.size = jdof mb i ∧ GainIs (p.stiffness, p.damping) e.2

theorem jointGain_cov {mb : MultiBody K} {p : JointGain K} {e : String × Gain K}
    (h : JointGainIs mb p e) (c : ℕ) :
    (p.start ≤ c ∧ c < p.start + p.size) ↔ ColOf mb e.1 c := by
  obtain ⟨i, h1, h2, h3, _⟩ := h
  unfold ColOf
  rw [h1, h2, h3]
  simp

theorem jdLoop_ok {mb : MultiBody K} {s : Posture K} {eval alpha : Vec K}
    {jd : List (JointGain K)} {js : List (String × Gain K)} (hj : List.Forall₂ (JointGainIs mb) jd js)
    {C C' : Vec K}
    (h : forEach jd (fun p (C : Vec K) => do
      let g ← s.seg eval alpha p.stiffness p.damping p.start p.size
      C.setSegment p.start g) C = .ok C') :
    C'.size = C.size ∧ ∀ c,
      ((∀ e ∈ js, ¬ ColOf mb e.1 c) ∧ C'.get c = C.get c) ∨
      ∃ l1 e l2 kd, js = l1 ++ e :: l2 ∧ ColOf mb e.1 c ∧ (∀ e' ∈ l2, ¬ ColOf mb e'.1 c) ∧
        GainIs kd e.2 ∧ C'.get c = postureF s eval alpha kd.1 kd.2 c := by
  induction hj generalizing C with
  | nil =>
    simp only [forEach, Out.ok.injEq] at h
    subst h
    exact ⟨rfl, fun c => Or.inl ⟨by simp, rfl⟩⟩
  | @cons p e jd js hpe _ ih =>
    simp only [forEach] at h
    obtain ⟨C1, h1, h2⟩ := Out.bind_eq_ok.1 h
    obtain ⟨g, hg, h1⟩ := Out.bind_eq_ok.1 h1
    obtain ⟨g1, g2⟩ := postureSeg_ok hg
    obtain ⟨_, rfl⟩ := vecSetSegment_eq_ok h1
    obtain ⟨i1, i2⟩ := ih h2
    refine ⟨i1, fun c => ?_⟩
    rcases i2 c with ⟨a1, a2⟩ | ⟨l1, e', l2, kd, rfl, b2, b3, b4, b5⟩
    · by_cases hc : ColOf mb e.1 c
      · refine Or.inr ⟨[], e, js, (p.stiffness, p.damping), rfl, hc, a1, ?_, ?_⟩
        · exact hpe.choose_spec.2.2.2
        · have hc' := (jointGain_cov hpe c).2 hc
          rw [a2]
          refine (if_pos (by rw [g1]; exact hc')).trans ?_
          rw [g2]
          congr 1
          omega
      · refine Or.inl ⟨?_, ?_⟩
        · intro e' he'
          rcases List.mem_cons.1 he' with rfl | he'
          · exact hc
          · exact a1 e' he'
        · rw [a2]
          exact if_neg (by rw [g1]; exact fun hh => hc ((jointGain_cov hpe c).1 hh))
    · exact Or.inr ⟨e :: l1, e', l2, kd, rfl, b2, b3, b4, b5⟩

/-- The state of a posture task agrees with the settings given. -/
structure PostureView (mb : MultiBody K) (free : Bool) (w : K) (rI : ℕ) (s : Posture K)
    (v : PostureSet K) : Prop where
  weight : s.weight = w
  robot : s.robotIndex = rI
  W : s.dimWeight = v.W
  b : s.alphaDBegin = v.b
  q : s.pt.q = v.q
  g : GainIs (s.stiffness, s.damping) v.g
  js : List.Forall₂ (JointGainIs mb) s.jd v.js
  vel : s.refVel = v.vel
  acc : s.refAccel = v.acc
  jac : s.pt.jac = ⟨mb.nrDof, mb.nrDof, fun i j => if i = j then
    (if free = true ∧ i < 6 then 0 else 1) else 0⟩ ∨ mb.nrDof = 0 ∧ s.pt.jac.rows = 0 ∧
    s.pt.jac.cols = 0
  evalSize : s.pt.eval.size = mb.nrDof
  eval0 : ∀ c < jpos mb 1, s.pt.eval.get c = 0
  alphaSize : s.alphaVec.size = mb.nrDof
  WSize : s.dimWeight.size = mb.nrDof
  accSize : s.refAccel.size = mb.nrDof
  CSize : s.C.size = mb.nrDof

theorem jointGain_make_ok {mb : MultiBody K} {n : String} {k d : K} {p : JointGain K}
    {g : Gain K} (hg : GainIs (k, d) g) (h : JointGain.make mb n k d = .ok p) :
    JointGainIs mb p (n, g) := by
  unfold JointGain.make at h
  obtain ⟨i, hi, h⟩ := Out.bind_eq_ok.1 h
  obtain ⟨q, hq, h⟩ := Out.bind_eq_ok.1 h
  obtain ⟨j, hj, h⟩ := Out.bind_eq_ok.1 h
  simp only [Out.pure_eq, Out.ok.injEq] at h
  subst h
  exact ⟨i, jointIndex_ok hi, jointPosInDof_eq hq, joint_ok hj, hg⟩

theorem jointsStiffness_ok {sqrt : K → Out K} (hs : SqrtOK sqrt) {mb : MultiBody K}
    {l : List (String × K)} {jd : List (JointGain K)}
    (h : Posture.jointsStiffness sqrt mb l = .ok jd) :
    List.Forall₂ (JointGainIs mb) jd (l.map fun e => (e.1, e.2, none)) := by
  have key : ∀ (l : List (String × K)) (acc jd : List (JointGain K)) (js : List (String × Gain K)),
      List.Forall₂ (JointGainIs mb) acc js →
      forEach l (fun e acc => do
        let r ← sqrt e.2
        let g ← JointGain.make mb e.1 e.2 (2 * r)
        pure (acc ++ [g])) acc = .ok jd →
      List.Forall₂ (JointGainIs mb) jd (js ++ l.map fun e => (e.1, e.2, none)) := by
    intro l
    induction l with
    | nil =>
      intro acc jd js ha h
      simp only [forEach, Out.ok.injEq] at h
      subst h
      simpa using ha
    | cons e t ih =>
      intro acc jd js ha h
      simp only [forEach] at h
      obtain ⟨acc', h1, h2⟩ := Out.bind_eq_ok.1 h
      obtain ⟨r, hr, h1⟩ := Out.bind_eq_ok.1 h1
      obtain ⟨g, hg, h1⟩ := Out.bind_eq_ok.1 h1
      simp only [Out.pure_eq, Out.ok.injEq] at h1
      subst h1
      obtain ⟨b1, b2⟩ := hs.2 _ _ hr
      have hgi : GainIs (e.2, 2 * r) (e.2, none) :=
        ⟨rfl, by simp only; positivity, by simp only; rw [← b2]; ring⟩
      have := ih _ _ (js ++ [(e.1, e.2, none)])
        (List.rel_append ha (List.Forall₂.cons (jointGain_make_ok hgi hg) List.Forall₂.nil)) h2
      simpa using this
  simpa using key l [] jd [] List.Forall₂.nil h

theorem jointsGains_ok {mb : MultiBody K}
    {l : List (String × K × K)} {jd : List (JointGain K)}
    (h : Posture.jointsGains mb l = .ok jd) :
    List.Forall₂ (JointGainIs mb) jd (l.map fun e => (e.1, e.2.1, some e.2.2)) := by
  have key : ∀ (l : List (String × K × K)) (acc jd : List (JointGain K))
      (js : List (String × Gain K)),
      List.Forall₂ (JointGainIs mb) acc js →
      forEach l (fun e acc => do
        let g ← JointGain.make mb e.1 e.2.1 e.2.2
        pure (acc ++ [g])) acc = .ok jd →
      List.Forall₂ (JointGainIs mb) jd (js ++ l.map fun e => (e.1, e.2.1, some e.2.2)) := by
    intro l
    induction l with
    | nil =>
      intro acc jd js ha h
      simp only [forEach, Out.ok.injEq] at h
      subst h
      simpa using ha
    | cons e t ih =>
      intro acc jd js ha h
      simp only [forEach] at h
      obtain ⟨acc', h1, h2⟩ := Out.bind_eq_ok.1 h
      obtain ⟨g, hg, h1⟩ := Out.bind_eq_ok.1 h1
      simp only [Out.pure_eq, Out.ok.injEq] at h1
      subst h1
      have := ih _ _ (js ++ [(e.1, e.2.1, some e.2.2)])
        (List.rel_append ha (List.Forall₂.cons
          (jointGain_make_ok (g := (e.2.1, some e.2.2)) ⟨rfl, rfl⟩ hg) List.Forall₂.nil)) h2
      simpa using this
  simpa using key l [] jd [] List.Forall₂.nil h

theorem paramToVector_ok_eq {v : List (List K)} {e e' : Vec K} (h : paramToVector v e = .ok e') :
    v.flatten.length ≤ e.size ∧ e' = ⟨e.size, fun i => (v.flatten[i]?).getD (e.get i)⟩ := by
  unfold paramToVector at h
  split at h
  · simp only [Out.ok.injEq] at h
    exact ⟨by assumption, h.symm⟩
  · cases h

/-- An update that returned normally. -/
theorem posture_update_ok {mb : MultiBody K} {env : PostureEnv K} {s s' : Posture K}
    (h : s.update mb env = .ok s') :
    ∃ pt alpha C2, s.pt.update mb env = .ok pt ∧ paramToVector env.alpha s.alphaVec = .ok alpha ∧
      (∃ C1 : Vec K, C1.size = s.C.size ∧
        (∀ c, C1.get c = if jpos mb 1 ≤ c ∧ c < jpos mb 1 + (mb.nrDof - jpos mb 1) then
          postureF s pt.eval alpha s.stiffness s.damping c else 0) ∧
        forEach s.jd (fun p (C : Vec K) => do
          let g ← s.seg pt.eval alpha p.stiffness p.damping p.start p.size
          C.setSegment p.start g) C1 = .ok C2) ∧
      s.dimWeight.size = pt.jac.rows ∧ s.dimWeight.size = C2.size ∧
      s' = { s with
        pt := pt, alphaVec := alpha,
        Q := ⟨pt.jac.rows, pt.jac.cols, fun i j => s.dimWeight.get i * pt.jac.get i j⟩,
        C := ⟨C2.size, fun i => s.dimWeight.get i * C2.get i⟩ } := by
  unfold Posture.update at h
  obtain ⟨pt, hpt, h⟩ := Out.bind_eq_ok.1 h
  obtain ⟨alpha, ha, h⟩ := Out.bind_eq_ok.1 h
  obtain ⟨Q, hQ, h⟩ := Out.bind_eq_ok.1 h
  obtain ⟨deb, hdeb, h⟩ := Out.bind_eq_ok.1 h
  obtain ⟨g, hg, h⟩ := Out.bind_eq_ok.1 h
  obtain ⟨C1, hC1, h⟩ := Out.bind_eq_ok.1 h
  obtain ⟨C2, hC2, h⟩ := Out.bind_eq_ok.1 h
  obtain ⟨C, hC, h⟩ := Out.bind_eq_ok.1 h
  simp only [Out.pure_eq, Out.ok.injEq] at h
  obtain rfl := jointPosInDof_eq hdeb
  obtain ⟨g1, g2⟩ := postureSeg_ok hg
  obtain ⟨_, rfl⟩ := vecSetSegment_eq_ok hC1
  obtain ⟨hQ1, rfl⟩ := diagMulM_eq_ok.1 hQ
  obtain ⟨hC', rfl⟩ := diagMulV_eq_ok.1 hC
  refine ⟨pt, alpha, C2, hpt, ha, Exists.intro _ ⟨?_, ?_, hC2⟩, hQ1, hC', h.symm⟩
  · rfl
  intro c
  dsimp only
  rw [g1]
  split
  · rw [g2]
    congr 1
    omega
  · rfl

theorem posture_step_view {sqrt : K → Out K} (hs : SqrtOK sqrt) {mb : MultiBody K} {free : Bool}
    {w : K} {rI : ℕ} {s s' : Posture K} {v : PostureSet K} {o : PostureOp K}
    (hdof : ∀ i (j : Joint K), 1 ≤ i → mb.joints[i]? = some j → j.dof = 0 ∨ j.dof = 1 ∨ j.dof = 3)
    (hv : PostureView mb free w rI s v) (h : s.step sqrt mb o = .ok s') :
    PostureView mb free w rI s' (v.apply rI o) := by
  cases o with
  | posture q =>
    simp only [Posture.step, Out.ok.injEq] at h
    subst h
    exact { hv with
      q := rfl }
  | stiffness k =>
    simp only [Posture.step, Out.bind_eq_ok, Out.pure_eq, Out.ok.injEq] at h
    obtain ⟨r, hr, rfl⟩ := h
    obtain ⟨b1, b2⟩ := hs.2 _ _ hr
    exact { hv with
      g := ⟨rfl, by simp only [PostureSet.apply]; positivity,
        by simp only [PostureSet.apply]; rw [← b2]; ring⟩ }
  | gains k d =>
    simp only [Posture.step, Out.ok.injEq] at h
    subst h
    exact { hv with
      g := ⟨rfl, rfl⟩ }
  | jointsStiffness l =>
    simp only [Posture.step, Out.bind_eq_ok, Out.pure_eq, Out.ok.injEq] at h
    obtain ⟨jd, hjd, rfl⟩ := h
    exact { hv with
      js := jointsStiffness_ok hs hjd }
  | jointsGains l =>
    simp only [Posture.step, Out.bind_eq_ok, Out.pure_eq, Out.ok.injEq] at h
    obtain ⟨jd, hjd, rfl⟩ := h
    exact { hv with
      js := jointsGains_ok hjd }
  | refVel x =>
    simp only [Posture.step, Out.ok.injEq] at h
    subst h
    exact { hv with
      vel := rfl }
  | refAccel a =>
    simp only [Posture.step] at h
    split at h
    · simp only [Out.ok.injEq] at h
      subst h
      exact { hv with
        acc := rfl
        accSize := by rename_i hh; exact hh.trans hv.accSize }
    · cases h
  | dimWeight a =>
    simp only [Posture.step] at h
    split at h
    · simp only [Out.ok.injEq] at h
      subst h
      exact { hv with
        W := rfl
        WSize := by rename_i hh; exact hh.trans hv.WSize }
    · cases h
  | updateNrVars d =>
    simp only [Posture.step] at h
    obtain ⟨b, hb, h⟩ := Out.bind_eq_ok.1 h
    simp only [Out.pure_eq, Out.ok.injEq] at h
    rw [vecAt_eq_ok] at hb
    subst h
    exact { hv with
      b := by simp [PostureSet.apply, ← hv.robot, List.getD, hb] }
  | update env =>
    simp only [Posture.step] at h
    obtain ⟨pt, alpha, C2, h1, h2, _, _, hsz, rfl⟩ := posture_update_ok h
    obtain ⟨e1, e2, e3, e4⟩ := postureHL_update_ok hdof hv.eval0 h1
    obtain ⟨_, rfl⟩ := paramToVector_ok_eq h2
    exact { hv with
      q := e2.trans hv.q
      jac := by rw [e3]; exact hv.jac
      evalSize := e4.trans hv.evalSize
      eval0 := e1.1
      alphaSize := hv.alphaSize
      CSize := hsz.symm.trans hv.WSize }

theorem posture_run_view {sqrt : K → Out K} (hs : SqrtOK sqrt) {mb : MultiBody K} {free : Bool}
    {w : K} {rI : ℕ} {s s' : Posture K} {v : PostureSet K} {ops : List (PostureOp K)}
    (hdof : ∀ i (j : Joint K), 1 ≤ i → mb.joints[i]? = some j → j.dof = 0 ∨ j.dof = 1 ∨ j.dof = 3)
    (hv : PostureView mb free w rI s v) (h : forEach ops (Posture.step sqrt mb) s = .ok s') :
    PostureView mb free w rI s' (ops.foldl (·.apply rI) v) := by
  induction ops generalizing s v with
  | nil =>
    simp only [forEach, Out.ok.injEq] at h
    subst h
    exact hv
  | cons o t ih =>
    simp only [forEach] at h
    obtain ⟨s1, h1, h2⟩ := Out.bind_eq_ok.1 h
    exact ih (posture_step_view hs hdof hv h1) h2

theorem posture_make_view {sqrt : K → Out K} (hs : SqrtOK sqrt) {mb : MultiBody K} {free : Bool}
    {w k : K} {rI : ℕ} {q : List (List K)} {junk : ℕ → ℕ → K} {s : Posture K}
    (h : Posture.make sqrt mb free rI q k w junk = .ok s) :
    PostureView mb free w rI s
      ⟨⟨mb.nrDof, fun _ => 1⟩, 0, q, (k, none), [], ⟨mb.nrDof, fun _ => 0⟩,
        ⟨mb.nrDof, fun _ => 0⟩⟩ := by
  unfold Posture.make at h
  obtain ⟨pt, hpt, h⟩ := Out.bind_eq_ok.1 h
  obtain ⟨r, hr, h⟩ := Out.bind_eq_ok.1 h
  simp only [Out.pure_eq, Out.ok.injEq] at h
  obtain ⟨b1, b2⟩ := hs.2 _ _ hr
  have hg : GainIs (k, 2 * r) (k, none) :=
    ⟨rfl, by simp only; positivity, by simp only; rw [← b2]; ring⟩
  have hpt' : pt.q = q ∧ pt.eval = Vec.const mb.nrDof 0 ∧
      (pt.jac = ⟨mb.nrDof, mb.nrDof, fun i j => if i = j then
        (if free = true ∧ i < 6 then 0 else 1) else 0⟩ ∨ mb.nrDof = 0 ∧ pt.jac.rows = 0 ∧
        pt.jac.cols = 0) := by
    unfold PostureHL.make at hpt
    split at hpt
    · rename_i hc
      split at hpt
      · cases hpt
      · simp only [Out.ok.injEq] at hpt
        subst hpt
        exact ⟨rfl, rfl, Or.inl (by simp [hc.2])⟩
    · rename_i hc
      simp only [Out.ok.injEq] at hpt
      subst hpt
      refine ⟨rfl, rfl, ?_⟩
      by_cases hf : free = true
      · have : mb.nrDof = 0 := by
          by_contra hne
          exact hc ⟨Nat.pos_of_ne_zero hne, hf⟩
        exact Or.inr ⟨this, this, this⟩
      · exact Or.inl (by simp [hf])
  obtain ⟨p1, p2, p3⟩ := hpt'
  subst h
  exact ⟨rfl, rfl, rfl, rfl, p1, hg, List.Forall₂.nil, rfl, rfl, p3, by rw [p2]; rfl,
    fun c _ => by rw [p2]; rfl, rfl, rfl, rfl, rfl⟩

end

end Verif
