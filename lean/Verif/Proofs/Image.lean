import Verif.Model.Image
import Verif.Proofs.BoundedSpeed

/-! # Helper lemmas for the image constraint -/

set_option autoImplicit false
set_option linter.unusedSectionVars false

namespace Verif

open Finset Spec

section
variable {K : Type} [Field K] [LinearOrder K] [IsStrictOrderedRing K]

/-- The row an axis of a point gets: the sign in front of the Jacobian row and the bound. -/
def imgEmit (s : Image K) (p bc : ℕ → K) (i : ℕ) : Option (K × K) :=
  let o := if i = 0 then 1 else 0
  if s.dir = 1 ∨ (s.iMin o < p o ∧ p o < s.iMax o) then
    if s.dir * p i < s.dir * s.iMin i ∧ (s.dir = 1 ∨ p i < 0) then
      if s.dir * s.sMin i < s.dir * p i then
        some (-1 * s.dir, s.dir * (s.damping * ((p i - s.sMin i) / (s.iMin i - s.sMin i)) - s.off)
          + -1 * s.dir * bc i)
      else none
    else if s.dir * s.iMax i < s.dir * p i ∧ (s.dir = 1 ∨ 0 < p i) then
      if s.dir * p i < s.dir * s.sMax i then
        some (1 * s.dir, s.dir * (s.damping * ((p i - s.sMax i) / (s.iMax i - s.sMax i)) - s.off)
          + 1 * s.dir * bc i)
      else none
    else none
  else none

/-- The buffers have the right sizes. -/
structure ImgReady (mb : MultiBody K) (n a N : ℕ) (s : Image K) : Prop where
  begin : s.alphaDBegin = some a
  fit : a + mb.nrDof ≤ n
  rows : s.A.rows = N
  cols : s.A.cols = n
  bsize : s.b.size = N
  jr : s.jacMat.rows = 2
  jc : s.jacMat.cols = mb.nrDof
  zero : ∀ i c, ¬ (a ≤ c ∧ c < a + mb.nrDof) → s.A.get i c = 0

/-- The first lines are these rows (sign, bound, Jacobian row). -/
def RowsAre (mb : MultiBody K) (a : ℕ) (s : Image K) (L : List (K × K × (ℕ → K))) : Prop :=
  s.nrAct = L.length ∧ ∀ (k : ℕ) e, L[k]? = some e → s.b.get k = e.2.1 ∧
    ∀ q < mb.nrDof, s.A.get k (a + q) = e.1 * e.2.2 q

/-- Only the buffers, the number of rows and the sign differ. -/
structure ImgSame (s s' : Image K) : Prop where
  points : s'.points = s.points
  robotPoints : s'.robotPoints = s.robotPoints
  robotIndex : s'.robotIndex = s.robotIndex
  path : s'.path = s.path
  alphaDBegin : s'.alphaDBegin = s.alphaDBegin
  nrVars : s'.nrVars = s.nrVars
  step : s'.step = s.step
  accel : s'.accel = s.accel
  iMin : s'.iMin = s.iMin
  iMax : s'.iMax = s.iMax
  sMin : s'.sMin = s.sMin
  sMax : s'.sMax = s.sMax
  damping : s'.damping = s.damping
  off : s'.off = s.off
  dir : s'.dir = s.dir

theorem ImgSame.refl (s : Image K) : ImgSame s s :=
  ⟨rfl, rfl, rfl, rfl, rfl, rfl, rfl, rfl, rfl, rfl, rfl, rfl, rfl, rfl, rfl⟩

theorem ImgSame.trans {s s' s'' : Image K} (h : ImgSame s s') (g : ImgSame s' s'') : ImgSame s s'' :=
  ⟨g.points.trans h.points, g.robotPoints.trans h.robotPoints, g.robotIndex.trans h.robotIndex,
    g.path.trans h.path, g.alphaDBegin.trans h.alphaDBegin, g.nrVars.trans h.nrVars, g.step.trans h.step,
    g.accel.trans h.accel, g.iMin.trans h.iMin, g.iMax.trans h.iMax, g.sMin.trans h.sMin,
    g.sMax.trans h.sMax, g.damping.trans h.damping, g.off.trans h.off, g.dir.trans h.dir⟩

theorem imgEmit_same {s s' : Image K} (h : ImgSame s s') (p bc : ℕ → K) (i : ℕ) :
    imgEmit s' p bc i = imgEmit s p bc i := by
  unfold imgEmit
  rw [h.dir, h.iMin, h.iMax, h.sMin, h.sMax, h.damping, h.off]

/-- Writing one active row. -/
theorem imgFill_ok {mb : MultiBody K} {n a N : ℕ} {s : Image K} (R : ImgReady mb n a N s)
    (hN : s.nrAct < N) {i : ℕ} (hi : i < 2) (L : List (K × K × (ℕ → K))) (hL : RowsAre mb a s L)
    (v b : K) :
    ∃ s', Image.fill mb i { s with
        inv := v
        b := ⟨s.b.size, fun j => if j = s.nrAct then b else s.b.get j⟩ } = .ok s' ∧
      ImgReady mb n a N s' ∧ ImgSame s s' ∧ s'.jacMat = s.jacMat ∧
      RowsAre mb a s' (L ++ [(v, b, fun q => s.jacMat.get i q)]) := by
  have e1 : s.jacMat.block i 0 1 mb.nrDof = .ok ⟨1, mb.nrDof, fun x c => s.jacMat.get (i + x) (0 + c)⟩ :=
    if_pos ⟨by rw [R.jr]; omega, by rw [R.jc]; omega⟩
  have e2 : s.A.setBlock s.nrAct a ⟨1, mb.nrDof, fun x c => v * s.jacMat.get (i + x) (0 + c)⟩ =
      .ok ⟨s.A.rows, s.A.cols, fun x c =>
        if (s.nrAct ≤ x ∧ x < s.nrAct + 1) ∧ (a ≤ c ∧ c < a + mb.nrDof) then
          v * s.jacMat.get (i + (x - s.nrAct)) (0 + (c - a)) else s.A.get x c⟩ :=
    if_pos ⟨by rw [R.rows]; dsimp only; omega, by rw [R.cols]; exact R.fit⟩
  refine ⟨{ s with
      inv := v
      b := ⟨s.b.size, fun j => if j = s.nrAct then b else s.b.get j⟩
      A := ⟨s.A.rows, s.A.cols, fun x c =>
        if (s.nrAct ≤ x ∧ x < s.nrAct + 1) ∧ (a ≤ c ∧ c < a + mb.nrDof) then
          v * s.jacMat.get (i + (x - s.nrAct)) (0 + (c - a)) else s.A.get x c⟩
      nrAct := s.nrAct + 1 }, ?_, ?_, ?_, rfl, ?_⟩
  · unfold Image.fill
    dsimp only
    rw [R.begin]
    dsimp only
    rw [Out.ok_bind, e1, Out.ok_bind]
    dsimp only
    rw [e2, Out.ok_bind]
    rfl
  · refine ⟨R.begin, R.fit, R.rows, R.cols, R.bsize, R.jr, R.jc, fun k c hc => ?_⟩
    dsimp only
    rw [if_neg (fun h => hc h.2)]
    exact R.zero k c hc
  · exact ⟨rfl, rfl, rfl, rfl, rfl, rfl, rfl, rfl, rfl, rfl, rfl, rfl, rfl, rfl, rfl⟩
  · refine ⟨by simp [hL.1], fun k e hk => ?_⟩
    dsimp only
    by_cases hkl : k < L.length
    · rw [List.getElem?_append_left hkl] at hk
      obtain ⟨h1, h2⟩ := hL.2 k e hk
      have hne : k ≠ s.nrAct := by rw [hL.1]; omega
      rw [if_neg hne]
      refine ⟨h1, fun q hq => ?_⟩
      rw [if_neg (by omega)]
      exact h2 q hq
    · have hlt := (List.getElem?_eq_some_iff.mp hk).1
      rw [List.length_append, List.length_singleton] at hlt
      have hk' : k = s.nrAct := by rw [hL.1]; omega
      subst hk'
      rw [hL.1] at hk
      simp at hk
      subst hk
      rw [if_pos rfl]
      refine ⟨rfl, fun q hq => ?_⟩
      rw [if_pos ⟨⟨le_rfl, by omega⟩, by omega, by omega⟩]
      simp

/-- Writing a bound without activating. -/
theorem imgSkip_ok {mb : MultiBody K} {n a N : ℕ} {s : Image K} (R : ImgReady mb n a N s)
    (L : List (K × K × (ℕ → K))) (hL : RowsAre mb a s L) (b : K) :
    ImgReady mb n a N { s with b := ⟨s.b.size, fun j => if j = s.nrAct then b else s.b.get j⟩ } ∧
    RowsAre mb a { s with b := ⟨s.b.size, fun j => if j = s.nrAct then b else s.b.get j⟩ } L := by
  refine ⟨⟨R.begin, R.fit, R.rows, R.cols, R.bsize, R.jr, R.jc, R.zero⟩, hL.1, fun k e hk => ?_⟩
  obtain ⟨h1, h2⟩ := hL.2 k e hk
  have := (List.getElem?_eq_some_iff.mp hk).1
  dsimp only
  rw [if_neg (by rw [hL.1]; omega)]
  exact ⟨h1, h2⟩

/-- Rows of one axis. -/
def emitList (s : Image K) (p bc : ℕ → K) (J : ℕ → ℕ → K) (i : ℕ) : List (K × K × (ℕ → K)) :=
  (imgEmit s p bc i).toList.map fun e => (e.1, e.2, J i)

theorem imgAxis_ok {mb : MultiBody K} {n a N : ℕ} {s : Image K} (R : ImgReady mb n a N s)
    (hN : s.nrAct < N) {i : ℕ} (hi : i < 2) (p bc : ℕ → K) (L : List (K × K × (ℕ → K)))
    (hL : RowsAre mb a s L) :
    ∃ s', s.axis mb p bc i = .ok s' ∧ ImgReady mb n a N s' ∧ ImgSame s s' ∧ s'.jacMat = s.jacMat ∧
      RowsAre mb a s' (L ++ emitList s p bc s.jacMat.get i) := by
  have hset : ∀ b : K, s.b.set s.nrAct b
      = .ok ⟨s.b.size, fun j => if j = s.nrAct then b else s.b.get j⟩ :=
    fun b => if_pos (by rw [R.bsize]; exact hN)
  have same : ∀ b' : Vec K, ImgSame s { s with b := b' } := fun _ =>
    ⟨rfl, rfl, rfl, rfl, rfl, rfl, rfl, rfl, rfl, rfl, rfl, rfl, rfl, rfl, rfl⟩
  unfold Image.axis emitList imgEmit
  dsimp only
  by_cases c1 : s.dir = 1 ∨ (s.iMin (if i = 0 then 1 else 0) < p (if i = 0 then 1 else 0) ∧
      p (if i = 0 then 1 else 0) < s.iMax (if i = 0 then 1 else 0))
  · rw [if_pos c1, if_pos c1]
    by_cases c2 : s.dir * p i < s.dir * s.iMin i ∧ (s.dir = 1 ∨ p i < 0)
    · rw [if_pos c2, if_pos c2]
      by_cases c3 : s.dir * s.sMin i < s.dir * p i
      · rw [if_pos c3, if_pos c3]
        have hne : s.iMin i - s.sMin i ≠ 0 := by
          intro h0
          have : s.iMin i = s.sMin i := by linarith
          rw [this] at c2
          exact absurd c3 (not_lt.mpr c2.1.le)
        rw [show fdiv (p i - s.sMin i) (s.iMin i - s.sMin i)
          = .ok ((p i - s.sMin i) / (s.iMin i - s.sMin i)) from if_neg hne, Out.ok_bind, hset, Out.ok_bind]
        exact imgFill_ok R hN hi L hL _ _
      · rw [if_neg c3, if_neg c3, hset, Out.ok_bind]
        obtain ⟨h1, h2⟩ := imgSkip_ok R L hL (-s.dir * s.off + s.inv * bc i)
        exact ⟨_, rfl, h1, same _, rfl, by simpa using h2⟩
    · rw [if_neg c2, if_neg c2]
      by_cases c4 : s.dir * s.iMax i < s.dir * p i ∧ (s.dir = 1 ∨ 0 < p i)
      · rw [if_pos c4, if_pos c4]
        by_cases c5 : s.dir * p i < s.dir * s.sMax i
        · rw [if_pos c5, if_pos c5]
          have hne : s.iMax i - s.sMax i ≠ 0 := by
            intro h0
            have : s.iMax i = s.sMax i := by linarith
            rw [this] at c4
            exact absurd c5 (not_lt.mpr c4.1.le)
          rw [show fdiv (p i - s.sMax i) (s.iMax i - s.sMax i)
            = .ok ((p i - s.sMax i) / (s.iMax i - s.sMax i)) from if_neg hne, Out.ok_bind, hset,
            Out.ok_bind]
          exact imgFill_ok R hN hi L hL _ _
        · rw [if_neg c5, if_neg c5, hset, Out.ok_bind]
          obtain ⟨h1, h2⟩ := imgSkip_ok R L hL (-s.dir * s.off + s.inv * bc i)
          exact ⟨_, rfl, h1, same _, rfl, by simpa using h2⟩
      · rw [if_neg c4, if_neg c4]
        exact ⟨s, rfl, R, ImgSame.refl s, rfl, by simpa using hL⟩
  · rw [if_neg c1, if_neg c1]
    exact ⟨s, rfl, R, ImgSame.refl s, rfl, by simpa using hL⟩

theorem emitList_length (s : Image K) (p bc : ℕ → K) (J : ℕ → ℕ → K) (i : ℕ) :
    (emitList s p bc J i).length ≤ 1 := by
  unfold emitList
  cases imgEmit s p bc i <;> simp

/-- `RowsAre` only looks at the entries of the Jacobian rows below the number of dofs. -/
theorem RowsAre.congr {mb : MultiBody K} {a : ℕ} {s : Image K} {L L' : List (K × K × (ℕ → K))}
    (h : RowsAre mb a s L) (hl : L'.length = L.length)
    (hc : ∀ (k : ℕ) e, L'[k]? = some e → ∃ e', L[k]? = some e' ∧ e'.1 = e.1 ∧ e'.2.1 = e.2.1 ∧
      ∀ q < mb.nrDof, e'.2.2 q = e.2.2 q) : RowsAre mb a s L' := by
  refine ⟨by rw [hl]; exact h.1, fun k e hk => ?_⟩
  obtain ⟨e', h1, h2, h3, h4⟩ := hc k e hk
  obtain ⟨g1, g2⟩ := h.2 k e' h1
  exact ⟨by rw [g1, h3], fun q hq => by rw [g2 q hq, h2, h4 q hq]⟩

namespace Spec

/-- Image velocity of a point seen by the moving camera, `L V`. -/
def imgVel (env : ImageEnv K) (pt : ImgPoint K) (i : ℕ) : K :=
  ∑ k ∈ range 6, env.imgJac pt.p pt.depth i k * env.vel k

/-- Part of the image acceleration that does not depend on the joint accelerations, `L Ψ + L̇ V`. -/
def imgBias (env : ImageEnv K) (pt : ImgPoint K) (i : ℕ) : K :=
  ∑ k ∈ range 6, env.imgJac pt.p pt.depth i k * env.nacc k +
  ∑ k ∈ range 6, env.imgJacDot pt.p (imgVel env pt) pt.depth
    (∑ q ∈ range 6, env.depthDot (imgVel env pt) pt.depth q * env.vel q) i k * env.vel k

/-- Image acceleration `L (J α̇ + Ψ) + L̇ V`. -/
def imgAcc (mb : MultiBody K) (path : List ℕ) (env : ImageEnv K) (a : ℕ) (x : ℕ → K) (pt : ImgPoint K)
    (i : ℕ) : K :=
  ∑ k ∈ range 6, env.imgJac pt.p pt.depth i k *
    (∑ q ∈ range mb.nrDof, onDofs mb path (fun c => env.jac.get k c) q * x (a + q)) + imgBias env pt i

/-- Displacement of the point in the image over one time step, `dt v + dt²/2 a`. -/
def imgShift (mb : MultiBody K) (path : List ℕ) (env : ImageEnv K) (dt : K) (a : ℕ) (x : ℕ → K)
    (pt : ImgPoint K) (i : ℕ) : K :=
  dt * imgVel env pt i + dt ^ 2 / 2 * imgAcc mb path env a x pt i

end Spec

/-- `bCommonTerm` in closed form. -/
def imgB (env : ImageEnv K) (step accel : K) (pt : ImgPoint K) (i : ℕ) : K :=
  -step * imgVel env pt i - accel * imgBias env pt i

/-- The Jacobian rows of a point. -/
def imgJ (mb : MultiBody K) (path : List ℕ) (env : ImageEnv K) (accel : K) (pt : ImgPoint K) (i q : ℕ) : K :=
  onDofs mb path (fun c => ∑ k ∈ range 6, (accel * env.imgJac pt.p pt.depth i k) * env.jac.get k c) q

theorem imgComponents_ok {mb : MultiBody K} {env : ImageEnv K} {n a N : ℕ} {s : Image K}
    (R : ImgReady mb n a N s) (hp : ∀ i ∈ s.path, i < mb.joints.length) (hn : s.path.Nodup)
    (hj : env.jac.rows = 6 ∧ pathDof mb s.path ≤ env.jac.cols) (pt : ImgPoint K) :
    ∃ F, s.components mb env pt s.path = .ok (F, imgB env s.step s.accel pt) ∧ F.rows = 2 ∧
      F.cols = mb.nrDof ∧ ∀ i < 2, ∀ q < mb.nrDof, F.get i q = imgJ mb s.path env s.accel pt i q := by
  have e1 : env.jac.block 0 0 6 (pathDof mb s.path) = .ok ⟨6, pathDof mb s.path,
      fun x c => env.jac.get (0 + x) (0 + c)⟩ := if_pos ⟨by rw [hj.1], by omega⟩
  obtain ⟨F, e2, hr, hc, hF⟩ := fullJacobian_ok mb s.path
    ⟨2, pathDof mb s.path, fun i c => ∑ k ∈ Finset.range 6,
      (s.accel * env.imgJac pt.p pt.depth i k) * env.jac.get (0 + k) (0 + c)⟩ s.jacMat hp hn le_rfl
    (by rw [R.jr]) (by rw [R.jc])
  refine ⟨F, ?_, hr.trans R.jr, hc.trans R.jc, fun i hi q hq => ?_⟩
  · unfold Image.components
    dsimp only
    rw [e1, Out.ok_bind]
    dsimp only
    rw [e2, Out.ok_bind]
    rfl
  · rw [hF i hi q hq]
    simp only [Nat.zero_add]
    rfl

/-- Rows of one point. -/
def pointRows (mb : MultiBody K) (env : ImageEnv K) (s : Image K) (pt : ImgPoint K) :
    List (K × K × (ℕ → K)) :=
  emitList s pt.p (imgB env s.step s.accel pt) (imgJ mb s.path env s.accel pt) 0 ++
  emitList s pt.p (imgB env s.step s.accel pt) (imgJ mb s.path env s.accel pt) 1

theorem imgPoint_ok {mb : MultiBody K} {env : ImageEnv K} {n a N : ℕ} {s : Image K}
    (R : ImgReady mb n a N s) (hp : ∀ i ∈ s.path, i < mb.joints.length) (hn : s.path.Nodup)
    (hj : env.jac.rows = 6 ∧ pathDof mb s.path ≤ env.jac.cols) (pt : ImgPoint K)
    (hN : s.nrAct + 1 < N) (L : List (K × K × (ℕ → K))) (hL : RowsAre mb a s L) :
    ∃ s', s.point mb env pt = .ok s' ∧ ImgReady mb n a N s' ∧ ImgSame s s' ∧
      RowsAre mb a s' (L ++ pointRows mb env s pt) := by
  obtain ⟨F, e, hr, hc, hF⟩ := imgComponents_ok R hp hn hj pt
  set bc := imgB env s.step s.accel pt with hbc
  have R0 : ImgReady mb n a N { s with jacMat := F } :=
    ⟨R.begin, R.fit, R.rows, R.cols, R.bsize, hr, hc, R.zero⟩
  have S0 : ImgSame s { s with jacMat := F } :=
    ⟨rfl, rfl, rfl, rfl, rfl, rfl, rfl, rfl, rfl, rfl, rfl, rfl, rfl, rfl, rfl⟩
  obtain ⟨s1, e1, R1, S1, j1, L1⟩ := imgAxis_ok R0 (by dsimp only; omega) (show 0 < 2 by omega) pt.p bc L hL
  have hlen := emitList_length { s with jacMat := F } pt.p bc F.get 0
  have h1 : s1.nrAct < N := by
    have h2 := L1.1
    rw [List.length_append] at h2
    have h3 := hL.1
    change s1.nrAct = L.length + (emitList { s with jacMat := F } pt.p bc F.get 0).length at h2
    omega
  obtain ⟨s2, e2, R2, S2, j2, L2⟩ := imgAxis_ok R1 h1 (show 1 < 2 by omega) pt.p bc _ L1
  refine ⟨s2, ?_, R2, S0.trans (S1.trans S2), ?_⟩
  · unfold Image.point
    rw [e, Out.ok_bind]
    unfold forRange
    unfold forRange
    unfold forRange
    rw [Out.ok_bind, e1, Out.ok_bind, e2]
  · rw [List.append_assoc] at L2
    have em : ∀ i, imgEmit s1 pt.p bc i = imgEmit s pt.p bc i := fun i => imgEmit_same (S0.trans S1) _ _ _
    have em0 : ∀ i, imgEmit { s with jacMat := F } pt.p bc i = imgEmit s pt.p bc i := fun i => imgEmit_same S0 _ _ _
    rw [j1] at L2
    unfold emitList at L2
    rw [em, em0] at L2
    unfold pointRows emitList
    rw [← hbc]
    refine L2.congr (by simp) fun k e' hk => ?_
    by_cases hkl : k < L.length
    · rw [List.getElem?_append_left hkl] at hk ⊢
      exact ⟨e', hk, rfl, rfl, fun _ _ => rfl⟩
    · rw [List.getElem?_append_right (by omega)] at hk ⊢
      generalize k - L.length = m at hk ⊢
      have f0 : ∀ q < mb.nrDof, F.get 0 q = imgJ mb s.path env s.accel pt 0 q := hF 0 (by omega)
      have f1 : ∀ q < mb.nrDof, F.get 1 q = imgJ mb s.path env s.accel pt 1 q := hF 1 (by omega)
      cases h0 : imgEmit s pt.p bc 0 with
      | none =>
        cases h1 : imgEmit s pt.p bc 1 with
        | none => rw [h0, h1] at hk; simp at hk
        | some w =>
          rw [h0, h1] at hk
          simp only [Option.toList_none, List.map_nil, Option.toList_some, List.map_cons, List.nil_append] at hk ⊢
          match m, hk with
          | 0, hk => simp at hk; subst hk; exact ⟨_, rfl, rfl, rfl, f1⟩
      | some v =>
        cases h1 : imgEmit s pt.p bc 1 with
        | none =>
          rw [h0, h1] at hk
          simp only [Option.toList_none, List.map_nil, Option.toList_some, List.map_cons, List.append_nil] at hk ⊢
          match m, hk with
          | 0, hk => simp at hk; subst hk; exact ⟨_, rfl, rfl, rfl, f0⟩
        | some w =>
          rw [h0, h1] at hk
          simp only [Option.toList_some, List.map_cons, List.map_nil, List.cons_append, List.nil_append] at hk ⊢
          match m, hk with
          | 0, hk => simp at hk; subst hk; exact ⟨_, rfl, rfl, rfl, f0⟩
          | 1, hk => simp at hk; subst hk; exact ⟨_, rfl, rfl, rfl, f1⟩

theorem pointRows_length (mb : MultiBody K) (env : ImageEnv K) (s : Image K) (pt : ImgPoint K) :
    (pointRows mb env s pt).length ≤ 2 := by
  unfold pointRows
  rw [List.length_append]
  have h0 := emitList_length s pt.p (imgB env s.step s.accel pt) (imgJ mb s.path env s.accel pt) 0
  have h1 := emitList_length s pt.p (imgB env s.step s.accel pt) (imgJ mb s.path env s.accel pt) 1
  omega

theorem pointRows_same {mb : MultiBody K} {env : ImageEnv K} {s s' : Image K} (h : ImgSame s s')
    (pt : ImgPoint K) : pointRows mb env s' pt = pointRows mb env s pt := by
  unfold pointRows emitList
  rw [h.step, h.accel, h.path, imgEmit_same h, imgEmit_same h]

theorem imgLoop {mb : MultiBody K} {env : ImageEnv K} {n a N : ℕ} (l : List (ImgPoint K)) {s : Image K}
    (R : ImgReady mb n a N s) (hp : ∀ i ∈ s.path, i < mb.joints.length) (hn : s.path.Nodup)
    (hj : env.jac.rows = 6 ∧ pathDof mb s.path ≤ env.jac.cols)
    (L : List (K × K × (ℕ → K))) (hL : RowsAre mb a s L) (hN : L.length + 2 * l.length ≤ N) :
    ∃ s', forEach l (Image.point mb env) s = .ok s' ∧ ImgReady mb n a N s' ∧ ImgSame s s' ∧
      RowsAre mb a s' (L ++ l.flatMap (pointRows mb env s)) := by
  induction l generalizing s L with
  | nil => exact ⟨s, rfl, R, ImgSame.refl s, by simpa using hL⟩
  | cons pt t ih =>
    rw [List.length_cons] at hN
    obtain ⟨s1, e1, R1, S1, L1⟩ := imgPoint_ok R hp hn hj pt (by rw [hL.1]; omega) L hL
    have hlen := pointRows_length mb env s pt
    obtain ⟨s2, e2, R2, S2, L2⟩ := ih R1 (by rw [S1.path]; exact hp) (by rw [S1.path]; exact hn)
      (by rw [S1.path]; exact hj) _ L1 (by rw [List.length_append]; omega)
    refine ⟨s2, ?_, R2, S1.trans S2, ?_⟩
    · simp only [forEach, e1, Out.ok_bind]
      exact e2
    · rw [List.flatMap_cons, ← List.append_assoc]
      have : t.flatMap (pointRows mb env s1) = t.flatMap (pointRows mb env s) := by
        congr 1
        funext p
        exact pointRows_same S1 p
      rw [this] at L2
      exact L2

theorem img_lineVal {mb : MultiBody K} {n a N : ℕ} {s : Image K} (R : ImgReady mb n a N s)
    {L : List (K × K × (ℕ → K))} (hL : RowsAre mb a s L) {k : ℕ} {e : K × K × (ℕ → K)} (hk : L[k]? = some e)
    (x : ℕ → K) : lineVal n s.A k x = e.1 * ∑ q ∈ range mb.nrDof, e.2.2 q * x (a + q) := by
  unfold lineVal
  have : ∀ j ∈ range n, s.A.get k j * x j
      = if a ≤ j ∧ j < a + mb.nrDof then s.A.get k j * x j else 0 := by
    intro j _
    split
    · rfl
    · rw [R.zero k j (by assumption), zero_mul]
  rw [sum_congr rfl this, sum_shift_ite n a mb.nrDof R.fit (fun j => s.A.get k j * x j), mul_sum]
  exact sum_congr rfl fun q hq => by rw [(hL.2 k e hk).2 q (mem_range.mp hq)]; ring

theorem onDofs_sum {ι : Type} (mb : MultiBody K) (path : List ℕ) (t : Finset ι) (w : ι → K) (f : ι → ℕ → K)
    (q : ℕ) : onDofs mb path (fun c => ∑ k ∈ t, w k * f k c) q = ∑ k ∈ t, w k * onDofs mb path (f k) q := by
  induction path generalizing f with
  | nil => simp [onDofs]
  | cons i r ih =>
    simp only [onDofs]
    rw [ih fun k c => f k (jdof mb i + c)]
    simp only [mul_add, sum_add_distrib]
    congr 1
    split
    · rfl
    · simp

/-- The Jacobian row and the common term are the displacement over the step. -/
theorem img_shift (mb : MultiBody K) (path : List ℕ) (env : ImageEnv K) (dt : K) (a : ℕ) (x : ℕ → K)
    (pt : ImgPoint K) (i : ℕ) :
    ∑ q ∈ range mb.nrDof, imgJ mb path env (1 / 2 * dt * dt) pt i q * x (a + q)
      = imgShift mb path env dt a x pt i + imgB env dt (1 / 2 * dt * dt) pt i := by
  have h1 : ∀ q, imgJ mb path env (1 / 2 * dt * dt) pt i q
      = ∑ k ∈ range 6, ((1 / 2 * dt * dt) * env.imgJac pt.p pt.depth i k)
        * onDofs mb path (fun c => env.jac.get k c) q := fun q =>
    onDofs_sum mb path (range 6) (fun k => (1 / 2 * dt * dt) * env.imgJac pt.p pt.depth i k)
      (fun k c => env.jac.get k c) q
  simp only [h1, sum_mul]
  rw [sum_comm]
  unfold imgShift imgAcc imgB
  have h2 : ∑ k ∈ range 6, ∑ q ∈ range mb.nrDof, 1 / 2 * dt * dt * env.imgJac pt.p pt.depth i k
        * onDofs mb path (fun c => env.jac.get k c) q * x (a + q)
      = dt ^ 2 / 2 * ∑ k ∈ range 6, env.imgJac pt.p pt.depth i k *
          (∑ q ∈ range mb.nrDof, onDofs mb path (fun c => env.jac.get k c) q * x (a + q)) := by
    rw [mul_sum]
    refine sum_congr rfl fun k _ => ?_
    rw [mul_sum, mul_sum]
    refine sum_congr rfl fun q _ => ?_
    ring
  rw [h2]
  ring

end

end Verif
