import Verif.Model.NoAcc
import Verif.Props.Forward

/-!
# C96: updating a task with or without the solver's normal accelerations gives the same result
-/

set_option autoImplicit false
set_option linter.unusedSectionVars false

namespace Verif

open Spec

section
variable {K R : Type} [CommRing K]

namespace Spec

/-- `acc` is what `data.normalAccB(r)` returns for a movable robot, after `computeNormalAccB` on the
configurations of the robots; `mb` and `mbc` are the robot of index `r` and its configuration. -/
def SolverAcc (mb : MultiBody K) (mbc : Mbc K R) (acc : List (MV K)) : Prop :=
  ∃ (mbs : List (MultiBody K)) (uni : List (UniContact K)) (bi : List (BiContact K)) (mbcs : List (Mbc K R))
    (d d' : SolverData K) (r : ℕ), GoodInput mbs bi ∧ (∀ m ∈ mbs, 0 < m.nrDof → Tree m) ∧
    (∀ (k : ℕ) (m : MultiBody K), mbs[k]? = some m → 0 < m.nrDof → ∃ c, mbcs[k]? = some c ∧ MbcSized m c) ∧
    AfterNrVars mbs uni bi d ∧ computeNormalAccB mbs mbcs d = .ok d' ∧
    mbs[r]? = some mb ∧ 0 < mb.nrDof ∧ mbcs[r]? = some mbc ∧ d'.normalAccB[r]? = some acc

end Spec

theorem Spec.SolverAcc.spec {mb : MultiBody K} {mbc : Mbc K R} {acc : List (MV K)} (h : SolverAcc mb mbc acc) :
    Tree mb ∧ MbcSized mb mbc ∧ acc.length = mb.nrJoints ∧ ∀ i < mb.nrJoints, NormalRec mb mbc acc i := by
  obtain ⟨mbs, uni, bi, mbcs, d, d', r, h1, h2, h3, h4, h5, h6, h7, h8, h9⟩ := h
  have ht := h2 mb (List.mem_of_getElem? h6) h7
  obtain ⟨c, c1, c2⟩ := h3 r mb h6 h7
  rw [h8] at c1
  cases c1
  obtain ⟨d'', e1, -, e2, -⟩ := C54_normal_recursion_partial h1 h2 h4 mbcs h3
  cases Out.ok.inj (h5.symm.trans e1)
  obtain ⟨acc', a1, a2, a3⟩ := e2 r mb mbc h6 h8 h7
  rw [h9] at a1
  cases a1
  exact ⟨ht, c2, by rw [a2, ht.bodies], a3⟩

/-- RBDyn's loop over the path. -/
theorem ownAcc_ok {mb : MultiBody K} {mbc : Mbc K R} {acc : List (MV K)}
    (hn : ∀ i < mb.nrJoints, NormalRec mb mbc acc i) (path : List ℕ) :
    ∀ (o : Option ℕ), IsPath mb o path → ∀ N, (o.toList ++ path).getLast? = some N →
      Jac.ownAcc mbc path ((o.map fun p => acc.getD p 0).getD 0) = .ok (acc.getD N 0) := by
  induction path with
  | nil =>
    intro o _ N hN
    cases o with
    | none => simp at hN
    | some p =>
      simp at hN
      subst hN
      rfl
  | cons i t ih =>
    rintro o ⟨h1, h2, h3⟩ N hN
    obtain ⟨p, X, vb, vj, a, e1, e2, e3, e4, e5, e6⟩ := hn i h2
    have ha : (o.map fun p => acc.getD p 0).getD 0 = a := by
      unfold par at h1
      rw [e1, Option.bind_some] at h1
      unfold predAcc at e5
      split at e5
      · rename_i hp
        cases e5
        rw [if_pos hp] at h1
        subst h1
        rfl
      · rename_i hp
        rw [if_neg hp] at h1
        subst h1
        simp [List.getD_eq_getElem?_getD, e5]
    have key := ih (some i) h3 N (by
      cases o with
      | none => simpa using hN
      | some p => simpa [List.getLast?_cons_cons] using hN)
    have ei : acc.getD i 0 = X.mulM a + vb.cross vj := by simp [List.getD_eq_getElem?_getD, e6]
    unfold Jac.ownAcc at key ⊢
    rw [forEach, vecAt_eq_ok.mpr e2, Out.ok_bind, vecAt_eq_ok.mpr e4, Out.ok_bind, vecAt_eq_ok.mpr e3, Out.ok_bind,
      Out.pure_eq, Out.ok_bind, ha, ← ei]
    exact key

/-- The normal acceleration of a Jacobian. -/
theorem normalAccAtOwn_eq {mb : MultiBody K} {mbc : Mbc K R} {st : KState K}
    (h : SolverAcc mb mbc st.normalAccB) {J : Jac K} {b : ℕ} (hb : b < mb.nrBodies)
    (hp : jacPath mb (mb.nrJoints + 1) (b : ℤ) [] = .ok J.path) (X : PT K) (W : MV K) :
    J.normalAccAtOwn st mbc X W = J.normalAccAt st X W := by
  obtain ⟨ht, -, hl, hn⟩ := h.spec
  rw [ht.bodies] at hb
  obtain ⟨path, h1, h2, h3⟩ := jacPath_ok ht b (mb.nrJoints + 1) [] hb (by omega) trivial
  rw [hp] at h1
  cases h1
  have hb' : J.body = .ok b := by
    unfold Jac.body
    rw [h3]
    rfl
  unfold Jac.normalAccAtOwn Jac.normalAccAt
  rw [hb']
  simp only [Out.ok_bind]
  have e : Jac.ownAcc mbc J.path 0 = .ok (st.normalAccB.getD b 0) := ownAcc_ok hn J.path none h2 b h3
  have e2 : vecAt st.normalAccB b = .ok (st.normalAccB.getD b 0) := vecAt_getD 0 (by omega)
  rw [e, e2]

theorem normalAccOwn_eq {mb : MultiBody K} {mbc : Mbc K R} {st : KState K}
    (h : SolverAcc mb mbc st.normalAccB) {J : Jac K} {b : ℕ} (hb : b < mb.nrBodies)
    (hp : jacPath mb (mb.nrJoints + 1) (b : ℤ) [] = .ok J.path) :
    J.normalAccOwn st mbc = J.normalAcc st := by
  unfold Jac.normalAccOwn Jac.normalAcc
  simp only [normalAccAtOwn_eq h hb hp]

variable {mb : MultiBody K} {mbc : Mbc K R} {st : KState K}

/-- **C96**, PositionTask. -/
theorem C96_position (h : SolverAcc mb mbc st.normalAccB) (s : PositionT K) {b : ℕ} (hb : b < mb.nrBodies)
    (hp : jacPath mb (mb.nrJoints + 1) (b : ℤ) [] = .ok s.jac.path) :
    s.updateOwn mb st mbc = s.update mb st := by
  unfold PositionT.updateOwn PositionT.update
  rw [normalAccOwn_eq h hb hp]

/-- **C96**, LinVelocityTask. -/
theorem C96_lin_velocity (h : SolverAcc mb mbc st.normalAccB) (s : LinVelT K) {b : ℕ} (hb : b < mb.nrBodies)
    (hp : jacPath mb (mb.nrJoints + 1) (b : ℤ) [] = .ok s.jac.path) :
    s.updateOwn mb st mbc = s.update mb st := by
  unfold LinVelT.updateOwn LinVelT.update
  rw [normalAccOwn_eq h hb hp]

/-- **C96**, OrientationTask. -/
theorem C96_orientation (h : SolverAcc mb mbc st.normalAccB) (rotErr : M3 K → M3 K → V3 K) {J : Jac K} {b : ℕ}
    (hb : b < mb.nrBodies) (hp : jacPath mb (mb.nrJoints + 1) (b : ℤ) [] = .ok J.path) (ori : M3 K)
    (res : Mat K) :
    orientationUpdateOwn rotErr mb st mbc b J ori res = orientationUpdate rotErr mb st b J ori res := by
  unfold orientationUpdateOwn orientationUpdate
  rw [normalAccOwn_eq h hb hp]

/-- **C96**, SurfaceOrientationTask. -/
theorem C96_surface_orientation (h : SolverAcc mb mbc st.normalAccB) (rotVel : M3 K → V3 K) {J : Jac K}
    {b : ℕ} (hb : b < mb.nrBodies) (hp : jacPath mb (mb.nrJoints + 1) (b : ℤ) [] = .ok J.path) (ori : M3 K)
    (X_b_s : PT K) (res : Mat K) :
    surfaceOriUpdateOwn rotVel mb st mbc b J ori X_b_s res = surfaceOriUpdate rotVel mb st b J ori X_b_s res := by
  unfold surfaceOriUpdateOwn surfaceOriUpdate
  rw [normalAccAtOwn_eq h hb hp]

/-- The accelerations RBDyn computes for all the bodies, whatever its buffer held. -/
theorem ownAccs_eq {acc : List (MV K)} (h : SolverAcc mb mbc acc) {scratch : List (MV K)}
    (hs : scratch.length = mb.nrBodies) : ownAccs mb mbc scratch = .ok acc := by
  obtain ⟨ht, hz, hl, hn⟩ := h.spec
  obtain ⟨acc', a1, a2, a3⟩ := normalAcc_robot ht hz (by rw [hs, ht.bodies] : scratch.length = mb.nrJoints)
  unfold ownAccs
  rw [a1, normalRec_unique ht a2 hl a3 hn]

end

section
variable {K R : Type} [Field K] [LinearOrder K] {mb : MultiBody K} {mbc : Mbc K R} {st : KState K}

theorem comAccOwn_eq (h : SolverAcc mb mbc st.normalAccB) {scratch : List (MV K)}
    (hs : scratch.length = mb.nrBodies) (J : ComJac K) : J.normalAccOwn mb st mbc scratch = J.normalAcc st := by
  unfold ComJac.normalAccOwn
  rw [ownAccs_eq h hs]
  rfl

/-- **C96**, CoMTask. -/
theorem C96_com (h : SolverAcc mb mbc st.normalAccB) {scratch : List (MV K)}
    (hs : scratch.length = mb.nrBodies) (bs : List (BodyM K)) (s : CoMT K) :
    s.updateOwn bs mb st mbc scratch = s.update bs mb st := by
  unfold CoMT.updateOwn CoMT.update CoMT.updateAt
  simp only [comAccOwn_eq h hs]

/-- **C96**, MultiCoMTask: what the task gets for each movable robot; the rest of its update is the same
code. -/
theorem C96_multi_com (h : SolverAcc mb mbc st.normalAccB) {scratch : List (MV K)}
    (hs : scratch.length = mb.nrBodies) (bs : List (BodyM K)) :
    comEnvOwn bs mb st mbc scratch = comEnv bs mb st := by
  unfold comEnvOwn comEnv
  simp only [comAccOwn_eq h hs]

/-- **C96**, MomentumTask. -/
theorem C96_momentum (h : SolverAcc mb mbc st.normalAccB) {scratch : List (MV K)}
    (hs : scratch.length = mb.nrBodies) (bs : List (BodyI K)) (s : MomentumT K) :
    s.updateOwn bs mb st mbc scratch = s.update bs mb st := by
  unfold MomentumT.updateOwn MomentumT.update
  simp only [ownAccs_eq h hs, Out.ok_bind]

end

/-! ## Concrete cases -/

namespace NoAccEx

/-- The moving arm of C54 in a solver, after one step. -/
theorem acc : SolverAcc exArm exMoving ([⟨⟨0, 0, -1⟩, 0⟩, ⟨⟨0, 0, 0⟩, 0⟩] : List (MV ℤ)) := by
  refine ⟨[exArm], [], [], [exMoving], exD1, exD2, 0, ⟨?_, by simp⟩, ?_, ?_, .nrVars (old := SolverData.init) (deps := []) rfl,
    rfl, rfl, by decide, rfl, rfl⟩
  · intro mb hmb j hj l m h
    simp only [List.mem_singleton] at hmb
    subst hmb
    simp [exArm] at hj
    rcases hj with rfl | rfl <;> simp at h
  · intro m hm _
    simp only [List.mem_singleton] at hm
    subst hm
    exact exArm_tree
  · intro k m hk _
    match k with
    | 0 => simp at hk; subst hk; exact ⟨_, rfl, ⟨rfl, rfl, rfl⟩⟩
    | n + 1 => simp at hk

/-- What a task on the arm reads. -/
def st : KState ℤ :=
  ⟨[PT.one, PT.one], exMoving.bodyVelB, [[⟨⟨1, 0, 0⟩, 0⟩], [⟨⟨0, 1, 0⟩, 0⟩]], [[1], [1]],
    [⟨⟨0, 0, -1⟩, 0⟩, ⟨⟨0, 0, 0⟩, 0⟩]⟩

/-- A task on the first link, at distance one along `y`: both overloads are defined and find the same, non-zero
normal acceleration. -/
def task : PositionT ℤ := PositionT.make 0 [0] 0 ⟨0, 1, 0⟩ ⟨0, 0, 0, Mat.zero 3 2⟩

example : task.updateOwn exArm st exMoving = task.update exArm st :=
  C96_position (mbc := exMoving) (st := st) acc task (b := 0) (by decide) rfl

example : (task.updateOwn exArm st exMoving).val?.map (fun s => s.out.normalAcc) = some ⟨1, 0, 0⟩ := by decide

/-- A fixed robot at rest. -/
def rest : Mbc ℤ Unit := ⟨[[], []], [PT.one, PT.one], [0, 0], [0, 0], ()⟩
def stFixed : KState ℤ :=
  ⟨[PT.one, PT.one], [0, 0], [[], []], [[], []], (exD3.normalAccB).getD 0 []⟩

/-- **C96, why the robot must be movable.**  When a robot index that was movable becomes a fixed robot, the
solver keeps the old normal accelerations (see C54): an orientation task on this robot, at rest, gets the stale
normal acceleration with one overload of `update` and zero with the other. -/
theorem C96_fixed_counterexample : exD3.normalAccB[0]? = some stFixed.normalAccB ∧
    (∃ o, orientationUpdate (fun _ _ => 0) exFixed stFixed 0 ⟨[0], 0⟩ M3.one (Mat.zero 3 0) = .ok o ∧
      o.normalAcc = ⟨0, 0, -1⟩) ∧
    ∃ o, orientationUpdateOwn (fun _ _ => 0) exFixed stFixed rest 0 ⟨[0], 0⟩ M3.one (Mat.zero 3 0) = .ok o ∧
      o.normalAcc = 0 := by
  refine ⟨rfl, ⟨_, rfl, ?_⟩, ⟨_, rfl, ?_⟩⟩
  · rfl
  · rfl

end NoAccEx

end Verif
