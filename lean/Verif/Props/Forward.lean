import Verif.Model.Forward
import Verif.Proofs.Forward
import Verif.Props.NormalAcc
import Verif.Props.Drift
import Verif.Props.CoM
import Verif.Props.Converge

/-!
# C95: the derivative properties hold for every robot RBDyn moves

The properties on rates (C58, C59, C61–C66, C77–C81, …) speak of a robot that evolves in time: every
body moves with its body velocity, the velocities are the ones the joint velocities produce, and the normal
accelerations satisfy the recursion.  Here this is proved for the configurations `rbd::forwardKinematics`
and `rbd::forwardVelocity` fill in and the normal accelerations `SolverData::computeNormalAccB` computes from
them, for every kinematic tree of fixed, revolute, prismatic, cylindrical, spherical and free joints and
every differentiable motion of its joints.
-/

set_option autoImplicit false
set_option linter.unusedSectionVars false

namespace Verif

open Finset Spec

namespace Spec

/-- The solver updates its normal accelerations for robot `r` on the configurations that the user's calls of
forward kinematics and velocity produce, at every time.  `d τ` is the data of the solver before the step:
the result of `nrVars` and of any number of control steps. -/
structure ForwardRun (g : RbdRobot) (r : ℕ) (mbs : List (MultiBody ℝ)) (uni : List (UniContact ℝ))
    (bi : List (BiContact ℝ)) (q alpha : ℝ → List (List ℝ)) (mbcs : ℝ → List (Mbc ℝ (List (PT ℝ))))
    (d' : ℝ → SolverData ℝ) : Prop where
  robot : mbs[r]? = some g.mb
  movable : 0 < g.mb.nrDof
  input : GoodInput mbs bi
  trees : ∀ mb ∈ mbs, 0 < mb.nrDof → Tree mb
  sized : ∀ τ (k : ℕ) (mb : MultiBody ℝ), mbs[k]? = some mb → 0 < mb.nrDof →
    ∃ mbc, (mbcs τ)[k]? = some mbc ∧ MbcSized mb mbc
  forward : ∀ τ, ∃ (mbc : Mbc ℝ (List (PT ℝ))) (W0 : List (PT ℝ)) (V0 : List (MV ℝ)) (aD : List (List ℝ)),
    (mbcs τ)[r]? = some mbc ∧ W0.length = g.mb.nrBodies ∧ V0.length = g.mb.nrBodies ∧
      g.forward W0 V0 (q τ) (alpha τ) aD = .ok mbc
  step : ∀ τ, ∃ d, AfterNrVars mbs uni bi d ∧ computeNormalAccB mbs (mbcs τ) d = .ok (d' τ)

/-- What the tasks on robot `r` read. -/
def readBy (g : RbdRobot) (r : ℕ) (alpha : List (List ℝ)) (mbcs : List (Mbc ℝ (List (PT ℝ))))
    (d : SolverData ℝ) : KState ℝ :=
  g.kState alpha (mbcs.getD r ⟨[], [], [], [], []⟩) (d.normalAccB.getD r [])

end Spec

section
variable {g : RbdRobot}

/-- **C95** (which parameters a joint has): none if it is fixed, one for a rotation or a translation, two for both,
a quaternion of norm one for a spherical joint, with a position after it for a free one. -/
theorem C95_parameters (q : List ℝ) (a : V3 ℝ) :
    (JointConfig .fixed q ↔ q = []) ∧ (JointConfig (.rev a) q ↔ ∃ θ, q = [θ]) ∧
    (JointConfig (.prism a) q ↔ ∃ d, q = [d]) ∧ (JointConfig (.cyl a) q ↔ ∃ θ d, q = [θ, d]) ∧
    (JointConfig .spherical q ↔ ∃ w x y z, q = [w, x, y, z] ∧ w * w + x * x + y * y + z * z = 1) ∧
    (JointConfig .free q ↔ ∃ w x y z px py pz, q = [w, x, y, z, px, py, pz] ∧
      w * w + x * x + y * y + z * z = 1) := by
  refine ⟨?_, ?_, ?_, ?_, ?_, ?_⟩
  · simp [JointConfig, JType.params]
  · simp [JointConfig, JType.params, List.length_eq_one_iff]
  · simp [JointConfig, JType.params, List.length_eq_one_iff]
  · simp [JointConfig, JType.params, List.length_eq_two]
  · constructor
    · rintro ⟨h, u⟩
      match q, h with
      | [w, x, y, z], _ => exact ⟨w, x, y, z, rfl, u⟩
    · rintro ⟨w, x, y, z, rfl, u⟩
      exact ⟨rfl, u⟩
  · constructor
    · rintro ⟨h, u⟩
      match q, h with
      | [w, x, y, z, px, py, pz], _ => exact ⟨w, x, y, z, px, py, pz, rfl, u⟩
    · rintro ⟨w, x, y, z, px, py, pz, rfl, u⟩
      exact ⟨rfl, u⟩

/-- Forward kinematics and velocity are defined on every configuration of the right sizes, and their result
does not depend on what the configuration held before. -/
theorem C95_forward_defined (hg : GeomOK g) {q alpha : List (List ℝ)} (alphaD : List (List ℝ))
    (hc : ConfigOK g q alpha) :
    ∃ mbc, ∀ (W0 : List (PT ℝ)) (V0 : List (MV ℝ)), W0.length = g.mb.nrBodies → V0.length = g.mb.nrBodies →
      g.forward W0 V0 q alpha alphaD = .ok mbc := by
  have hb := hg.tree.bodies
  obtain ⟨m, h1, h2⟩ := forward_ok hg alphaD hc (W0 := List.replicate g.mb.nrJoints PT.one)
    (V0 := List.replicate g.mb.nrJoints 0) (by simp) (by simp)
  refine ⟨m, fun W0 V0 hW hV => ?_⟩
  obtain ⟨m', k1, k2⟩ := forward_ok hg alphaD hc (by rw [hW, hb]) (by rw [hV, hb])
  rw [k1]
  congr 1
  have hpos : ∀ i, i < g.mb.nrJoints → m'.rest.getD i PT.one = m.rest.getD i PT.one := by
    intro i
    induction i using Nat.strong_induction_on with
    | _ i ih =>
      intro hi
      rw [k2.pos i hi, h2.pos i hi]
      cases e : par g.mb i with
      | none => rfl
      | some p =>
        have hp := par_lt hg.tree e
        simp only [Option.map_some]
        rw [ih p hp (by omega)]
  have hvel : ∀ i, i < g.mb.nrJoints → m'.bodyVelB.getD i 0 = m.bodyVelB.getD i 0 := by
    intro i
    induction i using Nat.strong_induction_on with
    | _ i ih =>
      intro hi
      rw [k2.vel i hi, h2.vel i hi]
      cases e : par g.mb i with
      | none => rfl
      | some p =>
        have hp := par_lt hg.tree e
        simp only [Option.map_some]
        rw [ih p hp (by omega)]
  have ext' : ∀ {α : Type} (d : α) (l l' : List α), l.length = l'.length →
      (∀ i < l.length, l.getD i d = l'.getD i d) → l = l' := by
    intro α d l l' hl h
    refine List.ext_getElem hl fun i h1 h2 => ?_
    have := h i h1
    rwa [List.getD_eq_getElem _ _ h1, List.getD_eq_getElem _ _ h2] at this
  have e1 := ext' PT.one m'.rest m.rest (by rw [k2.posLen, h2.posLen])
    (fun i hi => hpos i (by rw [← k2.posLen]; exact hi))
  have e2 := ext' 0 m'.bodyVelB m.bodyVelB (by rw [k2.velLen, h2.velLen])
    (fun i hi => hvel i (by rw [← k2.velLen]; exact hi))
  have e3 := k2.pts.trans h2.pts.symm
  have e4 := k2.vj.trans h2.vj.symm
  have e5 := k2.alphaD.trans h2.alphaD.symm
  cases m; cases m'
  simp only at e1 e2 e3 e4 e5
  subst e1 e2 e3 e4 e5
  rfl

/-- The constructor of a Jacobian finds the path from the root to the body: each joint of it is the
predecessor of the next one, the first hangs on the world, the last one moves the body. -/
theorem C95_path {K : Type} [CommRing K] {mb : MultiBody K} (ht : Tree mb) {b : ℕ} (hb : b < mb.nrBodies) :
    ∃ path, jacPath mb (mb.nrJoints + 1) (b : ℤ) [] = .ok path ∧ path.getLast? = some b ∧
      (∀ i ∈ path, i < mb.nrJoints) ∧ path.Pairwise (· < ·) ∧
      (∀ i, path.head? = some i → mb.pred[i]? = some (-1)) ∧
      ∀ k i j : ℕ, path[k]? = some i → path[k + 1]? = some j → mb.pred[j]? = some (i : ℤ) := by
  rw [ht.bodies] at hb
  obtain ⟨path, h1, h2, h3⟩ := jacPath_ok ht b (mb.nrJoints + 1) [] hb (by omega) trivial
  have some' : ∀ {i p}, par mb i = some p → mb.pred[i]? = some (p : ℤ) := by
    intro i p h
    unfold par at h
    cases e : mb.pred[i]? with
    | none => rw [e] at h; simp at h
    | some a =>
      rw [e, Option.bind_some] at h
      rcases ht.pred i a e with rfl | ⟨q, hq, rfl⟩
      · simp at h
      · rw [if_neg (by omega)] at h
        simp at h
        rw [h]
  refine ⟨path, h1, h3, h2.mem, (h2.sorted ht).1, fun i hi => ?_, ?_⟩
  · cases path with
    | nil => simp at hi
    | cons a t =>
      cases hi
      obtain ⟨k1, k2, -⟩ := h2
      have hl : i < mb.pred.length := by rw [ht.predLen]; exact k2
      rw [List.getElem?_eq_getElem hl]
      rcases ht.pred i _ (List.getElem?_eq_getElem hl) with h | ⟨q, hq, h⟩
      · rw [h]
      · exfalso
        unfold par at k1
        rw [List.getElem?_eq_getElem hl, h, Option.bind_some, if_neg (by omega)] at k1
        cases k1
  · clear h1 h3
    have key : ∀ (l : List ℕ) (o : Option ℕ), IsPath mb o l → ∀ k i j : ℕ, l[k]? = some i → l[k + 1]? = some j →
        mb.pred[j]? = some (i : ℤ) := by
      intro l
      induction l with
      | nil => intro o _ k i j hi; simp at hi
      | cons a t ih =>
        intro o h k i j hi hj
        cases k with
        | succ k => exact ih _ h.2.2 k i j (by simpa using hi) (by simpa using hj)
        | zero =>
          simp at hi hj
          subst hi
          cases t with
          | nil => simp at hj
          | cons c u =>
            simp at hj
            subst hj
            exact some' h.2.2.1
    exact key _ _ h2

/-- Every body moves with the body velocity `forwardVelocity` computes. -/
theorem C95_body_velocity (hg : GeomOK g) {q alpha : ℝ → List (List ℝ)} {alphaD : ℝ → List (List ℝ)}
    {xd : ℕ → ℝ} {t : ℝ} (h : RobotMoves g q alpha xd t) {W0 : List (PT ℝ)} {V0 : List (MV ℝ)}
    (hW : W0.length = g.mb.nrBodies) (hV : V0.length = g.mb.nrBodies)
    {mbc : ℝ → Mbc ℝ (List (PT ℝ))} (hf : ∀ τ, g.forward W0 V0 (q τ) (alpha τ) (alphaD τ) = .ok (mbc τ))
    {b : ℕ} (hb : b < g.mb.nrBodies) :
    ((mbc t).rest.getD b PT.one).Rigid ∧
      FrameMoves (fun τ => (mbc τ).rest.getD b PT.one) ((mbc t).bodyVelB.getD b 0) t := by
  have hn := hg.tree.bodies
  have hfw : ∀ τ, Forwarded g (q τ) (alpha τ) (alphaD τ) (mbc τ) := by
    intro τ
    obtain ⟨m, h1, h2⟩ := forward_ok hg (alphaD τ) (h.config τ) (by rw [hW, hn]) (by rw [hV, hn])
    rw [Out.ok.inj ((hf τ).symm.trans h1)]
    exact h2
  exact ⟨(hfw t).rigid hg (h.config t) b (by omega), body_moves hg h hfw b (by omega)⟩

section
variable {r : ℕ} {mbs : List (MultiBody ℝ)} {uni : List (UniContact ℝ)} {bi : List (BiContact ℝ)}
  {q alpha : ℝ → List (List ℝ)} {mbcs : ℝ → List (Mbc ℝ (List (PT ℝ)))} {d' : ℝ → SolverData ℝ}

/-- **C95**.  For every body, the path of its Jacobian evolves as the derivative properties require. -/
theorem C95_evolves (hg : GeomOK g) (hrun : ForwardRun g r mbs uni bi q alpha mbcs d') {xd : ℕ → ℝ} {t : ℝ}
    (h : RobotMoves g q alpha xd t) {b : ℕ} (hb : b < g.mb.nrBodies) {path : List ℕ}
    (hpath : jacPath g.mb (g.mb.nrJoints + 1) (b : ℤ) [] = .ok path) :
    path.getLast? = some b ∧
      Evolves g.mb (fun τ => readBy g r (alpha τ) (mbcs τ) (d' τ)) path
        (fun τ c => (alpha τ).flatten.getD c 0) xd t := by
  have hn := hg.tree.bodies
  rw [hn] at hb
  obtain ⟨path', h1, h2, h3⟩ := jacPath_ok hg.tree b (g.mb.nrJoints + 1) [] hb (by omega) trivial
  rw [hpath] at h1
  cases h1
  refine ⟨h3, ?_⟩
  have hne : path ≠ [] := by
    rintro rfl
    simp at h3
  have data : ∀ τ, ∃ (mbc : Mbc ℝ (List (PT ℝ))) (acc : List (MV ℝ)) (aD : List (List ℝ)),
      readBy g r (alpha τ) (mbcs τ) (d' τ) = g.kState (alpha τ) mbc acc ∧
      Forwarded g (q τ) (alpha τ) aD mbc ∧ acc.length = g.mb.nrJoints ∧
      ∀ i < g.mb.nrJoints, NormalRec g.mb mbc acc i := by
    intro τ
    obtain ⟨mbc, W0, V0, aD, e1, hW, hV, e2⟩ := hrun.forward τ
    obtain ⟨m, f1, f2⟩ := forward_ok hg aD (h.config τ) (W0 := W0) (V0 := V0) (by rw [hW, hn]) (by rw [hV, hn])
    cases Out.ok.inj (e2.symm.trans f1)
    obtain ⟨d, a1, a2⟩ := hrun.step τ
    obtain ⟨d'', c1, -, c2, -⟩ := C54_normal_recursion_partial hrun.input hrun.trees a1 (mbcs τ) (hrun.sized τ)
    cases Out.ok.inj (a2.symm.trans c1)
    obtain ⟨acc, l1, l2, l3⟩ := c2 r g.mb mbc hrun.robot e1 hrun.movable
    refine ⟨mbc, acc, aD, ?_, f2, by rw [l2, hn], l3⟩
    unfold readBy
    rw [List.getD_eq_getElem?_getD, e1, List.getD_eq_getElem?_getD, l1]
    rfl
  choose mbc acc aD e f l n using data
  simp only [e]
  refine ⟨fun τ => forwarded_moves hg (h.config τ) (f τ) (l τ) h2 hne, fun τ i _ d => rfl, h.acc,
    fun i hi => body_moves hg h f i (h2.mem i hi), forwarded_nchain hg (h.config t) (f t) (n t) path none h2⟩

/-- **C95** (meaning of the normal accelerations).  The body velocity changes at the rate "what the joint
accelerations contribute, plus the normal acceleration of the body"; with joint accelerations zero the normal
acceleration is the acceleration of the body. -/
theorem C95_normal_acceleration (hg : GeomOK g) (hrun : ForwardRun g r mbs uni bi q alpha mbcs d') {xd : ℕ → ℝ}
    {t : ℝ} (h : RobotMoves g q alpha xd t) {b : ℕ} (hb : b < g.mb.nrBodies) :
    (∃ path, jacPath g.mb (g.mb.nrJoints + 1) (b : ℤ) [] = .ok path ∧
      HasDM (fun τ => (((mbcs τ).getD r ⟨[], [], [], [], []⟩).bodyVelB).getD b 0)
        ((((mbcs t).getD r ⟨[], [], [], [], []⟩).rest.getD b PT.one).mulM
            (wSum g.mb (readBy g r (alpha t) (mbcs t) (d' t)) path xd)
          + ((d' t).normalAccB.getD r []).getD b 0) t) ∧
    ((∀ c, xd c = 0) → HasDM (fun τ => (((mbcs τ).getD r ⟨[], [], [], [], []⟩).bodyVelB).getD b 0)
        (((d' t).normalAccB.getD r []).getD b 0) t) := by
  obtain ⟨path, hp, -⟩ := C95_path hg.tree hb
  obtain ⟨hl, hev⟩ := C95_evolves hg hrun h hb hp
  have key := body_acc hev hl (Y := PT.one) M3.isRot_one
  have o1 : ∀ m : MV ℝ, (PT.one : PT ℝ).mulM m = m := by
    intro m
    ext <;> simp [PT.mulM, PT.one, M3.one, M3.mulVec, V3.dot]
  have o2 : ∀ X : PT ℝ, PT.one.mul X = X := by
    intro X
    rcases X with ⟨⟨⟨_, _, _⟩, ⟨_, _, _⟩, ⟨_, _, _⟩⟩, ⟨_, _, _⟩⟩
    simp [PT.mul, PT.one, M3.one, M3.mul, M3.mulVec, M3.transpose, V3.dot, V3.ext_iff]
  simp only [o1, o2] at key
  refine ⟨⟨path, hp, key⟩, fun h0 => key.congr_deriv ?_⟩
  have : wSum g.mb (readBy g r (alpha t) (mbcs t) (d' t)) path xd = 0 := by
    unfold wSum
    generalize (fun i d => (kPose (readBy g r (alpha t) (mbcs t) (d' t)) i).inv.mulM
      (kSub (readBy g r (alpha t) (mbcs t) (d' t)) i d)) = G
    clear hev hl hp key
    induction path with
    | nil => rfl
    | cons i u ih =>
      rw [pathSum, ih, add_zero]
      refine Finset.sum_eq_zero fun d _ => ?_
      rw [h0]
      ext <;> simp
  rw [this, mulM_zero, zero_add]
  rfl

/-- All the bodies at once, as the CoM and momentum tasks need them. -/
theorem C95_bodies (hg : GeomOK g) (hrun : ForwardRun g r mbs uni bi q alpha mbcs d') {xd : ℕ → ℝ} {t : ℝ}
    (h : RobotMoves g q alpha xd t) {bs : List (BodyM ℝ)} (hbs : bs.length ≤ g.mb.nrBodies)
    (hpath : ∀ (i : ℕ) (b : BodyM ℝ), bs[i]? = some b →
      jacPath g.mb (g.mb.nrJoints + 1) (i : ℤ) [] = .ok b.path) :
    BodiesEvolve bs g.mb (fun τ => readBy g r (alpha τ) (mbcs τ) (d' τ))
      (fun τ c => (alpha τ).flatten.getD c 0) xd t := by
  intro i hi
  refine C95_evolves hg hrun h (by omega) ?_
  have e : bs[i]? = some bs[i] := List.getElem?_eq_getElem hi
  have e' : bodyAt bs i = bs[i] := by
    unfold bodyAt
    rw [List.getD_eq_getElem _ _ hi]
  rw [e']
  exact hpath i _ e

/-- **C95** (position task, end to end).  On every robot RBDyn moves, the update of a position task is
defined, the derivative of its error is minus its speed, and the derivative of its speed is `J alphaD` plus
its normal acceleration. -/
theorem C95_position (hg : GeomOK g) (hrun : ForwardRun g r mbs uni bi q alpha mbcs d') {xd : ℕ → ℝ} {t : ℝ}
    (h : RobotMoves g q alpha xd t) (s : PositionT ℝ) (hb : s.bodyIndex < g.mb.nrBodies)
    (hpath : jacPath g.mb (g.mb.nrJoints + 1) (s.bodyIndex : ℤ) [] = .ok s.jac.path)
    (hp : s.point = s.jac.point) (hr : s.out.jacMat.rows = 3) (hc : s.out.jacMat.cols = g.mb.nrDof) :
    ∃ s' : ℝ → PositionT ℝ,
      (∀ τ, s.update g.mb (readBy g r (alpha τ) (mbcs τ) (d' τ)) = .ok (s' τ)) ∧
      HasD3 (fun τ => (s' τ).out.eval) (-(s' t).out.speed) t ∧
      SpeedDrift3 (fun τ => (s' τ).out) xd t := by
  obtain ⟨hl, hev⟩ := C95_evolves hg hrun h hb hpath
  obtain ⟨s1, a1, a2⟩ := C58_position s hev hl hr hc
  obtain ⟨s2, b1, b2⟩ := C59_position s hp hev hl hr hc
  have e : s2 = s1 := funext fun τ => Out.ok.inj ((b1 τ).symm.trans (a1 τ))
  exact ⟨s1, a1, e ▸ b2, a2⟩

/-- **C95** (set-point task over a position task, end to end).  If the joints follow the accelerations the
set-point task asks for, the controlled point goes to the target, critically damped. -/
theorem C95_position_converges (hg : GeomOK g) (hrun : ForwardRun g r mbs uni bi q alpha mbcs d')
    {y : ℝ → ℕ → ℝ} {b0 : ℕ} {k : ℝ} (h : ∀ t, 0 ≤ t → RobotMoves g q alpha (fun c => y t (b0 + c)) t)
    (s : PositionT ℝ) (hb : s.bodyIndex < g.mb.nrBodies)
    (hpath : jacPath g.mb (g.mb.nrJoints + 1) (s.bodyIndex : ℤ) [] = .ok s.jac.path)
    (hp : s.point = s.jac.point) (hr : s.out.jacMat.rows = 3) (hc : s.out.jacMat.cols = g.mb.nrDof) :
    ∃ s' : ℝ → PositionT ℝ,
      (∀ τ, s.update g.mb (readBy g r (alpha τ) (mbcs τ) (d' τ)) = .ok (s' τ)) ∧
      (SetPointLoop 3 k b0 (fun t => (s' t).out.hl) y → ∀ a < 3,
        (∀ t, 0 ≤ t → (s' t).out.eval.get a
          = critical (Real.sqrt k) ((s' 0).out.eval.get a) (-(s' 0).out.speed.get a) t) ∧
        (0 < k → Filter.Tendsto (fun t => (s' t).out.eval.get a) Filter.atTop (nhds 0))) := by
  have hl := (C95_evolves hg hrun (h 0 le_rfl) hb hpath).1
  have hev := fun t ht => (C95_evolves hg hrun (h t ht) hb hpath).2
  obtain ⟨s', h1, -⟩ := C58_position s (hev 0 le_rfl) hl hr hc
  exact ⟨s', h1, fun L a ha => C62_position s hp hev hl hr hc h1 L ha⟩

end

end


/-! ## Every motion of a robot has a run of the solver; a concrete robot -/

/-- The solver can be run on every motion of every robot. -/
theorem forwardRun_exists {g : RbdRobot} (hg : GeomOK g) (hm : ∀ j ∈ g.mb.joints, j.mimic = none)
    (hd : 0 < g.mb.nrDof) {q alpha : ℝ → List (List ℝ)} (hc : ∀ τ, ConfigOK g (q τ) (alpha τ)) :
    ∃ mbcs d', ForwardRun g 0 [g.mb] [] [] q alpha mbcs d' := by
  have hin : GoodInput [g.mb] ([] : List (BiContact ℝ)) := by
    refine ⟨?_, by simp⟩
    intro mb hmb j hj l m h
    simp only [List.mem_singleton] at hmb
    subst hmb
    rw [hm j hj] at h
    cases h
  have ht : ∀ mb ∈ [g.mb], 0 < mb.nrDof → Tree mb := by
    intro mb hmb _
    simp only [List.mem_singleton] at hmb
    subst hmb
    exact hg.tree
  have hn := hg.tree.bodies
  choose mbc f1 f2 using fun τ => forward_ok hg [] (hc τ) (W0 := List.replicate g.mb.nrBodies PT.one)
    (V0 := List.replicate g.mb.nrBodies 0) (by simp [hn]) (by simp [hn])
  obtain ⟨d0, deps, hl, -⟩ := layout_ok SolverData.init [g.mb] [] [] hin.1 hin.2
  have hs : ∀ τ (k : ℕ) (mb : MultiBody ℝ), [g.mb][k]? = some mb → 0 < mb.nrDof →
      ∃ m, [mbc τ][k]? = some m ∧ MbcSized mb m := by
    intro τ k mb hk _
    cases k with
    | zero => simp at hk; subst hk; exact ⟨_, rfl, (f2 τ).sized⟩
    | succ k => simp at hk
  choose d' h1 _ using fun τ =>
    C54_normal_recursion_partial hin ht (AfterNrVars.nrVars hl) [mbc τ] (hs τ)
  exact ⟨fun τ => [mbc τ], d', rfl, hd, hin, ht, hs,
    fun τ => ⟨mbc τ, _, _, [], rfl, by simp, by simp, f1 τ⟩, fun τ => ⟨d0, .nrVars hl, h1 τ⟩⟩

namespace FwdEx

/-- A floating base that carries a revolute joint about `y` and a slider along `x`. -/
def g : RbdRobot where
  mb := ⟨[⟨"base", 6, none⟩, ⟨"hip", 1, none⟩, ⟨"leg", 1, none⟩], 3, [-1, 0, 1], [0, 1, 2]⟩
  types := [.free, .rev ⟨0, 1, 0⟩, .prism ⟨1, 0, 0⟩]
  Xt := [PT.one, PT.ofTrans ⟨0, 0, 1⟩, PT.ofTrans ⟨1, 0, 0⟩]

theorem geom : GeomOK g := by
  refine ⟨⟨rfl, rfl, rfl, ?_⟩, rfl, rfl, rfl, ?_, ?_⟩
  · intro i p h
    match i with
    | 0 => simp [g] at h; exact Or.inl h.symm
    | 1 => simp [g] at h; exact Or.inr ⟨0, by omega, h.symm⟩
    | 2 => simp [g] at h; exact Or.inr ⟨1, by omega, h.symm⟩
    | n + 3 => simp [g] at h
  · intro X hX
    simp [g] at hX
    rcases hX with rfl | rfl | rfl
    · exact M3.isRot_one
    · exact PT.rigid_ofTrans _
    · exact PT.rigid_ofTrans _
  · intro ty h
    simp [g] at h
    rcases h with rfl | rfl | rfl
    · trivial
    · simp [AxisOK, V3.dot]
    · simp [AxisOK, V3.dot]

/-- The base turns about `z` while it climbs along it, the hip turns, the slider accelerates. -/
noncomputable def q (τ : ℝ) : List (List ℝ) :=
  [[Real.cos (τ / 2), 0, 0, Real.sin (τ / 2), 0, 0, τ], [τ], [τ ^ 2]]
noncomputable def alpha (τ : ℝ) : List (List ℝ) := [[0, 0, 1, 0, 0, 1], [1], [2 * τ]]
def xd (c : ℕ) : ℝ := if c = 7 then 2 else 0

theorem config (τ : ℝ) : ConfigOK g (q τ) (alpha τ) := by
  refine ⟨rfl, rfl, ?_⟩
  intro i ty h
  match i with
  | 0 =>
    simp [g] at h
    subst h
    refine ⟨⟨rfl, ?_⟩, rfl⟩
    simp only [UnitQuat, q, List.getD_cons_zero, List.getD_cons_succ]
    linear_combination Real.sin_sq_add_cos_sq (τ / 2)
  | 1 => simp [g] at h; subst h; exact ⟨⟨rfl, trivial⟩, rfl⟩
  | 2 => simp [g] at h; subst h; exact ⟨⟨rfl, trivial⟩, rfl⟩
  | n + 3 => simp [g] at h

theorem moves (t : ℝ) : RobotMoves g q alpha xd t := by
  have hh : HasDerivAt (fun τ : ℝ => τ / 2) (1 / 2) t := (hasDerivAt_id t).div_const 2
  have h2 : HasDerivAt (fun τ : ℝ => τ ^ 2) (2 * t) t := by simpa using (hasDerivAt_pow 2 t)
  refine ⟨config, ?_, ?_⟩
  · intro i ty h
    match i with
    | 0 =>
      simp [g] at h
      subst h
      refine ⟨⟨?_, ?_, ?_, ?_⟩, ?_⟩
      · exact hh.cos.congr_deriv (by simp [q, alpha]; ring)
      · exact (hasDerivAt_const t 0).congr_deriv (by simp [q, alpha])
      · exact (hasDerivAt_const t 0).congr_deriv (by simp [q, alpha])
      · exact hh.sin.congr_deriv (by simp [q, alpha]; ring)
      · refine ⟨(hasDerivAt_const t 0).congr_deriv ?_, (hasDerivAt_const t 0).congr_deriv ?_,
          (hasDerivAt_id t).congr_deriv ?_⟩ <;>
          simp [q, alpha, quatE, M3.transpose, M3.mulVec, V3.dot]
    | 1 => simp [g] at h; subst h; exact hasDerivAt_id t
    | 2 => simp [g] at h; subst h; exact h2
    | n + 3 => simp [g] at h
  · intro c
    match c with
    | 0 => exact (hasDerivAt_const t _).congr_deriv (by simp [xd])
    | 1 => exact (hasDerivAt_const t _).congr_deriv (by simp [xd])
    | 2 => exact (hasDerivAt_const t _).congr_deriv (by simp [xd])
    | 3 => exact (hasDerivAt_const t _).congr_deriv (by simp [xd])
    | 4 => exact (hasDerivAt_const t _).congr_deriv (by simp [xd])
    | 5 => exact (hasDerivAt_const t _).congr_deriv (by simp [xd])
    | 6 => exact (hasDerivAt_const t _).congr_deriv (by simp [xd])
    | 7 =>
      have : HasDerivAt (fun τ : ℝ => 2 * τ) (2 * 1) t := (hasDerivAt_id t).const_mul 2
      exact this.congr_deriv (by simp [xd])
    | n + 8 => exact (hasDerivAt_const t (0 : ℝ)).congr_deriv (by simp [xd])

/-- The path of the slider goes through all three joints. -/
theorem path : jacPath g.mb (g.mb.nrJoints + 1) 2 [] = .ok [0, 1, 2] := by rfl

/-- A task on the tip of the slider. -/
def task : PositionT ℝ := PositionT.make 2 [0, 1, 2] ⟨1, 2, 3⟩ ⟨0, 0, 1⟩ ⟨0, 0, 0, ⟨3, 8, fun _ _ => 7⟩⟩

/-- The whole chain of calls on this robot: the solver runs, and the task's speed and normal acceleration
are the derivatives they stand for. -/
example (t : ℝ) : ∃ mbcs d', ForwardRun g 0 [g.mb] [] [] q alpha mbcs d' ∧
    ∃ s' : ℝ → PositionT ℝ,
      (∀ τ, task.update g.mb (readBy g 0 (alpha τ) (mbcs τ) (d' τ)) = .ok (s' τ)) ∧
      HasD3 (fun τ => (s' τ).out.eval) (-(s' t).out.speed) t ∧
      SpeedDrift3 (fun τ => (s' τ).out) xd t := by
  obtain ⟨mbcs, d', h⟩ := forwardRun_exists geom (by simp [g]) (by simp [g, MultiBody.nrDof]) config
  refine ⟨mbcs, d', h, C95_position geom h (moves t) task (by simp [task, PositionT.make, g]) path rfl rfl rfl⟩

/-- A wrong length of `alpha` makes the call undefined. -/
example : g.forward [PT.one, PT.one, PT.one] [0, 0, 0] (q 0) [[0, 0, 1, 0, 0, 1], [1]] [] = .ub := by
  have hP := jointPoses_ok geom (config 0)
  obtain ⟨W, hW, -⟩ := bodyPoses_ok geom (q 0) (W0 := [PT.one, PT.one, PT.one]) rfl
  unfold RbdRobot.forward
  rw [hP, Out.ok_bind, hW, Out.ok_bind]
  simp [RbdRobot.jointVels, g, forRange, vecAt, MultiBody.nrJoints, JType.motion, JType.dof, JType.subspace]

end FwdEx

/-- The slider of C62 as a robot of RBDyn: the loop drives it to the target. -/
example : ∃ mbcs d', ForwardRun ⟨ConvEx.mb, [.prism ⟨1, 0, 0⟩], [PT.one]⟩ 0 [ConvEx.mb] [] []
      (fun τ => [[ConvEx.q τ]]) (fun τ => [[ConvEx.v τ]]) mbcs d' ∧
    ∀ t, RobotMoves ⟨ConvEx.mb, [.prism ⟨1, 0, 0⟩], [PT.one]⟩ (fun τ => [[ConvEx.q τ]])
      (fun τ => [[ConvEx.v τ]]) (fun c => if c = 0 then ConvEx.acc t else 0) t := by
  have hg : GeomOK ⟨ConvEx.mb, [.prism ⟨1, 0, 0⟩], [PT.one]⟩ := by
    refine ⟨⟨rfl, rfl, rfl, ?_⟩, rfl, rfl, rfl, ?_, ?_⟩
    · intro i p h
      match i with
      | 0 => simp [ConvEx.mb] at h; exact Or.inl h.symm
      | n + 1 => simp [ConvEx.mb] at h
    · intro X hX
      simp at hX
      subst hX
      exact M3.isRot_one
    · intro ty h
      simp at h
      subst h
      simp [AxisOK, V3.dot]
  have hc : ∀ τ, ConfigOK ⟨ConvEx.mb, [.prism ⟨1, 0, 0⟩], [PT.one]⟩ [[ConvEx.q τ]] [[ConvEx.v τ]] := by
    refine fun τ => ⟨rfl, rfl, ?_⟩
    intro i ty h
    match i with
    | 0 => simp at h; subst h; exact ⟨⟨rfl, trivial⟩, rfl⟩
    | n + 1 => simp at h
  obtain ⟨mbcs, d', h⟩ := forwardRun_exists hg (by simp [ConvEx.mb]) (by simp [ConvEx.mb, MultiBody.nrDof]) hc
  refine ⟨mbcs, d', h, fun t => ⟨hc, ?_, ?_⟩⟩
  · intro i ty h
    match i with
    | 0 => simp at h; subst h; exact ConvEx.q_deriv t
    | n + 1 => simp at h
  · intro c
    match c with
    | 0 => exact ConvEx.v_deriv t
    | n + 1 => exact (hasDerivAt_const t (0 : ℝ)).congr_deriv (by simp)

end Verif
