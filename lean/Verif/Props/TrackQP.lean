import Verif.Props.Track
import Verif.Props.Drift
import Verif.Proofs.MotionPoly

/-!
# C66: orientation tracking in the quadratic program

The speed the task reports is the velocity the tracking joints give to the body.  Its normal acceleration
is `jacDot * alpha`, and nothing in the quadratic program computes `jacDot`: until the user calls
`updateDot` on the underlying task it is the content of uninitialised memory.
-/

set_option autoImplicit false
set_option linter.unusedSectionVars false

namespace Verif

open Finset Spec

section
variable {K : Type} [CommRing K]

namespace Spec

/-- A tracking task in the quadratic program: constructed, then updated by the solver or given a new
`jacDot` by the user (`updateDot`) any number of times.  `D` is what `jacDot()` returns. -/
inductive TrackHist (mb : MultiBody K) (b : ℕ) (path : List ℕ) (tracking : List String) :
    Mat K → TrackT K → Prop
  | make (je : V3 K) (js jj junkD : ℕ → ℕ → K) (s : TrackT K)
      (h : TrackT.make mb b path tracking je js jj junkD = .ok s) :
      TrackHist mb b path tracking ⟨3, mb.nrDof, junkD⟩ s
  | qp (D : Mat K) (st : KState K) (err : PT K → V3 K) (av : Vec K) (s s' : TrackT K)
      (sp n : V3 K) (av' : Vec K) (hs : TrackHist mb b path tracking D s)
      (h : s.qpUpdate mb st err av = .ok (s', sp, n, av')) : TrackHist mb b path tracking D s'
  | dot (D Jd : Mat K) (s s' : TrackT K) (hs : TrackHist mb b path tracking D s)
      (h : s.updateDot mb Jd = .ok s') : TrackHist mb b path tracking s'.jacDotMat s'

/-- The joint velocities of the state, one after the other, are `x`. -/
def HasAlpha (mb : MultiBody K) (st : KState K) (x : ℕ → K) : Prop :=
  st.alpha.flatten.length = mb.nrDof ∧ ∀ k < mb.nrDof, st.alpha.flatten[k]? = some (x k)

end Spec

/-- The invariant of a history. -/
theorem trackHist_inv {mb : MultiBody K} {b : ℕ} {path : List ℕ} {tracking : List String}
    {D : Mat K} {s : TrackT K} (R : TrackHist mb b path tracking D s)
    {idx : List ℕ} (hidx : forEach tracking (fun n (l : List ℕ) => do
      let i ← mb.jointIndexByName n
      pure (i :: l)) [] = .ok idx) {z : List ℕ} (hz : zeroIndexLoop mb path idx = .ok z) :
    TrackInv mb b path z D s ∧ D.rows = 3 ∧ D.cols = mb.nrDof := by
  induction R with
  | make je js jj junkD s h =>
    unfold TrackT.make at h
    rw [hidx, Out.ok_bind, hz, Out.ok_bind, Out.pure_eq] at h
    rw [← Out.ok.inj h]
    exact ⟨⟨rfl, rfl, rfl, rfl, rfl, rfl, rfl⟩, rfl, rfl⟩
  | qp D st err av s s' sp n av' hs h ih =>
    obtain ⟨ih, i1, i2⟩ := ih
    refine ⟨?_, i1, i2⟩
    unfold TrackT.qpUpdate at h
    obtain ⟨s1, h, h'⟩ := Out.bind_eq_ok.1 h
    obtain ⟨v, _, h'⟩ := Out.bind_eq_ok.1 h'
    split_ifs at h'
    have hs1 : s1 = s' := by
      rw [Out.pure_eq] at h'
      exact congrArg Prod.fst (Out.ok.inj h')
    rw [hs1] at h
    unfold TrackT.update at h
    simp only [Out.bind_eq_ok] at h
    obtain ⟨X, h1, J, h2, sh, h3, sh', h4, M, h5, h6⟩ := h
    rw [Out.pure_eq] at h6
    rw [← Out.ok.inj h6]
    obtain ⟨d1, d2⟩ := zeroJacobian_dim h4
    obtain ⟨d3, d4⟩ := fullJacobian_dim h5
    have d5 : sh.cols = s.shortJac.cols := by
      unfold Mat.block at h3
      split at h3
      · rw [← Out.ok.inj h3]
      · exact absurd h3 (by simp)
    exact ⟨ih.body, ih.jac, ih.zero, d2.trans (d5.trans ih.cols), d3.trans ih.jr, d4.trans ih.jc,
      ih.dot⟩
  | dot D Jd s s' hs h ih =>
    obtain ⟨ih, i1, i2⟩ := ih
    unfold TrackT.updateDot at h
    simp only [Out.bind_eq_ok] at h
    obtain ⟨sh, h3, sh', h4, M, h5, h6⟩ := h
    rw [Out.pure_eq] at h6
    rw [← Out.ok.inj h6]
    obtain ⟨d1, d2⟩ := zeroJacobian_dim h4
    obtain ⟨d3, d4⟩ := fullJacobian_dim h5
    have d5 : sh.cols = s.shortJac.cols := by
      unfold Mat.block at h3
      split at h3
      · rw [← Out.ok.inj h3]
      · exact absurd h3 (by simp)
    rw [ih.dot] at d3 d4
    exact ⟨⟨ih.body, ih.jac, ih.zero, d2.trans (d5.trans ih.cols), ih.jr, ih.jc, rfl⟩, d3.trans i1,
      d4.trans i2⟩

theorem v3_of_get {f : ℕ → K} {a : ℕ} (ha : a < 3) : (⟨f 0, f 1, f 2⟩ : V3 K).get a = f a := by
  match a, ha with
  | 0, _ => rfl
  | 1, _ => rfl
  | 2, _ => rfl

/-- After any history, an update in the quadratic program is defined, the Jacobian is the one of C53, the
speed is the Jacobian times the joint velocities, and the normal acceleration is the last content of
`jacDot()` times the joint velocities. -/
theorem C66_update {mb : MultiBody K} {st : KState K} {b : ℕ} {path : List ℕ}
    {tracking : List String} {D : Mat K} {s : TrackT K} (R : TrackHist mb b path tracking D s)
    (hnames : (mb.joints.map Joint.name).Nodup)
    (hknown : ∀ n ∈ tracking, ∃ j ∈ mb.joints, j.name = n)
    (hs : KSized mb st path) (hb : path.getLast? = some b)
    (hrig : ∀ i ∈ path, (kPose st i).Rigid) (err : PT K → V3 K) {x : ℕ → K} (hx : HasAlpha mb st x)
    {av : Vec K} (hav : av.size = mb.nrDof) :
    ∃ s' sp n av', s.qpUpdate mb st err av = .ok (s', sp, n, av') ∧
      TrackHist mb b path tracking D s' ∧ av'.size = mb.nrDof ∧
      s'.jacMat.rows = 3 ∧ s'.jacMat.cols = mb.nrDof ∧ s'.eval = err (kPose st b) ∧
      (∀ i, (hi : i < mb.joints.length) → ∀ d < mb.joints[i].dof, ∀ a < 3,
        s'.jacMat.get a (jpos mb i + d)
          = if i ∈ path ∧ mb.joints[i].name ∈ tracking then
              ((kPose st i).E.transpose.mulVec (kSub st i d).ang).get a
            else 0) ∧
      (∀ a < 3, sp.get a = ∑ k ∈ range mb.nrDof, s'.jacMat.get a k * x k) ∧
      ∀ a < 3, n.get a = ∑ k ∈ range mb.nrDof, D.get a k * x k := by
  obtain ⟨idx, e1, e2⟩ := nameLoop_ok mb tracking hknown hnames []
  have ez := zeroIndexLoop_ok mb idx path hs.mem
  obtain ⟨v, w1, w2⟩ := trackHist_inv R e1 ez
  obtain ⟨s', h1, h2, h3, h4, h6, h5⟩ := track_columns (tracking := tracking)
    (fun i hi => by simpa using e2 i hi) v hs hb hrig err
  have hp : paramToVector st.alpha av
      = .ok ⟨av.size, fun i => (st.alpha.flatten[i]?).getD (av.get i)⟩ := by
    unfold paramToVector
    rw [if_pos (by rw [hx.1, hav])]
  have hq : s.qpUpdate mb st err av = .ok (s',
      ⟨s'.jacMat.rowMul 0 (fun i => (st.alpha.flatten[i]?).getD (av.get i)),
        s'.jacMat.rowMul 1 (fun i => (st.alpha.flatten[i]?).getD (av.get i)),
        s'.jacMat.rowMul 2 (fun i => (st.alpha.flatten[i]?).getD (av.get i))⟩,
      ⟨D.rowMul 0 (fun i => (st.alpha.flatten[i]?).getD (av.get i)),
        D.rowMul 1 (fun i => (st.alpha.flatten[i]?).getD (av.get i)),
        D.rowMul 2 (fun i => (st.alpha.flatten[i]?).getD (av.get i))⟩,
      ⟨av.size, fun i => (st.alpha.flatten[i]?).getD (av.get i)⟩) := by
    unfold TrackT.qpUpdate
    rw [h1, Out.ok_bind, hp, Out.ok_bind, h6.dot]
    dsimp only
    rw [if_pos ⟨by rw [h3, hav], by rw [w2, hav]⟩]
    rfl
  have key : ∀ M : Mat K, M.cols = mb.nrDof → ∀ a,
      M.rowMul a (fun i => (st.alpha.flatten[i]?).getD (av.get i))
        = ∑ k ∈ range mb.nrDof, M.get a k * x k := by
    intro M hM a
    unfold Mat.rowMul
    rw [hM]
    refine Finset.sum_congr rfl fun k hk => ?_
    dsimp only
    rw [hx.2 k (by simpa using hk)]
    rfl
  refine ⟨s', _, _, _, hq, .qp D st err av s s' _ _ _ R hq, hav, h2, h3, h4, h5, fun a ha => ?_,
    fun a ha => ?_⟩
  · rw [← key _ h3]
    exact v3_of_get (f := fun a => s'.jacMat.rowMul a _) ha
  · rw [← key _ w2]
    exact v3_of_get (f := fun a => D.rowMul a _) ha

/-- `updateDot`, given the columns RBDyn's `jacobianDot` has, puts those of the tracking joints in
`jacDot()` and zero for the others. -/
theorem C66_update_dot {mb : MultiBody K} {st : KState K} {b : ℕ} {path : List ℕ}
    {tracking : List String} {D : Mat K} {s : TrackT K} (R : TrackHist mb b path tracking D s)
    (hnames : (mb.joints.map Joint.name).Nodup)
    (hknown : ∀ n ∈ tracking, ∃ j ∈ mb.joints, j.name = n)
    (hs : KSized mb st path) {Jd : Mat K} {g : ℕ → ℕ → MV K} (hr : 3 ≤ Jd.rows)
    (hc : Jd.cols = pathDof mb path)
    (hJ : ∀ a < 3, ∀ k < pathDof mb path, Jd.get a k = ((pathCols mb g path).getD k 0).get a) :
    ∃ s', s.updateDot mb Jd = .ok s' ∧ TrackHist mb b path tracking s'.jacDotMat s' ∧
      ∀ i, (hi : i < mb.joints.length) → ∀ d < mb.joints[i].dof, ∀ a < 3,
        s'.jacDotMat.get a (jpos mb i + d)
          = if i ∈ path ∧ mb.joints[i].name ∈ tracking then (g i d).get a else 0 := by
  obtain ⟨idx, e1, e2⟩ := nameLoop_ok mb tracking hknown hnames []
  have ez := zeroIndexLoop_ok mb idx path hs.mem
  obtain ⟨v, w1, w2⟩ := trackHist_inv R e1 ez
  have hzr := zeroJacobian_ok (zeros mb idx path 0) (⟨3, pathDof mb path, fun a k =>
    Jd.get (0 + a) (0 + k)⟩ : Mat K)
    (fun k hk => by have := zeros_ge mb idx path 0 k hk; dsimp only; omega)
  obtain ⟨M, g1, g2, g3, g4⟩ := fullJacobian_ok mb path
    (⟨3, pathDof mb path, fun a k => if k ∈ zeros mb idx path 0 then 0 else
      Jd.get (0 + a) (0 + k)⟩ : Mat K) D hs.mem hs.nodup le_rfl w1.ge w2.ge
  have hu : s.updateDot mb Jd = .ok { s with
      jacDotMat := M,
      shortJac := ⟨3, pathDof mb path, fun a k => if k ∈ zeros mb idx path 0 then 0 else
        Jd.get (0 + a) (0 + k)⟩ } := by
    unfold TrackT.updateDot
    rw [v.cols, block_ok (by omega), Out.ok_bind, v.zero, hzr, Out.ok_bind, v.jac, v.dot, g1, Out.ok_bind]
    rfl
  refine ⟨_, hu, .dot D Jd s _ R hu, fun i hi d hd a ha => ?_⟩
  have hdj : d < jdof mb i := by simpa [jdof, hi] using hd
  have hcc : jpos mb i + d < mb.nrDof := by
    have := jpos_fit mb hi
    omega
  dsimp only
  rw [g4 a ha _ hcc]
  have ef : onDofs mb path (fun k => if k ∈ zeros mb idx path 0 then (0 : K) else
      Jd.get (0 + a) (0 + k)) (jpos mb i + d)
      = onDofs mb path (fun k => MV.get ((pathCols mb (fun i d => if i ∈ idx then g i d else 0)
          path).getD k 0) a) (jpos mb i + d) := by
    refine onDofs_congr_path mb path _ _ (fun k hk => ?_) _
    rw [zeros_cols mb idx path g 0 k, Nat.zero_add, Nat.zero_add]
    split
    · rw [MV.get_zero]
    · exact hJ a ha k hk
  rw [ef, onDofs_at mb _ (fun v => v.get a) path hs.mem hs.nodup hdj]
  have hiff := e2 i hi
  simp only [List.not_mem_nil, false_or] at hiff
  by_cases h1 : i ∈ path
  · by_cases h2 : mb.joints[i].name ∈ tracking
    · rw [if_pos h1, if_pos (hiff.mpr h2), if_pos ⟨h1, h2⟩]
    · rw [if_pos h1, if_neg (fun h => h2 (hiff.mp h)), if_neg (fun h => h2 h.2), MV.get_zero]
  · rw [if_neg h1, if_neg (fun h => h1 h.1)]

end

/-- What the normal acceleration is worth without `updateDot`: for every robot, path, tracking joints and
state with a moving joint, and for every vector `v`, there is a content of the uninitialised memory with
which the first update reports `v` as normal acceleration. -/
theorem C66_counterexample {K : Type} [Field K] {mb : MultiBody K} {st : KState K} {b : ℕ}
    {path : List ℕ} {tracking : List String} (hnames : (mb.joints.map Joint.name).Nodup)
    (hknown : ∀ n ∈ tracking, ∃ j ∈ mb.joints, j.name = n)
    (hs : KSized mb st path) (hb : path.getLast? = some b)
    (hrig : ∀ i ∈ path, (kPose st i).Rigid) (err : PT K → V3 K) {x : ℕ → K} (hx : HasAlpha mb st x)
    {k : ℕ} (hk : k < mb.nrDof) (hk0 : x k ≠ 0) {av : Vec K} (hav : av.size = mb.nrDof)
    (je : V3 K) (js jj : ℕ → ℕ → K) (v : V3 K) :
    ∃ junkD s s' sp av', TrackT.make mb b path tracking je js jj junkD = .ok s ∧
      s.qpUpdate mb st err av = .ok (s', sp, v, av') := by
  obtain ⟨idx, e1, e2⟩ := nameLoop_ok mb tracking hknown hnames []
  have ez := zeroIndexLoop_ok mb idx path hs.mem
  refine ⟨fun a c => if c = k then v.get a / x k else 0, ?_⟩
  obtain ⟨s, hm⟩ : ∃ s, TrackT.make mb b path tracking je js jj
      (fun a c => if c = k then v.get a / x k else 0) = .ok s := by
    unfold TrackT.make
    rw [e1, Out.ok_bind, ez, Out.ok_bind]
    exact ⟨_, rfl⟩
  obtain ⟨s', sp, n, av', h1, -, -, -, -, -, -, -, h2⟩ := C66_update
    (.make je js jj _ s hm) hnames hknown hs hb hrig err hx hav
  have hn : n = v := by
    have key : ∀ a < 3, n.get a = v.get a := by
      intro a ha
      rw [h2 a ha]
      dsimp only
      rw [Finset.sum_eq_single_of_mem k (by simpa using hk) (fun c _ hc => by rw [if_neg hc, zero_mul]),
        if_pos rfl, div_mul_cancel₀ _ hk0]
    ext
    · exact key 0 (by omega)
    · exact key 1 (by omega)
    · exact key 2 (by omega)
  exact ⟨s, s', sp, av', hm, hn ▸ h1⟩

namespace Spec

/-- `Jd` is the time derivative of the angular rows of the Jacobian of the path at time `t`: what
`jacobianDot` of RBDyn is documented to return. -/
def IsJacDot (mb : MultiBody ℝ) (st : ℝ → KState ℝ) (path : List ℕ) (t : ℝ) (Jd : Mat ℝ) : Prop :=
  3 ≤ Jd.rows ∧ Jd.cols = pathDof mb path ∧ ∃ g : ℕ → ℕ → MV ℝ,
    (∀ a < 3, ∀ k < pathDof mb path, Jd.get a k = ((pathCols mb g path).getD k 0).get a) ∧
    ∀ i ∈ path, ∀ d, HasD3 (fun τ => (kPose (st τ) i).E.transpose.mulVec (kSub (st τ) i d).ang)
      (g i d).ang t

end Spec

/-- When the user calls `updateDot` at the current state before the solver updates the task, the reported
normal acceleration is the drift of the reported speed.

The full claim has no such call: the documentation of the task in the quadratic program does not ask for
it, and no other code makes it; `C66_counterexample` shows what is reported then. -/
theorem C66_drift_partial {mb : MultiBody ℝ} {st : ℝ → KState ℝ} {b : ℕ} {path : List ℕ}
    {tracking : List String} {D : Mat ℝ} {s : TrackT ℝ} (R : TrackHist mb b path tracking D s)
    (hnames : (mb.joints.map Joint.name).Nodup)
    (hknown : ∀ n ∈ tracking, ∃ j ∈ mb.joints, j.name = n) (hb : path.getLast? = some b)
    {x : ℝ → ℕ → ℝ} {xd : ℕ → ℝ} {t : ℝ} (h : Evolves mb st path x xd t)
    (hx : ∀ τ, HasAlpha mb (st τ) (x τ)) {Jd : Mat ℝ} (hJ : IsJacDot mb st path t Jd)
    (err : PT ℝ → V3 ℝ) {av : Vec ℝ} (hav : av.size = mb.nrDof) :
    ∃ s1, s.updateDot mb Jd = .ok s1 ∧
      ∃ (s' : ℝ → TrackT ℝ) (sp n : ℝ → V3 ℝ) (av' : ℝ → Vec ℝ),
        (∀ τ, s1.qpUpdate mb (st τ) err av = .ok (s' τ, sp τ, n τ, av' τ)) ∧
        ∀ a < 3, HasDerivAt (fun τ => (sp τ).get a)
          ((s' t).jacMat.rowMul a xd + (n t).get a) t := by
  obtain ⟨j1, j2, g, j3, j4⟩ := hJ
  obtain ⟨s1, u1, u2, u3⟩ := C66_update_dot R hnames hknown (h.moves t).sized j1 j2 j3
  refine ⟨s1, u1, ?_⟩
  choose s' sp n av' q1 q2 q3 q4 q5 q6 q7 q8 q9 using fun τ =>
    C66_update u2 hnames hknown (h.moves τ).sized hb (h.moves τ).rigid err (hx τ) hav
  refine ⟨s', sp, n, av', q1, fun a ha => ?_⟩
  have e : (fun τ => (sp τ).get a)
      = fun τ => ∑ k ∈ range mb.nrDof, (s' τ).jacMat.get a k * x τ k := funext fun τ => q8 τ a ha
  rw [e]
  have hk : ∀ k ∈ range mb.nrDof, HasDerivAt (fun τ => (s' τ).jacMat.get a k * x τ k)
      (s1.jacDotMat.get a k * x t k + (s' t).jacMat.get a k * xd k) t := by
    intro k hk
    refine HasDerivAt.mul (c := fun τ => (s' τ).jacMat.get a k) (d := fun τ => x τ k) ?_ (h.acc k)
    obtain ⟨i, hi, l1, l2⟩ := exists_joint mb (by simpa using hk)
    obtain ⟨d, rfl⟩ := Nat.exists_eq_add_of_le l1
    have hd : d < mb.joints[i].dof := by
      have : d < jdof mb i := by omega
      simpa [jdof, hi] using this
    have e2 : (fun τ => (s' τ).jacMat.get a (jpos mb i + d)) = fun τ =>
        if i ∈ path ∧ mb.joints[i].name ∈ tracking then
          ((kPose (st τ) i).E.transpose.mulVec (kSub (st τ) i d).ang).get a
        else 0 := funext fun τ => q7 τ i hi d hd a ha
    rw [e2, u3 i hi d hd a ha]
    split
    · rename_i hc
      rw [MV.get_ang _ ha]
      exact (j4 i hc.1 d).get a
    · exact hasDerivAt_const _ _
  refine (HasDerivAt.fun_sum hk).congr_deriv ?_
  rw [Finset.sum_add_distrib, q9 t a ha, add_comm]
  congr 1
  unfold Mat.rowMul
  rw [q5 t]

namespace TrackEx

theorem alpha : HasAlpha KineEx.mb KineEx.st KineEx.x := by
  refine ⟨rfl, fun k hk => ?_⟩
  have hk : k < 2 := hk
  match k, hk with
  | 0, _ => rfl
  | 1, _ => rfl

/-- The hypotheses of `C66_update` hold on the two-joint robot turning at 2 and 3 with only the second
joint tracking, after an earlier update: the speed is 3 about `z` (not the 5 of the body), and the
uninitialised memory full of sevens makes the normal acceleration `7 * (2 + 3)`. -/
example : ∃ s0 s1 s2 sp1 sp2 n1 n2 a1 a2,
    TrackT.make KineEx.mb 1 [0, 1] ["b"] 0 (fun _ _ => 7) (fun _ _ => 7) (fun _ _ => 7) = .ok s0 ∧
    s0.qpUpdate KineEx.mb KineEx.st (fun _ => 0) ⟨2, fun _ => 9⟩ = .ok (s1, sp1, n1, a1) ∧
    s1.qpUpdate KineEx.mb KineEx.st (fun _ => 0) a1 = .ok (s2, sp2, n2, a2) ∧
    sp2.z = 3 ∧ n2 = ⟨35, 35, 35⟩ := by
  obtain ⟨s0, h0⟩ : ∃ s, TrackT.make KineEx.mb 1 [0, 1] ["b"] 0 (fun _ _ => 7) (fun _ _ => 7)
      (fun _ _ => 7) = .ok s := ⟨_, rfl⟩
  obtain ⟨s1, sp1, n1, a1, h1, R1, g1, -⟩ := C66_update (.make _ _ _ _ s0 h0) (by simp [KineEx.mb])
    (by simp [KineEx.mb]) KineEx.moves.sized rfl KineEx.moves.rigid (fun _ => 0) alpha
    (av := ⟨2, fun _ => 9⟩) rfl
  obtain ⟨s2, sp2, n2, a2, h2, -, -, -, -, -, k1, k2, k3⟩ := C66_update R1 (by simp [KineEx.mb])
    (by simp [KineEx.mb]) KineEx.moves.sized rfl KineEx.moves.rigid (fun _ => 0) alpha g1
  have hd : KineEx.mb.nrDof = 2 := rfl
  refine ⟨s0, s1, s2, sp1, sp2, n1, n2, a1, a2, h0, h1, h2, ?_, ?_⟩
  · have e := k2 2 (by omega)
    have c0 := k1 0 (by simp [KineEx.mb]) 0 (by simp [KineEx.mb]) 2 (by omega)
    have c1 := k1 1 (by simp [KineEx.mb]) 0 (by simp [KineEx.mb]) 2 (by omega)
    simp [KineEx.mb, jpos] at c0 c1
    rw [hd, Finset.sum_range_succ, Finset.sum_range_one, c0, c1] at e
    refine e.trans ?_
    simp [kPose, kSub, KineEx.st, KineEx.rz, KineEx.X0, KineEx.P1, PT.mul, PT.ofTrans, M3.mul, M3.one,
      M3.transpose, M3.mulVec, V3.dot, V3.get, KineEx.x]
  · have e : ∀ a < 3, n2.get a = 35 := by
      intro a ha
      rw [k3 a ha, hd, Finset.sum_range_succ, Finset.sum_range_one]
      norm_num [KineEx.x]
    ext
    · exact e 0 (by omega)
    · exact e 1 (by omega)
    · exact e 2 (by omega)

/-- The hypotheses of `C66_counterexample` hold there: the reported normal acceleration can be
`(1, 2, 3)`. -/
example : ∃ junkD s s' sp av', TrackT.make KineEx.mb 1 [0, 1] ["b"] 0 (fun _ _ => 0) (fun _ _ => 0) junkD
      = .ok s ∧
    s.qpUpdate KineEx.mb KineEx.st (fun _ => 0) ⟨2, fun _ => 0⟩ = .ok (s', sp, ⟨1, 2, 3⟩, av') :=
  C66_counterexample (by simp [KineEx.mb]) (by simp [KineEx.mb]) KineEx.moves.sized rfl
    KineEx.moves.rigid (fun _ => 0) alpha (k := 1) (by decide) (by norm_num [KineEx.x]) rfl _ _ _ _

/-- The hypotheses of `C66_drift_partial` hold on the joint turning by `τ + τ² / 2`. -/
example : ∃ s s1, TrackT.make DriftEx.mb 0 [0] ["a"] 0 (fun _ _ => 7) (fun _ _ => 7) (fun _ _ => 7) = .ok s ∧
    s.updateDot DriftEx.mb (Mat.zero 6 1) = .ok s1 ∧
      ∃ (s' : ℝ → TrackT ℝ) (sp n : ℝ → V3 ℝ) (av' : ℝ → Vec ℝ),
        (∀ τ, s1.qpUpdate DriftEx.mb (DriftEx.st τ) (fun _ => 0) ⟨1, fun _ => 9⟩
          = .ok (s' τ, sp τ, n τ, av' τ)) ∧
        ∀ a < 3, HasDerivAt (fun τ => (sp τ).get a)
          ((s' 1).jacMat.rowMul a (fun _ => 1) + (n 1).get a) 1 := by
  obtain ⟨s, h0⟩ : ∃ s, TrackT.make DriftEx.mb 0 [0] ["a"] 0 (fun _ _ => 7) (fun _ _ => 7)
      (fun _ _ => 7) = .ok s := ⟨_, rfl⟩
  obtain ⟨s1, h1, h2⟩ := C66_drift_partial (.make _ _ _ _ s h0) (by simp [DriftEx.mb])
    (by simp [DriftEx.mb]) rfl (DriftEx.evolves 1) (fun τ => ⟨rfl, fun k hk => by
      have : k = 0 := by
        have : k < 1 := hk
        omega
      subst this
      rfl⟩) (Jd := Mat.zero 6 1) ⟨by simp [Mat.zero], rfl, fun _ _ => 0, fun a _ k _ => by
        match k with
        | 0 => simp [Mat.zero, pathCols, DriftEx.mb, jdof, MV.get_zero]
        | k + 1 => simp [Mat.zero, pathCols, DriftEx.mb, jdof, MV.get_zero], fun i hi d => by
        simp at hi
        subst hi
        match d with
        | 0 =>
          refine (HasD3.const ⟨0, 0, 1⟩ 1).congr_fun fun τ => ?_
          ext <;> simp [kPose, kSub, DriftEx.st, DriftEx.pose, M3.mulVec, M3.transpose, V3.dot]
        | d + 1 =>
          refine (HasD3.const 0 1).congr_fun fun τ => ?_
          ext <;> simp [kPose, kSub, DriftEx.st, DriftEx.pose, M3.mulVec, M3.transpose, V3.dot]⟩
    (fun _ => 0) (av := ⟨1, fun _ => 9⟩) rfl
  exact ⟨s, s1, h0, h1, h2⟩

end TrackEx

end Verif
