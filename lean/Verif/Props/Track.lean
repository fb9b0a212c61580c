import Verif.Props.Kine

/-!
# C52: changing the controlled point; C53: orientation tracking uses only the tracking joints
-/

set_option autoImplicit false
set_option linter.unusedSectionVars false

namespace Verif

open Finset Spec

section
variable {K : Type} [CommRing K]

/-! ## C52 -/

/-- After `bodyPoint(p)` the getter, the speed, the normal acceleration and the Jacobian are those of a
task constructed with the point `p`.

The full claim also has `eval`; the code keeps the point of the constructor there: `eval` equals that
of the task constructed with `p` only if `p` is that point. -/
theorem C52_body_point_partial {mb : MultiBody K} {st : KState K} {x : ℕ → K} (b : ℕ)
    (path : List ℕ) (pos p0 p : V3 K) (junk : Out3 K)
    (h : Moves mb st path x) (hb : path.getLast? = some b)
    (hr : junk.jacMat.rows = 3) (hc : junk.jacMat.cols = mb.nrDof) :
    ∃ s f, ((PositionT.make b path pos p0 junk).setBodyPoint p).update mb st = .ok s ∧
      (PositionT.make b path pos p junk).update mb st = .ok f ∧
      s.bodyPoint = p ∧ s.out.speed = f.out.speed ∧ s.out.normalAcc = f.out.normalAcc ∧
      s.out.jacMat = f.out.jacMat ∧
      s.out.eval = pos - ((PT.ofTrans p0).mul (kPose st b)).r ∧
      f.out.eval = pos - ((PT.ofTrans p).mul (kPose st b)).r ∧
      (s.out.eval = f.out.eval ↔ p = p0) := by
  have hrig := h.rigid _ (List.mem_of_getLast? hb)
  obtain ⟨sh, R, b1, b2, b3, b4, -, b5⟩ := linear_full h hb _ _
    (world_frame (kPose st b) hrig p) junk.jacMat hr hc
  have hs : KSized mb st path := h.sized
  have key : ∀ q : V3 K, PositionT.update mb st ⟨pos, q, b, ⟨path, p⟩, junk⟩ = .ok ⟨pos, q, b, ⟨path, p⟩,
      ⟨pos - ((PT.ofTrans q).mul (kPose st b)).r, (((PT.ofRot (kPose st b).E.transpose).mul
        (PT.ofTrans p)).mulM (kVel st b)).lin, (((PT.ofRot (kPose st b).E.transpose).mul
        (PT.ofTrans p)).mulM (st.normalAccB.getD b 0)
        + MV.cross ⟨(kPose st b).E.transpose.mulVec (kVel st b).ang, 0⟩
          (((PT.ofRot (kPose st b).E.transpose).mul (PT.ofTrans p)).mulM (kVel st b))).lin, R⟩⟩ := by
    intro q
    unfold PositionT.update
    dsimp only
    rw [vecAt_getD PT.one (hs.pos _ (List.mem_of_getLast? hb)), Out.ok_bind,
      jac_vel (J := ⟨path, p⟩) hs hb, Out.ok_bind, jac_acc (J := ⟨path, p⟩) hs hb, Out.ok_bind,
      jac_world (J := ⟨path, p⟩) hs hb, Out.ok_bind, b1, Out.ok_bind, b2, Out.ok_bind]
    rfl
  refine ⟨_, _, key p0, key p, rfl, rfl, rfl, rfl, rfl, rfl, ?_⟩
  dsimp only
  constructor
  · intro e
    have e1 : ((PT.ofTrans p0).mul (kPose st b)).r = ((PT.ofTrans p).mul (kPose st b)).r :=
      sub_right_injective e
    have e2 : (kPose st b).E.transpose.mulVec p0 = (kPose st b).E.transpose.mulVec p :=
      add_left_cancel (a := (kPose st b).r) e1
    have e3 := congrArg (kPose st b).E.mulVec e2
    rw [hrig.1.mulVec_transpose, hrig.1.mulVec_transpose] at e3
    exact e3.symm
  · rintro rfl
    rfl

/-- `LinVelocityTask::bodyPoint(p)` does what the claim says: all the results are those of a task
constructed with the point `p`. -/
theorem C52_lin_velocity {mb : MultiBody K} {st : KState K} (b : ℕ) (path : List ℕ)
    (v p0 p : V3 K) (junk : Out3 K) :
    ((LinVelT.make b path v p0 junk).setBodyPoint p).update mb st
      = (LinVelT.make b path v p junk).update mb st := rfl

/-- The violation, concretely: a task controlling the origin of the second body, moved to the tip of the
link, reports the speed of the tip and the position of the origin. -/
theorem C52_counterexample :
    ∃ s f, ((PositionT.make 1 [0, 1] 0 0 ⟨0, 0, 0, ⟨3, 2, fun _ _ => 0⟩⟩).setBodyPoint ⟨1, 0, 0⟩).update
        KineEx.mb KineEx.st = .ok s ∧
      (PositionT.make 1 [0, 1] 0 ⟨1, 0, 0⟩ ⟨0, 0, 0, ⟨3, 2, fun _ _ => 0⟩⟩).update
        KineEx.mb KineEx.st = .ok f ∧
      s.bodyPoint = ⟨1, 0, 0⟩ ∧ s.out.eval = ⟨0, -1, 0⟩ ∧ f.out.eval = ⟨0, -2, 0⟩ := by
  obtain ⟨s, f, h1, h2, h3, -, -, -, h4, h5, -⟩ := C52_body_point_partial 1 [0, 1] 0 0 ⟨1, 0, 0⟩
    ⟨0, 0, 0, ⟨3, 2, fun _ _ => 0⟩⟩ KineEx.moves rfl rfl rfl
  refine ⟨s, f, h1, h2, h3, ?_, ?_⟩
  · rw [h4]
    ext <;> simp [kPose, KineEx.st, KineEx.X0, KineEx.P1, PT.mul, PT.ofTrans, M3.mulVec, M3.transpose,
      M3.mul, M3.one, V3.dot]
  · rw [h5]
    ext <;> simp [kPose, KineEx.st, KineEx.X0, KineEx.P1, PT.mul, PT.ofTrans, M3.mulVec, M3.transpose,
      M3.mul, M3.one, V3.dot] <;> norm_num

/-! ## C53 -/

/-- A row spread on the dofs of the robot, at dof `d` of joint `i`. -/
theorem onDofs_at (mb : MultiBody K) (g : ℕ → ℕ → MV K) (φ : MV K → K) (path : List ℕ)
    (hp : ∀ i ∈ path, i < mb.joints.length) (hn : path.Nodup) {i d : ℕ}
    (hd : d < jdof mb i) :
    onDofs mb path (fun k => φ ((pathCols mb g path).getD k 0)) (jpos mb i + d)
      = if i ∈ path then φ (g i d) else 0 := by
  induction path with
  | nil => simp [onDofs]
  | cons j t ih =>
    have hcols : pathCols mb g (j :: t)
        = (List.range (jdof mb j)).map (g j) ++ pathCols mb g t := by simp [pathCols]
    have e2 : (fun k => φ ((pathCols mb g (j :: t)).getD (jdof mb j + k) 0))
        = fun k => φ ((pathCols mb g t).getD k 0) := by
      funext k
      rw [hcols, List.getD_append_right _ _ _ _ (by simp)]
      simp
    rw [List.nodup_cons] at hn
    simp only [onDofs]
    rw [e2, ih (fun k hk => hp k (by simp [hk])) hn.2]
    by_cases hij : i = j
    · subst hij
      rw [if_pos ⟨by omega, by omega⟩, if_neg hn.1, if_pos (by simp), add_zero,
        Nat.add_sub_cancel_left, hcols, List.getD_append _ _ _ _ (by simpa using hd),
        List.getD_eq_getElem _ _ (by simpa using hd)]
      simp
    · have hne : ¬ (jpos mb j ≤ jpos mb i + d ∧ jpos mb i + d < jpos mb j + jdof mb j) := by
        rintro ⟨h1, h2⟩
        rcases Nat.lt_or_gt_of_ne hij with h | h
        · have := jpos_le_of_lt mb h
          omega
        · have := jpos_le_of_lt mb h
          omega
      rw [if_neg hne, zero_add]
      simp [hij]

/-- The zeroed columns along a path. -/
def zeros (mb : MultiBody K) (trk : List ℕ) : List ℕ → ℕ → List ℕ
  | [], _ => []
  | i :: t, pos => (if i ∈ trk then [] else (List.range (jdof mb i)).map (pos + ·))
      ++ zeros mb trk t (pos + jdof mb i)

theorem zeroIndexLoop_ok (mb : MultiBody K) (trk path : List ℕ)
    (hp : ∀ i ∈ path, i < mb.joints.length) :
    zeroIndexLoop mb path trk = .ok (zeros mb trk path 0) := by
  have key : ∀ (z : List ℕ) (pos : ℕ), forEach path (fun i (s : List ℕ × ℕ) => do
      let j ← vecAt mb.joints i
      pure (if i ∈ trk then s.1 else s.1 ++ (List.range j.dof).map (s.2 + ·), s.2 + j.dof)) (z, pos)
      = .ok (z ++ zeros mb trk path pos, pos + pathDof mb path) := by
    induction path with
    | nil => intro z pos; simp [forEach, zeros, pathDof]
    | cons i t ih =>
      intro z pos
      have hi := hp i (by simp)
      have hj : mb.joints[i].dof = jdof mb i := by simp [jdof, hi]
      unfold forEach
      rw [vecAt_ok hi, Out.ok_bind, hj]
      refine (ih (fun j hj => hp j (by simp [hj])) _ _).trans ?_
      rw [pathDof_cons]
      simp only [zeros]
      congr 2
      · split <;> simp
      · unfold jdof; omega
  unfold zeroIndexLoop
  rw [key [] 0]
  simp

theorem zeros_ge (mb : MultiBody K) (trk path : List ℕ) (pos k : ℕ)
    (h : k ∈ zeros mb trk path pos) : pos ≤ k ∧ k < pos + pathDof mb path := by
  induction path generalizing pos with
  | nil => simp [zeros] at h
  | cons i t ih =>
    rw [pathDof_cons]
    have e : jdof mb i = ((mb.joints[i]?).map Joint.dof).getD 0 := rfl
    simp only [zeros, List.mem_append] at h
    rcases h with h | h
    · split at h
      · simp at h
      · simp at h
        obtain ⟨a, ha, rfl⟩ := h
        omega
    · have := ih _ h
      omega

theorem zeros_cols (mb : MultiBody K) (trk path : List ℕ) (g : ℕ → ℕ → MV K) (pos k : ℕ) :
    (pathCols mb (fun i d => if i ∈ trk then g i d else 0) path).getD k 0
      = if pos + k ∈ zeros mb trk path pos then 0 else (pathCols mb g path).getD k 0 := by
  induction path generalizing pos k with
  | nil => simp [pathCols, zeros]
  | cons i t ih =>
    have hcols : ∀ g : ℕ → ℕ → MV K, pathCols mb g (i :: t)
        = (List.range (jdof mb i)).map (g i) ++ pathCols mb g t := by intro g; simp [pathCols]
    rw [hcols, hcols]
    simp only [zeros, List.mem_append]
    by_cases hk : k < jdof mb i
    · rw [List.getD_append _ _ _ _ (by simpa using hk), List.getD_append _ _ _ _ (by simpa using hk),
        List.getD_eq_getElem _ _ (by simpa using hk), List.getD_eq_getElem _ _ (by simpa using hk)]
      simp only [List.getElem_map, List.getElem_range]
      have hno : ¬ (pos + k ∈ zeros mb trk t (pos + jdof mb i)) := by
        intro hm
        have := zeros_ge mb trk t _ _ hm
        omega
      by_cases hi : i ∈ trk
      · rw [if_pos hi, if_pos hi, if_neg (by simp [hno])]
      · rw [if_neg hi, if_neg hi, if_pos]
        left
        simp [hk]
    · obtain ⟨k', rfl⟩ : ∃ k', k = jdof mb i + k' := ⟨k - jdof mb i, by omega⟩
      rw [List.getD_append_right _ _ _ _ (by simp), List.getD_append_right _ _ _ _ (by simp)]
      simp only [List.length_map, List.length_range, Nat.add_sub_cancel_left]
      rw [ih (pos + jdof mb i) k', add_assoc]
      have hno : ¬ (pos + (jdof mb i + k')
          ∈ (if i ∈ trk then [] else (List.range (jdof mb i)).map (pos + ·))) := by
        split <;> simp
      simp only [hno, false_or]

theorem zeroJacobian_ok (z : List ℕ) (M : Mat K) (h : ∀ k ∈ z, k < M.cols) :
    zeroJacobian z M = .ok ⟨M.rows, M.cols, fun a k => if k ∈ z then 0 else M.get a k⟩ := by
  unfold zeroJacobian
  induction z generalizing M with
  | nil => simp [forEach]
  | cons i t ih =>
    unfold forEach
    rw [if_pos (h i (by simp)), Out.ok_bind,
      ih ⟨M.rows, M.cols, fun a k => if k = i then 0 else M.get a k⟩
        (fun k hk => h k (by simp [hk]))]
    dsimp only
    congr 2
    funext a k
    by_cases h1 : k ∈ t
    · simp [h1]
    · by_cases h2 : k = i <;> simp [h1, h2]

/-! ### The names -/

theorem jointIndex_some {mb : MultiBody K} {n : String} (h : ∃ j ∈ mb.joints, j.name = n) :
    ∃ i, mb.jointIndexByName n = .ok i ∧ ∃ hi : i < mb.joints.length, mb.joints[i].name = n := by
  unfold MultiBody.jointIndexByName
  cases e : mb.joints.findIdx? (fun j => j.name == n) with
  | none =>
    rw [List.findIdx?_eq_none_iff] at e
    obtain ⟨j, hj, hn⟩ := h
    have := e j hj
    simp [hn] at this
  | some i =>
    rw [List.findIdx?_eq_some_iff_getElem] at e
    obtain ⟨hi, h1, -⟩ := e
    exact ⟨i, rfl, hi, by simpa using h1⟩

theorem jointIndex_none {mb : MultiBody K} {n : String} (h : ∀ j ∈ mb.joints, j.name ≠ n) :
    mb.jointIndexByName n = .ub := by
  unfold MultiBody.jointIndexByName
  have : mb.joints.findIdx? (fun j => j.name == n) = none := by
    rw [List.findIdx?_eq_none_iff]
    intro j hj
    simpa using h j hj
  rw [this]

theorem nameLoop_ok (mb : MultiBody K) (tracking : List String)
    (h : ∀ n ∈ tracking, ∃ j ∈ mb.joints, j.name = n)
    (hn : (mb.joints.map Joint.name).Nodup) (acc : List ℕ) :
    ∃ idx, forEach tracking (fun n (l : List ℕ) => do
      let i ← mb.jointIndexByName n
      pure (i :: l)) acc = .ok idx ∧
      ∀ i, (hi : i < mb.joints.length) → (i ∈ idx ↔ i ∈ acc ∨ mb.joints[i].name ∈ tracking) := by
  induction tracking generalizing acc with
  | nil => exact ⟨acc, rfl, by simp⟩
  | cons n t ih =>
    obtain ⟨k, e1, hk, e2⟩ := jointIndex_some (h n (by simp))
    obtain ⟨idx, g1, g2⟩ := ih (fun n hn => h n (by simp [hn])) (k :: acc)
    refine ⟨idx, ?_, fun i hi => ?_⟩
    · unfold forEach
      rw [e1, Out.ok_bind]
      exact g1
    · rw [g2 i hi]
      simp only [List.mem_cons]
      have : i = k ↔ mb.joints[i].name = n := by
        constructor
        · rintro rfl
          exact e2
        · intro h'
          have := (List.Nodup.getElem_inj_iff hn (i := i) (hi := by simpa using hi)
            (j := k) (hj := by simpa using hk)).mp (by simp [h', e2])
          exact this
      rw [this]
      tauto

namespace Spec

/-- A tracking task on `path` for the named joints: constructed, then updated any number of times in
arbitrary states (with arbitrary junk in the uninitialised members). -/
inductive TrackRun (mb : MultiBody K) (b : ℕ) (path : List ℕ) (tracking : List String)
    (junkD : ℕ → ℕ → K) : TrackT K → Prop
  | make (je : V3 K) (js jj : ℕ → ℕ → K) (s : TrackT K)
      (h : TrackT.make mb b path tracking je js jj junkD = .ok s) : TrackRun mb b path tracking junkD s
  | update (st : KState K) (err : PT K → V3 K) (s s' : TrackT K)
      (hs : TrackRun mb b path tracking junkD s) (h : s.update mb st err = .ok s') :
      TrackRun mb b path tracking junkD s'

end Spec

/-- The members a run never changes, and the sizes. -/
structure TrackInv (mb : MultiBody K) (b : ℕ) (path : List ℕ) (z : List ℕ) (D : Mat K)
    (s : TrackT K) : Prop where
  body : s.bodyIndex = b
  jac : s.jac = ⟨path, 0⟩
  zero : s.zeroJacIndex = z
  cols : s.shortJac.cols = pathDof mb path
  jr : s.jacMat.rows = 3
  jc : s.jacMat.cols = mb.nrDof
  dot : s.jacDotMat = D

theorem zeroJacobian_dim {z : List ℕ} {M M' : Mat K} (h : zeroJacobian z M = .ok M') :
    M'.rows = M.rows ∧ M'.cols = M.cols := by
  unfold zeroJacobian at h
  refine forEach_inv (fun M' => M'.rows = M.rows ∧ M'.cols = M.cols) ⟨rfl, rfl⟩ ?_ h
  rintro i _ s s' ⟨h1, h2⟩ h3
  split at h3
  · rw [← Out.ok.inj h3]
    exact ⟨h1, h2⟩
  · exact absurd h3 (by simp)

theorem setBlock_dim {M B M' : Mat K} {i j : ℕ} (h : M.setBlock i j B = .ok M') :
    M'.rows = M.rows ∧ M'.cols = M.cols := by
  unfold Mat.setBlock at h
  split at h
  · rw [← Out.ok.inj h]
    exact ⟨rfl, rfl⟩
  · exact absurd h (by simp)

theorem fullJacobian_dim {mb : MultiBody K} {path : List ℕ} {M res R : Mat K}
    (h : fullJacobian mb path M res = .ok R) : R.rows = res.rows ∧ R.cols = res.cols := by
  unfold fullJacobian at h
  simp only [Out.bind_eq_ok] at h
  obtain ⟨r0, h0, s, h1, h2⟩ := h
  rw [Out.pure_eq] at h2
  rw [← Out.ok.inj h2]
  refine forEach_inv (fun s : Mat K × ℕ => s.1.rows = res.rows ∧ s.1.cols = res.cols)
    (setBlock_dim h0) ?_ h1
  rintro i _ s s' ⟨e1, e2⟩ h3
  simp only [Out.bind_eq_ok] at h3
  obtain ⟨_, _, _, _, _, _, r, h4, h5⟩ := h3
  rw [Out.pure_eq] at h5
  rw [← Out.ok.inj h5]
  obtain ⟨a1, a2⟩ := setBlock_dim h4
  exact ⟨a1.trans e1, a2.trans e2⟩

theorem trackRun_inv {mb : MultiBody K} {b : ℕ} {path : List ℕ} {tracking : List String}
    {junkD : ℕ → ℕ → K} {s : TrackT K} (R : TrackRun mb b path tracking junkD s)
    {idx : List ℕ} (hidx : forEach tracking (fun n (l : List ℕ) => do
      let i ← mb.jointIndexByName n
      pure (i :: l)) [] = .ok idx) {z : List ℕ} (hz : zeroIndexLoop mb path idx = .ok z) :
    TrackInv mb b path z ⟨3, mb.nrDof, junkD⟩ s := by
  induction R with
  | make je js jj s h =>
    unfold TrackT.make at h
    rw [hidx, Out.ok_bind, hz, Out.ok_bind, Out.pure_eq] at h
    rw [← Out.ok.inj h]
    exact ⟨rfl, rfl, rfl, rfl, rfl, rfl, rfl⟩
  | update st err s s' hs h ih =>
    unfold TrackT.update at h
    simp only [Out.bind_eq_ok] at h
    obtain ⟨X, h1, J, h2, sh, h3, sh', h4, M, h5, h6⟩ := h
    rw [Out.pure_eq] at h6
    rw [← Out.ok.inj h6]
    obtain ⟨d1, d2⟩ := zeroJacobian_dim h4
    obtain ⟨d3, d4⟩ := fullJacobian_dim h5
    have d5 : sh.cols = s.shortJac.cols := by
      unfold Mat.block at h3
      split at h3
      · rw [← Out.ok.inj h3]
      · exact absurd h3 (by simp)
    exact ⟨ih.body, ih.jac, ih.zero, d2.trans (d5.trans ih.cols), d3.trans ih.jr, d4.trans ih.jc,
      ih.dot⟩

/-- An update in a state whose fixed members are those of the constructor. -/
theorem track_columns {mb : MultiBody K} {st : KState K} {b : ℕ} {path : List ℕ}
    {tracking : List String} {D : Mat K} {s : TrackT K} {idx : List ℕ}
    (e2 : ∀ i, (hi : i < mb.joints.length) → (i ∈ idx ↔ mb.joints[i].name ∈ tracking))
    (v : TrackInv mb b path (zeros mb idx path 0) D s)
    (hs : KSized mb st path) (hb : path.getLast? = some b)
    (hrig : ∀ i ∈ path, (kPose st i).Rigid) (err : PT K → V3 K) :
    ∃ s', s.update mb st err = .ok s' ∧ s'.jacMat.rows = 3 ∧ s'.jacMat.cols = mb.nrDof ∧
      s'.eval = err (kPose st b) ∧ TrackInv mb b path (zeros mb idx path 0) D s' ∧
      ∀ i, (hi : i < mb.joints.length) → ∀ d < mb.joints[i].dof, ∀ a < 3,
        s'.jacMat.get a (jpos mb i + d)
          = if i ∈ path ∧ mb.joints[i].name ∈ tracking then
              ((kPose st i).E.transpose.mulVec (kSub st i d).ang).get a
            else 0 := by
  have hJ : s.jac.jacobian mb st = .ok ⟨6, pathDof mb path, fun a k =>
      ((pathCols mb (kCol st (PT.ofTrans ((PT.ofTrans (0 : V3 K)).mul (kPose st b)).r)) path).getD
        k 0).get a⟩ := by
    rw [v.jac]
    exact jac_world (J := (⟨path, 0⟩ : Jac K)) hs hb
  generalize hX : PT.ofTrans ((PT.ofTrans (0 : V3 K)).mul (kPose st b)).r = X at hJ
  have hzr := zeroJacobian_ok (zeros mb idx path 0) (⟨3, pathDof mb path, fun a k =>
    ((pathCols mb (kCol st X) path).getD (0 + k) 0).get (0 + a)⟩ : Mat K)
    (fun k hk => by have := zeros_ge mb idx path 0 k hk; dsimp only; omega)
  obtain ⟨M, g1, g2, g3, g4⟩ := fullJacobian_ok mb path
    (⟨3, pathDof mb path, fun a k => if k ∈ zeros mb idx path 0 then 0 else
      ((pathCols mb (kCol st X) path).getD (0 + k) 0).get (0 + a)⟩ : Mat K) s.jacMat
    hs.mem hs.nodup le_rfl v.jr.ge v.jc.ge
  refine ⟨{ s with
      eval := err (kPose st b), jacMat := M,
      shortJac := ⟨3, pathDof mb path, fun a k => if k ∈ zeros mb idx path 0 then 0 else
        ((pathCols mb (kCol st X) path).getD (0 + k) 0).get (0 + a)⟩ }, ?_, g2.trans v.jr,
    g3.trans v.jc, rfl, ⟨v.body, v.jac, v.zero, rfl, g2.trans v.jr, g3.trans v.jc, v.dot⟩, ?_⟩
  · unfold TrackT.update
    rw [v.body, vecAt_getD PT.one (hs.pos _ (List.mem_of_getLast? hb)), Out.ok_bind, hJ, Out.ok_bind,
      v.cols, block_ok (by simp), Out.ok_bind, v.zero, hzr, Out.ok_bind, v.jac, g1, Out.ok_bind]
    rfl
  · intro i hi d hd a ha
    have hdj : d < jdof mb i := by simpa [jdof, hi] using hd
    have hc : jpos mb i + d < mb.nrDof := by
      have := jpos_fit mb hi
      omega
    dsimp only
    rw [g4 a ha _ hc]
    have ef : (fun k => if k ∈ zeros mb idx path 0 then (0 : K) else
        ((pathCols mb (kCol st X) path).getD (0 + k) 0).get (0 + a))
        = fun k => MV.get ((pathCols mb (fun i d => if i ∈ idx then kCol st X i d else 0)
            path).getD k 0) a := by
      funext k
      rw [zeros_cols mb idx path (kCol st X) 0 k, Nat.zero_add, Nat.zero_add]
      split
      · rw [MV.get_zero]
      · rfl
    rw [ef, onDofs_at mb _ (fun v => v.get a) path hs.mem hs.nodup hdj]
    have hiff := e2 i hi
    by_cases h1 : i ∈ path
    · by_cases h2 : mb.joints[i].name ∈ tracking
      · rw [if_pos h1, if_pos (hiff.mpr h2), if_pos ⟨h1, h2⟩, MV.get_ang _ ha]
        congr 1
        unfold kCol
        rw [PT.mul_mulM _ _ (hrig i h1).inv, ← hX]
        simp [PT.mulM, PT.ofTrans, PT.inv, M3.one_mulVec]
      · rw [if_pos h1, if_neg (fun h => h2 (hiff.mp h)), if_neg (fun h => h2 h.2), MV.get_zero]
    · rw [if_neg h1, if_neg (fun h => h1 h.1)]

/-- After any history, an update makes the Jacobian's column of each dof of each joint of the robot the
angular velocity (world frame) that dof gives to the body if the joint is on the path and listed as
tracking joint, and zero otherwise. -/
theorem C53_tracking_columns {mb : MultiBody K} {st : KState K} {b : ℕ} {path : List ℕ}
    {tracking : List String} {junkD : ℕ → ℕ → K} {s : TrackT K}
    (R : TrackRun mb b path tracking junkD s)
    (hnames : (mb.joints.map Joint.name).Nodup)
    (hknown : ∀ n ∈ tracking, ∃ j ∈ mb.joints, j.name = n)
    (hs : KSized mb st path) (hb : path.getLast? = some b)
    (hrig : ∀ i ∈ path, (kPose st i).Rigid) (err : PT K → V3 K) :
    ∃ s', s.update mb st err = .ok s' ∧ s'.jacMat.rows = 3 ∧ s'.jacMat.cols = mb.nrDof ∧
      s'.eval = err (kPose st b) ∧
      ∀ i, (hi : i < mb.joints.length) → ∀ d < mb.joints[i].dof, ∀ a < 3,
        s'.jacMat.get a (jpos mb i + d)
          = if i ∈ path ∧ mb.joints[i].name ∈ tracking then
              ((kPose st i).E.transpose.mulVec (kSub st i d).ang).get a
            else 0 := by
  obtain ⟨idx, e1, e2⟩ := nameLoop_ok mb tracking hknown hnames []
  have ez := zeroIndexLoop_ok mb idx path hs.mem
  obtain ⟨s', h1, h2, h3, h4, -, h5⟩ := track_columns (tracking := tracking)
    (fun i hi => by simpa using e2 i hi) (trackRun_inv R e1 ez) hs hb hrig err
  exact ⟨s', h1, h2, h3, h4, h5⟩

/-- A name that is no joint of the robot is undefined behaviour in the constructor. -/
theorem C53_unknown_joint_ub {mb : MultiBody K} (b : ℕ) (path : List ℕ) (t1 t2 : List String)
    (n : String) (hknown : ∀ n ∈ t1, ∃ j ∈ mb.joints, j.name = n)
    (hn : (mb.joints.map Joint.name).Nodup) (h : ∀ j ∈ mb.joints, j.name ≠ n)
    (je : V3 K) (js jj jd : ℕ → ℕ → K) :
    TrackT.make mb b path (t1 ++ n :: t2) je js jj jd = .ub := by
  unfold TrackT.make
  obtain ⟨idx, e1, -⟩ := nameLoop_ok mb t1 hknown hn []
  rw [forEach_append, e1, Out.ok_bind]
  unfold forEach
  rw [jointIndex_none h]
  rfl

end

/-- The hypotheses of C53 hold on the two-joint robot with only the second joint tracking: the first
column is zero, the second the axis of the joint. -/
example : ∃ s s', TrackRun KineEx.mb 1 [0, 1] ["b"] (fun _ _ => 7) s ∧
    s.update KineEx.mb KineEx.st (fun _ => 0) = .ok s' ∧
    s'.jacMat.get 2 0 = 0 ∧ s'.jacMat.get 2 1 = 1 := by
  obtain ⟨s, hs⟩ : ∃ s, TrackT.make KineEx.mb 1 [0, 1] ["b"] 0 (fun _ _ => 7) (fun _ _ => 7)
      (fun _ _ => 7) = .ok s := ⟨_, rfl⟩
  have R : TrackRun KineEx.mb 1 [0, 1] ["b"] (fun _ _ => 7) s := .make _ _ _ s hs
  obtain ⟨s', h1, -, -, -, h2⟩ := C53_tracking_columns (st := KineEx.st) R (by simp [KineEx.mb])
    (by simp [KineEx.mb]) KineEx.moves.sized rfl KineEx.moves.rigid (fun _ => 0)
  refine ⟨s, s', R, h1, ?_, ?_⟩
  · have := h2 0 (by simp [KineEx.mb]) 0 (by simp [KineEx.mb]) 2 (by omega)
    simpa [KineEx.mb, jpos] using this
  · have := h2 1 (by simp [KineEx.mb]) 0 (by simp [KineEx.mb]) 2 (by omega)
    simp [KineEx.mb, jpos] at this
    rw [this]
    simp [kPose, kSub, KineEx.st, KineEx.rz, KineEx.X0, KineEx.P1, PT.mul, PT.ofTrans, M3.mul, M3.one,
      M3.transpose, M3.mulVec, V3.dot, V3.get]

end Verif
