import Verif.Proofs.Image
import Verif.Props.Collision
import Verif.Props.BoundedSpeed

/-!
# C39: image constraint
-/

set_option autoImplicit false
set_option linter.unusedSectionVars false

namespace Verif

open Finset Spec

section
variable {K : Type} [Field K] [LinearOrder K] [IsStrictOrderedRing K]

namespace Spec

/-- RBDyn's Jacobian has the documented size. -/
def ImgEnvOK (mb : MultiBody K) (path : List ℕ) (env : ImageEnv K) : Prop :=
  env.jac.rows = 6 ∧ pathDof mb path ≤ env.jac.cols

/-- Executions of an `ImageConstr` for robot `r`, whose camera body has joint path `path`.  Indices:
whether the matrices have been reallocated (`updateNrVars`) since a point was last added, the layout of
the last `updateNrVars`.  `update` is only called once the matrices are allocated. -/
inductive ImageRun (rks : List (RobotKin K)) (mbs : List (MultiBody K)) (mb : MultiBody K) (r : ℕ)
    (body : String) (dt dir : K) : Bool → Option (SolverData K) → Image K → Prop
  | make (junk : ℕ → ℕ → K) (s : Image K) : Image.make rks r body dt dir junk = .ok s →
      ImageRun rks mbs mb r body dt dir false none s
  | setLimits (f : Bool) (d : Option (SolverData K)) (s : Image K) (lo hi : ℕ → K) (i q m o : K) :
      ImageRun rks mbs mb r body dt dir f d s →
      ImageRun rks mbs mb r body dt dir f d (s.setLimits lo hi i q m o)
  | addPoint (f : Bool) (d : Option (SolverData K)) (s : Image K) (p : ℕ → K) (z : K) :
      ImageRun rks mbs mb r body dt dir f d s →
      ImageRun rks mbs mb r body dt dir false d (s.addPoint p z).1
  | addRobotPoint (f : Bool) (d : Option (SolverData K)) (s : Image K) (b : String) :
      ImageRun rks mbs mb r body dt dir f d s → ImageRun rks mbs mb r body dt dir f d (s.addRobotPoint b)
  | reset (f : Bool) (d : Option (SolverData K)) (s : Image K) :
      ImageRun rks mbs mb r body dt dir f d s → ImageRun rks mbs mb r body dt dir f d s.reset
  | updatePoint (f : Bool) (d : Option (SolverData K)) (s s' : Image K) (id : ℕ) (p : ℕ → K) :
      ImageRun rks mbs mb r body dt dir f d s → s.updatePoint id p = .ok s' →
      ImageRun rks mbs mb r body dt dir f d s'
  | updatePointD (f : Bool) (d : Option (SolverData K)) (s s' : Image K) (id : ℕ) (p : ℕ → K) (z : K) :
      ImageRun rks mbs mb r body dt dir f d s → s.updatePointD id p z = .ok s' →
      ImageRun rks mbs mb r body dt dir f d s'
  | nrVars (f : Bool) (d : Option (SolverData K)) (s s' : Image K) (old d' : SolverData K)
      (uni : List (UniContact K)) (bi : List (BiContact K)) (deps : List (Dep K)) :
      ImageRun rks mbs mb r body dt dir f d s → GoodInput mbs bi → layout old mbs uni bi = .ok (d', deps) →
      s.updateNrVars d' = .ok s' → ImageRun rks mbs mb r body dt dir true (some d') s'
  | update (d : SolverData K) (s s' : Image K) (env : ImageEnv K) :
      ImageRun rks mbs mb r body dt dir true (some d) s → ImgEnvOK mb s.path env →
      s.update mbs env = .ok s' → ImageRun rks mbs mb r body dt dir true (some d) s'

/-- The robot with index `r` and the joint path of the camera body. -/
structure ImgRobot (rks : List (RobotKin K)) (mbs : List (MultiBody K)) (mb : MultiBody K) (r : ℕ)
    (body : String) (path : List ℕ) : Prop where
  here : mbs[r]? = some mb
  rk : ∃ rk, rks[r]? = some rk ∧ rk.mb = mb ∧ rk.path body = .ok path
  lt : ∀ i ∈ path, i < mb.joints.length
  nodup : path.Nodup

end Spec

theorem image_update {mbs : List (MultiBody K)} {mb : MultiBody K} {s : Image K}
    (hmb : mbs[s.robotIndex]? = some mb) (hp : ∀ i ∈ s.path, i < mb.joints.length) (hn : s.path.Nodup)
    {env : ImageEnv K} (he : ImgEnvOK mb s.path env) {n a N : ℕ} (R : ImgReady mb n a N s)
    (hN : 2 * s.points.length ≤ N) :
    ∃ s', s.update mbs env = .ok s' ∧ ImgReady mb n a N s' ∧ ImgSame s s' ∧
      RowsAre mb a s' (s.points.flatMap (pointRows mb env s)) := by
  obtain ⟨s', e, R', S', L'⟩ := imgLoop s.points (s := { s with nrAct := 0 }) (mb := mb) (env := env)
    (n := n) (a := a) (N := N) ⟨R.begin, R.fit, R.rows, R.cols, R.bsize, R.jr, R.jc, R.zero⟩ hp hn he []
    ⟨rfl, fun k e hk => by simp at hk⟩ (by simpa using hN)
  refine ⟨s', ?_, R', ?_, ?_⟩
  · unfold Image.update
    rw [vecAt_eq_ok.mpr hmb, Out.ok_bind]
    exact e
  · exact ⟨S'.points, S'.robotPoints, S'.robotIndex, S'.path, S'.alphaDBegin, S'.nrVars, S'.step,
      S'.accel, S'.iMin, S'.iMax, S'.sMin, S'.sMax, S'.damping, S'.off, S'.dir⟩
  · rw [List.nil_append] at L'
    exact L'

theorem imageRun_inv {rks : List (RobotKin K)} {mbs : List (MultiBody K)} {mb : MultiBody K} {r : ℕ}
    {body : String} {path : List ℕ} (H : ImgRobot rks mbs mb r body path) {dt dir : K} {f : Bool}
    {d : Option (SolverData K)} {s : Image K} (h : ImageRun rks mbs mb r body dt dir f d s) :
    s.robotIndex = r ∧ s.path = path ∧ s.step = dt ∧ s.accel = 1 / 2 * dt * dt ∧ s.dir = dir ∧
    s.jacMat.rows = 2 ∧ s.jacMat.cols = mb.nrDof ∧
    (f = true → ∃ d₀ a N, d = some d₀ ∧ d₀.alphaDBegin[r]? = some a ∧ 2 * s.points.length ≤ N ∧
      ImgReady mb d₀.nrVars a N s) := by
  induction h with
  | make junk s h =>
    obtain ⟨rk, h1, h2, h3⟩ := H.rk
    unfold Image.make at h
    rw [vecAt_eq_ok.mpr h1, Out.ok_bind, h3, Out.ok_bind] at h
    cases h
    exact ⟨rfl, rfl, rfl, rfl, rfl, rfl, by rw [← h2], fun h => by cases h⟩
  | setLimits f d s lo hi i q m o _ ih =>
    obtain ⟨h1, h2, h3, h4, h5, h6, h7, h8⟩ := ih
    refine ⟨h1, h2, h3, h4, h5, h6, h7, fun hf => ?_⟩
    obtain ⟨d₀, a, N, k1, k2, k3, R⟩ := h8 hf
    exact ⟨d₀, a, N, k1, k2, k3, R.begin, R.fit, R.rows, R.cols, R.bsize, R.jr, R.jc, R.zero⟩
  | addPoint f d s p z _ ih =>
    obtain ⟨h1, h2, h3, h4, h5, h6, h7, h8⟩ := ih
    exact ⟨h1, h2, h3, h4, h5, h6, h7, fun hf => by cases hf⟩
  | addRobotPoint f d s b _ ih =>
    obtain ⟨h1, h2, h3, h4, h5, h6, h7, h8⟩ := ih
    refine ⟨h1, h2, h3, h4, h5, h6, h7, fun hf => ?_⟩
    obtain ⟨d₀, a, N, k1, k2, k3, R⟩ := h8 hf
    exact ⟨d₀, a, N, k1, k2, k3, R.begin, R.fit, R.rows, R.cols, R.bsize, R.jr, R.jc, R.zero⟩
  | reset f d s _ ih =>
    obtain ⟨h1, h2, h3, h4, h5, h6, h7, h8⟩ := ih
    refine ⟨h1, h2, h3, h4, h5, h6, h7, fun hf => ?_⟩
    obtain ⟨d₀, a, N, k1, k2, k3, R⟩ := h8 hf
    exact ⟨d₀, a, N, k1, k2, by simp [Image.reset], R.begin, R.fit, R.rows, R.cols, R.bsize, R.jr, R.jc, R.zero⟩
  | updatePoint f d s s' id p _ h ih =>
    obtain ⟨h1, h2, h3, h4, h5, h6, h7, h8⟩ := ih
    obtain ⟨pt, -, h⟩ := Out.bind_eq_ok.mp h
    cases h
    refine ⟨h1, h2, h3, h4, h5, h6, h7, fun hf => ?_⟩
    obtain ⟨d₀, a, N, k1, k2, k3, R⟩ := h8 hf
    exact ⟨d₀, a, N, k1, k2, by simpa using k3, R.begin, R.fit, R.rows, R.cols, R.bsize, R.jr, R.jc, R.zero⟩
  | updatePointD f d s s' id p z _ h ih =>
    obtain ⟨h1, h2, h3, h4, h5, h6, h7, h8⟩ := ih
    obtain ⟨pt, -, h⟩ := Out.bind_eq_ok.mp h
    cases h
    refine ⟨h1, h2, h3, h4, h5, h6, h7, fun hf => ?_⟩
    obtain ⟨d₀, a, N, k1, k2, k3, R⟩ := h8 hf
    exact ⟨d₀, a, N, k1, k2, by simpa using k3, R.begin, R.fit, R.rows, R.cols, R.bsize, R.jr, R.jc, R.zero⟩
  | nrVars f d s s' old d' uni bi deps _ hg hl h ih =>
    obtain ⟨h1, h2, h3, h4, h5, h6, h7, h8⟩ := ih
    obtain ⟨a, ha, h⟩ := Out.bind_eq_ok.mp h
    cases h
    rw [h1] at ha
    refine ⟨h1, h2, h3, h4, h5, h6, h7, fun _ => ?_⟩
    refine ⟨d', a, 2 * (s.points.length + s.robotPoints.length), rfl, vecAt_eq_ok.mp ha,
      by dsimp only; omega, rfl, ?_, rfl, rfl, rfl, h6, h7, fun _ _ _ => rfl⟩
    -- the block of the robot fits
    have hs : SpeedRun mbs ⟨mb, fun _ => .ok []⟩ r (1 : K) true (some d')
        (BoundedSpeed.updateNrEq { (⟨r, none, [], ⟨6, mb.nrDof, fun _ _ => 0⟩, ⟨0, 0, fun _ _ => 0⟩,
          ⟨0, fun _ => .fin 0⟩, ⟨0, fun _ => .fin 0⟩, 0, 1⟩ : BoundedSpeed K) with
            alphaDBegin := some a
            nrVars := d'.nrVars }) := by
      refine .nrVars false none _ _ old d' uni bi deps (.make (fun _ _ => 0) ⟨r, none, [], ⟨6, mb.nrDof, fun _ _ => 0⟩, ⟨0, 0, fun _ _ => 0⟩,
        ⟨0, fun _ => .fin 0⟩, ⟨0, fun _ => .fin 0⟩, 0, 1⟩ ?_) hg hl ?_
      · unfold BoundedSpeed.make
        rw [vecAt_eq_ok.mpr H.here, Out.ok_bind]
        rfl
      · unfold BoundedSpeed.updateNrVars
        rw [ha, Out.ok_bind]
        rfl
    obtain ⟨-, -, -, -, h5'⟩ := speedRun_inv H.here hs
    obtain ⟨a', g1, -, g3, -⟩ := h5' d' rfl
    rw [vecAt_eq_ok.mp ha] at g1
    cases g1
    exact g3
  | update d s s' env _ he h ih =>
    obtain ⟨h1, h2, h3, h4, h5, h6, h7, h8⟩ := ih
    obtain ⟨d₀, a, N, k1, k2, k3, R⟩ := h8 rfl
    obtain ⟨s'', e, R', S', L'⟩ := image_update (by rw [h1]; exact H.here) (by rw [h2]; exact H.lt)
      (by rw [h2]; exact H.nodup) he R k3
    rw [h] at e
    cases e
    exact ⟨S'.robotIndex.trans h1, S'.path.trans h2, S'.step.trans h3, S'.accel.trans h4, S'.dir.trans h5,
      R'.jr, R'.jc, fun _ => ⟨d₀, a, N, k1, k2, by rw [S'.points]; exact k3, R'⟩⟩

/-- The rows in terms of the displacement over the step. -/
theorem image_sat {rks : List (RobotKin K)} {mbs : List (MultiBody K)} {mb : MultiBody K} {r : ℕ}
    {body : String} {path : List ℕ} (H : ImgRobot rks mbs mb r body path) {dt dir : K} {d : SolverData K}
    {s : Image K} (h : ImageRun rks mbs mb r body dt dir true (some d) s) {env : ImageEnv K}
    (he : ImgEnvOK mb path env) :
    ∃ s' a, s.update mbs env = .ok s' ∧ d.alphaDBegin[r]? = some a ∧ ImgSame s s' ∧
      s'.nrAct ≤ s'.inEq.maxInEq ∧ s'.A.cols = d.nrVars ∧ s'.nrAct ≤ s'.A.rows ∧ s'.b.size = s'.A.rows ∧
      RowsAre mb a s' (s.points.flatMap (pointRows mb env s)) ∧
      ∀ x, SatInEq d.nrVars s'.inEq x ↔ ∀ pt ∈ s.points, ∀ i < 2, ∀ v b,
        imgEmit s pt.p (imgB env dt (1 / 2 * dt * dt) pt) i = some (v, b) →
          v * (imgShift mb path env dt a x pt i + imgB env dt (1 / 2 * dt * dt) pt i) ≤ b := by
  obtain ⟨h1, h2, h3, h4, h5, h6, h7, h8⟩ := imageRun_inv H h
  obtain ⟨d₀, a, N, k1, k2, k3, R⟩ := h8 rfl
  cases k1
  obtain ⟨s', e, R', S', L'⟩ := image_update (by rw [h1]; exact H.here) (by rw [h2]; exact H.lt)
    (by rw [h2]; exact H.nodup) (by rw [h2]; exact he) R k3
  have hlen : s'.nrAct ≤ 2 * s.points.length := by
    rw [L'.1]
    have : ∀ l : List (ImgPoint K), (l.flatMap (pointRows mb env s)).length ≤ 2 * l.length := by
      intro l
      induction l with
      | nil => simp
      | cons p t ih =>
        rw [List.flatMap_cons, List.length_append, List.length_cons]
        have := pointRows_length mb env s p
        omega
    exact this _
  refine ⟨s', a, e, k2, S', ?_, R'.cols, ?_, ?_, L', fun x => ?_⟩
  · change s'.nrAct ≤ 2 * (s'.points.length + s'.robotPoints.length)
    rw [S'.points]; omega
  · rw [R'.rows]; omega
  · rw [R'.bsize, R'.rows]
  · have key : SatInEq d.nrVars s'.inEq x ↔ ∀ ent ∈ s.points.flatMap (pointRows mb env s),
        ent.1 * ∑ q ∈ range mb.nrDof, ent.2.2 q * x (a + q) ≤ ent.2.1 := by
      constructor
      · intro hx ent hent
        obtain ⟨k, hk⟩ := List.getElem?_of_mem hent
        have hlt := (List.getElem?_eq_some_iff.mp hk).1
        have := hx k (by change k < s'.nrAct; rw [L'.1]; exact hlt)
        change lineVal d.nrVars s'.A k x ≤ s'.b.get k at this
        rw [img_lineVal R' L' hk x, (L'.2 k ent hk).1] at this
        exact this
      · intro hx k hk
        change k < s'.nrAct at hk
        rw [L'.1] at hk
        have hk' := List.getElem?_eq_getElem hk
        change lineVal d.nrVars s'.A k x ≤ s'.b.get k
        rw [img_lineVal R' L' hk' x, (L'.2 k _ hk').1]
        exact hx _ (List.getElem_mem hk)
    rw [key]
    have sh : ∀ (pt : ImgPoint K) (i : ℕ), ∑ q ∈ range mb.nrDof,
        imgJ mb s.path env s.accel pt i q * x (a + q)
        = imgShift mb path env dt a x pt i + imgB env dt (1 / 2 * dt * dt) pt i := by
      intro pt i
      rw [h2, h4]
      exact img_shift mb path env dt a x pt i
    constructor
    · intro hx pt hpt i hi v b hem
      have hmem : (v, b, imgJ mb s.path env s.accel pt i) ∈ s.points.flatMap (pointRows mb env s) := by
        rw [List.mem_flatMap]
        refine ⟨pt, hpt, ?_⟩
        unfold pointRows emitList
        rw [h3, h4]
        rw [List.mem_append]
        match i, hi with
        | 0, _ => left; rw [hem]; simp
        | 1, _ => right; rw [hem]; simp
      have := hx _ hmem
      dsimp only at this
      rw [sh] at this
      exact this
    · intro hx ent hent
      rw [List.mem_flatMap] at hent
      obtain ⟨pt, hpt, hent⟩ := hent
      unfold pointRows emitList at hent
      rw [h3, h4, List.mem_append, List.mem_map, List.mem_map] at hent
      have go : ∀ i < 2, (∃ w ∈ (imgEmit s pt.p (imgB env dt (1 / 2 * dt * dt) pt) i).toList,
          (w.1, w.2, imgJ mb s.path env (1 / 2 * dt * dt) pt i) = ent) →
          ent.1 * ∑ q ∈ range mb.nrDof, ent.2.2 q * x (a + q) ≤ ent.2.1 := by
        rintro i hi ⟨w, hw, rfl⟩
        have hw' : imgEmit s pt.p (imgB env dt (1 / 2 * dt * dt) pt) i = some w := by
          simpa using hw
        dsimp only
        have := sh pt i
        rw [h4] at this
        rw [this]
        exact hx pt hpt i hi w.1 w.2 hw'
      rcases hent with hent | hent
      · exact go 0 (by omega) hent
      · exact go 1 (by omega) hent

/-- **C39** (field of view; full property minus the points past the security limit, for which
`ImgEx.C39_past_limit_counterexample` shows that nothing is enforced): with `constrDirection = 1`, `x`
satisfies the rows exactly when every point between its security and interaction limits on an axis moves
towards that limit over the step (`dt v + dt²/2 a`) by at most
`damping (distance to the security limit) / (width of the zone) - offset`.  Points elsewhere are not
constrained. -/
theorem C39_fov_partial (rks : List (RobotKin K)) (mbs : List (MultiBody K)) (mb : MultiBody K) (r : ℕ)
    (body : String) (path : List ℕ) (H : ImgRobot rks mbs mb r body path) (dt : K) (d : SolverData K)
    (s : Image K) (h : ImageRun rks mbs mb r body dt 1 true (some d) s) (env : ImageEnv K)
    (he : ImgEnvOK mb path env) (hi : ∀ i < 2, s.iMin i ≤ s.iMax i) :
    ∃ s' a, s.update mbs env = .ok s' ∧ d.alphaDBegin[r]? = some a ∧
      s'.inEq.nrInEq ≤ s'.inEq.maxInEq ∧ s'.A.cols = d.nrVars ∧ s'.inEq.nrInEq ≤ s'.A.rows ∧
      s'.b.size = s'.A.rows ∧
      ∀ x, SatInEq d.nrVars s'.inEq x ↔ ∀ pt ∈ s.points, ∀ i < 2,
        (s.sMin i < pt.p i → pt.p i < s.iMin i →
          -(s.damping * ((pt.p i - s.sMin i) / (s.iMin i - s.sMin i)) - s.off)
            ≤ imgShift mb path env dt a x pt i) ∧
        (s.iMax i < pt.p i → pt.p i < s.sMax i →
          imgShift mb path env dt a x pt i
            ≤ s.damping * ((s.sMax i - pt.p i) / (s.sMax i - s.iMax i)) - s.off) := by
  obtain ⟨-, -, -, -, hdir, -⟩ := imageRun_inv H h
  obtain ⟨s', a, e, k2, S', n1, n2, n3, n4, -, hsat⟩ := image_sat H h he
  refine ⟨s', a, e, k2, n1, n2, n3, n4, fun x => ?_⟩
  rw [hsat x]
  refine forall₂_congr fun pt hpt => forall₂_congr fun i hi2 => ?_
  unfold imgEmit
  simp only [hdir, true_or, if_true, one_mul, and_true, mul_one]
  have flip : (pt.p i - s.sMax i) / (s.iMax i - s.sMax i) = (s.sMax i - pt.p i) / (s.sMax i - s.iMax i) := by
    rw [← neg_sub, ← neg_sub (s.sMax i), neg_div_neg_eq]
  by_cases c1 : pt.p i < s.iMin i
  · rw [if_pos c1]
    by_cases c2 : s.sMin i < pt.p i
    · rw [if_pos c2]
      constructor
      · intro hx
        have := hx _ _ rfl
        refine ⟨fun _ _ => by linarith, fun h1 _ => ?_⟩
        exact absurd (h1.trans c1) (not_lt.mpr (hi i hi2))
      · rintro ⟨hx, -⟩ v b hvb
        cases hvb
        have := hx c2 c1
        linarith
    · rw [if_neg c2]
      constructor
      · intro _
        refine ⟨fun h1 _ => absurd h1 c2, fun h1 _ => absurd (h1.trans c1) (not_lt.mpr (hi i hi2))⟩
      · intro _ v b hvb
        cases hvb
  · rw [if_neg c1]
    by_cases c3 : s.iMax i < pt.p i
    · rw [if_pos c3]
      by_cases c4 : pt.p i < s.sMax i
      · rw [if_pos c4, flip]
        constructor
        · intro hx
          have := hx _ _ rfl
          exact ⟨fun _ h2 => absurd h2 c1, fun _ _ => by linarith⟩
        · rintro ⟨-, hx⟩ v b hvb
          cases hvb
          have := hx c3 c4
          linarith
      · rw [if_neg c4]
        constructor
        · intro _
          exact ⟨fun _ h2 => absurd h2 c1, fun _ h2 => absurd h2 c4⟩
        · intro _ v b hvb
          cases hvb
    · rw [if_neg c3]
      constructor
      · intro _
        exact ⟨fun _ h2 => absurd h2 c1, fun h1 _ => absurd h1 c3⟩
      · intro _ v b hvb
        cases hvb

/-- **C39** (field of view, consequence): with a nonnegative offset and a damping at most the width of
the zones, a point between its limits stays on the safe side of the security limits at the end of the
step. -/
theorem C39_fov_safe (rks : List (RobotKin K)) (mbs : List (MultiBody K)) (mb : MultiBody K) (r : ℕ)
    (body : String) (path : List ℕ) (H : ImgRobot rks mbs mb r body path) (dt : K) (d : SolverData K)
    (s₀ : Image K) (h : ImageRun rks mbs mb r body dt 1 true (some d) s₀) (env : ImageEnv K)
    (he : ImgEnvOK mb path env) (lo hi : ℕ → K) (iPct sPct damping offPct : K)
    (hlim : ∀ i < 2, lo i < hi i) (hs : sPct < iPct) (hhalf : iPct ≤ 1 / 2) (hd0 : 0 ≤ damping)
    (hd : ∀ i < 2, damping ≤ (iPct - sPct) * (hi i - lo i)) (ho : 0 ≤ offPct) :
    ∃ s' a, (s₀.setLimits lo hi iPct sPct damping offPct).update mbs env = .ok s' ∧
      d.alphaDBegin[r]? = some a ∧
      ∀ x, SatInEq d.nrVars s'.inEq x → ∀ pt ∈ s₀.points, ∀ i < 2,
        (lo i + sPct * (hi i - lo i) < pt.p i → pt.p i < lo i + iPct * (hi i - lo i) →
          lo i + sPct * (hi i - lo i) ≤ pt.p i + imgShift mb path env dt a x pt i) ∧
        (hi i - iPct * (hi i - lo i) < pt.p i → pt.p i < hi i - sPct * (hi i - lo i) →
          pt.p i + imgShift mb path env dt a x pt i ≤ hi i - sPct * (hi i - lo i)) := by
  have hdir := (imageRun_inv H h).2.2.2.2.1
  have h' := ImageRun.setLimits true (some d) s₀ lo hi iPct sPct damping offPct h
  have hf : ∀ i, (s₀.setLimits lo hi iPct sPct damping offPct).iMin i = lo i + iPct * (hi i - lo i) ∧
      (s₀.setLimits lo hi iPct sPct damping offPct).iMax i = hi i - iPct * (hi i - lo i) ∧
      (s₀.setLimits lo hi iPct sPct damping offPct).sMin i = lo i + sPct * (hi i - lo i) ∧
      (s₀.setLimits lo hi iPct sPct damping offPct).sMax i = hi i - sPct * (hi i - lo i) := by
    intro i
    simp [Image.setLimits, hdir]
  have hoff : (s₀.setLimits lo hi iPct sPct damping offPct).off = offPct * damping := by
    simp [Image.setLimits, hdir]
  obtain ⟨s', a, e, k2, -, -, -, -, hsat⟩ := C39_fov_partial rks mbs mb r body path H dt d _ h' env he
    (by
      intro i hi2
      rw [(hf i).1, (hf i).2.1]
      have := hlim i hi2
      nlinarith)
  refine ⟨s', a, e, k2, fun x hx pt hpt i hi2 => ?_⟩
  have hx' := (hsat x).mp hx pt hpt i hi2
  rw [(hf i).1, (hf i).2.1, (hf i).2.2.1, (hf i).2.2.2, hoff] at hx'
  have hdam : (s₀.setLimits lo hi iPct sPct damping offPct).damping = damping := rfl
  rw [hdam] at hx'
  have hw : 0 < (iPct - sPct) * (hi i - lo i) := mul_pos (by linarith) (by linarith [hlim i hi2])
  have hoff0 : 0 ≤ offPct * damping := mul_nonneg ho hd0
  refine ⟨fun c1 c2 => ?_, fun c1 c2 => ?_⟩
  · have h1 := hx'.1 c1 c2
    have h2 : damping * ((pt.p i - (lo i + sPct * (hi i - lo i)))
        / (lo i + iPct * (hi i - lo i) - (lo i + sPct * (hi i - lo i))))
        ≤ pt.p i - (lo i + sPct * (hi i - lo i)) := by
      have e1 : lo i + iPct * (hi i - lo i) - (lo i + sPct * (hi i - lo i))
          = (iPct - sPct) * (hi i - lo i) := by ring
      rw [e1, ← mul_div_assoc, div_le_iff₀ hw]
      have := hd i hi2
      nlinarith
    linarith
  · have h1 := hx'.2 c1 c2
    have h2 : damping * ((hi i - sPct * (hi i - lo i) - pt.p i)
        / (hi i - sPct * (hi i - lo i) - (hi i - iPct * (hi i - lo i))))
        ≤ hi i - sPct * (hi i - lo i) - pt.p i := by
      have e1 : hi i - sPct * (hi i - lo i) - (hi i - iPct * (hi i - lo i))
          = (iPct - sPct) * (hi i - lo i) := by ring
      rw [e1, ← mul_div_assoc, div_le_iff₀ hw]
      have := hd i hi2
      nlinarith
    linarith

/-- **C39** (occlusion, what the rows say): with `constrDirection = -1`, a point outside the security
limits and inside the interaction limits of an axis, on the negative (positive) side, and inside the
interaction limits of the other axis, must move away from the image by at least
`damping (distance to the security limit) / (width of the zone) - offset`, where the offset set by
`setLimits` is `-dampingOffsetPercent damping`.  This is not a velocity damper:
`ImgEx.C39_occlusion_counterexample`. -/
theorem C39_occlusion_partial (rks : List (RobotKin K)) (mbs : List (MultiBody K)) (mb : MultiBody K) (r : ℕ)
    (body : String) (path : List ℕ) (H : ImgRobot rks mbs mb r body path) (dt : K) (d : SolverData K)
    (s : Image K) (h : ImageRun rks mbs mb r body dt (-1) true (some d) s) (env : ImageEnv K)
    (he : ImgEnvOK mb path env) :
    ∃ s' a, s.update mbs env = .ok s' ∧ d.alphaDBegin[r]? = some a ∧
      ∀ x, SatInEq d.nrVars s'.inEq x ↔ ∀ pt ∈ s.points, ∀ i < 2,
        (s.iMin (1 - i) < pt.p (1 - i) → pt.p (1 - i) < s.iMax (1 - i) →
          (s.iMin i < pt.p i → pt.p i < s.sMin i → pt.p i < 0 →
            imgShift mb path env dt a x pt i
              ≤ -(s.damping * ((s.sMin i - pt.p i) / (s.sMin i - s.iMin i)) - s.off)) ∧
          (s.sMax i < pt.p i → pt.p i < s.iMax i → 0 < pt.p i →
            s.damping * ((pt.p i - s.sMax i) / (s.iMax i - s.sMax i)) - s.off
              ≤ imgShift mb path env dt a x pt i)) := by
  obtain ⟨-, -, -, -, hdir, -⟩ := imageRun_inv H h
  obtain ⟨s', a, e, k2, S', n1, n2, n3, n4, -, hsat⟩ := image_sat H h he
  refine ⟨s', a, e, k2, fun x => ?_⟩
  rw [hsat x]
  refine forall₂_congr fun pt hpt => forall₂_congr fun i hi2 => ?_
  have ho : (if i = 0 then 1 else 0) = 1 - i := by
    rcases i with _ | i
    · rfl
    · simp
  unfold imgEmit
  have hne : ¬ (-1 : K) = 1 := by norm_num
  simp only [hdir, ho, hne, false_or, neg_mul, one_mul, neg_lt_neg_iff, neg_neg]
  have flip : (pt.p i - s.sMin i) / (s.iMin i - s.sMin i) = (s.sMin i - pt.p i) / (s.sMin i - s.iMin i) := by
    rw [← neg_sub, ← neg_sub (s.sMin i), neg_div_neg_eq]
  by_cases c0 : s.iMin (1 - i) < pt.p (1 - i) ∧ pt.p (1 - i) < s.iMax (1 - i)
  · rw [if_pos c0]
    by_cases c1 : s.iMin i < pt.p i ∧ pt.p i < 0
    · rw [if_pos c1]
      by_cases c2 : pt.p i < s.sMin i
      · rw [if_pos c2, flip]
        constructor
        · intro hx _ _
          have := hx _ _ rfl
          exact ⟨fun _ _ _ => by linarith, fun _ _ h0 => absurd h0 (not_lt.mpr c1.2.le)⟩
        · intro hx v b hvb
          cases hvb
          have := (hx c0.1 c0.2).1 c1.1 c2 c1.2
          linarith
      · rw [if_neg c2]
        constructor
        · intro _ _ _
          exact ⟨fun _ h2 _ => absurd h2 c2, fun _ _ h0 => absurd h0 (not_lt.mpr c1.2.le)⟩
        · intro _ v b hvb
          cases hvb
    · rw [if_neg c1]
      by_cases c3 : pt.p i < s.iMax i ∧ 0 < pt.p i
      · rw [if_pos c3]
        by_cases c4 : s.sMax i < pt.p i
        · rw [if_pos c4]
          constructor
          · intro hx _ _
            have := hx _ _ rfl
            exact ⟨fun h1 _ h0 => absurd ⟨h1, h0⟩ c1, fun _ _ _ => by
              have e1 : (pt.p i - s.sMax i) / (s.iMax i - s.sMax i)
                = (pt.p i - s.sMax i) / (s.iMax i - s.sMax i) := rfl
              linarith⟩
          · intro hx v b hvb
            cases hvb
            have := (hx c0.1 c0.2).2 c4 c3.1 c3.2
            linarith
        · rw [if_neg c4]
          constructor
          · intro _ _ _
            exact ⟨fun h1 _ h0 => absurd ⟨h1, h0⟩ c1, fun h1 _ _ => absurd h1 c4⟩
          · intro _ v b hvb
            cases hvb
      · rw [if_neg c3]
        constructor
        · intro _ _ _
          exact ⟨fun h1 _ h0 => absurd ⟨h1, h0⟩ c1, fun _ h2 h0 => absurd ⟨h2, h0⟩ c3⟩
        · intro _ v b hvb
          cases hvb
  · rw [if_neg c0]
    constructor
    · intro _ h1 h2
      exact absurd ⟨h1, h2⟩ c0
    · intro _ v b hvb
      cases hvb

/-- **C39** (points): ids are given in order; `updatePoint` changes the named point only and is
undefined behaviour for other ids; a 3D point is projected (undefined at depth 0); `reset` removes all. -/
theorem C39_points (s : Image K) (p : ℕ → K) (z : K) (q : V3 K) (id : ℕ) :
    (s.addPoint p z).1.points = s.points ++ [⟨p, z⟩] ∧ (s.addPoint p z).2 = s.points.length ∧
    (q.z ≠ 0 → ∃ s' k pt, s.addPoint3 q = .ok (s', k) ∧ k = s.points.length ∧ s'.points = s.points ++ [pt] ∧
      pt.p 0 = q.x / q.z ∧ pt.p 1 = q.y / q.z ∧ pt.depth = q.z) ∧
    (q.z = 0 → s.addPoint3 q = .ub) ∧
    (s.points.length ≤ id → s.updatePoint id p = .ub ∧ s.updatePointD id p z = .ub) ∧
    (∀ old, s.points[id]? = some old → ∃ s₁ s₂, s.updatePoint id p = .ok s₁ ∧ s.updatePointD id p z = .ok s₂ ∧
      s₁.points[id]? = some ⟨p, old.depth⟩ ∧ s₂.points[id]? = some ⟨p, z⟩ ∧
      ∀ j, j ≠ id → s₁.points[j]? = s.points[j]? ∧ s₂.points[j]? = s.points[j]?) ∧
    s.reset.points = [] := by
  refine ⟨rfl, rfl, fun hz => ?_, fun hz => ?_, fun hid => ?_, fun old hold => ?_, rfl⟩
  · refine ⟨(s.addPoint (fun i => if i = 0 then q.x / q.z else q.y / q.z) q.z).1, _, ⟨fun i => if i = 0 then q.x / q.z else q.y / q.z, q.z⟩, ?_, rfl, rfl, by simp, by simp, rfl⟩
    unfold Image.addPoint3
    rw [show fdiv q.x q.z = .ok (q.x / q.z) from if_neg hz, Out.ok_bind,
      show fdiv q.y q.z = .ok (q.y / q.z) from if_neg hz, Out.ok_bind]
    rfl
  · unfold Image.addPoint3
    rw [show fdiv q.x q.z = .ub from if_pos hz]
    rfl
  · unfold Image.updatePoint Image.updatePointD
    rw [vecAt_ub hid]
    exact ⟨rfl, rfl⟩
  · have hlt := (List.getElem?_eq_some_iff.mp hold).1
    refine ⟨{ s with points := s.points.set id ⟨p, old.depth⟩ }, { s with points := s.points.set id ⟨p, z⟩ },
      ?_, ?_, ?_, ?_, fun j hj => ?_⟩
    · unfold Image.updatePoint
      rw [vecAt_eq_ok.mpr hold, Out.ok_bind]
      rfl
    · unfold Image.updatePointD
      rw [vecAt_eq_ok.mpr hold, Out.ok_bind]
      rfl
    · simp [hlt]
    · simp [hlt]
    · simp [List.getElem?_set_ne (Ne.symm hj)]

/-- **C39** (robot points are ignored): points registered on the robot's own bodies reserve two rows each
but never produce one. -/
theorem C39_robot_points_ignored (mbs : List (MultiBody K)) (env : ImageEnv K) (s : Image K) (b : String) :
    (s.addRobotPoint b).inEq.maxInEq = s.inEq.maxInEq + 2 ∧
    ∀ s', s.update mbs env = .ok s' → (s.addRobotPoint b).update mbs env = .ok (s'.addRobotPoint b) := by
  constructor
  · simp [Image.inEq, Image.addRobotPoint]; omega
  · intro s' h
    unfold Image.update at h ⊢
    obtain ⟨mb, hmb, h⟩ := Out.bind_eq_ok.mp h
    rw [show (s.addRobotPoint b).robotIndex = s.robotIndex from rfl, hmb, Out.ok_bind]
    change forEach s.points (Image.point mb env) (Image.addRobotPoint b { s with nrAct := 0 }) = _
    have fillC : ∀ (i : ℕ) (t t' : Image K), Image.fill mb i t = .ok t' →
        Image.fill mb i (t.addRobotPoint b) = .ok (t'.addRobotPoint b) := by
      intro i t t' h
      unfold Image.fill at h ⊢
      obtain ⟨a, h1, h⟩ := Out.bind_eq_ok.mp h
      obtain ⟨r, h2, h⟩ := Out.bind_eq_ok.mp h
      obtain ⟨A, h3, h⟩ := Out.bind_eq_ok.mp h
      cases h
      rw [show (t.addRobotPoint b).alphaDBegin = t.alphaDBegin from rfl, h1, Out.ok_bind,
        show (t.addRobotPoint b).jacMat = t.jacMat from rfl, h2, Out.ok_bind]
      change (t.A.setBlock t.nrAct a ⟨1, mb.nrDof, fun x c => t.inv * r.get x c⟩ >>= _) = _
      rw [h3]
      rfl
    have axisC : ∀ (p bc : ℕ → K) (i : ℕ) (t t' : Image K), Image.axis mb p bc i t = .ok t' →
        Image.axis mb p bc i (t.addRobotPoint b) = .ok (t'.addRobotPoint b) := by
      intro p bc i t t' h
      unfold Image.axis at h ⊢
      dsimp only [Image.addRobotPoint] at h ⊢
      generalize (if i = 0 then 1 else 0) = o at h ⊢
      split at h
      · rename_i c1
        refine Eq.trans (if_pos c1) ?_
        split at h
        · rename_i c2
          refine Eq.trans (if_pos c2) ?_
          split at h
          · rename_i c3
            refine Eq.trans (if_pos c3) ?_
            obtain ⟨q, h1, h⟩ := Out.bind_eq_ok.mp h
            obtain ⟨b', h2, h⟩ := Out.bind_eq_ok.mp h
            rw [h1, Out.ok_bind, h2, Out.ok_bind]
            exact fillC i _ _ h
          · rename_i c3
            refine Eq.trans (if_neg c3) ?_
            obtain ⟨b', h2, h⟩ := Out.bind_eq_ok.mp h
            cases h
            rw [h2]
            rfl
        · rename_i c2
          refine Eq.trans (if_neg c2) ?_
          split at h
          · rename_i c3
            refine Eq.trans (if_pos c3) ?_
            split at h
            · rename_i c4
              refine Eq.trans (if_pos c4) ?_
              obtain ⟨q, h1, h⟩ := Out.bind_eq_ok.mp h
              obtain ⟨b', h2, h⟩ := Out.bind_eq_ok.mp h
              rw [h1, Out.ok_bind, h2, Out.ok_bind]
              exact fillC i _ _ h
            · rename_i c4
              refine Eq.trans (if_neg c4) ?_
              obtain ⟨b', h2, h⟩ := Out.bind_eq_ok.mp h
              cases h
              rw [h2]
              rfl
          · rename_i c3
            refine Eq.trans (if_neg c3) ?_
            cases h
            rfl
      · rename_i c1
        refine Eq.trans (if_neg c1) ?_
        cases h
        rfl
    have pointC : ∀ (pt : ImgPoint K) (t t' : Image K), Image.point mb env pt t = .ok t' →
        Image.point mb env pt (t.addRobotPoint b) = .ok (t'.addRobotPoint b) := by
      intro pt t t' h
      unfold Image.point at h ⊢
      obtain ⟨c, h1, h⟩ := Out.bind_eq_ok.mp h
      have h1' : (t.addRobotPoint b).components mb env pt (t.addRobotPoint b).path = .ok c := h1
      rw [h1', Out.ok_bind]
      unfold forRange at h ⊢
      obtain ⟨t1, h2, h⟩ := Out.bind_eq_ok.mp h
      unfold forRange at h2 ⊢
      obtain ⟨t0, h3, h2⟩ := Out.bind_eq_ok.mp h2
      unfold forRange at h3 ⊢
      cases h3
      rw [Out.ok_bind]
      have := axisC _ _ _ _ _ h2
      rw [show Image.axis mb pt.p c.2 0 { t.addRobotPoint b with jacMat := c.1 } = _ from this, Out.ok_bind]
      exact axisC _ _ _ _ _ h
    have loopC : ∀ (l : List (ImgPoint K)) (t t' : Image K), forEach l (Image.point mb env) t = .ok t' →
        forEach l (Image.point mb env) (t.addRobotPoint b) = .ok (t'.addRobotPoint b) := by
      intro l
      induction l with
      | nil => intro t t' h; cases h; rfl
      | cons p l ih =>
        intro t t' h
        obtain ⟨t1, h1, h2⟩ := Out.bind_eq_ok.mp h
        unfold forEach
        rw [pointC p t t1 h1, Out.ok_bind]
        exact ih _ _ h2
    exact loopC _ _ _ h

theorem imgDesc_eq (line : ℕ) (l : List (ImgPoint K)) (i cur : ℕ) (h : cur ≤ line) :
    imgDesc line l i cur = if line < cur + 2 * l.length then some (i + (line - cur) / 2, (line - cur) % 2)
      else none := by
  induction l generalizing i cur with
  | nil => simp only [imgDesc, List.length_nil]; rw [if_neg (by omega)]
  | cons p t ih =>
    unfold imgDesc
    rw [List.length_cons]
    by_cases h1 : cur = line
    · subst h1
      rw [if_pos rfl, if_pos (by omega)]
      simp
    · rw [if_neg h1]
      by_cases h2 : cur + 1 = line
      · subst h2
        rw [if_pos rfl, if_pos (by omega)]
        simp
      · rw [if_neg h2, ih (i + 1) (cur + 2) (by omega)]
        by_cases h3 : line < cur + 2 + 2 * t.length
        · rw [if_pos h3, if_pos (by omega)]
          congr 2 <;> omega
        · rw [if_neg h3, if_neg (by omega)]

/-- **C39** (descriptions; full property minus the states with an axis that has no row, for which
`ImgEx.C39_desc_counterexample` shows the shift): when every axis of every point has a row, line `2 k + i`
bounds axis `i` of point `k` and its description names that point and axis. -/
theorem C39_desc_partial (rks : List (RobotKin K)) (mbs : List (MultiBody K)) (mb : MultiBody K) (r : ℕ)
    (body : String) (path : List ℕ) (H : ImgRobot rks mbs mb r body path) (dt dir : K) (d : SolverData K)
    (s : Image K) (h : ImageRun rks mbs mb r body dt dir true (some d) s) (env : ImageEnv K)
    (he : ImgEnvOK mb path env) :
    ∃ s' a, s.update mbs env = .ok s' ∧ d.alphaDBegin[r]? = some a ∧
      (s'.inEq.nrInEq = 2 * s.points.length → ∀ k pt, s.points[k]? = some pt → ∀ i < 2,
        s'.desc (2 * k + i) = some (k, i) ∧
        ∃ v : K, (v = dir ∨ v = -dir) ∧ ∀ x, lineVal d.nrVars s'.A (2 * k + i) x
          = v * (dt ^ 2 / 2 * ∑ l ∈ range 6, env.imgJac pt.p pt.depth i l *
            ∑ q ∈ range mb.nrDof, onDofs mb path (fun c => env.jac.get l c) q * x (a + q))) := by
  obtain ⟨h1, h2, h3, h4, h5, -, -, h8⟩ := imageRun_inv H h
  obtain ⟨d₀, a, N, k1, k2, k3, R⟩ := h8 rfl
  cases k1
  obtain ⟨s', e, R', S', L'⟩ := image_update (by rw [h1]; exact H.here) (by rw [h2]; exact H.lt)
    (by rw [h2]; exact H.nodup) (by rw [h2]; exact he) R k3
  refine ⟨s', a, e, k2, fun hall k pt hk i hi => ⟨?_, ?_⟩⟩
  · unfold Image.desc
    have hlt := (List.getElem?_eq_some_iff.mp hk).1
    rw [imgDesc_eq _ _ _ _ (by omega), S'.points, if_pos (by omega)]
    congr 2 <;> omega
  · have hall' : (s.points.flatMap (pointRows mb env s)).length = 2 * s.points.length := by
      rw [← L'.1]; exact hall
    -- each point has its two rows
    have each : ∀ l : List (ImgPoint K), (l.flatMap (pointRows mb env s)).length = 2 * l.length →
        ∀ (k : ℕ) pt, l[k]? = some pt → ∀ i < 2, ∃ ent, (l.flatMap (pointRows mb env s))[2 * k + i]? = some ent ∧
          ent ∈ emitList s pt.p (imgB env s.step s.accel pt) (imgJ mb s.path env s.accel pt) i := by
      have ub : ∀ l : List (ImgPoint K), (l.flatMap (pointRows mb env s)).length ≤ 2 * l.length := by
        intro l
        induction l with
        | nil => simp
        | cons p t ih =>
          rw [List.flatMap_cons, List.length_append, List.length_cons]
          have := pointRows_length mb env s p
          omega
      intro l
      induction l with
      | nil => intro _ k pt hk; simp at hk
      | cons p t ih =>
        intro hlen k pt hk i hi
        rw [List.flatMap_cons, List.length_append, List.length_cons] at hlen
        have u1 := pointRows_length mb env s p
        have u2 := ub t
        have hp2 : (pointRows mb env s p).length = 2 := by omega
        rw [List.flatMap_cons]
        cases k with
        | zero =>
          simp only [List.getElem?_cons_zero, Option.some.injEq] at hk
          subst hk
          rw [List.getElem?_append_left (by omega)]
          unfold pointRows at hp2 ⊢
          rw [List.length_append] at hp2
          have v0 := emitList_length s p.p (imgB env s.step s.accel p) (imgJ mb s.path env s.accel p) 0
          have v1 := emitList_length s p.p (imgB env s.step s.accel p) (imgJ mb s.path env s.accel p) 1
          obtain ⟨e0, he0⟩ := List.length_eq_one_iff.mp (show (emitList s p.p (imgB env s.step s.accel p)
            (imgJ mb s.path env s.accel p) 0).length = 1 by omega)
          obtain ⟨e1, he1⟩ := List.length_eq_one_iff.mp (show (emitList s p.p (imgB env s.step s.accel p)
            (imgJ mb s.path env s.accel p) 1).length = 1 by omega)
          match i, hi with
          | 0, _ => exact ⟨e0, by rw [he0, he1]; rfl, by rw [he0]; simp⟩
          | 1, _ => exact ⟨e1, by rw [he0, he1]; rfl, by rw [he1]; simp⟩
        | succ k =>
          rw [List.getElem?_cons_succ] at hk
          obtain ⟨ent, m1, m2⟩ := ih (by omega) k pt hk i hi
          refine ⟨ent, ?_, m2⟩
          rw [List.getElem?_append_right (by omega), hp2]
          rw [show 2 * (k + 1) + i - 2 = 2 * k + i by omega]
          exact m1
    obtain ⟨ent, m1, m2⟩ := each s.points hall' k pt hk i hi
    unfold emitList at m2
    rw [List.mem_map] at m2
    obtain ⟨w, hw, rfl⟩ := m2
    have hw' : imgEmit s pt.p (imgB env s.step s.accel pt) i = some w := by simpa using hw
    refine ⟨w.1, ?_, fun x => ?_⟩
    · unfold imgEmit at hw'
      dsimp only at hw'
      rw [← h5]
      split_ifs at hw' <;> first
        | (cases hw'; exact Or.inl (by ring1))
        | (cases hw'; exact Or.inr (by ring1))
    · rw [img_lineVal R' L' m1 x]
      dsimp only
      congr 1
      have h6 := img_shift mb path env dt a x pt i
      rw [h2, h4, h6]
      unfold imgShift imgAcc imgB
      ring

end

namespace ImgEx

def rk : RobotKin ℚ := ⟨SpeedEx.mb, fun _ => .ok [0, 1]⟩
/-- Both joints move the image point along its first axis; nothing moves. -/
def env : ImageEnv ℚ := ⟨fun _ _ i l => if i = 0 ∧ l = 3 then 1 else 0, fun _ _ _ => 0, fun _ _ _ _ _ _ => 0,
  fun _ => 0, fun _ => 0, ⟨6, 2, fun l _ => if l = 3 then 1 else 0⟩⟩
def at' (u v : ℚ) : ℕ → ℚ := fun i => if i = 0 then u else v

theorem robot : ImgRobot [rk] [SpeedEx.mb] SpeedEx.mb 0 "camera" [0, 1] :=
  ⟨rfl, ⟨rk, rfl, rfl, rfl⟩, by decide, by decide⟩

theorem env_ok : ImgEnvOK SpeedEx.mb [0, 1] env := ⟨rfl, by decide⟩

/-- "construct, set the limits, add points, updateNrVars". -/
theorem exRun (dir : ℚ) (lo hi : ℕ → ℚ) (i q m o : ℚ) (pts : List (ImgPoint ℚ)) :
    ∃ d s, ImageRun [rk] [SpeedEx.mb] SpeedEx.mb 0 "camera" (1/10) dir true (some d) s ∧ s.points = pts ∧
      d.alphaDBegin[0]? = some 0 ∧ s.dir = dir ∧
      (∀ k, s.iMin k = lo k + dir * i * (hi k - lo k)) ∧ (∀ k, s.iMax k = hi k - dir * i * (hi k - lo k)) ∧
      (∀ k, s.sMin k = lo k + dir * q * (hi k - lo k)) ∧ (∀ k, s.sMax k = hi k - dir * q * (hi k - lo k)) ∧
      s.damping = m ∧ s.off = dir * o * m := by
  have hg : GoodInput [SpeedEx.mb] ([] : List (BiContact ℚ)) := by
    refine ⟨?_, by simp⟩
    intro mm hm j hj l q hl
    simp only [List.mem_cons, List.not_mem_nil, or_false] at hm
    subst hm
    simp only [SpeedEx.mb, List.mem_cons, List.not_mem_nil, or_false] at hj
    rcases hj with rfl | rfl <;> cases hl
  obtain ⟨d, deps, e, L⟩ := layout_ok SolverData.init [SpeedEx.mb] [] [] hg.1 hg.2
  have hd : d.alphaDBegin[0]? = some 0 := by rw [L.alphaDBegin]; rfl
  have key : ∀ l : List (ImgPoint ℚ), ∃ s, ImageRun [rk] [SpeedEx.mb] SpeedEx.mb 0 "camera" (1/10) dir false none s ∧
      s.points = l ∧ s.robotIndex = 0 ∧ s.dir = dir ∧
      (∀ k, s.iMin k = lo k + dir * i * (hi k - lo k)) ∧ (∀ k, s.iMax k = hi k - dir * i * (hi k - lo k)) ∧
      (∀ k, s.sMin k = lo k + dir * q * (hi k - lo k)) ∧ (∀ k, s.sMax k = hi k - dir * q * (hi k - lo k)) ∧
      s.damping = m ∧ s.off = dir * o * m := by
    intro l
    induction l using List.reverseRecOn with
    | nil =>
      exact ⟨_, .setLimits _ _ _ lo hi i q m o (.make (fun _ _ => 0) _ rfl), rfl, rfl, rfl, fun _ => rfl,
        fun _ => rfl, fun _ => rfl, fun _ => rfl, rfl, rfl⟩
    | append_singleton l p ih =>
      obtain ⟨s, h, h1, h2, h3, h4⟩ := ih
      exact ⟨_, .addPoint _ _ _ p.p p.depth h, by simp [Image.addPoint, h1], h2, h3, h4⟩
  obtain ⟨s, h, h1, h2, h3, h4⟩ := key pts
  refine ⟨d, { s with
    alphaDBegin := some 0
    nrVars := d.nrVars
    A := Mat.zero (2 * (s.points.length + s.robotPoints.length)) d.nrVars
    b := ⟨2 * (s.points.length + s.robotPoints.length), fun _ => 0⟩ }, .nrVars _ _ _ _ _ _ [] [] deps h hg e
    (by unfold Image.updateNrVars; rw [h2, vecAt_eq_ok.mpr hd, Out.ok_bind]; rfl), h1, hd, h3, h4⟩

/-- The hypotheses of C39 with a point in its zone and the limits of a camera. -/
example : ∃ d s, ImageRun [rk] [SpeedEx.mb] SpeedEx.mb 0 "camera" (1/10 : ℚ) 1 true (some d) s ∧
    s.points = [⟨at' (-7/10) 0, 1⟩] ∧ (∀ i < 2, s.iMin i ≤ s.iMax i) ∧
    s.sMin 0 < at' (-7/10) 0 0 ∧ at' (-7/10) 0 0 < s.iMin 0 := by
  obtain ⟨d, s, h, h1, -, -, h4, h5, h6, h7, -, -⟩ :=
    exRun 1 (fun _ => -1) (fun _ => 1) (1/4) (1/10) (1/10) (1/10) [⟨at' (-7/10) 0, 1⟩]
  refine ⟨d, s, h, h1, fun i _ => ?_, ?_, ?_⟩
  · rw [h4, h5]; norm_num
  · rw [h6]; norm_num [at']
  · rw [h4]; norm_num [at']

/-- The hypotheses of `C39_fov_safe`. -/
example : ∃ lo hi : ℕ → ℚ, (∀ i < 2, lo i < hi i) ∧ (1/10 : ℚ) < 1/4 ∧ (1/4 : ℚ) ≤ 1/2 ∧ (0 : ℚ) ≤ 1/10 ∧
    (∀ i < 2, (1/10 : ℚ) ≤ (1/4 - 1/10) * (hi i - lo i)) :=
  ⟨fun _ => -1, fun _ => 1, by norm_num, by norm_num, by norm_num, by norm_num, by norm_num⟩

/-- **C39 fails past the security limit**: a point of the image that is past the security limit (where the
constraint is meant to be strongest) has no row, so any acceleration is accepted; here one that pushes the
point out of the image. -/
theorem C39_past_limit_counterexample : ∃ (d : SolverData ℚ) (s s' : Image ℚ) (x : ℕ → ℚ),
    ImageRun [rk] [SpeedEx.mb] SpeedEx.mb 0 "camera" (1/10) 1 true (some d) s ∧ d.alphaDBegin[0]? = some 0 ∧
    s.points = [⟨at' (-9/10) 0, 1⟩] ∧ s.sMin 0 = -4/5 ∧ s.update [SpeedEx.mb] env = .ok s' ∧
    SatInEq d.nrVars s'.inEq x ∧
    at' (-9/10) 0 0 + imgShift SpeedEx.mb [0, 1] env (1/10) 0 x ⟨at' (-9/10) 0, 1⟩ 0 < -1 := by
  obtain ⟨d, s, h, h1, h2, -, h4, h5, h6, h7, -, -⟩ :=
    exRun 1 (fun _ => -1) (fun _ => 1) (1/4) (1/10) (1/10) (1/10) [⟨at' (-9/10) 0, 1⟩]
  obtain ⟨s', a, e, k2, -, -, -, -, hsat⟩ := C39_fov_partial _ _ _ _ _ _ robot _ d s h env env_ok
    (fun i _ => by rw [h4, h5]; norm_num)
  rw [h2] at k2
  cases k2
  refine ⟨d, s, s', fun _ => -100, h, h2, h1, by rw [h6]; norm_num, e, (hsat _).mpr ?_, ?_⟩
  · intro pt hpt i hi
    rw [h1, List.mem_singleton] at hpt
    subst hpt
    rw [h4, h5, h6, h7]
    match i, hi with
    | 0, _ => exact ⟨fun c => by norm_num [at'] at c, fun c => by norm_num [at'] at c⟩
    | 1, _ => exact ⟨fun _ c => by norm_num [at'] at c, fun c => by norm_num [at'] at c⟩
  · have hn : (⟨[⟨"j0", 1, none⟩, ⟨"j1", 1, none⟩], 2, [-1, 0], [0, 1]⟩ : MultiBody ℚ).nrDof = 2 := by decide
    norm_num [hn, imgShift, imgVel, imgAcc, imgBias, at', env, dot6, Finset.sum_range_succ, onDofs,
      SpeedEx.mb, List.findIdx_cons, jpos, jdof, pathDof]

/-- **C39 fails for occlusion constraints**: a point in the zone that does not move, and whose
acceleration is zero, violates its row, although it does not approach the security limit: the row demands
a retreat. -/
theorem C39_occlusion_counterexample : ∃ (d : SolverData ℚ) (s s' : Image ℚ) (x : ℕ → ℚ),
    ImageRun [rk] [SpeedEx.mb] SpeedEx.mb 0 "camera" (1/10) (-1) true (some d) s ∧
    d.alphaDBegin[0]? = some 0 ∧ s.points = [⟨at' (-7/10) 0, 1⟩] ∧ s.iMin 0 = -3/4 ∧ s.sMin 0 = -3/5 ∧
    0 < s.damping ∧ s.update [SpeedEx.mb] env = .ok s' ∧
    imgShift SpeedEx.mb [0, 1] env (1/10) 0 x ⟨at' (-7/10) 0, 1⟩ 0 = 0 ∧ ¬ SatInEq d.nrVars s'.inEq x := by
  obtain ⟨d, s, h, h1, h2, -, h4, h5, h6, h7, h8, h9⟩ :=
    exRun (-1) (fun _ => -1/2) (fun _ => 1/2) (1/4) (1/10) (1/10) (1/10) [⟨at' (-7/10) 0, 1⟩]
  obtain ⟨s', a, e, k2, hsat⟩ := C39_occlusion_partial _ _ _ _ _ _ robot _ d s h env env_ok
  rw [h2] at k2
  cases k2
  have z : imgShift SpeedEx.mb [0, 1] env (1/10) 0 (fun _ => 0) ⟨at' (-7/10) 0, 1⟩ 0 = 0 := by
    norm_num [imgShift, imgVel, imgAcc, imgBias, env, dot6]
  refine ⟨d, s, s', fun _ => 0, h, h2, h1, by rw [h4]; norm_num, by rw [h6]; norm_num, by rw [h8]; norm_num, e,
    z, fun hx => ?_⟩
  have := ((hsat _).mp hx ⟨at' (-7/10) 0, 1⟩ (by rw [h1]; simp) 0 (by omega)
    (by rw [h4]; norm_num [at']) (by rw [h5]; norm_num [at'])).1 (by rw [h4]; norm_num [at'])
    (by rw [h6]; norm_num [at']) (by norm_num [at'])
  rw [z, h4, h6, h8, h9] at this
  norm_num [at'] at this

/-- **C39 fails for descriptions**: the first point has no row, so line 0 is the row of the second point,
but its description names the first. -/
theorem C39_desc_counterexample : ∃ (d : SolverData ℚ) (s s' : Image ℚ),
    ImageRun [rk] [SpeedEx.mb] SpeedEx.mb 0 "camera" (1/10) 1 true (some d) s ∧ d.alphaDBegin[0]? = some 0 ∧
    s.points = [⟨at' 0 0, 1⟩, ⟨at' (-7/10) 0, 1⟩] ∧ s.update [SpeedEx.mb] env = .ok s' ∧
    s'.inEq.nrInEq = 1 ∧ s'.desc 0 = some (0, 0) ∧
    ∀ x, SatInEq d.nrVars s'.inEq x ↔
      -(7 / 300) ≤ imgShift SpeedEx.mb [0, 1] env (1/10) 0 x ⟨at' (-7/10) 0, 1⟩ 0 := by
  obtain ⟨d, s, h, h1, h2, h3, h4, h5, h6, h7, h8, h9⟩ :=
    exRun 1 (fun _ => -1) (fun _ => 1) (1/4) (1/10) (1/10) (1/10) [⟨at' 0 0, 1⟩, ⟨at' (-7/10) 0, 1⟩]
  obtain ⟨s', a, e, k2, S', -, -, -, -, L', -⟩ := image_sat robot h env_ok
  obtain ⟨s'', a', e', k2', -, -, -, -, hsat⟩ := C39_fov_partial _ _ _ _ _ _ robot _ d s h env env_ok
    (fun i _ => by rw [h4, h5]; norm_num)
  rw [e] at e'
  cases e'
  rw [h2] at k2 k2'
  cases k2
  cases k2'
  refine ⟨d, s, s', h, h2, h1, e, ?_, ?_, fun x => ?_⟩
  · change s'.nrAct = 1
    rw [L'.1, h1]
    simp only [List.flatMap_cons, List.flatMap_nil, List.length_append, List.length_nil, pointRows, emitList,
      imgEmit, h3, h4, h5, h6, h7]
    norm_num [at']
  · unfold Image.desc
    rw [S'.points, h1]
    rfl
  · rw [hsat x, h1]
    constructor
    · intro hx
      have := (hx ⟨at' (-7/10) 0, 1⟩ (by simp) 0 (by omega)).1 (by rw [h6]; norm_num [at'])
        (by rw [h4]; norm_num [at'])
      rw [h4, h6, h8, h9] at this
      norm_num [at'] at this ⊢
      linarith
    · intro hx pt hpt i hi
      simp only [List.mem_cons, List.not_mem_nil, or_false] at hpt
      rw [h4, h5, h6, h7, h8, h9]
      rcases hpt with rfl | rfl
      · match i, hi with
        | 0, _ => exact ⟨fun _ c => by norm_num [at'] at c, fun c => by norm_num [at'] at c⟩
        | 1, _ => exact ⟨fun _ c => by norm_num [at'] at c, fun c => by norm_num [at'] at c⟩
      · match i, hi with
        | 0, _ =>
          refine ⟨fun _ _ => ?_, fun c => by norm_num [at'] at c⟩
          norm_num [at'] at hx ⊢
          linarith
        | 1, _ => exact ⟨fun _ c => by norm_num [at'] at c, fun c => by norm_num [at'] at c⟩

end ImgEx

end Verif
