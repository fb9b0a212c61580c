import Verif.Model.ContactConstr
import Verif.Props.WorldFrame

/-!
# C120: the choice of the world frame does not matter to the contact, collision and plane constraints

The robots and the hulls are the same, seen from another world frame (`W` is the pose of the old world in
the new one).
-/

set_option autoImplicit false

namespace Verif

namespace Spec
section
variable {K : Type} [Field K] [LinearOrder K]

/-- What the library of kinematics computes for a robot, seen from the new frame. -/
structure PointKin.SameIn (W : PT K) (r r' : PointKin K) : Prop where
  pos : r'.bodyPosW = r.bodyPosW.map fun X => X.mul W
  jac : ∀ b p, TurnedM (PT.turning W) 2 (r.jac b p) (r'.jac b p)
  vel : ∀ b p, r'.vel b p = (PT.turning W).mulVec (r.vel b p)
  normalAcc : ∀ b p, r'.normalAcc b p = (PT.turning W).mulVec (r.normalAcc b p)

/-- The pose of a hull seen from the new frame. -/
def SchPose.inWorld (W : PT K) (P : SchPose K) : SchPose K :=
  ⟨(PT.turning W).mul P.R, PT.point W P.t⟩

/-- The robots seen from the new frame; the closest points of two hulls that are moved together are the
points moved along. -/
structure CollEnv.SameIn (W : PT K) (e e' : CollEnv K) : Prop where
  robots : List.Forall₂ (PointKin.SameIn W) e.robots e'.robots
  closest : ∀ h1 P1 h2 P2, e'.closest h1 (SchPose.inWorld W P1) h2 (SchPose.inWorld W P2)
    = ((e.closest h1 P1 h2 P2).1, PT.point W (e.closest h1 P1 h2 P2).2.1,
        PT.point W (e.closest h1 P1 h2 P2).2.2)
  sqrt : e'.sqrt = e.sqrt
  eps : e'.eps = e.eps

/-- A pair: the closest points and the normal are given in the world, the rest is not. -/
def CollData.inWorld (W : PT K) (d : CollData K) : CollData K :=
  { d with
    p1 := PT.point W d.p1, p2 := PT.point W d.p2, normal := (PT.turning W).mulVec d.normal }

/-- The collision constraint with its pairs seen from the new frame: the same rows. -/
def Coll.inWorld (W : PT K) (s : Coll K) : Coll K := { s with data := s.data.map (CollData.inWorld W) }

/-- The updates of a run, one after the other, each with its state of the robots. -/
def Coll.run (mbs : List (MultiBody K)) (data : SolverData K) (es : List (CollEnv K))
    (st : Coll K × (ℕ → SchPose K)) : Out (Coll K × (ℕ → SchPose K)) :=
  forEach es (fun e st => Coll.update mbs data e st.2 st.1) st

/-- The plane seen from the new frame: the points `p` with `normal · p + offset = 0` are the same. -/
def PlaneData.inWorld (W : PT K) (d : PlaneData K) : PlaneData K :=
  { d with
    normal := (PT.turning W).mulVec d.normal
    normalDot := (PT.turning W).mulVec d.normalDot
    offset := d.offset - ((PT.turning W).mulVec d.normal).dot W.r
    speed := (PT.turning W).mulVec d.speed }

/-- The constraint on the CoM with its planes seen from the new frame: the same rows. -/
def ComPlane.inWorld (W : PT K) (s : ComPlane K) : ComPlane K :=
  { s with data := s.data.map (PlaneData.inWorld W) }

/-- The CoM seen from the new frame. -/
structure ComEnv.SameIn (W : PT K) (e e' : ComEnv K) : Prop where
  com : e'.com = PT.point W e.com
  jac : e'.jac.rows = e.jac.rows ∧ e'.jac.cols = e.jac.cols ∧ ∀ a < 3, ∀ k,
    e'.jac.get a k = turnAt (PT.turning W) (fun i => e.jac.get i k) a
  vel : e'.vel = (PT.turning W).mulVec e.vel
  normalAcc : e'.normalAcc = (PT.turning W).mulVec e.normalAcc

/-- The updates of a run of the constraint on the CoM. -/
def ComPlane.run (mbs : List (MultiBody K)) (es : List (ComEnv K)) (s : ComPlane K) : Out (ComPlane K) :=
  forEach es (fun e s => ComPlane.update mbs e s) s

/-- The library of kinematics computes `r` for a robot in the state `st`; `J` is the Jacobian object of a body
and a point of it. -/
structure Kinematics (mb : MultiBody K) (st : KState K) (J : String → V3 K → Jac K) (r : PointKin K) :
    Prop where
  pos : r.bodyPosW = st.bodyPosW
  jac : ∀ b p, (J b p).jacobian mb st = .ok (r.jac b p)
  vel : ∀ b p, ∃ v, (J b p).velocity st = .ok v ∧ r.vel b p = v.lin
  normalAcc : ∀ b p, ∃ v, (J b p).normalAcc st = .ok v ∧ r.normalAcc b p = v.lin

/-- The same for the centre of mass. -/
structure ComKinematics (bs : List (BodyM K)) (mb : MultiBody K) (st : KState K) (J : ComJac K)
    (e : ComEnv K) : Prop where
  com : computeCoM bs st = .ok e.com
  jac : J.jacobian mb st = .ok e.jac
  vel : J.velocity st = .ok e.vel
  normalAcc : J.normalAcc st = .ok e.normalAcc

/-- The same robots for a contact constraint seen from the new frame: the poses are moved, the Jacobian in
the axes of a frame is the same (`jacobianAt_inWorld`), and so is what is given in the frame of a body. -/
structure ContactEnv.SameIn (W : PT K) (e e' : ContactEnv K) : Prop where
  pos : e'.bodyPosW = e.bodyPosW.map fun l => l.map fun X => X.mul W
  jac : ∀ r p X, e'.jac r p (X.mul W) = e.jac r p X
  nacc : e'.nacc = e.nacc
  vel : e'.vel = e.vel
  transformError : e'.transformError = e.transformError
  rotXYZ : e'.rotXYZ = e.rotXYZ
  rotVel : e'.rotVel = e.rotVel

end
end Spec

open Spec

section
variable {K : Type} [Field K] [LinearOrder K]

/-! ## Vectors -/

omit [LinearOrder K] in
theorem dot_turning {W : PT K} (hW : W.Rigid) (a b : V3 K) :
    ((PT.turning W).mulVec a).dot ((PT.turning W).mulVec b) = a.dot b :=
  (turning_isRot hW).1.dot_mulVec a b

omit [LinearOrder K] in
theorem rows3Dot_turning {W : PT K} (hW : W.Rigid) (n : V3 K) (M M' : Mat K) (r c : ℕ)
    (h : ∀ a < 3, M'.get (r + a) c
      = ((PT.turning W).mulVec ⟨M.get r c, M.get (r + 1) c, M.get (r + 2) c⟩).get a) :
    rows3Dot ((PT.turning W).mulVec n) M' r c = rows3Dot n M r c := by
  have e := dot_turning hW n ⟨M.get r c, M.get (r + 1) c, M.get (r + 2) c⟩
  have h0 := h 0 (by omega)
  have h1 := h 1 (by omega)
  have h2 := h 2 (by omega)
  rw [Nat.add_zero] at h0
  unfold rows3Dot
  rw [h0, h1, h2]
  exact e

omit [LinearOrder K] in
theorem pointW_sub (W : PT K) (a b : V3 K) :
    PT.point W a - PT.point W b = (PT.turning W).mulVec (a - b) := by
  unfold PT.point PT.turning
  rw [M3.mulVec_sub, add_sub_add_left_eq_sub]

omit [LinearOrder K] in
theorem toBody_inWorld {W : PT K} (hW : W.Rigid) (X : PT K) (p : V3 K) :
    toBody (X.mul W) (PT.point W p) = toBody X p := by
  unfold toBody
  rw [ofTrans_point hW, PT.mul_assoc', mul_mul_inv hW]
  unfold PT.mul PT.ofRot
  simp [M3.mulVec_zero]

omit [LinearOrder K] in
theorem tosch_inWorld (W X : PT K) : tosch (X.mul W) = SchPose.inWorld W (tosch X) := by
  unfold tosch SchPose.inWorld PT.mul PT.point PT.turning
  simp only [M3.transpose_mul]

omit [LinearOrder K] in
theorem block_turning {W : PT K} (hW : W.Rigid) {M M' : Mat K} (h : TurnedM (PT.turning W) 2 M M')
    (dof : ℕ) :
    Out.Rel (fun j j' : Mat K => ∀ n c,
        rows3Dot ((PT.turning W).mulVec n) j' 0 c = rows3Dot n j 0 c)
      (M.block 3 0 3 dof) (M'.block 3 0 3 dof) :=
  (block_bottom h dof).mono fun j j' hj n c => rows3Dot_turning hW n _ _ 0 c fun a ha => by
    rw [Nat.zero_add, hj.2.2.2 a (by omega) c]
    unfold turnAt
    interval_cases a <;> rfl

theorem vecAt_forall2_rel {α β : Type} {R : α → β → Prop} {l : List α} {l' : List β}
    (h : List.Forall₂ R l l') (i : ℕ) : Out.Rel R (vecAt l i) (vecAt l' i) := by
  unfold vecAt
  induction h generalizing i with
  | nil => simp [Out.Rel]
  | cons hr _ ih =>
    cases i with
    | zero => simpa [Out.Rel] using hr
    | succ i => simpa using ih i

omit [LinearOrder K] in
theorem pointKin_poseW {W : PT K} {r r' : PointKin K} (h : PointKin.SameIn W r r') (i : ℕ) :
    Out.Rel (fun X X' => X' = X.mul W) (vecAt r.bodyPosW i) (vecAt r'.bodyPosW i) := by
  rw [h.pos]
  exact vecAt_map_rel (fun X : PT K => X.mul W) r.bodyPosW i

/-! ## Collisions -/

omit [LinearOrder K] in
theorem moveHulls_inWorld {W : PT K} {e e' : CollEnv K} (he : CollEnv.SameIn W e e') (l : List (BodyColl K)) (P : ℕ → SchPose K) :
    Out.Rel (fun P P' => P' = fun h => SchPose.inWorld W (P h)) (moveHulls e l P)
      (moveHulls e' l fun h => SchPose.inWorld W (P h)) := by
  unfold moveHulls
  refine forEach_rel2 l rfl fun b _ Q Q' hQ => ?_
  subst hQ
  refine (vecAt_forall2_rel he.robots b.rIndex).bind fun r r' hr => ?_
  refine (pointKin_poseW hr b.bIndex).bind fun X X' hX => ?_
  subst hX
  refine funext fun h => ?_
  dsimp only
  by_cases c : h = b.hull
  · rw [if_pos c, if_pos c, ← PT.mul_assoc', tosch_inWorld]
  · rw [if_neg c, if_neg c]

theorem fdivV_turning (W : PT K) (v : V3 K) (c : K) :
    Out.Rel (fun a b => b = (PT.turning W).mulVec a) (fdivV v c)
      (fdivV ((PT.turning W).mulVec v) c) := by
  unfold fdivV
  split
  · trivial
  · exact (M3.mulVec_smul _ _ _).symm

omit [LinearOrder K] in
theorem setPoints_inWorld {W : PT K} (hW : W.Rigid) {e e' : CollEnv K}
    (he : CollEnv.SameIn W e e') (p1 p2 : V3 K)
    (l : List (BodyColl K)) :
    Out.Rel (fun a b => b = a) (setPoints e p1 p2 l)
      (setPoints e' (PT.point W p1) (PT.point W p2) l) := by
  unfold setPoints
  refine Out.Rel.bind (P := fun (s s' : List (BodyColl K) × V3 K) => s' = (s.1, PT.point W s.2)) ?_ ?_
  · refine forEach_rel2 l rfl fun b _ s s' hs => ?_
    subst hs
    refine (vecAt_forall2_rel he.robots b.rIndex).bind fun r r' hr => ?_
    refine (pointKin_poseW hr b.bIndex).bind fun X X' hX => ?_
    subst hX
    dsimp only
    rw [toBody_inWorld hW]
    exact rfl
  · rintro s s' rfl
    exact rfl

theorem collDamping_inWorld {W : PT K} (hW : W.Rigid) {e e' : CollEnv K}
    (he : CollEnv.SameIn W e e') (d : CollData K) (n : V3 K)
    (dist : K) : Out.Rel (fun a b => b = a) (collDamping e d n dist)
      (collDamping e' (CollData.inWorld W d) ((PT.turning W).mulVec n) dist) := by
  unfold collDamping
  refine Out.Rel.bind (P := fun (s s' : V3 K × K) => s' = ((PT.turning W).mulVec s.1, s.2)) ?_ ?_
  · refine forEach_rel2 d.bodies (by rw [M3.mulVec_zero]) fun b _ s s' hs => ?_
    subst hs
    refine (vecAt_forall2_rel he.robots b.rIndex).bind fun r r' hr => ?_
    change (_, _) = (_, _)
    rw [M3.mulVec_add, M3.mulVec_smul, ← hr.vel]
  · rintro s s' rfl
    dsimp only
    rw [dot_turning hW]
    exact Out.Rel.refl _ fun _ _ => rfl

omit [LinearOrder K] in
theorem collBody_inWorld {W : PT K} (hW : W.Rigid) (mbs : List (MultiBody K)) (data : SolverData K)
    {e e' : CollEnv K} (he : CollEnv.SameIn W e e') (step : K) (row : ℕ) (nf dn : V3 K) (b : BodyColl K) (s : CollRow K) :
    Out.Rel (fun a b => b = a) (collBody mbs data e step row nf dn b s)
      (collBody mbs data e' step row ((PT.turning W).mulVec nf)
        ((PT.turning W).mulVec dn) b s) := by
  unfold collBody
  refine Out.Rel.same _ fun mb _ => ?_
  refine (vecAt_forall2_rel he.robots b.rIndex).bind fun r r' hr => ?_
  refine (block_turning hW (hr.jac b.body b.point) (pathDof mb b.path)).bind fun j j' hj => ?_
  have e1 : (fun (_ c : ℕ) => rows3Dot ((step * s.sign) • (PT.turning W).mulVec nf) j' 0 c)
      = fun (_ c : ℕ) => rows3Dot ((step * s.sign) • nf) j 0 c := by
    funext _ c
    rw [← M3.mulVec_smul, hj]
  have e2 : ∀ v w, ((PT.turning W).mulVec v).dot (step • (PT.turning W).mulVec w) = v.dot (step • w) := by
    intro v w
    rw [← M3.mulVec_smul, dot_turning hW]
  rw [e1]
  dsimp only
  rw [hr.vel, hr.normalAcc, e2, dot_turning hW, dot_turning hW]
  exact Out.Rel.refl _ fun _ _ => rfl

theorem collGeom_inWorld {W : PT K} (hW : W.Rigid) {e e' : CollEnv K} (he : CollEnv.SameIn W e e')
    (d : CollData K) (P : ℕ → SchPose K) :
    Out.Rel (fun a b => b = ((fun h => SchPose.inWorld W (a.1 h)), CollData.inWorld W a.2.1,
          (PT.turning W).mulVec a.2.2))
      (collGeom e d P)
      (collGeom e' (CollData.inWorld W d) fun h => SchPose.inWorld W (P h)) := by
  unfold collGeom
  refine (moveHulls_inWorld he d.bodies P).bind fun Q Q' hQ => ?_
  subst hQ
  have h : e'.closest (CollData.inWorld W d).hull1
        (SchPose.inWorld W (Q (CollData.inWorld W d).hull1)) (CollData.inWorld W d).hull2
        (SchPose.inWorld W (Q (CollData.inWorld W d).hull2)) = _ := he.closest d.hull1 (Q d.hull1) d.hull2 (Q d.hull2)
  have hs : ∀ x, signedRoot e' x = signedRoot e x := fun x => by
    unfold signedRoot
    rw [he.sqrt]
  rw [h]
  dsimp only
  rw [pointW_sub, hs, he.eps]
  refine (fdivV_turning W _ _).bind fun n n' hn => ?_
  subst hn
  refine (setPoints_inWorld hW he _ _ d.bodies).bind fun l l' hl => ?_
  subst hl
  exact rfl

theorem collActivate_inWorld {W : PT K} (hW : W.Rigid) {e e' : CollEnv K}
    (he : CollEnv.SameIn W e e') (d : CollData K) (n : V3 K) :
    Out.Rel (fun a b => b = CollData.inWorld W a) (collActivate e d n)
      (collActivate e' (CollData.inWorld W d) ((PT.turning W).mulVec n)) := by
  unfold collActivate
  by_cases h : d.dtype = .free
  · rw [if_pos h, if_pos (show (CollData.inWorld W d).dtype = .free from h)]
    refine (collDamping_inWorld hW he d n d.distance).bind fun c c' hc => ?_
    subst hc
    exact rfl
  · rw [if_neg h, if_neg (show ¬(CollData.inWorld W d).dtype = .free from h)]
    exact rfl

theorem collRow_inWorld {W : PT K} (hW : W.Rigid) (mbs : List (MultiBody K)) (data : SolverData K)
    {e e' : CollEnv K} (he : CollEnv.SameIn W e e') (d : CollData K) (n : V3 K) (s : Coll K) :
    Out.Rel (fun a b => b = Coll.inWorld W a) (collRow mbs data e d n s)
      (collRow mbs data e' (CollData.inWorld W d) ((PT.turning W).mulVec n)
        (Coll.inWorld W s)) := by
  unfold collRow
  refine Out.Rel.same _ fun f _ => ?_
  have h := fdivV_turning W (n - d.normal) s.step
  rw [M3.mulVec_sub] at h
  refine Out.Rel.bind h fun v v' hv => ?_
  subst hv
  refine Out.Rel.same _ fun t _ => Out.Rel.same _ fun b _ => Out.Rel.same _ fun A _ => ?_
  refine Out.Rel.bind (P := fun a b => b = a) ?_ fun r r' hr => ?_
  · refine forEach_rel2 d.bodies rfl fun b _ s1 s2 hs => ?_
    subst hs
    have := collBody_inWorld hW mbs data he s.step s.nrAct n (s.step • v) b s2
    rwa [M3.mulVec_smul] at this
  · subst hr
    exact rfl

theorem vecSet_map_rel {α β : Type} (φ : α → β) (l : List α) (i : ℕ) (x : α) :
    Out.Rel (fun a b => b = a.map φ) (vecSet l i x) (vecSet (l.map φ) i (φ x)) := by
  unfold vecSet
  rw [List.length_map]
  split
  · exact (List.map_set ..).symm
  · trivial

theorem pairStep_inWorld {W : PT K} (hW : W.Rigid) (mbs : List (MultiBody K)) (data : SolverData K)
    {e e' : CollEnv K} (he : CollEnv.SameIn W e e') (i : ℕ) (st : Coll K × (ℕ → SchPose K)) :
    Out.Rel (fun a b => b = (Coll.inWorld W a.1, fun h => SchPose.inWorld W (a.2 h)))
      (Coll.pairStep mbs data e i st)
      (Coll.pairStep mbs data e' i
        (Coll.inWorld W st.1, fun h => SchPose.inWorld W (st.2 h))) := by
  unfold Coll.pairStep
  refine (vecAt_map_rel (CollData.inWorld W) st.1.data i).bind fun d d' hd => ?_
  subst hd
  refine (collGeom_inWorld hW he d st.2).bind fun g g' hg => ?_
  subst hg
  obtain ⟨P, d1, n⟩ := g
  dsimp only
  by_cases h : d1.distance < d1.di
  · rw [if_pos h, if_pos (show (CollData.inWorld W d1).distance < (CollData.inWorld W d1).di from h)]
    refine (collActivate_inWorld hW he d1 n).bind fun d2 d2' h2 => ?_
    subst h2
    refine (collRow_inWorld hW mbs data he d2 n st.1).bind fun s1 s1' h1 => ?_
    subst h1
    refine (vecSet_map_rel (CollData.inWorld W) s1.data i { d2 with normal := n }).bind fun l l' hl => ?_
    subst hl
    exact rfl
  · rw [if_neg h, if_neg (show ¬(CollData.inWorld W d1).distance < (CollData.inWorld W d1).di from h)]
    refine (vecSet_map_rel (CollData.inWorld W) st.1.data i { d1 with
      normal := n, dtype := if d1.dtype = .soft then .free else d1.dtype }).bind fun l l' hl => ?_
    subst hl
    exact rfl

/-- An update of the collision constraint computes the same rows, distances and dampings in both frames, and
the closest points and the normals of the pairs as the same points and vectors in the new coordinates; it
is undefined in one exactly when it is in the other. -/
theorem C120_collision {W : PT K} (hW : W.Rigid) (mbs : List (MultiBody K)) (data : SolverData K)
    {e e' : CollEnv K} (he : CollEnv.SameIn W e e') (P : ℕ → SchPose K) (s : Coll K) :
    Out.Rel (fun a b => b = (Coll.inWorld W a.1, fun h => SchPose.inWorld W (a.2 h)))
      (Coll.update mbs data e P s)
      (Coll.update mbs data e' (fun h => SchPose.inWorld W (P h))
        (Coll.inWorld W s)) := by
  unfold Coll.update
  have : (Coll.inWorld W s).data.length = s.data.length := List.length_map _
  rw [this]
  refine forRange_rel2 _ rfl fun i st st' hs => ?_
  subst hs
  exact pairStep_inWorld hW mbs data he i st

omit [LinearOrder K] in
/-- What the QP gets of the constraint is the same. -/
theorem C120_collision_rows (W : PT K) (s : Coll K) : (Coll.inWorld W s).inEq = s.inEq := by
  unfold Coll.inEq Coll.inWorld
  rw [List.length_map]

/-- The same over a run of any length. -/
theorem C120_collision_run {W : PT K} (hW : W.Rigid) (mbs : List (MultiBody K)) (data : SolverData K)
    {es es' : List (CollEnv K)} (he : List.Forall₂ (CollEnv.SameIn W) es es') (P : ℕ → SchPose K)
    (s : Coll K) :
    Out.Rel (fun a b => b = (Coll.inWorld W a.1, fun h => SchPose.inWorld W (a.2 h))
        ∧ b.1.inEq = a.1.inEq)
      (Coll.run mbs data es (s, P))
      (Coll.run mbs data es' (Coll.inWorld W s, fun h => SchPose.inWorld W (P h))) := by
  refine Out.Rel.mono (P := fun a b => b = (Coll.inWorld W a.1, fun h => SchPose.inWorld W (a.2 h))) ?_
    fun a b h => ⟨h, by rw [h]; exact C120_collision_rows W a.1⟩
  unfold Coll.run
  induction he generalizing P s with
  | nil => exact rfl
  | cons h _ ih =>
    simp only [forEach]
    refine (C120_collision hW mbs data h P s).bind fun a b h => ?_
    subst h
    exact ih a.2 a.1

/-- The description of a violated row names the same pair. -/
theorem C120_collision_desc {W : PT K} {e e' : CollEnv K} (he : CollEnv.SameIn W e e')
    (P : ℕ → SchPose K) (line : ℕ) (s : Coll K) :
    Coll.descInEq e' (fun h => SchPose.inWorld W (P h)) line (Coll.inWorld W s)
      = (Coll.descInEq e P line s).map (CollData.inWorld W) := by
  unfold Coll.descInEq Coll.inWorld
  dsimp only
  rw [List.filter_map, List.getElem?_map]
  congr 2
  refine List.filter_congr fun d _ => ?_
  have h := he.closest d.hull1 (P d.hull1) d.hull2 (P d.hull2)
  have h' : e'.closest (CollData.inWorld W d).hull1
        (SchPose.inWorld W (P (CollData.inWorld W d).hull1)) (CollData.inWorld W d).hull2
        (SchPose.inWorld W (P (CollData.inWorld W d).hull2)) = _ := h
  dsimp only [Function.comp]
  rw [h']
  unfold signedRoot
  rw [he.sqrt]
  rfl

/-! ## Planes -/

omit [LinearOrder K] in
theorem plane_dist {W : PT K} (hW : W.Rigid) (d : PlaneData K) (p : V3 K) :
    (PlaneData.inWorld W d).normal.dot (PT.point W p) + (PlaneData.inWorld W d).offset
      = d.normal.dot p + d.offset := by
  have h := dot_turning hW d.normal p
  have e : PT.point W p = W.r + (PT.turning W).mulVec p := rfl
  dsimp only [PlaneData.inWorld]
  rw [e, V3.dot_add, h]
  ring

theorem planeScan_inWorld {W : PT K} (hW : W.Rigid) (com : V3 K) (l : List (PlaneData K)) :
    planeScan (PT.point W com) (l.map (PlaneData.inWorld W))
      = ((planeScan com l).1.map (PlaneData.inWorld W), (planeScan com l).2) := by
  unfold planeScan
  refine Prod.ext ?_ ?_
  · dsimp only
    rw [List.map_map, List.map_map]
    refine List.map_congr_left fun d _ => ?_
    dsimp only [Function.comp]
    rw [plane_dist hW]
    rfl
  · dsimp only
    rw [List.length_map]
    refine List.filter_congr fun i _ => ?_
    rw [List.getElem?_map]
    cases l[i]? with
    | none => rfl
    | some d =>
      change decide (_ ≤ _) = decide (_ ≤ _)
      rw [plane_dist hW]
      rfl

theorem planeActivate_inWorld (W : PT K) (v : K) (d : PlaneData K) :
    Out.Rel (fun a b => b = PlaneData.inWorld W a) (planeActivate v d)
      (planeActivate v (PlaneData.inWorld W d)) := by
  unfold planeActivate
  by_cases h : d.dtype = .free
  · rw [if_pos h, if_pos (show (PlaneData.inWorld W d).dtype = .free from h)]
    exact Out.Rel.same _ fun f _ => rfl
  · rw [if_neg h, if_neg (show ¬(PlaneData.inWorld W d).dtype = .free from h)]
    exact rfl

theorem planeRow_inWorld {W : PT K} (hW : W.Rigid) (mb : MultiBody K) {e e' : ComEnv K} (he : ComEnv.SameIn W e e') (i : ℕ)
    (s : ComPlane K) :
    Out.Rel (fun a b => b = ComPlane.inWorld W a) (ComPlane.row mb e i s)
      (ComPlane.row mb e' i (ComPlane.inWorld W s)) := by
  unfold ComPlane.row
  refine (vecAt_map_rel (PlaneData.inWorld W) s.data i).bind fun d0 d0' h0 => ?_
  subst h0
  have e1 : (PlaneData.inWorld W d0).normal.dot (e'.vel - (PlaneData.inWorld W d0).speed)
      = d0.normal.dot (e.vel - d0.speed) := by
    dsimp only [PlaneData.inWorld]
    rw [he.vel, ← M3.mulVec_sub, dot_turning hW]
  have e2 : (PlaneData.inWorld W d0).normalDot.dot
        (e'.vel - (PlaneData.inWorld W d0).speed)
      = d0.normalDot.dot (e.vel - d0.speed) := by
    dsimp only [PlaneData.inWorld]
    rw [he.vel, ← M3.mulVec_sub, dot_turning hW]
  dsimp only
  rw [e1, e2]
  refine (planeActivate_inWorld W _ d0).bind fun d d' hd => ?_
  subst hd
  rw [he.jac.1, he.jac.2.1]
  refine Out.Rel.same _ fun f _ => Out.Rel.same _ fun a _ => Out.Rel.same _ fun _ _ => ?_
  have e3 : (fun (_ c : ℕ) => rows3Dot (-(s.step • (PlaneData.inWorld W d).normal))
        e'.jac 0 c * s.selector.get c)
      = fun (_ c : ℕ) => rows3Dot (-(s.step • d.normal)) e.jac 0 c * s.selector.get c := by
    funext _ c
    dsimp only [PlaneData.inWorld]
    rw [← M3.mulVec_smul, ← M3.mulVec_neg]
    congr 1
    refine rows3Dot_turning hW _ _ _ 0 c fun a ha => ?_
    rw [Nat.zero_add, he.jac.2.2 a ha c]
    unfold turnAt
    interval_cases a <;> rfl
  have e4 : (PlaneData.inWorld W d).normal.dot e'.normalAcc = d.normal.dot e.normalAcc := by
    rw [he.normalAcc]
    exact dot_turning hW _ _
  dsimp only [ComPlane.inWorld]
  rw [e3, e4]
  refine Out.Rel.same _ fun A _ => Out.Rel.same _ fun b _ => ?_
  refine (vecSet_map_rel (PlaneData.inWorld W) s.data i d).bind fun l l' hl => ?_
  subst hl
  exact rfl

/-- An update of the constraint on the CoM with respect to planes computes the same rows, distances and
dampings in both frames when the planes are given in the frame used. -/
theorem C120_plane {W : PT K} (hW : W.Rigid) (mbs : List (MultiBody K)) {e e' : ComEnv K}
    (he : ComEnv.SameIn W e e') (s : ComPlane K) :
    Out.Rel (fun a b => b = ComPlane.inWorld W a) (ComPlane.update mbs e s)
      (ComPlane.update mbs e' (ComPlane.inWorld W s)) := by
  unfold ComPlane.update
  refine Out.Rel.same _ fun mb _ => Out.Rel.same _ fun _ _ => ?_
  have h : planeScan (PT.point W e.com) (ComPlane.inWorld W s).data = _ :=
    planeScan_inWorld hW e.com s.data
  dsimp only
  rw [he.com, h]
  dsimp only
  refine forEach_rel2 _ rfl fun i _ a b hab => ?_
  subst hab
  exact planeRow_inWorld hW mb he i _

omit [LinearOrder K] in
/-- What the QP gets of the constraint is the same. -/
theorem C120_plane_rows (W : PT K) (s : ComPlane K) : (ComPlane.inWorld W s).inEq = s.inEq := by
  unfold ComPlane.inEq ComPlane.inWorld
  rw [List.length_map]

/-- The same over a run of any length. -/
theorem C120_plane_run {W : PT K} (hW : W.Rigid) (mbs : List (MultiBody K)) {es es' : List (ComEnv K)}
    (he : List.Forall₂ (ComEnv.SameIn W) es es') (s : ComPlane K) :
    Out.Rel (fun a b => b = ComPlane.inWorld W a ∧ b.inEq = a.inEq) (ComPlane.run mbs es s)
      (ComPlane.run mbs es' (ComPlane.inWorld W s)) := by
  refine Out.Rel.mono (P := fun a b => b = ComPlane.inWorld W a) ?_
    fun a b h => ⟨h, by rw [h]; exact C120_plane_rows W a⟩
  unfold ComPlane.run
  induction he generalizing s with
  | nil => exact rfl
  | cons h _ ih =>
    simp only [forEach]
    refine (C120_plane hW mbs h s).bind fun a b h => ?_
    subst h
    exact ih a

/-- The description of a violated row names the same plane. -/
theorem C120_plane_desc (W : PT K) (line : ℕ) (s : ComPlane K) :
    ComPlane.descInEq line (ComPlane.inWorld W s)
      = (ComPlane.descInEq line s).map (PlaneData.inWorld W) := by
  unfold ComPlane.descInEq ComPlane.inWorld
  dsimp only
  rw [List.filter_map, List.getElem?_map]
  rfl

/-! ## Contacts -/

theorem Out.Rel.eq' {α : Type} {x y : Out α} (h : Out.Rel (fun a b => b = a) x y) : y = x := by
  cases x <;> cases y <;> simp_all [Out.Rel]

omit [LinearOrder K] in
theorem pose_inWorld {W : PT K} {e e' : ContactEnv K} (h : ContactEnv.SameIn W e e') (r b : ℕ) :
    Out.Rel (fun X X' => X' = X.mul W) (e.pose r b) (e'.pose r b) := by
  unfold ContactEnv.pose
  rw [h.pos]
  refine (vecAt_map_rel (fun l : List (PT K) => l.map fun X => X.mul W) e.bodyPosW r).bind
    fun l l' hl => ?_
  subst hl
  exact vecAt_map_rel (fun X : PT K => X.mul W) l b

omit [LinearOrder K] in
theorem adjust_inWorld {W : PT K} (hW : W.Rigid) {e e' : ContactEnv K} (h : ContactEnv.SameIn W e e')
    (c : ContactData K) (X : PT K) : c.adjust e' X = c.adjust e X := by
  refine Out.Rel.eq' ?_
  unfold ContactData.adjust
  refine (pose_inWorld h c.r1 c.b1).bind fun X1 X1' h1 => ?_
  subst h1
  refine (pose_inWorld h c.r2 c.b2).bind fun X2 X2' h2 => ?_
  subst h2
  rw [mul_mul_inv hW, h.transformError, h.rotXYZ]
  exact Out.Rel.refl _ fun _ _ => rfl

theorem contactUpdate_inWorld {W : PT K} (hW : W.Rigid) {e e' : ContactEnv K}
    (h : ContactEnv.SameIn W e e') (c : ContactData K) : c.update e' = c.update e := by
  unfold ContactData.update
  simp only [adjust_inWorld hW h]

theorem contactSide_inWorld {W : PT K} {e e' : ContactEnv K} (h : ContactEnv.SameIn W e e')
    (mbs : List (MultiBody K)) (kind : ContactKind K) (dof : Mat K) (index : ℕ) (c : ContactSide K)
    (B : ContactBuf K) : contactSide mbs e' kind dof index c B = contactSide mbs e kind dof index c B := by
  refine Out.Rel.eq' ?_
  unfold contactSide
  refine Out.Rel.same _ fun mb _ => ?_
  refine (pose_inWorld h c.robotIndex c.bodyIndex).bind fun X X' hX => ?_
  subst hX
  have hb : contactBias e' kind c = contactBias e kind c := by
    unfold contactBias
    rw [h.nacc, h.vel]
  rw [← PT.mul_assoc', h.jac, hb]
  exact Out.Rel.refl _ fun _ _ => rfl

omit [LinearOrder K] in
theorem contactError_inWorld {W : PT K} (hW : W.Rigid) {e e' : ContactEnv K}
    (h : ContactEnv.SameIn W e e') (c : ContactData K) : contactError e' c = contactError e c := by
  refine Out.Rel.eq' ?_
  have hI : ∀ i : ℤ, Out.Rel (fun (l l' : List (PT K)) => l' = l.map fun X => X.mul W)
      (vecAtI e.bodyPosW i) (vecAtI e'.bodyPosW i) := by
    intro i
    rw [h.pos]
    unfold vecAtI
    split
    · trivial
    · exact vecAt_map_rel (fun l : List (PT K) => l.map fun X => X.mul W) e.bodyPosW _
  unfold contactError
  refine (hI _).bind fun l1 l1' h1 => ?_
  subst h1
  refine (vecAt_map_rel (fun X : PT K => X.mul W) l1 c.b1).bind fun X1 X1' h1 => ?_
  subst h1
  refine (hI _).bind fun l2 l2' h2 => ?_
  subst h2
  refine (vecAt_map_rel (fun X : PT K => X.mul W) l2 c.b2).bind fun X2 X2' h2 => ?_
  subst h2
  dsimp only
  rw [← PT.mul_assoc' c.X_b1_cf X1 W, ← PT.mul_assoc' _ X2 W, mul_mul_inv hW, h.rotVel]
  exact Out.Rel.refl _ fun _ _ => rfl

/-- An update of any of the three contact constraints does the same in both frames: the same rows, the same
corrected contact frames, undefined in the same cases. -/
theorem C120_contact {W : PT K} (hW : W.Rigid) {e e' : ContactEnv K} (h : ContactEnv.SameIn W e e')
    (mbs : List (MultiBody K)) (kind : ContactKind K) (s : ContactC K) :
    ContactC.update mbs e' kind s = ContactC.update mbs e kind s := by
  have hp : ∀ c i B, contactPosTerm e' kind c i B = contactPosTerm e kind c i B := by
    intro c i B
    unfold contactPosTerm
    simp only [contactError_inWorld hW h]
  have hs : contactSide mbs e' kind = contactSide mbs e kind := by
    funext dof index c B
    exact contactSide_inWorld h mbs kind dof index c B
  have hstep : contactStep mbs e' kind = contactStep mbs e kind := by
    funext c st
    unfold contactStep
    simp only [contactUpdate_inWorld hW h, hp, hs]
  unfold ContactC.update
  rw [hstep]

/-! ## What the library of kinematics computes -/

omit [LinearOrder K] in
/-- The hypotheses on the robots hold for what RBDyn computes (the formulas of `Model/Kine.lean`): poses of the
same configuration, velocities of the bodies in their own frames. -/
theorem C120_kinematics {W : PT K} (hW : W.Rigid) {mb : MultiBody K} {st : KState K}
    {J : String → V3 K → Jac K} {r r' : PointKin K} (h : Kinematics mb st J r)
    (h' : Kinematics mb (KState.inWorld W st) J r') : PointKin.SameIn W r r' where
  pos := h'.pos.trans (by rw [h.pos]; rfl)
  jac b p := by
    have := jacobian_turn hW mb st (J b p)
    rwa [h.jac, h'.jac] at this
  vel b p := by
    obtain ⟨v, h1, h2⟩ := h.vel b p
    obtain ⟨v', h1', h2'⟩ := h'.vel b p
    have := velocity_turn W st (J b p)
    rw [h1, h1'] at this
    rw [h2, h2', show v' = _ from this]
    rfl
  normalAcc b p := by
    obtain ⟨v, h1, h2⟩ := h.normalAcc b p
    obtain ⟨v', h1', h2'⟩ := h'.normalAcc b p
    have := normalAcc_turn hW st (J b p)
    rw [h1, h1'] at this
    rw [h2, h2', show v' = _ from this]
    rfl

/-- The same for the centre of mass. -/
theorem C120_com_kinematics [IsStrictOrderedRing K] {W : PT K} (hW : W.Rigid) {bs : List (BodyM K)} {mb : MultiBody K}
    {st : KState K} {J : ComJac K} {e e' : ComEnv K} (h : ComKinematics bs mb st J e)
    (h' : ComKinematics bs mb (KState.inWorld W st) J e') : ComEnv.SameIn W e e' where
  com := by
    have := computeCoM_point W bs st
    rwa [h.com, h'.com] at this
  jac := by
    have := comJac_jacobian_turn hW mb st J
    rw [h.jac, h'.jac] at this
    rw [show e'.jac = _ from this]
    exact ⟨rfl, rfl, fun a ha k => if_pos (by omega)⟩
  vel := by
    have := comJac_velocity_turn W st J
    rwa [h.vel, h'.vel] at this
  normalAcc := by
    have := comJac_normalAcc_turn hW st J
    rwa [h.normalAcc, h'.normalAcc] at this

omit [LinearOrder K] in
/-- The same for the contacts: the Jacobian at a frame, and the velocity and the normal acceleration at a frame
given on the body. -/
theorem C120_contact_kinematics {W : PT K} (hW : W.Rigid) (mb : MultiBody K) (st : KState K) (J : Jac K)
    (X : PT K) (v : MV K) :
    J.jacobianAt mb (KState.inWorld W st) (X.mul W) = J.jacobianAt mb st X ∧
    J.velocityAt (KState.inWorld W st) X = J.velocityAt st X ∧
    J.normalAccAt (KState.inWorld W st) X v = J.normalAccAt st X v :=
  ⟨jacobianAt_inWorld hW mb st J X, rfl, rfl⟩

end

/-! ## Concrete cases -/

namespace WorldConstrEx

open WorldEx (W W_rigid)

def mb1 : MultiBody ℚ := ⟨[⟨"slide", 1, none⟩], 1, [-1], [0]⟩

/-- The CoM at (2, 0, 0), one joint that moves it along `x`. -/
def com : ComEnv ℚ := ⟨⟨2, 0, 0⟩, ⟨3, 1, fun i _ => if i = 0 then 1 else 0⟩, ⟨-1, 0, 0⟩, ⟨1, 0, 0⟩⟩

/-- The same in the frame `W`: the joint moves it along `y`. -/
def com' : ComEnv ℚ :=
  ⟨⟨1, 4, 3⟩, ⟨3, 1, fun i _ => if i = 1 then 1 else 0⟩, ⟨0, -1, 0⟩, ⟨0, 1, 0⟩⟩

theorem com_same : ComEnv.SameIn W com com' where
  com := by decide +kernel
  jac := by
    refine ⟨rfl, rfl, fun a ha k => ?_⟩
    interval_cases a <;> simp [com, com', turnAt, PT.turning, W, M3.mulVec, M3.transpose, V3.dot, V3.get]
  vel := by decide +kernel
  normalAcc := by decide +kernel

/-- The plane `x = 1`. -/
def planes : ComPlane ℚ := ⟨0, some 0, [⟨⟨1, 0, 0⟩, ⟨0, 0, 0⟩, -1, 0, 2, 1 / 2, 3, 5, .hard, 0, ⟨0, 0, 0⟩⟩],
  1 / 10, 1, 0, ⟨1, fun _ => 1⟩, Mat.zero 1 1, ⟨1, fun _ => 0⟩⟩

/-- The same plane in the frame `W`: `y = 3`. -/
def planes' : ComPlane ℚ := { planes with
  data := [⟨⟨0, 1, 0⟩, ⟨0, 0, 0⟩, -3, 0, 2, 1 / 2, 3, 5, .hard, 0, ⟨0, 0, 0⟩⟩] }

/-- The row an update gives: `A`, `b` and the distance. -/
def row (e : ComEnv ℚ) (s : ComPlane ℚ) : Out (ℚ × ℚ × List ℚ) := do
  let s ← ComPlane.update [mb1] e s
  pure (s.A.get 0 0, s.b.get 0, s.data.map fun d => d.dist)

example : row com planes = .ok (-1 / 10, 1 / 10, [1]) := by decide +kernel
example : row com' planes' = .ok (-1 / 10, 1 / 10, [1]) := by decide +kernel

/-- With the plane left as it was given for the other frame: another row. -/
example : row com' planes ≠ row com planes := by decide +kernel

example : (ComPlane.inWorld W planes).data.map (fun d => (d.normal, d.offset)) = [(⟨0, 1, 0⟩, -3)] := by
  decide +kernel

/-- Two points on sliders along `x`, at 0 and at `p`, the first with velocity `v`. -/
def slider (p v : ℚ) : PointKin ℚ :=
  ⟨[⟨M3.one, ⟨p, 0, 0⟩⟩], fun _ _ => ⟨6, 1, fun i _ => if i = 3 then 1 else 0⟩,
   fun _ _ => ⟨v, 0, 0⟩, fun _ _ => 0⟩

/-- The same in the frame `W`. -/
def slider' (p v : ℚ) : PointKin ℚ :=
  ⟨[⟨W.E, ⟨1, 2 + p, 3⟩⟩], fun _ _ => ⟨6, 1, fun i _ => if i = 4 then 1 else 0⟩,
   fun _ _ => ⟨0, v, 0⟩, fun _ _ => 0⟩

theorem slider_same (p v : ℚ) : PointKin.SameIn W (slider p v) (slider' p v) where
  pos := by
    simp [slider, slider', PT.mul, W, M3.mul, M3.one, M3.mulVec, M3.transpose, V3.dot]
    ext <;> simp
  jac _ _ := by
    refine ⟨rfl, rfl, rfl, fun a ha k => ?_⟩
    interval_cases a <;>
      simp [slider, slider', turnAt, PT.turning, W, M3.mulVec, M3.transpose, V3.dot, V3.get]
  vel _ _ := by simp [slider, slider', PT.turning, W, M3.mulVec, M3.transpose, V3.dot]
  normalAcc _ _ := (M3.mulVec_zero _).symm

/-- Hulls reduced to points; the square root is right for the distance 1 of the example. -/
def env (l : List (PointKin ℚ)) : CollEnv ℚ :=
  ⟨l, fun _ P _ Q => ((P.t - Q.t).sqNorm, P.t, Q.t), fun x => x, 1 / 1000⟩

theorem env_same (p v q w : ℚ) :
    CollEnv.SameIn W (env [slider p v, slider q w]) (env [slider' p v, slider' q w]) where
  robots := .cons (slider_same p v) (.cons (slider_same q w) .nil)
  closest _ P1 _ P2 := by
    refine Prod.ext ?_ rfl
    dsimp only [env, SchPose.inWorld]
    rw [pointW_sub]
    exact dot_turning W_rigid _ _
  sqrt := rfl
  eps := rfl

def body (r h : ℕ) : BodyColl ℚ := ⟨h, [0], 0, ⟨M3.one, 0⟩, r, 0, "b", ⟨0, fun _ => 0⟩⟩

/-- A pair whose normal was `n` at the last update. -/
def pairs (n : V3 ℚ) : Coll ℚ :=
  ⟨[⟨1, 2, 4, 0, 0, n, 2, 1 / 2, 3 / 2, [body 0 1, body 1 2], .hard, 0, 7⟩], 1 / 10, 0, some 2, Mat.zero 1 2,
    ⟨1, fun _ => 0⟩, Mat.zero 1 1, Mat.zero 1 1, some 2⟩

def data2 : SolverData ℚ := { (SolverData.init : SolverData ℚ) with
  alphaD := [1, 1], alphaDBegin := [0, 1], totalAlphaD := 2, nrVars := 2 }

/-- The row an update gives, the distance and the first of the closest points. -/
def crow (e : CollEnv ℚ) (s : Coll ℚ) : Out (ℚ × ℚ × ℚ × List (ℚ × V3 ℚ)) := do
  let s ← Coll.update [mb1, mb1] data2 e (fun _ => ⟨M3.one, 0⟩) s
  pure (s.1.A.get 0 0, s.1.A.get 0 1, s.1.b.get 0, s.1.data.map fun d => (d.distance, d.p1))

example : crow (env [slider 0 1, slider 1 0]) (pairs ⟨-1, 0, 0⟩)
    = .ok (1 / 10, -1 / 10, -1 / 2, [(1, ⟨0, 0, 0⟩)]) := by decide +kernel
example : crow (env [slider' 0 1, slider' 1 0]) (pairs ⟨0, -1, 0⟩)
    = .ok (1 / 10, -1 / 10, -1 / 2, [(1, ⟨1, 2, 3⟩)]) := by decide +kernel

end WorldConstrEx

end Verif
