import Verif.Proofs.Kine
import Mathlib.Analysis.Calculus.Deriv.Add
import Mathlib.Analysis.Calculus.Deriv.Mul

/-!
# Time derivatives of spatial quantities

Trajectories over the reals; a frame moves with a velocity given in its own coordinates.
-/

set_option autoImplicit false
set_option linter.unusedSectionVars false

namespace Verif

open Finset

namespace Spec

/-- Derivative of a trajectory of 3-vectors. -/
def HasD3 (f : ℝ → V3 ℝ) (f' : V3 ℝ) (t : ℝ) : Prop :=
  HasDerivAt (fun τ => (f τ).x) f'.x t ∧ HasDerivAt (fun τ => (f τ).y) f'.y t ∧
    HasDerivAt (fun τ => (f τ).z) f'.z t

/-- Derivative of a trajectory of motion vectors. -/
def HasDM (f : ℝ → MV ℝ) (f' : MV ℝ) (t : ℝ) : Prop :=
  HasD3 (fun τ => (f τ).ang) f'.ang t ∧ HasD3 (fun τ => (f τ).lin) f'.lin t

/-- The frame `X` moves at time `t` with velocity `U` expressed in the frame: the coordinates of a
fixed vector of the world turn backwards, the origin moves with the linear velocity. -/
def FrameMoves (X : ℝ → PT ℝ) (U : MV ℝ) (t : ℝ) : Prop :=
  (∀ v, HasD3 (fun τ => (X τ).E.mulVec v) (-(U.ang.cross ((X t).E.mulVec v))) t) ∧
    HasD3 (fun τ => (X τ).r) ((X t).E.transpose.mulVec U.lin) t

end Spec

open Spec

namespace Spec.HasD3
variable {f g : ℝ → V3 ℝ} {f' g' : V3 ℝ} {t : ℝ}

theorem congr_deriv (h : HasD3 f f' t) (e : f' = g') : HasD3 f g' t := e ▸ h

theorem congr_fun (h : HasD3 f f' t) (e : ∀ τ, g τ = f τ) : HasD3 g f' t := by
  have : g = f := funext e
  rwa [this]

theorem const (v : V3 ℝ) (t : ℝ) : HasD3 (fun _ => v) 0 t :=
  ⟨hasDerivAt_const _ _, hasDerivAt_const _ _, hasDerivAt_const _ _⟩

theorem add (hf : HasD3 f f' t) (hg : HasD3 g g' t) : HasD3 (fun τ => f τ + g τ) (f' + g') t :=
  ⟨hf.1.add hg.1, hf.2.1.add hg.2.1, hf.2.2.add hg.2.2⟩

theorem sub (hf : HasD3 f f' t) (hg : HasD3 g g' t) : HasD3 (fun τ => f τ - g τ) (f' - g') t :=
  ⟨hf.1.sub hg.1, hf.2.1.sub hg.2.1, hf.2.2.sub hg.2.2⟩

theorem neg (hf : HasD3 f f' t) : HasD3 (fun τ => -f τ) (-f') t :=
  ⟨hf.1.neg, hf.2.1.neg, hf.2.2.neg⟩

theorem smul {c : ℝ → ℝ} {c' : ℝ} (hc : HasDerivAt c c' t) (hf : HasD3 f f' t) :
    HasD3 (fun τ => c τ • f τ) (c' • f t + c t • f') t :=
  ⟨hc.mul hf.1, hc.mul hf.2.1, hc.mul hf.2.2⟩

theorem cross (hf : HasD3 f f' t) (hg : HasD3 g g' t) :
    HasD3 (fun τ => (f τ).cross (g τ)) (f'.cross (g t) + (f t).cross g') t := by
  obtain ⟨a, b, c⟩ := hf
  obtain ⟨d, e, k⟩ := hg
  refine ⟨((b.mul k).sub (c.mul e)).congr_deriv ?_, ((c.mul d).sub (a.mul k)).congr_deriv ?_,
    ((a.mul e).sub (b.mul d)).congr_deriv ?_⟩ <;> simp <;> ring

theorem dot (hf : HasD3 f f' t) (hg : HasD3 g g' t) :
    HasDerivAt (fun τ => (f τ).dot (g τ)) (f'.dot (g t) + (f t).dot g') t := by
  obtain ⟨a, b, c⟩ := hf
  obtain ⟨d, e, k⟩ := hg
  refine (((a.mul d).add (b.mul e)).add (c.mul k)).congr_deriv ?_
  simp [V3.dot]; ring

theorem get (hf : HasD3 f f' t) (a : ℕ) : HasDerivAt (fun τ => (f τ).get a) (f'.get a) t := by
  match a with
  | 0 => exact hf.1
  | 1 => exact hf.2.1
  | n + 2 => exact hf.2.2

theorem sum {n : ℕ} {f : ℕ → ℝ → V3 ℝ} {f' : ℕ → V3 ℝ} (h : ∀ d < n, HasD3 (f d) (f' d) t) :
    HasD3 (fun τ => ∑ d ∈ range n, f d τ) (∑ d ∈ range n, f' d) t := by
  induction n with
  | zero => simpa using const 0 t
  | succ n ih =>
    simp only [Finset.sum_range_succ]
    exact (ih fun d hd => h d (by omega)).add (h n (by omega))

theorem mulVec_const (m : M3 ℝ) (hf : HasD3 f f' t) :
    HasD3 (fun τ => m.mulVec (f τ)) (m.mulVec f') t := by
  refine ⟨((const m.r0 t).dot hf).congr_deriv ?_, ((const m.r1 t).dot hf).congr_deriv ?_,
    ((const m.r2 t).dot hf).congr_deriv ?_⟩ <;> simp [M3.mulVec, V3.dot]

end Spec.HasD3

namespace Spec.HasDM
variable {f g : ℝ → MV ℝ} {f' g' : MV ℝ} {t : ℝ}

theorem congr_deriv (h : HasDM f f' t) (e : f' = g') : HasDM f g' t := e ▸ h

theorem congr_fun (h : HasDM f f' t) (e : ∀ τ, g τ = f τ) : HasDM g f' t := by
  have : g = f := funext e
  rwa [this]

theorem const (v : MV ℝ) (t : ℝ) : HasDM (fun _ => v) 0 t := ⟨HasD3.const _ _, HasD3.const _ _⟩

theorem add (hf : HasDM f f' t) (hg : HasDM g g' t) : HasDM (fun τ => f τ + g τ) (f' + g') t :=
  ⟨hf.1.add hg.1, hf.2.add hg.2⟩

theorem sub (hf : HasDM f f' t) (hg : HasDM g g' t) : HasDM (fun τ => f τ - g τ) (f' - g') t :=
  ⟨hf.1.sub hg.1, hf.2.sub hg.2⟩

theorem smul {c : ℝ → ℝ} {c' : ℝ} (hc : HasDerivAt c c' t) (hf : HasDM f f' t) :
    HasDM (fun τ => c τ • f τ) (c' • f t + c t • f') t :=
  ⟨HasD3.smul hc hf.1, HasD3.smul hc hf.2⟩

theorem cross (hf : HasDM f f' t) (hg : HasDM g g' t) :
    HasDM (fun τ => (f τ).cross (g τ)) (f'.cross (g t) + (f t).cross g') t := by
  refine ⟨hf.1.cross hg.1, ((hf.1.cross hg.2).add (hf.2.cross hg.1)).congr_deriv ?_⟩
  simp only [MV.cross, MV.add_lin]
  abel

theorem get (hf : HasDM f f' t) (a : ℕ) : HasDerivAt (fun τ => (f τ).get a) (f'.get a) t := by
  unfold MV.get
  by_cases h : a < 3
  · simp only [if_pos h]; exact hf.1.get a
  · simp only [if_neg h]; exact hf.2.get _

theorem sum {n : ℕ} {f : ℕ → ℝ → MV ℝ} {f' : ℕ → MV ℝ} (h : ∀ d < n, HasDM (f d) (f' d) t) :
    HasDM (fun τ => ∑ d ∈ range n, f d τ) (∑ d ∈ range n, f' d) t := by
  induction n with
  | zero => simpa using const 0 t
  | succ n ih =>
    simp only [Finset.sum_range_succ]
    exact (ih fun d hd => h d (by omega)).add (h n (by omega))

end Spec.HasDM

namespace Spec.FrameMoves
variable {X : ℝ → PT ℝ} {U : MV ℝ} {t : ℝ}

/-- Derivatives of the entries of the rotation, by columns. -/
theorem cols (h : FrameMoves X U t) :
    HasD3 (fun τ => (X τ).E.transpose.r0) (-(U.ang.cross (X t).E.transpose.r0)) t ∧
    HasD3 (fun τ => (X τ).E.transpose.r1) (-(U.ang.cross (X t).E.transpose.r1)) t ∧
    HasD3 (fun τ => (X τ).E.transpose.r2) (-(U.ang.cross (X t).E.transpose.r2)) t := by
  have e0 : ∀ m : M3 ℝ, m.mulVec ⟨1, 0, 0⟩ = m.transpose.r0 := by
    intro m; ext <;> simp [M3.mulVec, M3.transpose, V3.dot]
  have e1 : ∀ m : M3 ℝ, m.mulVec ⟨0, 1, 0⟩ = m.transpose.r1 := by
    intro m; ext <;> simp [M3.mulVec, M3.transpose, V3.dot]
  have e2 : ∀ m : M3 ℝ, m.mulVec ⟨0, 0, 1⟩ = m.transpose.r2 := by
    intro m; ext <;> simp [M3.mulVec, M3.transpose, V3.dot]
  have h0 := h.1 ⟨1, 0, 0⟩
  have h1 := h.1 ⟨0, 1, 0⟩
  have h2 := h.1 ⟨0, 0, 1⟩
  simp only [e0] at h0
  simp only [e1] at h1
  simp only [e2] at h2
  exact ⟨h0, h1, h2⟩

/-- Coordinates of a moving vector. -/
theorem mulVec (h : FrameMoves X U t) {f : ℝ → V3 ℝ} {f' : V3 ℝ} (hf : HasD3 f f' t) :
    HasD3 (fun τ => (X τ).E.mulVec (f τ))
      ((X t).E.mulVec f' - U.ang.cross ((X t).E.mulVec (f t))) t := by
  obtain ⟨h0, h1, h2⟩ := h.cols
  have e : ∀ (m : M3 ℝ) (v : V3 ℝ),
      m.mulVec v = v.x • m.transpose.r0 + v.y • m.transpose.r1 + v.z • m.transpose.r2 := by
    intro m v
    ext <;> simp [M3.mulVec, M3.transpose, V3.dot] <;> ring
  refine ((((HasD3.smul hf.1 h0).add (HasD3.smul hf.2.1 h1)).add
    (HasD3.smul hf.2.2 h2)).congr_fun fun τ => e _ _).congr_deriv ?_
  rw [e, e]
  ext <;> simp <;> ring

/-- World coordinates of a vector given in the frame. -/
theorem transpose_mulVec (h : FrameMoves X U t) {f : ℝ → V3 ℝ} {f' : V3 ℝ} (hf : HasD3 f f' t) :
    HasD3 (fun τ => (X τ).E.transpose.mulVec (f τ))
      ((X t).E.transpose.mulVec (f' + U.ang.cross (f t))) t := by
  obtain ⟨h0, h1, h2⟩ := h.cols
  refine ⟨(h0.dot hf).congr_deriv ?_, (h1.dot hf).congr_deriv ?_, (h2.dot hf).congr_deriv ?_⟩ <;>
    simp [M3.mulVec, V3.dot, M3.transpose] <;> ring

/-- A motion vector expressed in the frame. -/
theorem mulM (h : FrameMoves X U t) (hr : (X t).Rigid) {W : ℝ → MV ℝ} {W' : MV ℝ}
    (hW : HasDM W W' t) :
    HasDM (fun τ => (X τ).mulM (W τ)) ((X t).mulM W' - U.cross ((X t).mulM (W t))) t := by
  refine ⟨h.mulVec hW.1, (h.mulVec (hW.2.sub (h.2.cross hW.1))).congr_deriv ?_⟩
  have e := hr.cross_mulVec ((X t).E.transpose.mulVec U.lin) (W t).ang
  rw [hr.1.mulVec_transpose] at e
  unfold PT.mulM MV.cross
  dsimp only [MV.sub_lin]
  rw [M3.mulVec_sub, M3.mulVec_add, ← e, M3.mulVec_sub, M3.mulVec_sub]
  ext <;> simp <;> ring

/-- A motion vector fixed in the frame, expressed in the world. -/
theorem inv_mulM (h : FrameMoves X U t) (hr : ∀ τ, (X τ).Rigid) (m : MV ℝ) :
    HasDM (fun τ => (X τ).inv.mulM m) ((X t).inv.mulM (U.cross m)) t := by
  have e : ∀ τ (m : MV ℝ), (X τ).inv.mulM m = ⟨(X τ).E.transpose.mulVec m.ang,
      (X τ).E.transpose.mulVec m.lin + (X τ).r.cross ((X τ).E.transpose.mulVec m.ang)⟩ := by
    intro τ m
    have k := (hr τ).transpose.cross_mulVec ((X τ).E.mulVec (X τ).r) m.ang
    rw [(hr τ).1.transpose_mulVec] at k
    unfold PT.mulM PT.inv
    dsimp only
    rw [V3.neg_cross, sub_neg_eq_add, M3.mulVec_add, ← k]
  have ha := h.transpose_mulVec (HasD3.const m.ang t)
  have hl := h.transpose_mulVec (HasD3.const m.lin t)
  rw [zero_add] at ha hl
  refine HasDM.congr_fun (HasDM.congr_deriv
    (⟨ha, hl.add (h.2.cross ha)⟩ : HasDM (fun τ => ⟨(X τ).E.transpose.mulVec m.ang,
      (X τ).E.transpose.mulVec m.lin + (X τ).r.cross ((X τ).E.transpose.mulVec m.ang)⟩)
      ⟨_, _⟩ t) ?_) (fun τ => e τ m)
  rw [e]
  unfold MV.cross
  dsimp only
  rw [M3.mulVec_add, ← (hr t).transpose.cross_mulVec U.lin m.ang]
  congr 1
  abel

/-- The origin of a frame carried by another one. -/
theorem origin (h : FrameMoves X U t) (p : V3 ℝ) :
    HasD3 (fun τ => (X τ).r + (X τ).E.transpose.mulVec p)
      ((X t).E.transpose.mulVec (U.lin - p.cross U.ang)) t := by
  have := h.2.add (h.transpose_mulVec (HasD3.const p t))
  rw [zero_add, ← M3.mulVec_add] at this
  refine this.congr_deriv ?_
  congr 1
  ext <;> simp <;> ring

end Spec.FrameMoves

/-! ## World velocity and acceleration of a body -/

section
variable {K : Type} [CommRing K]

/-- Normal acceleration of a body. -/
def kAcc (st : KState K) (i : ℕ) : MV K := st.normalAccB.getD i 0

/-- World motion of the end of the path produced by the rates `z` of its dofs. -/
def wSum (mb : MultiBody K) (st : KState K) (path : List ℕ) (z : ℕ → K) : MV K :=
  pathSum mb (fun i d => (kPose st i).inv.mulM (kSub st i d)) z path

/-- Rows of a Jacobian applied to arbitrary rates. -/
theorem full_gen {mb : MultiBody K} {st : KState K} {path : List ℕ}
    (hm : ∀ i ∈ path, i < mb.joints.length) (hr : ∀ i ∈ path, (kPose st i).Rigid)
    (X : PT K) (R : Mat K) (r : ℕ) (φ : ℕ → MV K → K) (hφ : ∀ a, MV.Lin (K := K) (φ a))
    (hc : R.cols = mb.nrDof)
    (hget : ∀ a < r, ∀ c < mb.nrDof, R.get a c
      = onDofs mb path (fun k => φ a ((pathCols mb (kCol st X) path).getD k 0)) c) (z : ℕ → K) :
    ∀ a < r, R.rowMul a z = φ a (X.mulM (wSum mb st path z)) := by
  intro a ha
  have aux : ∀ l : List ℕ, (∀ i ∈ l, (kPose st i).Rigid) → pathSum mb (kCol st X) z l
      = pathSum mb (fun i d => X.mulM ((kPose st i).inv.mulM (kSub st i d))) z l := by
    intro l hl
    induction l with
    | nil => rfl
    | cons i t ih =>
      simp only [pathSum]
      rw [ih (fun j hj => hl j (by simp [hj]))]
      congr 1
      refine Finset.sum_congr rfl fun d _ => ?_
      unfold kCol
      rw [PT.mul_mulM _ _ (hl i (by simp)).inv]
  unfold Mat.rowMul wSum
  rw [← pathSum_map _ _ _ (PT.mulM_lin X), ← aux path hr, ← onDofs_pathSum mb _ z (hφ a) path hm, hc]
  refine Finset.sum_congr rfl fun c hc => ?_
  rw [hget a ha c (by simpa using hc)]

namespace Spec

/-- Normal accelerations along a path as the solver computes them (property C54): each body inherits
the normal acceleration of its predecessor, carried by the joint transform, plus `v_body × v_joint`. -/
def NormalChain (mb : MultiBody K) (st : KState K) (x : ℕ → K) : Option ℕ → List ℕ → Prop
  | _, [] => True
  | none, i :: t =>
    kAcc st i = (kVel st i).cross (∑ d ∈ range (jdof mb i), x (jpos mb i + d) • kSub st i d) ∧
      NormalChain mb st x (some i) t
  | some p, i :: t =>
    (∃ P : PT K, P.Rigid ∧ kPose st i = P.mul (kPose st p) ∧
      kAcc st i = P.mulM (kAcc st p)
        + (kVel st i).cross (∑ d ∈ range (jdof mb i), x (jpos mb i + d) • kSub st i d)) ∧
    NormalChain mb st x (some i) t

end Spec

theorem MV.cross_lin (a : MV K) : MV.Lin (K := K) a.cross :=
  ⟨by ext <;> simp [MV.cross], MV.cross_add a, fun c b => MV.cross_smul a b c⟩

theorem nchain_sum {mb : MultiBody K} {st : KState K} {x : ℕ → K} (path : List ℕ) (p : ℕ)
    (hr : ∀ i ∈ p :: path, (kPose st i).Rigid) (h : NormalChain mb st x (some p) path) (N : ℕ)
    (hN : (p :: path).getLast? = some N) :
    (kPose st N).inv.mulM (kAcc st N) = (kPose st p).inv.mulM (kAcc st p)
      + pathSum mb (fun i d => (kPose st i).inv.mulM ((kVel st i).cross (kSub st i d))) x path := by
  induction path generalizing p with
  | nil =>
    simp at hN
    subst hN
    simp [pathSum]
  | cons i t ih =>
    obtain ⟨⟨P, hP, e1, e2⟩, hc⟩ := h
    have hi := hr i (by simp)
    have hp := hr p (by simp)
    rw [ih i (fun j hj => hr j (by simp at hj ⊢; tauto)) hc (by simpa using hN)]
    have e3 : (kPose st i).inv.mulM (kAcc st i) = (kPose st p).inv.mulM (kAcc st p)
        + ∑ d ∈ range (jdof mb i), x (jpos mb i + d) •
          (kPose st i).inv.mulM ((kVel st i).cross (kSub st i d)) := by
      have a1 : P.mulM (kAcc st p) = (kPose st i).mulM ((kPose st p).inv.mulM (kAcc st p)) := by
        rw [e1, PT.mul_mulM _ _ hp, PT.mulM_inv _ hp]
      rw [e2, PT.mulM_add, (MV.cross_lin _).sum, (PT.mulM_lin _).sum, a1, PT.inv_mulM _ hi]
      simp only [MV.cross_smul, PT.mulM_smul]
    rw [e3, pathSum, add_assoc]

/-- The normal acceleration of the body at the end of the path. -/
theorem nchain_acc {mb : MultiBody K} {st : KState K} {path : List ℕ} {x : ℕ → K}
    (hr : ∀ i ∈ path, (kPose st i).Rigid) (hc : NormalChain mb st x none path) {N : ℕ}
    (hN : path.getLast? = some N) :
    (kPose st N).inv.mulM (kAcc st N)
      = pathSum mb (fun i d => (kPose st i).inv.mulM ((kVel st i).cross (kSub st i d))) x path := by
  cases path with
  | nil => simp at hN
  | cons i t =>
    obtain ⟨e, hc'⟩ := hc
    rw [nchain_sum t i hr hc' N hN, e, (MV.cross_lin _).sum, (PT.mulM_lin _).sum, pathSum]
    simp only [MV.cross_smul, PT.mulM_smul]

end

namespace Spec

/-- The robot evolves in time along the path: at every time the state is a result of forward
kinematics and velocity for the joint velocities `x`; at time `t` the joint accelerations are `xd`, every
body moves with its body velocity and the normal accelerations are the ones the solver computes.  The
motion subspaces of the joints do not depend on the configuration. -/
structure Evolves (mb : MultiBody ℝ) (st : ℝ → KState ℝ) (path : List ℕ) (x : ℝ → ℕ → ℝ)
    (xd : ℕ → ℝ) (t : ℝ) : Prop where
  moves : ∀ τ, Moves mb (st τ) path (x τ)
  sub : ∀ τ, ∀ i ∈ path, ∀ d, kSub (st τ) i d = kSub (st t) i d
  acc : ∀ c, HasDerivAt (fun τ => x τ c) (xd c) t
  frame : ∀ i ∈ path, FrameMoves (fun τ => kPose (st τ) i) (kVel (st t) i) t
  nacc : NormalChain mb (st t) (x t) none path

end Spec

/-- Derivative of a combination of moving columns. -/
theorem pathSum_deriv (mb : MultiBody ℝ) (path : List ℕ) {g : ℝ → ℕ → ℕ → MV ℝ}
    {g' : ℕ → ℕ → MV ℝ} {x : ℝ → ℕ → ℝ} {xd : ℕ → ℝ} {t : ℝ}
    (hx : ∀ c, HasDerivAt (fun τ => x τ c) (xd c) t)
    (hg : ∀ i ∈ path, ∀ d, HasDM (fun τ => g τ i d) (g' i d) t) :
    HasDM (fun τ => pathSum mb (g τ) (x τ) path)
      (pathSum mb (g t) xd path + pathSum mb g' (x t) path) t := by
  induction path with
  | nil => simpa [pathSum] using HasDM.const 0 t
  | cons i l ih =>
    simp only [pathSum]
    refine ((HasDM.sum (n := jdof mb i) fun d _ => HasDM.smul (hx (jpos mb i + d))
      (hg i (by simp) d)).add (ih fun j hj => hg j (by simp [hj]))).congr_deriv ?_
    rw [Finset.sum_add_distrib]
    abel

/-- Acceleration of the body at the end of the path, in the world. -/
theorem world_acc {mb : MultiBody ℝ} {st : ℝ → KState ℝ} {path : List ℕ} {x : ℝ → ℕ → ℝ}
    {xd : ℕ → ℝ} {t : ℝ} (h : Evolves mb st path x xd t) {N : ℕ} (hN : path.getLast? = some N) :
    HasDM (fun τ => (kPose (st τ) N).inv.mulM (kVel (st τ) N))
      (wSum mb (st t) path xd + (kPose (st t) N).inv.mulM (kAcc (st t) N)) t := by
  have e : ∀ τ, (kPose (st τ) N).inv.mulM (kVel (st τ) N)
      = pathSum mb (fun i d => (kPose (st τ) i).inv.mulM (kSub (st τ) i d)) (x τ) path :=
    fun τ => moves_vel (h.moves τ) hN
  rw [nchain_acc (h.moves t).rigid h.nacc hN]
  refine HasDM.congr_fun (pathSum_deriv mb path (g := fun τ i d =>
    (kPose (st τ) i).inv.mulM (kSub (st τ) i d)) h.acc fun i hi d => ?_) e
  exact ((h.frame i hi).inv_mulM (fun τ => (h.moves τ).rigid i hi) (kSub (st t) i d)).congr_fun
    fun τ => by rw [h.sub τ i hi d]

/-- Derivative of the velocity of the body expressed in a moving frame. -/
theorem frame_acc {mb : MultiBody ℝ} {st : ℝ → KState ℝ} {path : List ℕ} {x : ℝ → ℕ → ℝ}
    {xd : ℕ → ℝ} {t : ℝ} (h : Evolves mb st path x xd t) {N : ℕ} (hN : path.getLast? = some N)
    {X Y : ℝ → PT ℝ} {U : MV ℝ} (hX : ∀ τ, X τ = (Y τ).mul (kPose (st τ) N)) (hm : FrameMoves X U t)
    (hr : (X t).Rigid) :
    HasDM (fun τ => (Y τ).mulM (kVel (st τ) N))
      ((X t).mulM (wSum mb (st t) path xd) + (Y t).mulM (kAcc (st t) N)
        - U.cross ((Y t).mulM (kVel (st t) N))) t := by
  have e : ∀ τ m, (X τ).mulM ((kPose (st τ) N).inv.mulM m) = (Y τ).mulM m := by
    intro τ m
    have hrig := (h.moves τ).rigid N (List.mem_of_getLast? hN)
    rw [hX τ, PT.mul_mulM _ _ hrig, PT.mulM_inv _ hrig]
  refine ((hm.mulM hr (world_acc h hN)).congr_fun fun τ => (e τ _).symm).congr_deriv ?_
  rw [PT.mulM_add, e, e]

end Verif
