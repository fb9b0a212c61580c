import Verif.Model.JacDot
import Verif.Proofs.Drift

/-! # Lemmas on `updateDot` -/

set_option autoImplicit false
set_option linter.unusedSectionVars false

namespace Verif

open Finset Spec

namespace Spec

/-- `D` has the size of `M t` and its entries are the time derivatives of the entries of `M`. -/
def MatDeriv (M : ℝ → Mat ℝ) (D : Mat ℝ) (t : ℝ) : Prop :=
  D.rows = (M t).rows ∧ D.cols = (M t).cols ∧
    ∀ a < D.rows, ∀ c < D.cols, HasDerivAt (fun τ => (M τ).get a c) (D.get a c) t

end Spec

theorem onDofs_deriv (mb : MultiBody ℝ) (path : List ℕ) {f : ℝ → ℕ → ℝ} {f' : ℕ → ℝ} {t : ℝ}
    (h : ∀ k < pathDof mb path, HasDerivAt (fun τ => f τ k) (f' k) t) (c : ℕ) :
    HasDerivAt (fun τ => onDofs mb path (f τ) c) (onDofs mb path f' c) t := by
  induction path generalizing f f' with
  | nil => exact hasDerivAt_const t 0
  | cons i l ih =>
    rw [pathDof_cons] at h
    simp only [onDofs]
    refine HasDerivAt.add ?_ (ih fun k hk => h _ (by omega))
    split
    · exact h _ (by omega)
    · exact hasDerivAt_const t 0

/-- The full matrix of the derivative is the derivative of the full matrix. -/
theorem full_deriv {mb : MultiBody ℝ} {path : List ℕ} (hp : ∀ i ∈ path, i < mb.joints.length)
    (hn : path.Nodup) {r0 : ℕ} {S : ℝ → Mat ℝ} {D : Mat ℝ} {t : ℝ}
    (hS : ∀ τ, (S τ).rows = 6 ∧ (S τ).cols = pathDof mb path) (hr0 : r0 + 3 ≤ 6) (hD : MatDeriv S D t)
    {res resD : Mat ℝ} (hr : res.rows = 3) (hc : res.cols = mb.nrDof) (hrD : resD.rows = 3)
    (hcD : resD.cols = mb.nrDof) {sh : ℝ → Mat ℝ} {M : ℝ → Mat ℝ}
    (h1 : ∀ τ, (S τ).block r0 0 3 (pathDof mb path) = .ok (sh τ))
    (h2 : ∀ τ, fullJacobian mb path (sh τ) res = .ok (M τ)) :
    ∃ R, (do
        let s ← D.block r0 0 3 (pathDof mb path)
        fullJacobian mb path s resD) = .ok R ∧ R.rows = 3 ∧ R.cols = mb.nrDof ∧ MatDeriv M R t := by
  obtain ⟨d1, d2, d3⟩ := hD
  rw [(hS t).1] at d1
  rw [(hS t).2] at d2
  have e1 : ∀ τ, sh τ = ⟨3, pathDof mb path, fun a b => (S τ).get (r0 + a) (0 + b)⟩ := by
    intro τ
    have := h1 τ
    rw [block_ok ⟨by rw [(hS τ).1]; exact hr0, by rw [(hS τ).2]; simp⟩] at this
    exact (Out.ok.inj this).symm
  have e2 : ∀ τ, (M τ).rows = 3 ∧ (M τ).cols = mb.nrDof ∧ ∀ a < 3, ∀ c < mb.nrDof,
      (M τ).get a c = onDofs mb path (fun k => (S τ).get (r0 + a) k) c := by
    intro τ
    obtain ⟨R, k1, k2, k3, k4⟩ := fullJacobian_ok mb path (sh τ) res hp hn (by rw [e1 τ]) (by rw [e1 τ, hr])
      (by rw [hc])
    have : M τ = R := Out.ok.inj ((h2 τ).symm.trans k1)
    rw [this]
    refine ⟨k2.trans hr, k3.trans hc, fun a ha c hc' => ?_⟩
    rw [e1 τ] at k4
    rw [k4 a ha c hc']
    simp
  obtain ⟨R, k1, k2, k3, k4⟩ := fullJacobian_ok mb path
    ⟨3, pathDof mb path, fun a b => D.get (r0 + a) (0 + b)⟩ resD hp hn le_rfl (by rw [hrD]) (by rw [hcD])
  refine ⟨R, ?_, k2.trans hrD, k3.trans hcD, ?_, ?_, fun a ha c hc' => ?_⟩
  · rw [block_ok ⟨by rw [d1]; exact hr0, by rw [d2]; simp⟩, Out.ok_bind, k1]
  · rw [k2, hrD, (e2 t).1]
  · rw [k3, hcD, (e2 t).2.1]
  · rw [k2, hrD] at ha
    rw [k3, hcD] at hc'
    rw [k4 a ha c hc']
    have := onDofs_deriv mb path (f := fun τ k => (S τ).get (r0 + a) k)
      (f' := fun k => D.get (r0 + a) (0 + k)) (t := t) (fun k hk => by
        have := d3 (r0 + a) (by omega) k (by omega)
        simpa using this) c
    refine this.congr_of_eventuallyEq (Filter.Eventually.of_forall fun τ => ?_)
    exact (e2 τ).2.2 a ha c hc'

/-- Product rule for a row applied to moving joint velocities. -/
theorem rowMul_deriv {M : ℝ → Mat ℝ} {D : Mat ℝ} {t : ℝ} (hD : MatDeriv M D t) {n : ℕ}
    (hn : ∀ τ, (M τ).cols = n) {x : ℝ → ℕ → ℝ} {xd : ℕ → ℝ}
    (hx : ∀ c, HasDerivAt (fun τ => x τ c) (xd c) t) {a : ℕ} (ha : a < D.rows) :
    HasDerivAt (fun τ => (M τ).rowMul a (x τ)) (D.rowMul a (x t) + (M t).rowMul a xd) t := by
  obtain ⟨-, d2, d3⟩ := hD
  have h := HasDerivAt.fun_sum (u := range n) fun c hc =>
    (d3 a ha c (by rw [d2, hn t]; simpa using hc)).mul (hx c)
  have e : (fun τ => (M τ).rowMul a (x τ)) = fun τ => ∑ c ∈ range n, (M τ).get a c * x τ c := by
    funext τ
    unfold Mat.rowMul
    rw [hn τ]
  rw [e]
  refine h.congr_deriv ?_
  unfold Mat.rowMul
  rw [d2, hn t, ← Finset.sum_add_distrib]

/-- If the rows give a speed whose derivative is `jac * alphaD + n`, then `jacDot * alpha = n`. -/
theorem jacDot_alpha {M : ℝ → Mat ℝ} {D : Mat ℝ} {t : ℝ} (hD : MatDeriv M D t) {k : ℕ}
    (hk : ∀ τ, (M τ).cols = k) {x : ℝ → ℕ → ℝ} {xd : ℕ → ℝ}
    (hx : ∀ c, HasDerivAt (fun τ => x τ c) (xd c) t) {a : ℕ} (ha : a < D.rows) {v : ℝ → ℝ} {n : ℝ}
    (hv : ∀ τ, (M τ).rowMul a (x τ) = v τ) (hd : HasDerivAt v ((M t).rowMul a xd + n) t) :
    D.rowMul a (x t) = n := by
  have h := rowMul_deriv hD hk hx ha
  rw [show (fun τ => (M τ).rowMul a (x τ)) = v from funext hv] at h
  linarith [h.unique hd]

end Verif
