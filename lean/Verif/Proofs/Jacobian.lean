import Verif.Model.Jacobian
import Verif.Proofs.Layout
import Verif.Proofs.Contacts

/-!
# Matrices written by column blocks; `fullJacobian`
-/

set_option autoImplicit false
set_option linter.unusedSectionVars false

namespace Verif

open Finset

/-! ## Writing column blocks -/

section
variable {K : Type}

/-- Entries after writing the column blocks `(b, M)` one after the other. -/
def over : List (ℕ × Mat K) → (ℕ → ℕ → K) → ℕ → ℕ → K
  | [], f => f
  | p :: t, f => over t (fun a c =>
      if a < p.2.rows ∧ p.1 ≤ c ∧ c < p.1 + p.2.cols then p.2.get a (c - p.1) else f a c)

theorem setBlock_col {A : Mat K} {b : ℕ} {M : Mat K} (h1 : M.rows ≤ A.rows)
    (h2 : b + M.cols ≤ A.cols) :
    A.setBlock 0 b M = .ok ⟨A.rows, A.cols, fun a c =>
      if a < M.rows ∧ b ≤ c ∧ c < b + M.cols then M.get a (c - b) else A.get a c⟩ := by
  unfold Mat.setBlock
  rw [if_pos ⟨by omega, h2⟩]
  simp

theorem writeBlocks_ok (l : List (ℕ × Mat K)) (A : Mat K)
    (h : ∀ p ∈ l, p.2.rows ≤ A.rows ∧ p.1 + p.2.cols ≤ A.cols) :
    forEach l (fun p (A : Mat K) => A.setBlock 0 p.1 p.2) A
      = .ok ⟨A.rows, A.cols, over l A.get⟩ := by
  induction l generalizing A with
  | nil => rfl
  | cons p t ih =>
    have hp := h p (by simp)
    simp only [forEach]
    rw [setBlock_col hp.1 hp.2, Out.ok_bind]
    exact ih _ (fun q hq => h q (by simp [hq]))

/-- Some block covers the entry. -/
def Cov (l : List (ℕ × Mat K)) (a c : ℕ) : Prop :=
  ∃ p ∈ l, a < p.2.rows ∧ p.1 ≤ c ∧ c < p.1 + p.2.cols

/-- No column belongs to two blocks. -/
def Disj (l : List (ℕ × Mat K)) : Prop :=
  l.Pairwise fun p q => ∀ c, ¬ ((p.1 ≤ c ∧ c < p.1 + p.2.cols) ∧ (q.1 ≤ c ∧ c < q.1 + q.2.cols))

theorem over_append (l₁ l₂ : List (ℕ × Mat K)) (f : ℕ → ℕ → K) :
    over (l₁ ++ l₂) f = over l₂ (over l₁ f) := by
  induction l₁ generalizing f with
  | nil => rfl
  | cons p t ih => exact ih _

theorem over_not_cov {l : List (ℕ × Mat K)} {f : ℕ → ℕ → K} {a c : ℕ} (h : ¬ Cov l a c) :
    over l f a c = f a c := by
  induction l generalizing f with
  | nil => rfl
  | cons p t ih =>
    unfold over
    rw [ih (fun ⟨q, hq, r⟩ => h ⟨q, by simp [hq], r⟩)]
    rw [if_neg (fun r => h ⟨p, by simp, r⟩)]

theorem over_cov_indep {l : List (ℕ × Mat K)} {f g : ℕ → ℕ → K} {a c : ℕ} (h : Cov l a c) :
    over l f a c = over l g a c := by
  induction l generalizing f g with
  | nil => obtain ⟨_, h, _⟩ := h; cases h
  | cons p t ih =>
    unfold over
    by_cases ht : Cov t a c
    · exact ih ht
    · rw [over_not_cov ht, over_not_cov ht]
      obtain ⟨q, hq, r⟩ := h
      rcases List.mem_cons.mp hq with rfl | hq
      · rw [if_pos r, if_pos r]
      · exact absurd ⟨q, hq, r⟩ ht

/-- Writing twice the same ranges: only the second write remains. -/
theorem over_same {l₁ l₂ : List (ℕ × Mat K)} (h : ∀ a c, Cov l₁ a c → Cov l₂ a c)
    (f : ℕ → ℕ → K) : over (l₁ ++ l₂) f = over l₂ f := by
  rw [over_append]
  funext a c
  by_cases h2 : Cov l₂ a c
  · exact over_cov_indep h2
  · rw [over_not_cov h2, over_not_cov h2, over_not_cov (fun h1 => h2 (h a c h1))]

end

section
variable {K : Type} [CommRing K]

/-- Sum of the blocks' contributions to an entry. -/
def bsum : List (ℕ × Mat K) → ℕ → ℕ → K
  | [], _, _ => 0
  | p :: t, a, c =>
    (if a < p.2.rows ∧ p.1 ≤ c ∧ c < p.1 + p.2.cols then p.2.get a (c - p.1) else 0) + bsum t a c

theorem bsum_append (l₁ l₂ : List (ℕ × Mat K)) (a c : ℕ) :
    bsum (l₁ ++ l₂) a c = bsum l₁ a c + bsum l₂ a c := by
  induction l₁ with
  | nil => simp [bsum]
  | cons p t ih => simp [bsum, ih, add_assoc]

theorem bsum_not_cov {l : List (ℕ × Mat K)} {a c : ℕ} (h : ¬ Cov l a c) : bsum l a c = 0 := by
  induction l with
  | nil => rfl
  | cons p t ih =>
    unfold bsum
    rw [ih (fun ⟨q, hq, r⟩ => h ⟨q, by simp [hq], r⟩), if_neg (fun r => h ⟨p, by simp, r⟩), add_zero]

theorem over_cov {l : List (ℕ × Mat K)} (hd : Disj l) {f : ℕ → ℕ → K} {a c : ℕ} (h : Cov l a c) :
    over l f a c = bsum l a c := by
  induction l generalizing f with
  | nil => obtain ⟨_, h, _⟩ := h; cases h
  | cons p t ih =>
    have hd' := List.pairwise_cons.mp hd
    unfold over bsum
    by_cases ht : Cov t a c
    · rw [ih hd'.2 ht]
      obtain ⟨q, hq, r⟩ := ht
      rw [if_neg (fun r' => hd'.1 q hq c ⟨r'.2, r.2⟩), zero_add]
    · rw [over_not_cov ht, bsum_not_cov ht, add_zero]
      obtain ⟨q, hq, r⟩ := h
      rcases List.mem_cons.mp hq with rfl | hq
      · rw [if_pos r, if_pos r]
      · exact absurd ⟨q, hq, r⟩ ht

theorem sum_shift_ite (n b w : ℕ) (h : b + w ≤ n) (f : ℕ → K) :
    ∑ c ∈ range n, (if b ≤ c ∧ c < b + w then f c else 0) = ∑ k ∈ range w, f (b + k) := by
  rw [← Finset.sum_filter]
  have : (range n).filter (fun c => b ≤ c ∧ c < b + w) = (range w).map (addLeftEmbedding b) := by
    ext c
    simp only [mem_filter, mem_range, mem_map, addLeftEmbedding_apply]
    constructor
    · rintro ⟨h1, h2, h3⟩; exact ⟨c - b, by omega, by omega⟩
    · rintro ⟨k, hk, rfl⟩; omega
  rw [this, Finset.sum_map]
  rfl

theorem bsum_mul_sum (l : List (ℕ × Mat K)) (n a : ℕ) (x : ℕ → K)
    (h : ∀ p ∈ l, a < p.2.rows ∧ p.1 + p.2.cols ≤ n) :
    ∑ c ∈ range n, bsum l a c * x c
      = (l.map fun p => ∑ k ∈ range p.2.cols, p.2.get a k * x (p.1 + k)).sum := by
  induction l with
  | nil => simp [bsum]
  | cons p t ih =>
    have hp := h p (by simp)
    simp only [bsum, add_mul, Finset.sum_add_distrib, List.map_cons, List.sum_cons]
    rw [ih (fun q hq => h q (by simp [hq]))]
    congr 1
    have : ∀ c ∈ range n, (if a < p.2.rows ∧ p.1 ≤ c ∧ c < p.1 + p.2.cols
        then p.2.get a (c - p.1) else 0) * x c
        = if p.1 ≤ c ∧ c < p.1 + p.2.cols then p.2.get a (c - p.1) * x c else 0 := by
      intro c _
      by_cases hc : p.1 ≤ c ∧ c < p.1 + p.2.cols
      · rw [if_pos ⟨hp.1, hc⟩, if_pos hc]
      · rw [if_neg (fun r => hc r.2), if_neg hc, zero_mul]
    rw [Finset.sum_congr rfl this, sum_shift_ite n p.1 p.2.cols hp.2 (fun c => p.2.get a (c - p.1) * x c)]
    refine Finset.sum_congr rfl fun k _ => ?_
    rw [Nat.add_sub_cancel_left]

/-- The row product of a matrix written by disjoint column blocks on zeros. -/
theorem rowMul_over (l : List (ℕ × Mat K)) (A : Mat K) (a : ℕ) (x : ℕ → K) (hd : Disj l)
    (h : ∀ p ∈ l, a < p.2.rows ∧ p.1 + p.2.cols ≤ A.cols)
    (h0 : ∀ c < A.cols, ¬ Cov l a c → A.get a c = 0) :
    (Mat.rowMul ⟨A.rows, A.cols, over l A.get⟩ a x : K)
      = (l.map fun p => ∑ k ∈ range p.2.cols, p.2.get a k * x (p.1 + k)).sum := by
  rw [← bsum_mul_sum l A.cols a x h]
  unfold Mat.rowMul
  refine Finset.sum_congr rfl fun c hc => ?_
  by_cases hcov : Cov l a c
  · dsimp only
    rw [over_cov hd hcov]
  · dsimp only
    rw [over_not_cov hcov, bsum_not_cov hcov, h0 c (by simpa using hc) hcov]

/-! ## fullJacobian -/

/-- First dof of joint `i`. -/
def jpos (mb : MultiBody K) (i : ℕ) : ℕ := ((mb.joints.take i).map Joint.dof).sum

/-- Dofs of joint `i`. -/
def jdof (mb : MultiBody K) (i : ℕ) : ℕ := ((mb.joints[i]?).map Joint.dof).getD 0

namespace Spec

/-- A row `f` with one entry per dof of the joints of a path, put in the place of those dofs in the
robot's dof vector, zero for the dofs of the other joints: the entry of dof `c`. -/
def onDofs (mb : MultiBody K) : List ℕ → (ℕ → K) → ℕ → K
  | [], _, _ => 0
  | i :: t, f, c =>
    (if jpos mb i ≤ c ∧ c < jpos mb i + jdof mb i then f (c - jpos mb i) else 0)
      + onDofs mb t (fun k => f (jdof mb i + k)) c

end Spec

open Spec

theorem jpos_succ (mb : MultiBody K) (i : ℕ) (h : i < mb.joints.length) :
    jpos mb (i + 1) = jpos mb i + jdof mb i := by
  unfold jpos jdof
  rw [List.take_add_one, List.map_append, List.sum_append, List.getElem?_eq_getElem h]
  simp

theorem jpos_le_of_lt (mb : MultiBody K) {i j : ℕ} (h : i < j) :
    jpos mb i + jdof mb i ≤ jpos mb j := by
  by_cases hi : i < mb.joints.length
  · have e : (mb.joints.map Joint.dof)[i]? = some (jdof mb i) := by
      simp [jdof, hi]
    have := take_succ_sum_le (mb.joints.map Joint.dof) i j (jdof mb i) h e
    simpa [jpos, List.map_take] using this
  · have : jdof mb i = 0 := by simp [jdof, List.getElem?_eq_none (not_lt.mp hi)]
    rw [this]
    unfold jpos
    rw [List.take_of_length_le (not_lt.mp hi), List.take_of_length_le (by omega)]
    simp

theorem jpos_length (mb : MultiBody K) : jpos mb mb.joints.length = mb.nrDof := by
  simp [jpos, MultiBody.nrDof]

theorem jpos_fit (mb : MultiBody K) {i : ℕ} (h : i < mb.joints.length) :
    jpos mb i + jdof mb i ≤ mb.nrDof := by
  rw [← jpos_length]; exact jpos_le_of_lt mb h

/-- The blocks `fullJacobian` copies. -/
def jblocks (mb : MultiBody K) (jac : Mat K) : List ℕ → ℕ → List (ℕ × Mat K)
  | [], _ => []
  | i :: t, pos => (jpos mb i, ⟨jac.rows, jdof mb i, fun a c => jac.get a (pos + c)⟩)
      :: jblocks mb jac t (pos + jdof mb i)

theorem pathDof_cons (mb : MultiBody K) (i : ℕ) (t : List ℕ) :
    pathDof mb (i :: t) = jdof mb i + pathDof mb t := by
  simp [pathDof, jdof]

theorem mem_jblocks {mb : MultiBody K} {jac : Mat K} {path : List ℕ} {pos : ℕ} {p : ℕ × Mat K}
    (h : p ∈ jblocks mb jac path pos) :
    ∃ i ∈ path, p.1 = jpos mb i ∧ p.2.rows = jac.rows ∧ p.2.cols = jdof mb i := by
  induction path generalizing pos with
  | nil => simp [jblocks] at h
  | cons i t ih =>
    rcases List.mem_cons.mp h with rfl | h
    · exact ⟨i, by simp, rfl, rfl, rfl⟩
    · obtain ⟨j, hj, r⟩ := ih h
      exact ⟨j, by simp [hj], r⟩

theorem jblocks_disj (mb : MultiBody K) (jac : Mat K) (path : List ℕ) (pos : ℕ)
    (hn : path.Nodup) : Disj (jblocks mb jac path pos) := by
  induction path generalizing pos with
  | nil => exact List.Pairwise.nil
  | cons i t ih =>
    have hn' := List.nodup_cons.mp hn
    refine List.Pairwise.cons ?_ (ih _ hn'.2)
    intro q hq c hc
    obtain ⟨j, hj, e1, _, e2⟩ := mem_jblocks hq
    have hij : i ≠ j := fun e => hn'.1 (e ▸ hj)
    rw [e1, e2] at hc
    dsimp only at hc
    rcases Nat.lt_or_gt_of_ne hij with h | h
    · have := jpos_le_of_lt mb h; omega
    · have := jpos_le_of_lt mb h; omega

theorem bsum_jblocks (mb : MultiBody K) (jac : Mat K) (path : List ℕ) (pos a c : ℕ)
    (ha : a < jac.rows) :
    bsum (jblocks mb jac path pos) a c = onDofs mb path (fun k => jac.get a (pos + k)) c := by
  induction path generalizing pos with
  | nil => rfl
  | cons i t ih =>
    simp only [jblocks, bsum, onDofs, ha, true_and]
    rw [ih]
    simp only [add_assoc]

theorem fullJacobian_loop (mb : MultiBody K) (jac : Mat K) (path : List ℕ) (R : Mat K) (pos : ℕ)
    (hp : ∀ i ∈ path, i < mb.joints.length) (hc : pos + pathDof mb path ≤ jac.cols) :
    forEach path (fun i (s : Mat K × ℕ) => do
      let j ← vecAt mb.joints i
      let p ← mb.jointPosInDof i
      let b ← jac.block 0 s.2 jac.rows j.dof
      let r ← s.1.setBlock 0 p b
      pure (r, s.2 + j.dof)) (R, pos)
    = (do
        let R' ← forEach (jblocks mb jac path pos) (fun p (A : Mat K) => A.setBlock 0 p.1 p.2) R
        pure (R', pos + pathDof mb path)) := by
  induction path generalizing R pos with
  | nil => simp [forEach, jblocks, pathDof]
  | cons i t ih =>
    have hi := hp i (by simp)
    rw [pathDof_cons] at hc
    have hd : jdof mb i = mb.joints[i].dof := by simp [jdof, hi]
    have hb : jac.block 0 pos jac.rows mb.joints[i].dof
        = .ok ⟨jac.rows, jdof mb i, fun a c => jac.get a (pos + c)⟩ := by
      unfold Mat.block
      rw [if_pos ⟨by omega, by omega⟩, hd]
      simp
    have hj : mb.jointPosInDof i = .ok (jpos mb i) := by simp [MultiBody.jointPosInDof, hi, jpos]
    simp only [forEach, vecAt_ok hi, Out.ok_bind, hj, hb, jblocks]
    cases e : R.setBlock 0 (jpos mb i) ⟨jac.rows, jdof mb i, fun a c => jac.get a (pos + c)⟩ with
    | ok R1 =>
      simp only [Out.ok_bind, Out.pure_eq]
      have := ih R1 (pos + mb.joints[i].dof) (fun j hj => hp j (by simp [hj])) (by omega)
      simp only [Out.pure_eq] at this
      rw [this, hd]
      congr 1
      funext R'
      rw [pathDof_cons, hd, add_assoc]
    | ub => rfl
    | throws e => rfl

/-- `fullJacobian` puts the columns of the joints of the path in the place of their dofs and zero
elsewhere. -/
theorem fullJacobian_ok (mb : MultiBody K) (path : List ℕ) (jac res : Mat K)
    (hp : ∀ i ∈ path, i < mb.joints.length) (hn : path.Nodup) (hc : pathDof mb path ≤ jac.cols)
    (hr : jac.rows ≤ res.rows) (hcols : mb.nrDof ≤ res.cols) :
    ∃ R, fullJacobian mb path jac res = .ok R ∧ R.rows = res.rows ∧ R.cols = res.cols ∧
      ∀ a < jac.rows, ∀ c < mb.nrDof, R.get a c = onDofs mb path (fun k => jac.get a k) c := by
  unfold fullJacobian
  have e0 : res.setBlock 0 0 (Mat.zero jac.rows mb.nrDof) = .ok ⟨res.rows, res.cols, fun a c =>
      if a < jac.rows ∧ c < mb.nrDof then 0 else res.get a c⟩ := by
    rw [setBlock_col (by simpa [Mat.zero] using hr) (by simpa [Mat.zero] using hcols)]
    simp [Mat.zero]
  simp only [e0, Out.ok_bind]
  rw [fullJacobian_loop mb jac path _ 0 hp (by simpa using hc)]
  rw [writeBlocks_ok]
  · refine ⟨_, rfl, rfl, rfl, fun a ha c hc' => ?_⟩
    by_cases hcov : Cov (jblocks mb jac path 0) a c
    · change over _ _ a c = _
      rw [over_cov (jblocks_disj mb jac path 0 hn) hcov, bsum_jblocks _ _ _ _ _ _ ha]
      simp
    · change over _ _ a c = _
      rw [over_not_cov hcov]
      have := bsum_not_cov hcov
      rw [bsum_jblocks _ _ _ _ _ _ ha] at this
      simp only [Nat.zero_add] at this
      rw [this]
      exact if_pos ⟨ha, hc'⟩
  · intro p h
    obtain ⟨i, hi, e1, e2, e3⟩ := mem_jblocks h
    have := jpos_fit mb (hp i hi)
    rw [e1, e2, e3]
    exact ⟨hr, by dsimp only; omega⟩

theorem onDofs_lin (mb : MultiBody K) (path : List ℕ) (u v : K) (f g : ℕ → K) (c : ℕ) :
    onDofs mb path (fun k => u * f k + v * g k) c
      = u * onDofs mb path f c + v * onDofs mb path g c := by
  induction path generalizing f g with
  | nil => simp [onDofs]
  | cons i t ih =>
    simp only [onDofs]
    rw [ih (fun k => f (jdof mb i + k)) (fun k => g (jdof mb i + k))]
    split <;> ring

theorem onDofs_lin3 (mb : MultiBody K) (path : List ℕ) (u v w : K) (f g h : ℕ → K) (c : ℕ) :
    onDofs mb path (fun k => u * f k + v * g k + w * h k) c
      = u * onDofs mb path f c + v * onDofs mb path g c + w * onDofs mb path h c := by
  have e1 := onDofs_lin mb path 1 w (fun k => u * f k + v * g k) h c
  have e2 := onDofs_lin mb path u v f g c
  simp only [one_mul] at e1
  rw [e1, e2]

/-- The full row applied to a dof vector is the path row applied to the dofs of the path. -/
theorem onDofs_mul_sum (mb : MultiBody K) (path : List ℕ) (f : ℕ → K) (v : ℕ → K)
    (hp : ∀ i ∈ path, i < mb.joints.length) :
    ∑ c ∈ range mb.nrDof, onDofs mb path f c * v c
      = ∑ k ∈ range (pathDof mb path), f k *
          v ((path.flatMap fun i => (List.range (jdof mb i)).map (jpos mb i + ·)).getD k 0) := by
  induction path generalizing f with
  | nil => simp [onDofs, pathDof]
  | cons i t ih =>
    have hi := jpos_fit mb (hp i (by simp))
    simp only [onDofs, add_mul, Finset.sum_add_distrib, ite_mul, zero_mul]
    rw [sum_shift_ite _ _ _ hi (fun c => f (c - jpos mb i) * v c),
      ih _ (fun j hj => hp j (by simp [hj])), pathDof_cons, Finset.sum_range_add]
    congr 1
    · refine Finset.sum_congr rfl fun k hk => ?_
      have hk' : k < jdof mb i := by simpa using hk
      rw [Nat.add_sub_cancel_left, List.flatMap_cons, List.getD_eq_getElem?_getD,
        List.getElem?_append_left (by simpa using hk')]
      simp [hk']
    · refine Finset.sum_congr rfl fun k hk => ?_
      rw [List.flatMap_cons, List.getD_eq_getElem?_getD, List.getD_eq_getElem?_getD,
        List.getElem?_append_right (by simp)]
      simp

end

end Verif
