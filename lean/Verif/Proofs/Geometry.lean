import Verif.Model.Geometry
import Mathlib.LinearAlgebra.Matrix.Notation
import Mathlib.LinearAlgebra.Matrix.NonsingularInverse

/-!
# Helper lemmas on 3D algebra
-/

set_option autoImplicit false
set_option linter.unusedSectionVars false

namespace Verif

namespace V3
variable {K : Type} [CommRing K]

theorem dot_comm (a b : V3 K) : a.dot b = b.dot a := by simp [dot]; ring
theorem dot_add (a b c : V3 K) : a.dot (b + c) = a.dot b + a.dot c := by simp [dot]; ring
theorem add_dot (a b c : V3 K) : (a + b).dot c = a.dot c + b.dot c := by simp [dot]; ring
theorem dot_smul (a b : V3 K) (k : K) : a.dot (k • b) = k * a.dot b := by simp [dot]; ring
theorem smul_dot (a b : V3 K) (k : K) : (k • a).dot b = k * a.dot b := by simp [dot]; ring
theorem dot_zero (a : V3 K) : a.dot 0 = 0 := by simp [dot]
theorem zero_dot (a : V3 K) : (0 : V3 K).dot a = 0 := by simp [dot]
theorem dot_neg (a b : V3 K) : a.dot (-b) = -a.dot b := by simp [dot]; ring
theorem neg_dot (a b : V3 K) : (-a).dot b = -a.dot b := by simp [dot]; ring
theorem dot_sub (a b c : V3 K) : a.dot (b - c) = a.dot b - a.dot c := by simp [dot]; ring
theorem sub_dot (a b c : V3 K) : (a - b).dot c = a.dot c - b.dot c := by simp [dot]; ring
theorem dot_cross_self (a b : V3 K) : a.dot (a.cross b) = 0 := by simp [dot]; ring
theorem dot_cross_self' (a b : V3 K) : b.dot (a.cross b) = 0 := by simp [dot]; ring
theorem cross_self (a : V3 K) : a.cross a = 0 := by ext <;> simp <;> ring
theorem cross_add (a b c : V3 K) : a.cross (b + c) = a.cross b + a.cross c := by
  ext <;> simp <;> ring
theorem add_cross (a b c : V3 K) : (a + b).cross c = a.cross c + b.cross c := by
  ext <;> simp <;> ring
theorem cross_sub (a b c : V3 K) : a.cross (b - c) = a.cross b - a.cross c := by
  ext <;> simp <;> ring
theorem sub_cross (a b c : V3 K) : (a - b).cross c = a.cross c - b.cross c := by
  ext <;> simp <;> ring
theorem cross_smul (a b : V3 K) (k : K) : a.cross (k • b) = k • a.cross b := by
  ext <;> simp <;> ring
theorem smul_cross (a b : V3 K) (k : K) : (k • a).cross b = k • a.cross b := by
  ext <;> simp <;> ring
theorem cross_neg (a b : V3 K) : a.cross (-b) = -a.cross b := by ext <;> simp <;> ring
theorem neg_cross (a b : V3 K) : (-a).cross b = -a.cross b := by ext <;> simp <;> ring
theorem cross_anti (a b : V3 K) : a.cross b = -b.cross a := by ext <;> simp <;> ring
theorem cross_zero (a : V3 K) : a.cross 0 = 0 := by ext <;> simp
theorem zero_cross (a : V3 K) : (0 : V3 K).cross a = 0 := by ext <;> simp
theorem smul_add' (k : K) (a b : V3 K) : k • (a + b) = k • a + k • b := by ext <;> simp <;> ring
theorem smul_neg' (k : K) (a : V3 K) : k • (-a) = -(k • a) := by ext <;> simp
theorem smul_smul' (k l : K) (a : V3 K) : k • l • a = (k * l) • a := by ext <;> simp <;> ring
theorem smul_zero' (k : K) : k • (0 : V3 K) = 0 := by ext <;> simp
theorem one_smul' (a : V3 K) : (1 : K) • a = a := by ext <;> simp
theorem zero_smul' (a : V3 K) : (0 : K) • a = 0 := by ext <;> simp

/-- Lagrange's identity. -/
theorem cross_dot_cross (a b c d : V3 K) :
    (a.cross b).dot (c.cross d) = a.dot c * b.dot d - a.dot d * b.dot c := by simp [dot]; ring

/-- Triple product expansion. -/
theorem cross_cross (a b c : V3 K) : a.cross (b.cross c) = (a.dot c) • b - (a.dot b) • c := by
  ext <;> simp [dot] <;> ring

/-- Jacobi identity in the form used for relative velocities. -/
theorem jacobi (a b c : V3 K) :
    (a.cross b).cross c = a.cross (b.cross c) - b.cross (a.cross c) := by
  ext <;> simp <;> ring

end V3

namespace M3
variable {K : Type} [CommRing K]

theorem mulVec_add (m : M3 K) (a b : V3 K) : m.mulVec (a + b) = m.mulVec a + m.mulVec b := by
  ext <;> simp [mulVec, V3.dot] <;> ring
theorem mulVec_sub (m : M3 K) (a b : V3 K) : m.mulVec (a - b) = m.mulVec a - m.mulVec b := by
  ext <;> simp [mulVec, V3.dot] <;> ring
theorem mulVec_smul (m : M3 K) (k : K) (a : V3 K) : m.mulVec (k • a) = k • m.mulVec a := by
  ext <;> simp [mulVec, V3.dot] <;> ring
theorem mulVec_neg (m : M3 K) (a : V3 K) : m.mulVec (-a) = -m.mulVec a := by
  ext <;> simp [mulVec, V3.dot] <;> ring
theorem mulVec_zero (m : M3 K) : m.mulVec 0 = 0 := by
  ext <;> simp [mulVec, V3.dot]
theorem one_mulVec (a : V3 K) : (one : M3 K).mulVec a = a := by
  ext <;> simp [mulVec, V3.dot, one]
theorem mul_mulVec (m n : M3 K) (a : V3 K) : (m.mul n).mulVec a = m.mulVec (n.mulVec a) := by
  ext <;> simp [mulVec, V3.dot, mul, transpose] <;> ring
theorem transpose_transpose (m : M3 K) : m.transpose.transpose = m := by
  simp [transpose]
theorem transpose_one : (one : M3 K).transpose = one := by simp [transpose, one]
theorem neg_mulVec (m : M3 K) (a : V3 K) : m.neg.mulVec a = -m.mulVec a := by
  ext <;> simp [mulVec, V3.dot, neg] <;> ring
theorem dot_mulVec (m : M3 K) (a b : V3 K) : a.dot (m.mulVec b) = (m.transpose.mulVec a).dot b := by
  simp [mulVec, V3.dot, transpose]; ring

/-- As a Mathlib matrix. -/
def toMatrix (m : M3 K) : Matrix (Fin 3) (Fin 3) K :=
  !![m.r0.x, m.r0.y, m.r0.z; m.r1.x, m.r1.y, m.r1.z; m.r2.x, m.r2.y, m.r2.z]

theorem RowsOrtho.toMatrix_mul {m : M3 K} (h : m.RowsOrtho) :
    m.toMatrix * m.toMatrix.transpose = 1 := by
  obtain ⟨h0, h1, h2, h3, h4, h5⟩ := h
  simp only [V3.dot] at *
  ext i j
  fin_cases i <;> fin_cases j <;>
    simp [toMatrix, Matrix.mul_apply, Fin.sum_univ_three] <;> first
      | linear_combination h0
      | linear_combination h1
      | linear_combination h2
      | linear_combination h3
      | linear_combination h4
      | linear_combination h5

/-- A matrix with orthonormal rows has orthonormal columns. -/
theorem RowsOrtho.transpose {m : M3 K} (h : m.RowsOrtho) : m.transpose.RowsOrtho := by
  have h1 := mul_eq_one_comm.mp h.toMatrix_mul
  have e : ∀ i j, (m.toMatrix.transpose * m.toMatrix) i j = (1 : Matrix (Fin 3) (Fin 3) K) i j := by
    intro i j; rw [h1]
  have e00 := e 0 0
  have e11 := e 1 1
  have e22 := e 2 2
  have e01 := e 0 1
  have e02 := e 0 2
  have e12 := e 1 2
  simp [toMatrix, Matrix.mul_apply, Fin.sum_univ_three] at e00 e11 e22 e01 e02 e12
  refine ⟨?_, ?_, ?_, ?_, ?_, ?_⟩ <;> simp [M3.transpose, V3.dot] <;> assumption

/-- Orthogonal matrices preserve the dot product. -/
theorem RowsOrtho.dot_mulVec {m : M3 K} (h : m.RowsOrtho) (a b : V3 K) :
    (m.mulVec a).dot (m.mulVec b) = a.dot b := by
  obtain ⟨h0, h1, h2, h3, h4, h5⟩ := h.transpose
  simp only [V3.dot, M3.transpose, mulVec] at *
  linear_combination (a.x * b.x) * h0 + (a.y * b.y) * h1 + (a.z * b.z) * h2
    + (a.x * b.y + a.y * b.x) * h3 + (a.x * b.z + a.z * b.x) * h4 + (a.y * b.z + a.z * b.y) * h5

theorem RowsOrtho.mulVec_transpose {m : M3 K} (h : m.RowsOrtho) (a : V3 K) :
    m.mulVec (m.transpose.mulVec a) = a := by
  obtain ⟨h0, h1, h2, h3, h4, h5⟩ := h
  simp only [V3.dot] at *
  ext <;> simp only [M3.transpose, mulVec, V3.dot]
  · linear_combination a.x * h0 + a.y * h3 + a.z * h4
  · linear_combination a.x * h3 + a.y * h1 + a.z * h5
  · linear_combination a.x * h4 + a.y * h5 + a.z * h2

theorem RowsOrtho.transpose_mulVec {m : M3 K} (h : m.RowsOrtho) (a : V3 K) :
    m.transpose.mulVec (m.mulVec a) = a := by
  have := h.transpose.mulVec_transpose a
  rwa [transpose_transpose] at this

/-- Rotations preserve the cross product. -/
theorem IsRot.cross_mulVec {m : M3 K} (h : m.IsRot) (a b : V3 K) :
    (m.mulVec a).cross (m.mulVec b) = m.mulVec (a.cross b) := by
  obtain ⟨⟨h0, h1, h2, h3, h4, h5⟩, hc⟩ := h
  have e1 : m.r1.cross m.r2 = m.r0 := by
    rw [← hc, V3.cross_cross, h1, V3.dot_comm, h3]
    ext <;> simp
  have e2 : m.r2.cross m.r0 = m.r1 := by
    rw [← hc, V3.cross_anti, V3.cross_cross, h0, h3]
    ext <;> simp
  ext
  · have := V3.cross_dot_cross m.r1 m.r2 a b
    rw [e1] at this
    simp only [mulVec, V3.cross_x]
    rw [this]; ring
  · have := V3.cross_dot_cross m.r2 m.r0 a b
    rw [e2] at this
    simp only [mulVec, V3.cross_y]
    rw [this]; ring
  · have := V3.cross_dot_cross m.r0 m.r1 a b
    rw [hc] at this
    simp only [mulVec, V3.cross_z]
    rw [this]; ring

end M3

end Verif
