import Verif.Base

/-!
# 3D and spatial algebra

The fixed-size part of Eigen and the SpaceVecAlg operations the library calls.  Neither library is
part of `/repo`; the definitions below are the documented formulas of SpaceVecAlg 1.x and belong to
the trusted base (see DESIGN.md).
-/

set_option autoImplicit false

namespace Verif

/-- `Eigen::Vector3d` -/
@[ext] structure V3 (K : Type) where
  x : K
  y : K
  z : K
  deriving DecidableEq, Repr

namespace V3
variable {K : Type} [CommRing K]

instance : Zero (V3 K) := ⟨⟨0, 0, 0⟩⟩
instance : Add (V3 K) := ⟨fun a b => ⟨a.x + b.x, a.y + b.y, a.z + b.z⟩⟩
instance : Neg (V3 K) := ⟨fun a => ⟨-a.x, -a.y, -a.z⟩⟩
instance : Sub (V3 K) := ⟨fun a b => ⟨a.x - b.x, a.y - b.y, a.z - b.z⟩⟩
instance : SMul K (V3 K) := ⟨fun c a => ⟨c * a.x, c * a.y, c * a.z⟩⟩
instance : SMul ℕ (V3 K) := ⟨fun c a => ⟨c * a.x, c * a.y, c * a.z⟩⟩
instance : SMul ℤ (V3 K) := ⟨fun c a => ⟨c * a.x, c * a.y, c * a.z⟩⟩

@[simp] theorem zero_x : (0 : V3 K).x = 0 := rfl
@[simp] theorem zero_y : (0 : V3 K).y = 0 := rfl
@[simp] theorem zero_z : (0 : V3 K).z = 0 := rfl
@[simp] theorem add_x (a b : V3 K) : (a + b).x = a.x + b.x := rfl
@[simp] theorem add_y (a b : V3 K) : (a + b).y = a.y + b.y := rfl
@[simp] theorem add_z (a b : V3 K) : (a + b).z = a.z + b.z := rfl
@[simp] theorem neg_x (a : V3 K) : (-a).x = -a.x := rfl
@[simp] theorem neg_y (a : V3 K) : (-a).y = -a.y := rfl
@[simp] theorem neg_z (a : V3 K) : (-a).z = -a.z := rfl
@[simp] theorem sub_x (a b : V3 K) : (a - b).x = a.x - b.x := rfl
@[simp] theorem sub_y (a b : V3 K) : (a - b).y = a.y - b.y := rfl
@[simp] theorem sub_z (a b : V3 K) : (a - b).z = a.z - b.z := rfl
@[simp] theorem smul_x (c : K) (a : V3 K) : (c • a).x = c * a.x := rfl
@[simp] theorem smul_y (c : K) (a : V3 K) : (c • a).y = c * a.y := rfl
@[simp] theorem smul_z (c : K) (a : V3 K) : (c • a).z = c * a.z := rfl
@[simp] theorem nsmul_x (c : ℕ) (a : V3 K) : (c • a).x = c * a.x := rfl
@[simp] theorem nsmul_y (c : ℕ) (a : V3 K) : (c • a).y = c * a.y := rfl
@[simp] theorem nsmul_z (c : ℕ) (a : V3 K) : (c • a).z = c * a.z := rfl
@[simp] theorem zsmul_x (c : ℤ) (a : V3 K) : (c • a).x = c * a.x := rfl
@[simp] theorem zsmul_y (c : ℤ) (a : V3 K) : (c • a).y = c * a.y := rfl
@[simp] theorem zsmul_z (c : ℤ) (a : V3 K) : (c • a).z = c * a.z := rfl

instance : AddCommGroup (V3 K) where
  add_assoc a b c := by ext <;> simp <;> ring
  zero_add a := by ext <;> simp
  add_zero a := by ext <;> simp
  add_comm a b := by ext <;> simp <;> ring
  neg_add_cancel a := by ext <;> simp
  sub_eq_add_neg a b := by ext <;> simp <;> ring
  nsmul := (· • ·)
  nsmul_zero a := by ext <;> simp
  nsmul_succ n a := by ext <;> simp <;> ring
  zsmul := (· • ·)
  zsmul_zero' a := by ext <;> simp
  zsmul_succ' n a := by ext <;> simp <;> ring
  zsmul_neg' n a := by
    ext
    · change ((Int.negSucc n : ℤ) : K) * a.x = -(((n.succ : ℕ) : ℤ) * a.x)
      simp [Int.negSucc_eq]; ring
    · change ((Int.negSucc n : ℤ) : K) * a.y = -(((n.succ : ℕ) : ℤ) * a.y)
      simp [Int.negSucc_eq]; ring
    · change ((Int.negSucc n : ℤ) : K) * a.z = -(((n.succ : ℕ) : ℤ) * a.z)
      simp [Int.negSucc_eq]; ring

/-- `a.dot(b)` -/
def dot (a b : V3 K) : K := a.x * b.x + a.y * b.y + a.z * b.z

/-- `a.cross(b)` -/
def cross (a b : V3 K) : V3 K :=
  ⟨a.y * b.z - a.z * b.y, a.z * b.x - a.x * b.z, a.x * b.y - a.y * b.x⟩

@[simp] theorem cross_x (a b : V3 K) : (a.cross b).x = a.y * b.z - a.z * b.y := rfl
@[simp] theorem cross_y (a b : V3 K) : (a.cross b).y = a.z * b.x - a.x * b.z := rfl
@[simp] theorem cross_z (a b : V3 K) : (a.cross b).z = a.x * b.y - a.y * b.x := rfl

/-- `a.squaredNorm()` -/
def sqNorm (a : V3 K) : K := a.dot a

/-- Entry by index (0, 1, 2). -/
def get (a : V3 K) : ℕ → K
  | 0 => a.x
  | 1 => a.y
  | _ => a.z

end V3

/-- `Eigen::Matrix3d`, by rows. -/
@[ext] structure M3 (K : Type) where
  r0 : V3 K
  r1 : V3 K
  r2 : V3 K
  deriving DecidableEq, Repr

namespace M3
variable {K : Type} [CommRing K]

/-- `Eigen::Matrix3d::Identity()` -/
def one : M3 K := ⟨⟨1, 0, 0⟩, ⟨0, 1, 0⟩, ⟨0, 0, 1⟩⟩

/-- `m * v` -/
def mulVec (m : M3 K) (v : V3 K) : V3 K := ⟨m.r0.dot v, m.r1.dot v, m.r2.dot v⟩

/-- `m.transpose()` -/
def transpose (m : M3 K) : M3 K :=
  ⟨⟨m.r0.x, m.r1.x, m.r2.x⟩, ⟨m.r0.y, m.r1.y, m.r2.y⟩, ⟨m.r0.z, m.r1.z, m.r2.z⟩⟩

/-- `a * b` -/
def mul (a b : M3 K) : M3 K :=
  let bt := b.transpose
  ⟨⟨a.r0.dot bt.r0, a.r0.dot bt.r1, a.r0.dot bt.r2⟩,
   ⟨a.r1.dot bt.r0, a.r1.dot bt.r1, a.r1.dot bt.r2⟩,
   ⟨a.r2.dot bt.r0, a.r2.dot bt.r1, a.r2.dot bt.r2⟩⟩

/-- `-m` -/
def neg (m : M3 K) : M3 K := ⟨-m.r0, -m.r1, -m.r2⟩

/-- Orthonormal rows. -/
def RowsOrtho (m : M3 K) : Prop :=
  m.r0.dot m.r0 = 1 ∧ m.r1.dot m.r1 = 1 ∧ m.r2.dot m.r2 = 1 ∧
  m.r0.dot m.r1 = 0 ∧ m.r0.dot m.r2 = 0 ∧ m.r1.dot m.r2 = 0

/-- A rotation matrix: orthonormal rows, right handed (`r0 × r1 = r2`). -/
def IsRot (m : M3 K) : Prop := m.RowsOrtho ∧ m.r0.cross m.r1 = m.r2

end M3

/-- `sva::PTransformd`: rotation `E` and translation `r`. -/
@[ext] structure PT (K : Type) where
  E : M3 K
  r : V3 K
  deriving DecidableEq, Repr

/-- `sva::MotionVecd` -/
@[ext] structure MV (K : Type) where
  ang : V3 K
  lin : V3 K
  deriving DecidableEq, Repr

/-- `sva::ForceVecd` -/
@[ext] structure FV (K : Type) where
  couple : V3 K
  force : V3 K
  deriving DecidableEq, Repr

section Spatial
variable {K : Type} [CommRing K]

namespace MV
instance : Zero (MV K) := ⟨⟨0, 0⟩⟩
instance : Add (MV K) := ⟨fun a b => ⟨a.ang + b.ang, a.lin + b.lin⟩⟩
instance : Sub (MV K) := ⟨fun a b => ⟨a.ang - b.ang, a.lin - b.lin⟩⟩
@[simp] theorem zero_ang : (0 : MV K).ang = 0 := rfl
@[simp] theorem zero_lin : (0 : MV K).lin = 0 := rfl
@[simp] theorem add_ang (a b : MV K) : (a + b).ang = a.ang + b.ang := rfl
@[simp] theorem add_lin (a b : MV K) : (a + b).lin = a.lin + b.lin := rfl
@[simp] theorem sub_ang (a b : MV K) : (a - b).ang = a.ang - b.ang := rfl
@[simp] theorem sub_lin (a b : MV K) : (a - b).lin = a.lin - b.lin := rfl

/-- `v.cross(w)` on motion vectors: `(ω×ω', ω×v' + v×ω')`. -/
def cross (a b : MV K) : MV K := ⟨a.ang.cross b.ang, a.ang.cross b.lin + a.lin.cross b.ang⟩
end MV

namespace FV
instance : Zero (FV K) := ⟨⟨0, 0⟩⟩
instance : Add (FV K) := ⟨fun a b => ⟨a.couple + b.couple, a.force + b.force⟩⟩
@[simp] theorem zero_couple : (0 : FV K).couple = 0 := rfl
@[simp] theorem zero_force : (0 : FV K).force = 0 := rfl
@[simp] theorem add_couple (a b : FV K) : (a + b).couple = a.couple + b.couple := rfl
@[simp] theorem add_force (a b : FV K) : (a + b).force = a.force + b.force := rfl
end FV

namespace PT
/-- `sva::PTransformd(r)`: pure translation. -/
def ofTrans (r : V3 K) : PT K := ⟨M3.one, r⟩
/-- `sva::PTransformd(E)`: pure rotation. -/
def ofRot (E : M3 K) : PT K := ⟨E, 0⟩
/-- `sva::PTransformd::Identity()` -/
def one : PT K := ⟨M3.one, 0⟩
/-- `X * Y` = `(E_X E_Y, r_Y + E_Yᵀ r_X)`. -/
def mul (X Y : PT K) : PT K := ⟨X.E.mul Y.E, Y.r + Y.E.transpose.mulVec X.r⟩
/-- `X.inv()` = `(Eᵀ, -E r)`. -/
def inv (X : PT K) : PT K := ⟨X.E.transpose, -(X.E.mulVec X.r)⟩
/-- `X * v` on motion vectors: `(E ω, E (v - r×ω))`. -/
def mulM (X : PT K) (m : MV K) : MV K := ⟨X.E.mulVec m.ang, X.E.mulVec (m.lin - X.r.cross m.ang)⟩
/-- `X.transMul(f)` = `Xᵀ f` on force vectors: `(Eᵀ n + r × Eᵀ f, Eᵀ f)`. -/
def transMul (X : PT K) (f : FV K) : FV K :=
  ⟨X.E.transpose.mulVec f.couple + X.r.cross (X.E.transpose.mulVec f.force),
   X.E.transpose.mulVec f.force⟩
end PT

end Spatial

end Verif
