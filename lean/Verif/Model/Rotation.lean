import Verif.Model.Kine
import Mathlib.Analysis.SpecialFunctions.Trigonometric.Inverse

/-!
# Rotation errors of SpaceVecAlg

The errors of the orientation and transform tasks (Tasks.cpp:117, 129, 215, 267, 335, 414, 429) go
through `sva::rotationVelocity`.  SpaceVecAlg is not part of `/repo`: the formulas of its `MathFunc.h`
are written here over the reals and belong to the trusted base.
-/

set_option autoImplicit false

namespace Verif

/-- `E.trace()` -/
def M3.trace {K : Type} [CommRing K] (m : M3 K) : K := m.r0.x + m.r1.y + m.r2.z

/-- `(E(1,2) - E(2,1), E(2,0) - E(0,2), E(0,1) - E(1,0))` -/
def M3.vee {K : Type} [CommRing K] (m : M3 K) : V3 K :=
  ⟨m.r1.z - m.r2.y, m.r2.x - m.r0.z, m.r0.y - m.r1.x⟩

/-- `sva::details::SinC_inv(x)`: `x / sin x`, one at zero. -/
noncomputable def svaSincInv (x : ℝ) : ℝ := if x = 0 then 1 else x / Real.sin x

/-- `sva::rotationVelocity(E_a_b)` (SpaceVecAlg `MathFunc.h`): with
`theta = acos(min(max((trace - 1) / 2, -1), 1))`, the vector `vee * sinc_inv(theta) / 2`.  At
`theta = π` the quotient is by zero; the theorems exclude this angle. -/
noncomputable def svaRotVel (E : M3 ℝ) : V3 ℝ :=
  (svaSincInv (Real.arccos (min (max ((E.trace - 1) / 2) (-1)) 1)) / 2) • E.vee

section
variable {K : Type} [CommRing K]

/-- `sva::rotationError(E_a_b, E_a_c)` = `E_a_bᵀ * rotationVelocity(E_a_c * E_a_bᵀ)`, for a given
`rotationVelocity`. -/
def rotationErrorOf (rotVel : M3 K → V3 K) (Eab Eac : M3 K) : V3 K :=
  Eab.transpose.mulVec (rotVel (Eac.mul Eab.transpose))

/-- `sva::transformVelocity(X_a_b)` = `(rotationVelocity(E), r)`. -/
def transformVelocityOf (rotVel : M3 K → V3 K) (X : PT K) : MV K := ⟨rotVel X.E, X.r⟩

/-- `sva::transformError(X_a_b, X_a_c)` = `PTransform(E_a_bᵀ) * transformVelocity(X_a_c * X_a_b⁻¹)`. -/
def transformErrorOf (rotVel : M3 K → V3 K) (Xab Xac : PT K) : MV K :=
  (PT.ofRot Xab.E.transpose).mulM (transformVelocityOf rotVel (Xac.mul Xab.inv))

end

end Verif
