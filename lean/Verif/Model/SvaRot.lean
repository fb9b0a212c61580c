import Verif.Model.Rotation
import Mathlib.Analysis.SpecialFunctions.Trigonometric.Basic

/-!
# Elementary rotations of SpaceVecAlg

`sva::RotX`, `RotY`, `RotZ`, used by `ContactData::update` (/repo/src/QPContactConstr.cpp:97-98).  They belong to
SpaceVecAlg (`MathFunc.h`), which is not part of the repository: their documented formulas, over the reals.
-/

set_option autoImplicit false

namespace Verif

/-- `sva::RotX(theta)`. -/
noncomputable def svaRotX (θ : ℝ) : M3 ℝ :=
  ⟨⟨1, 0, 0⟩, ⟨0, Real.cos θ, Real.sin θ⟩, ⟨0, -Real.sin θ, Real.cos θ⟩⟩

/-- `sva::RotY(theta)`. -/
noncomputable def svaRotY (θ : ℝ) : M3 ℝ :=
  ⟨⟨Real.cos θ, 0, -Real.sin θ⟩, ⟨0, 1, 0⟩, ⟨Real.sin θ, 0, Real.cos θ⟩⟩

/-- `sva::RotZ(theta)`. -/
noncomputable def svaRotZ (θ : ℝ) : M3 ℝ :=
  ⟨⟨Real.cos θ, Real.sin θ, 0⟩, ⟨-Real.sin θ, Real.cos θ, 0⟩, ⟨0, 0, 1⟩⟩

/-- `sva::RotX(a) * sva::RotY(b) * sva::RotZ(c)` (QPContactConstr.cpp:97). -/
noncomputable def svaRotXYZ (a b c : ℝ) : M3 ℝ := ((svaRotX a).mul (svaRotY b)).mul (svaRotZ c)

end Verif
