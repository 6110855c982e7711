/-
The transfer functions of sRGB (IEC 61966-2-1), on real numbers.
-/
import Verif.Spec.Nearest
import Mathlib.Analysis.SpecialFunctions.Pow.Real

namespace Gltf.Spec

/-- From linear light to sRGB. -/
noncomputable def srgb (x : ℝ) : ℝ := if x ≤ 0.0031308 then 12.92 * x else 1.055 * x ^ ((1 : ℝ) / 2.4) - 0.055

/-- From sRGB to linear light. -/
noncomputable def linear (y : ℝ) : ℝ := if y ≤ 0.04045 then y / 12.92 else ((y + 0.055) / 1.055) ^ (2.4 : ℝ)

/-- `n` is `t` in units of `1 / max` with the fraction dropped, where `t` is known up to 2^-21. -/
def Floor (max : Nat) (t : ℝ) (n : Nat) : Prop :=
  n ≤ max ∧ (n : ℝ) ≤ max * (t + 1 / 2 ^ 21) ∧ max * (t - 1 / 2 ^ 21) < n + 1

end Gltf.Spec
