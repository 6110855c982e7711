/-
What is assumed of `math.Pow` for the colour functions.
-/
import Verif.Model.Color
import Mathlib.Algebra.Order.Field.Rat
import Mathlib.Algebra.Order.Group.Abs

namespace Gltf

/-- The value as a rational number. -/
def F32.q (x : F32) : ℚ := (x.val : ℚ) / 2 ^ 149
/-- The value as a rational number. -/
def F64.q (x : F64) : ℚ := (x.val : ℚ) / 2 ^ 1074

/-- `r` is a finite positive number whose power `m` is the power `k` of `x`, up to a relative error of 2^-40: `r` is
close to the power `k / m` of `x`. -/
def Spec.CloseRoot (m k : Nat) (x : ℚ) (r : F64) : Prop :=
  r.finite = true ∧ r.neg = false ∧ |r.q ^ m - x ^ k| ≤ x ^ k / 2 ^ 40

/-- `math.Pow` is accurate to about twelve digits for the exponents 2.4 and 1/2.4 and for bases between 1/1024 and
2, which are all that the colour functions need. -/
structure Spec.PowAccurate (pow : Pow) : Prop where
  up : ∀ x : F64, x.finite = true → 1 / 1024 ≤ x.q → x.q ≤ 2 → Spec.CloseRoot 5 12 x.q (pow x (F64.ofRat 24 10))
  down : ∀ x : F64, x.finite = true → 1 / 1024 ≤ x.q → x.q ≤ 2 → Spec.CloseRoot 12 5 x.q (pow x (F64.ofRat 10 24))

end Gltf
