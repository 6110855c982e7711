/-
Specification: the value of a JSON number, and the float64 that is nearest to it.
-/
import Verif.Spec.Json
import Verif.Spec.Color

namespace Gltf.Spec

/-- The number that decimal digits stand for. -/
def decimal : Bytes → Nat
  | [] => 0
  | c :: ds => (c.toNat - 48) * 10 ^ ds.length + decimal ds

/-- The text is a JSON number with this sign and absolute value (RFC 8259, section 6). -/
def LitValue (s : Bytes) (neg : Bool) (q : ℚ) : Prop :=
  ∃ (int frac exp ds : Bytes) (e : Int), s = (if neg then b!"-" else []) ++ int ++ frac ++ exp ∧
    (int = b!"0" ∨ (IsDigits int ∧ int.head? ≠ some 48)) ∧
    ((frac = [] ∧ ds = []) ∨ (IsDigits ds ∧ frac = b!"." ++ ds)) ∧
    ((exp = [] ∧ e = 0) ∨ ∃ c k, (c = b!"e" ∨ c = b!"E") ∧ IsDigits k ∧
      ((exp = c ++ k ∧ e = decimal k) ∨ (exp = c ++ b!"+" ++ k ∧ e = decimal k) ∨ (exp = c ++ b!"-" ++ k ∧ e = -(decimal k : Int)))) ∧
    q = decimal (int ++ ds) * (10 : ℚ) ^ (e - ds.length)

/-- The sign and the absolute value put together. -/
def signedQ (neg : Bool) (q : ℚ) : ℚ := if neg then -q else q

/-- The finite number nearest to `t`; of two that are equally near, the one whose last bit is zero. -/
structure NearestEven (t : ℚ) (x : F64) : Prop where
  finite : x.finite = true
  nearest : ∀ y : F64, y.finite = true → |x.q - t| ≤ |y.q - t|
  even : ∀ y : F64, y.finite = true → y.q ≠ x.q → |y.q - t| = |x.q - t| → x.bits.toNat % 2 = 0

/-- The number has a decimal form with at most `d` digits, not counting zeros at the ends. -/
def HasDigits (d : Nat) (q : ℚ) : Prop := ∃ (m : Nat) (e : Int), m < 10 ^ d ∧ q = m * (10 : ℚ) ^ e

/-- The limit for absolute values: halfway between the largest finite number and the next power of two. -/
def limit : ℚ := 2 ^ 1024 - 2 ^ 970

end Gltf.Spec
