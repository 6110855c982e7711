/-
IEEE 754 arithmetic on bit patterns, with exact natural number arithmetic.

The magnitude bits `m` of a binary float with `w` mantissa bits (23 for `float32`, 52 for `float64`)
stand for the natural number `decodeMag w m`, counted in units of the smallest subnormal number
(2^-149 and 2^-1074). Every operation is the exact operation on these numbers followed by
`roundMag`, round to nearest with ties to even.
-/
import Verif.Model.Doc
import Verif.Model.Elem

namespace Gltf

/-- Magnitude of a float in units of the smallest subnormal. -/
def decodeMag (w m : Nat) : Nat :=
  if m / 2 ^ w = 0 then m else (m % 2 ^ w + 2 ^ w) * 2 ^ (m / 2 ^ w - 1)

/-- Nearest natural number to `n / d`, ties to even. -/
def roundHalfEven (n d : Nat) : Nat :=
  let q := n / d
  let r := n % d
  if 2 * r < d then q else if d < 2 * r then q + 1 else q + q % 2

/-- Magnitude bits of the float nearest to `n / d` (in units of the smallest subnormal), ignoring
overflow. -/
def roundMag (w n d : Nat) : Nat :=
  let s := (n / d).log2 - w
  s * 2 ^ w + roundHalfEven n (d * 2 ^ s)

/-- Magnitude bits of infinity in `float32`. -/
def inf32 : Nat := 0x7F800000
/-- Magnitude bits of infinity in `float64`. -/
def inf64 : Nat := 0x7FF0000000000000

/-- Assemble a `float32`; magnitudes beyond the largest finite number become infinity. -/
def F32.make (neg : Bool) (m : Nat) : F32 :=
  ⟨UInt32.ofNat (min m inf32 + if neg then 2 ^ 31 else 0)⟩

/-- Assemble a `float64`. -/
def F64.make (neg : Bool) (m : Nat) : F64 :=
  ⟨UInt64.ofNat (min m inf64 + if neg then 2 ^ 63 else 0)⟩

/-- Sign bit. -/
def F32.neg (x : F32) : Bool := decide (2 ^ 31 ≤ x.bits.toNat)
/-- Exponent and mantissa bits. -/
def F32.mag (x : F32) : Nat := x.bits.toNat % 2 ^ 31
/-- Sign bit. -/
def F64.neg (x : F64) : Bool := decide (2 ^ 63 ≤ x.bits.toNat)
/-- Exponent and mantissa bits. -/
def F64.mag (x : F64) : Nat := x.bits.toNat % 2 ^ 63

/-- `math.IsNaN`. -/
def F64.isNaN (x : F64) : Bool := decide (inf64 < x.mag)
@[inherit_doc F64.isNaN]
def F32.isNaN (x : F32) : Bool := decide (inf32 < x.mag)

/-- Neither infinite nor NaN. -/
def F32.finite (x : F32) : Bool := decide (x.mag < inf32)
@[inherit_doc F32.finite]
def F64.finite (x : F64) : Bool := decide (x.mag < inf64)

/-- Signed value in units of 2^-149 (infinity counts as the next power of two). -/
def F32.val (x : F32) : Int := if x.neg then -(decodeMag 23 x.mag : Int) else (decodeMag 23 x.mag : Int)
/-- Signed value in units of 2^-1074 (infinity counts as the next power of two). -/
def F64.val (x : F64) : Int := if x.neg then -(decodeMag 52 x.mag : Int) else (decodeMag 52 x.mag : Int)

/-- A quiet NaN, `math.NaN()`. -/
def F64.nan : F64 := ⟨0x7FF8000000000001⟩
/-- A quiet NaN of `float32`. -/
def F32.nan : F32 := ⟨0x7FC00000⟩

/-- Go `float64(x)` for a `float32`. -/
def F32.toF64 (x : F32) : F64 :=
  if x.isNaN then F64.nan
  else if x.mag = inf32 then F64.make x.neg inf64
  else F64.make x.neg (roundMag 52 (decodeMag 23 x.mag * 2 ^ 925) 1)

/-- Go `float32(x)` for a `float64`. -/
def F64.toF32 (x : F64) : F32 :=
  if x.isNaN then F32.nan
  else if x.mag = inf64 then F32.make x.neg inf32
  else F32.make x.neg (roundMag 23 (decodeMag 52 x.mag) (2 ^ 925))

/-- Go `float64(i)` for an integer. -/
def F64.ofInt (i : Int) : F64 := F64.make (decide (i < 0)) (roundMag 52 (i.natAbs * 2 ^ 1074) 1)

/-- Go `float32(i)` for an unsigned integer. -/
def F32.ofNat (n : Nat) : F32 := F32.make false (roundMag 23 (n * 2 ^ 149) 1)

/-- `x / y` for finite `x` and finite non-zero `y`. Other operands are not modelled (NaN). -/
def F64.div (x y : F64) : F64 :=
  if x.finite && y.finite && y.mag != 0 then
    F64.make (x.neg != y.neg) (roundMag 52 (decodeMag 52 x.mag * 2 ^ 1074) (decodeMag 52 y.mag))
  else F64.nan

@[inherit_doc F64.div]
def F32.div (x y : F32) : F32 :=
  if x.finite && y.finite && y.mag != 0 then
    F32.make (x.neg != y.neg) (roundMag 23 (decodeMag 23 x.mag * 2 ^ 149) (decodeMag 23 y.mag))
  else F32.nan

/-- `x * y` for finite operands. Other operands are not modelled (NaN). -/
def F64.mul (x y : F64) : F64 :=
  if x.finite && y.finite then
    F64.make (x.neg != y.neg) (roundMag 52 (decodeMag 52 x.mag * decodeMag 52 y.mag) (2 ^ 1074))
  else F64.nan

@[inherit_doc F64.mul]
def F32.mul (x y : F32) : F32 :=
  if x.finite && y.finite then
    F32.make (x.neg != y.neg) (roundMag 23 (decodeMag 23 x.mag * decodeMag 23 y.mag) (2 ^ 149))
  else F32.nan

/-- Go `x < y`. -/
def F64.lt (x y : F64) : Bool := !x.isNaN && !y.isNaN && decide (x.val < y.val)

/-- `math.Min` of the standard library. -/
def F64.min (x y : F64) : F64 :=
  if x = ⟨0xFFF0000000000000⟩ ∨ y = ⟨0xFFF0000000000000⟩ then ⟨0xFFF0000000000000⟩
  else if x.isNaN || y.isNaN then F64.nan
  else if x.val = 0 ∧ y.val = 0 then (if x.neg then x else y)
  else if x.lt y then x else y

/-- `math.Max` of the standard library. -/
def F64.max (x y : F64) : F64 :=
  if x = ⟨0x7FF0000000000000⟩ ∨ y = ⟨0x7FF0000000000000⟩ then ⟨0x7FF0000000000000⟩
  else if x.isNaN || y.isNaN then F64.nan
  else if x.val = 0 ∧ y.val = 0 then (if x.neg then y else x)
  else if y.lt x then x else y

/-- `math.Round` of a finite number, as an integer: half away from zero. -/
def F64.round (x : F64) : Int :=
  let r : Int := ((2 * decodeMag 52 x.mag + 2 ^ 1074) / (2 * 2 ^ 1074) : Nat)
  if x.neg then -r else r

/-- `math.MaxFloat64`. -/
def maxFloat64 : F64 := ⟨0x7FEFFFFFFFFFFFFF⟩
/-- `-math.MaxFloat64`. -/
def negMaxFloat64 : F64 := ⟨0xFFEFFFFFFFFFFFFF⟩

/-- Conversion of a float that has been rounded to an integer to an integer type with the given
range. Go leaves the result of an out of range conversion to the implementation: `none`. -/
def F64.roundTo (x : F64) (lo hi : Int) : Option Int :=
  if x.finite ∧ lo ≤ x.round ∧ x.round ≤ hi then some x.round else none

end Gltf
