/-
Model of the colour functions of math.go. `math.Pow` is a parameter.

The Go specification allows an implementation to fuse a multiplication with the following subtraction
(math.go:140); here every operation is rounded.
-/
import Verif.Model.Float

namespace Gltf

/-- A constant of type `float32`: the number nearest to `n / d`. -/
def F32.ofRat (n d : Nat) : F32 := F32.make false (roundMag 23 (n * 2 ^ 149) d)

/-- A constant of type `float64`: the number nearest to `n / d`. -/
def F64.ofRat (n d : Nat) : F64 := F64.make false (roundMag 52 (n * 2 ^ 1074) d)

/-- `x + y` for finite operands. Other operands are not modelled (NaN). -/
def F32.add (x y : F32) : F32 :=
  if x.finite && y.finite then
    let s := x.val + y.val
    F32.make (if s = 0 then x.neg && y.neg else decide (s < 0)) (roundMag 23 s.natAbs 1)
  else F32.nan

/-- `x - y` for finite operands. Other operands are not modelled (NaN). -/
def F64.sub (x y : F64) : F64 :=
  if x.finite && y.finite then
    let s := x.val - y.val
    F64.make (if s = 0 then x.neg && !y.neg else decide (s < 0)) (roundMag 52 s.natAbs 1)
  else F64.nan

/-- Go `x < y`. -/
def F32.lt (x y : F32) : Bool := !x.isNaN && !y.isNaN && decide (x.val < y.val)

/-- Go `x <= y`. -/
def F32.le (x y : F32) : Bool := !x.isNaN && !y.isNaN && decide (x.val ≤ y.val)

/-- Conversion to an unsigned integer type with the given largest value: the fraction is dropped. Go leaves
the result of an out of range conversion to the implementation: `none`. -/
def F32.truncTo (x : F32) (hi : Nat) : Option Nat :=
  let n := x.val.natAbs / 2 ^ 149
  if x.finite ∧ n ≤ hi ∧ (x.neg = false ∨ n = 0) then some n else none

/-- `math.Pow`. -/
abbrev Pow := F64 → F64 → F64

/-- math.go:129-134, `linearize`. -/
def linearize (pow : Pow) (v : F32) : F32 :=
  if v.le (F32.ofRat 4045 100000) then v.div (F32.ofRat 1292 100)
  else (pow ((v.add (F32.ofRat 55 1000)).toF64.div (F64.ofRat 1055 1000)) (F64.ofRat 24 10)).toF32

/-- math.go:136-141, `deliniarize`. -/
def deliniarize (pow : Pow) (v : F32) : F32 :=
  if v.lt (F32.ofRat 31308 10000000) then v.mul (F32.ofRat 1292 100)
  else (((F64.ofRat 1055 1000).mul (pow v.toF64 (F64.ofRat 10 24))).sub (F64.ofRat 55 1000)).toF32

/-- `uint8(deliniarize(v) * 255)` and `uint16(deliniarize(v) * 65535)`. -/
def encodeChannel (pow : Pow) (max : Nat) (v : F32) : Option Nat := ((deliniarize pow v).mul (F32.ofNat max)).truncTo max

/-- `uint8(v * 255)` and `uint16(v * 65535)`. -/
def encodeAlpha (max : Nat) (v : F32) : Option Nat := (v.mul (F32.ofNat max)).truncTo max

/-- `linearize(float32(v) / 255)` and `linearize(float32(v) / 65535)`. -/
def decodeChannel (pow : Pow) (max : Nat) (v : Nat) : F32 := linearize pow ((F32.ofNat v).div (F32.ofNat max))

/-- `float32(v) / 255` and `float32(v) / 65535`. -/
def decodeAlpha (max : Nat) (v : Nat) : F32 := (F32.ofNat v).div (F32.ofNat max)

/-- math.go:47-53, `NormalizeRGB`. -/
def normalizeRGB (pow : Pow) (v : Vector F32 3) : Option (Vector UInt8 3) := do
  let r ← encodeChannel pow 255 v[0]
  let g ← encodeChannel pow 255 v[1]
  let b ← encodeChannel pow 255 v[2]
  return #v[UInt8.ofNat r, UInt8.ofNat g, UInt8.ofNat b]

/-- math.go:57-63, `DenormalizeRGB`. -/
def denormalizeRGB (pow : Pow) (v : Vector UInt8 3) : Vector F32 3 :=
  #v[decodeChannel pow 255 v[0].toNat, decodeChannel pow 255 v[1].toNat, decodeChannel pow 255 v[2].toNat]

/-- math.go:67-74, `NormalizeRGBA`. -/
def normalizeRGBA (pow : Pow) (v : Vector F32 4) : Option (Vector UInt8 4) := do
  let r ← encodeChannel pow 255 v[0]
  let g ← encodeChannel pow 255 v[1]
  let b ← encodeChannel pow 255 v[2]
  let a ← encodeAlpha 255 v[3]
  return #v[UInt8.ofNat r, UInt8.ofNat g, UInt8.ofNat b, UInt8.ofNat a]

/-- math.go:78-85, `DenormalizeRGBA`. -/
def denormalizeRGBA (pow : Pow) (v : Vector UInt8 4) : Vector F32 4 :=
  #v[decodeChannel pow 255 v[0].toNat, decodeChannel pow 255 v[1].toNat, decodeChannel pow 255 v[2].toNat,
    decodeAlpha 255 v[3].toNat]

/-- math.go:89-95, `NormalizeRGB64`. -/
def normalizeRGB64 (pow : Pow) (v : Vector F32 3) : Option (Vector UInt16 3) := do
  let r ← encodeChannel pow 65535 v[0]
  let g ← encodeChannel pow 65535 v[1]
  let b ← encodeChannel pow 65535 v[2]
  return #v[UInt16.ofNat r, UInt16.ofNat g, UInt16.ofNat b]

/-- math.go:99-105, `DenormalizeRGB64`. -/
def denormalizeRGB64 (pow : Pow) (v : Vector UInt16 3) : Vector F32 3 :=
  #v[decodeChannel pow 65535 v[0].toNat, decodeChannel pow 65535 v[1].toNat, decodeChannel pow 65535 v[2].toNat]

/-- math.go:109-116, `NormalizeRGBA64`. -/
def normalizeRGBA64 (pow : Pow) (v : Vector F32 4) : Option (Vector UInt16 4) := do
  let r ← encodeChannel pow 65535 v[0]
  let g ← encodeChannel pow 65535 v[1]
  let b ← encodeChannel pow 65535 v[2]
  let a ← encodeAlpha 65535 v[3]
  return #v[UInt16.ofNat r, UInt16.ofNat g, UInt16.ofNat b, UInt16.ofNat a]

/-- math.go:120-127, `DenormalizeRGBA64`. -/
def denormalizeRGBA64 (pow : Pow) (v : Vector UInt16 4) : Vector F32 4 :=
  #v[decodeChannel pow 65535 v[0].toNat, decodeChannel pow 65535 v[1].toNat, decodeChannel pow 65535 v[2].toNat,
    decodeAlpha 65535 v[3].toNat]

end Gltf
