/-
Model of the integer normalisation functions of math.go. The colour functions (math.go:45-141) are in
Model/Color.lean.
-/
import Verif.Model.Float

namespace Gltf

/-- math.go:6-8, `NormalizeByte`; `none` when the conversion is out of range. -/
def normalizeByte (v : F32) : Option Int8 :=
  ((v.toF64.mul (F64.ofInt 127)).roundTo (-128) 127).map Int8.ofInt

/-- math.go:11-13, `DenormalizeByte`. -/
def denormalizeByte (v : Int8) : F32 :=
  (((F64.ofInt v.toInt).div (F64.ofInt 127)).max (F64.ofInt (-1))).toF32

/-- math.go:16-18, `NormalizeUbyte`. -/
def normalizeUbyte (v : F32) : Option UInt8 :=
  ((v.toF64.mul (F64.ofInt 255)).roundTo 0 255).map fun i => UInt8.ofNat i.toNat

/-- math.go:21-23, `DenormalizeUbyte`. -/
def denormalizeUbyte (v : UInt8) : F32 := (F32.ofNat v.toNat).div (F32.ofNat 255)

/-- math.go:26-28, `NormalizeShort`. -/
def normalizeShort (v : F32) : Option Int16 :=
  ((v.toF64.mul (F64.ofInt 32767)).roundTo (-32768) 32767).map Int16.ofInt

/-- math.go:31-33, `DenormalizeShort`. -/
def denormalizeShort (v : Int16) : F32 :=
  (((F64.ofInt v.toInt).div (F64.ofInt 32767)).max (F64.ofInt (-1))).toF32

/-- math.go:36-38, `NormalizeUshort`. -/
def normalizeUshort (v : F32) : Option UInt16 :=
  ((v.toF64.mul (F64.ofInt 65535)).roundTo 0 65535).map fun i => UInt16.ofNat i.toNat

/-- math.go:41-43, `DenormalizeUshort`. -/
def denormalizeUshort (v : UInt16) : F32 := (F32.ofNat v.toNat).div (F32.ofNat 65535)

end Gltf
