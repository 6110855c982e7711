/-
Specification of the enumerations: their constants, their names and their codes in the glTF specification
(the numeric codes are those of WebGL).
-/
import Verif.Model.Const
import Verif.Spec.Json

namespace Gltf.Spec

/-- The decimal numeral of a number. -/
def IsDecimal (s : Bytes) (n : Nat) : Prop :=
  IsDigits s ∧ (s.head? = some 48 → s = b!"0") ∧ s.foldl (fun k c => 10 * k + (c.toNat - 48)) 0 = n

/-- The constants of `ComponentType` in the order of their values, with their names. -/
def componentTypeNames : List (ComponentType × Bytes) :=
  [(.float, b!"FLOAT"), (.byte, b!"BYTE"), (.ubyte, b!"UNSIGNED_BYTE"), (.short, b!"SHORT"), (.ushort, b!"UNSIGNED_SHORT"), (.uint, b!"UNSIGNED_INT")]

/-- The codes of the glTF specification. -/
def componentTypeCodes : List (ComponentType × Nat) :=
  [(.float, 5126), (.byte, 5120), (.ubyte, 5121), (.short, 5122), (.ushort, 5123), (.uint, 5125)]

/-- The constants of `AccessorType` in the order of their values, with their names. -/
def accessorTypeNames : List (AccessorType × Bytes) :=
  [(.scalar, b!"SCALAR"), (.vec2, b!"VEC2"), (.vec3, b!"VEC3"), (.vec4, b!"VEC4"), (.mat2, b!"MAT2"), (.mat3, b!"MAT3"), (.mat4, b!"MAT4")]

/-- The constants of `PrimitiveMode` in the order of their values, with their names. -/
def primitiveModeNames : List (PrimitiveMode × Bytes) :=
  [(.triangles, b!"TRIANGLES"), (.points, b!"POINTS"), (.lines, b!"LINES"), (.lineLoop, b!"LINE_LOOP"), (.lineStrip, b!"LINE_STRIP"), (.triangleStrip, b!"TRIANGLE_STRIP"), (.triangleFan, b!"TRIANGLE_FAN")]

/-- The codes of the glTF specification. -/
def primitiveModeCodes : List (PrimitiveMode × Nat) :=
  [(.triangles, 4), (.points, 0), (.lines, 1), (.lineLoop, 2), (.lineStrip, 3), (.triangleStrip, 5), (.triangleFan, 6)]

/-- The constants of `AlphaMode` in the order of their values, with their names. -/
def alphaModeNames : List (AlphaMode × Bytes) :=
  [(.opaque, b!"OPAQUE"), (.mask, b!"MASK"), (.blend, b!"BLEND")]

/-- The constants of `MagFilter` in the order of their values, with their names. -/
def magFilterNames : List (MagFilter × Bytes) :=
  [(.undefined, b!"UNDEFINED"), (.linear, b!"LINEAR"), (.nearest, b!"NEAREST")]

/-- The codes of the glTF specification; the zero constant stands for an absent value. -/
def magFilterCodes : List (MagFilter × Nat) :=
  [(.undefined, 0), (.linear, 9729), (.nearest, 9728)]

/-- The constants of `MinFilter` in the order of their values, with their names. -/
def minFilterNames : List (MinFilter × Bytes) :=
  [(.undefined, b!"UNDEFINED"), (.linear, b!"LINEAR"), (.nearestMipMapLinear, b!"NEAREST_MIPMAP_LINEAR"), (.nearest, b!"NEAREST"), (.nearestMipMapNearest, b!"NEAREST_MIPMAP_NEAREST"), (.linearMipMapNearest, b!"LINEAR_MIPMAP_NEAREST"), (.linearMipMapLinear, b!"LINEAR_MIPMAP_LINEAR")]

/-- The codes of the glTF specification; the zero constant stands for an absent value. -/
def minFilterCodes : List (MinFilter × Nat) :=
  [(.undefined, 0), (.linear, 9729), (.nearestMipMapLinear, 9986), (.nearest, 9728), (.nearestMipMapNearest, 9984), (.linearMipMapNearest, 9985), (.linearMipMapLinear, 9987)]

/-- The constants of `WrappingMode` in the order of their values, with their names. -/
def wrappingModeNames : List (WrappingMode × Bytes) :=
  [(.repeated, b!"REPEAT"), (.clampToEdge, b!"CLAMP_TO_EDGE"), (.mirroredRepeat, b!"MIRRORED_REPEAT")]

/-- The codes of the glTF specification. -/
def wrappingModeCodes : List (WrappingMode × Nat) :=
  [(.repeated, 10497), (.clampToEdge, 33071), (.mirroredRepeat, 33648)]

/-- The constants of `Interpolation` in the order of their values, with their names. -/
def interpolationNames : List (Interpolation × Bytes) :=
  [(.linear, b!"LINEAR"), (.step, b!"STEP"), (.cubicSpline, b!"CUBICSPLINE")]

/-- The constants of `TRSProperty` in the order of their values, with their names. -/
def trsPropertyNames : List (TRSProperty × Bytes) :=
  [(.translation, b!"translation"), (.rotation, b!"rotation"), (.scale, b!"scale"), (.weights, b!"weights")]

end Gltf.Spec
