/-
Model of const_strings.go: the String methods of the enumerations, on the underlying integers.
-/
import Verif.Model.Const
import Verif.Model.JsonCodec

namespace Gltf

/-- `strconv.FormatInt(int64(i), 10)` in parentheses after the name of the type. -/
def stringOther (type : Bytes) (i : Nat) : Bytes := type ++ b!"(" ++ printNat i ++ b!")"

/-- Go slicing of a string. -/
def sliceString (s : Bytes) (a b : Nat) : Res Bytes :=
  if a ≤ b ∧ b ≤ s.length then .ok ((s.drop a).take (b - a)) else .panic "slice bounds out of range"

/-- Go indexing of an array of numbers. -/
def indexArray (l : List Nat) (i : Nat) : Res Nat :=
  match l[i]? with
  | some n => .ok n
  | none => .panic "index out of range"

/-- A `String` method that stringer generates for constants numbered from zero. -/
def stringer (type name : Bytes) (index : List Nat) (i : Nat) : Res Bytes :=
  if index.length - 1 ≤ i then .ok (stringOther type i)
  else do
    let a ← indexArray index i
    let b ← indexArray index (i + 1)
    sliceString name a b

/-- const_strings.go:19-28. -/
def ComponentType.goString : Nat → Res Bytes :=
  stringer b!"ComponentType" b!"FLOATBYTEUNSIGNED_BYTESHORTUNSIGNED_SHORTUNSIGNED_INT" [0, 5, 9, 22, 27, 41, 53]

/-- const_strings.go:42-51. -/
def AccessorType.goString : Nat → Res Bytes :=
  stringer b!"AccessorType" b!"SCALARVEC2VEC3VEC4MAT2MAT3MAT4" [0, 6, 10, 14, 18, 22, 26, 30]

/-- The integer value, const.go:169-177 (iota). -/
def PrimitiveMode.toNat : PrimitiveMode → Nat
  | .triangles => 0 | .points => 1 | .lines => 2 | .lineLoop => 3 | .lineStrip => 4 | .triangleStrip => 5 | .triangleFan => 6
  | .unknown n => 7 + n

/-- const_strings.go:65-74. -/
def PrimitiveMode.goString : Nat → Res Bytes :=
  stringer b!"PrimitiveMode" b!"TRIANGLESPOINTSLINESLINE_LOOPLINE_STRIPTRIANGLE_STRIPTRIANGLE_FAN" [0, 9, 15, 20, 29, 39, 53, 65]

/-- The integer value, const.go:213-217 (iota). -/
def AlphaMode.toNat : AlphaMode → Nat
  | .opaque => 0 | .mask => 1 | .blend => 2
  | .unknown n => 3 + n

/-- const_strings.go:84-93. -/
def AlphaMode.goString : Nat → Res Bytes :=
  stringer b!"AlphaMode" b!"OPAQUEMASKBLEND" [0, 6, 10, 15]

/-- The integer value, const.go:245-249 (iota). -/
def MagFilter.toNat : MagFilter → Nat
  | .undefined => 0 | .linear => 1 | .nearest => 2
  | .unknown n => 3 + n

/-- const_strings.go:103-112. -/
def MagFilter.goString : Nat → Res Bytes :=
  stringer b!"MagFilter" b!"UNDEFINEDLINEARNEAREST" [0, 9, 15, 22]

/-- The integer value, const.go:275-283 (iota). -/
def MinFilter.toNat : MinFilter → Nat
  | .undefined => 0 | .linear => 1 | .nearestMipMapLinear => 2 | .nearest => 3 | .nearestMipMapNearest => 4 | .linearMipMapNearest => 5 | .linearMipMapLinear => 6
  | .unknown n => 7 + n

/-- const_strings.go:126-135. -/
def MinFilter.goString : Nat → Res Bytes :=
  stringer b!"MinFilter" b!"UNDEFINEDLINEARNEAREST_MIPMAP_LINEARNEARESTNEAREST_MIPMAP_NEARESTLINEAR_MIPMAP_NEARESTLINEAR_MIPMAP_LINEAR" [0, 9, 15, 36, 43, 65, 86, 106]

/-- The integer value, const.go:317-321 (iota). -/
def WrappingMode.toNat : WrappingMode → Nat
  | .repeated => 0 | .clampToEdge => 1 | .mirroredRepeat => 2
  | .unknown n => 3 + n

/-- const_strings.go:145-154. -/
def WrappingMode.goString : Nat → Res Bytes :=
  stringer b!"WrappingMode" b!"REPEATCLAMP_TO_EDGEMIRRORED_REPEAT" [0, 6, 19, 34]

/-- The integer value, const.go:349-353 (iota). -/
def Interpolation.toNat : Interpolation → Nat
  | .linear => 0 | .step => 1 | .cubicSpline => 2
  | .unknown n => 3 + n

/-- const_strings.go:164-173. -/
def Interpolation.goString : Nat → Res Bytes :=
  stringer b!"Interpolation" b!"LINEARSTEPCUBICSPLINE" [0, 6, 10, 21]

/-- The integer value, const.go:382-387 (iota). -/
def TRSProperty.toNat : TRSProperty → Nat
  | .translation => 0 | .rotation => 1 | .scale => 2 | .weights => 3
  | .unknown n => 4 + n

/-- const_strings.go:213-222. -/
def TRSProperty.goString : Nat → Res Bytes :=
  stringer b!"TRSProperty" b!"translationrotationscaleweights" [0, 11, 19, 24, 31]

/-- const_strings.go:183-202. -/
def targetString (i : Target) : Res Bytes :=
  if i = 0 then .ok b!"NONE"
  else if 34962 ≤ i ∧ i ≤ 34963 then do
    let a ← indexArray [0, 12, 32] (i - 34962).toNat
    let b ← indexArray [0, 12, 32] ((i - 34962).toNat + 1)
    sliceString b!"ARRAY_BUFFERELEMENT_ARRAY_BUFFER" a b
  else .ok (stringOther b!"Target" i.toNat)

end Gltf
