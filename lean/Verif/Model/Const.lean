/-
Model of the enumerations of const.go and of SizeOfElement in gltf.go.

Every enumeration of Go is an unsigned integer type, so a value need not be one of the named
constants. The named constants are constructors; `unknown n` stands for the integer that is `n`
above the largest named constant (its `toNat` says which). The upper end of the integer type
(uint8 or uint16) is not imposed, so the theorems cover a superset of the Go values.
-/
import Verif.Go.Prelude

namespace Gltf

/-- const.go:41-50. -/
inductive ComponentType where
  | float | byte | ubyte | short | ushort | uint | unknown (n : Nat)
deriving DecidableEq, Repr

/-- The integer value of a component type, const.go:43-50 (iota). -/
def ComponentType.toNat : ComponentType → Nat
  | .float => 0 | .byte => 1 | .ubyte => 2 | .short => 3 | .ushort => 4 | .uint => 5
  | .unknown n => 6 + n

/-- const.go:53-62, `ComponentType.ByteSize` (a missing map key gives 0). -/
def ComponentType.byteSize : ComponentType → Nat
  | .byte => 1
  | .ubyte => 1
  | .short => 2
  | .ushort => 2
  | .uint => 4
  | .float => 4
  | .unknown _ => 0

/-- const.go:94-104. -/
inductive AccessorType where
  | scalar | vec2 | vec3 | vec4 | mat2 | mat3 | mat4 | unknown (n : Nat)
deriving DecidableEq, Repr

/-- The integer value of an accessor type, const.go:96-104 (iota). -/
def AccessorType.toNat : AccessorType → Nat
  | .scalar => 0 | .vec2 => 1 | .vec3 => 2 | .vec4 => 3 | .mat2 => 4 | .mat3 => 5 | .mat4 => 6
  | .unknown n => 7 + n

/-- const.go:107-117, `AccessorType.Components` (a missing map key gives 0). -/
def AccessorType.components : AccessorType → Nat
  | .scalar => 1
  | .vec2 => 2
  | .vec3 => 3
  | .vec4 => 4
  | .mat2 => 4
  | .mat3 => 9
  | .mat4 => 16
  | .unknown _ => 0

/-- gltf.go:492-507, `SizeOfElement`. -/
def sizeOfElement (c : ComponentType) (t : AccessorType) : Nat :=
  if (t = .vec3 ∨ t = .vec2) ∧ (c = .byte ∨ c = .ubyte) then 4
  else if t = .vec3 ∧ (c = .short ∨ c = .ushort) then 8
  else if t = .mat2 ∧ (c = .byte ∨ c = .ubyte) then 8
  else if t = .mat3 ∧ (c = .byte ∨ c = .ubyte) then 12
  else if t = .mat3 ∧ (c = .short ∨ c = .ushort) then 24
  else c.byteSize * t.components

/-- binary/slice.go:299-313, `checkAccessorType`. -/
def checkAccessorType (c : ComponentType) (t : AccessorType) : Res Unit :=
  match c with
  | .unknown _ => .err (.msg "gltf: unsupported component type")
  | _ =>
    match t with
    | .unknown _ => .err (.msg "gltf: unsupported accessor type")
    | _ => .ok ()

/-- const.go:155-161, `Target`: an unsigned integer without JSON methods of its own. -/
abbrev Target := UInt16

/-- const.go:158. -/
def targetNone : Target := 0
/-- const.go:159. -/
def targetArrayBuffer : Target := 34962
/-- const.go:160. -/
def targetElementArrayBuffer : Target := 34963

/-- const.go:167-177. -/
inductive PrimitiveMode where
  | triangles | points | lines | lineLoop | lineStrip | triangleStrip | triangleFan | unknown (n : Nat)
deriving DecidableEq, Repr

/-- const.go:211-217. -/
inductive AlphaMode where
  | opaque | mask | blend | unknown (n : Nat)
deriving DecidableEq, Repr

/-- const.go:243-249. -/
inductive MagFilter where
  | undefined | linear | nearest | unknown (n : Nat)
deriving DecidableEq, Repr

/-- const.go:273-283. -/
inductive MinFilter where
  | undefined | linear | nearestMipMapLinear | nearest | nearestMipMapNearest
  | linearMipMapNearest | linearMipMapLinear | unknown (n : Nat)
deriving DecidableEq, Repr

/-- const.go:315-321. -/
inductive WrappingMode where
  | repeated | clampToEdge | mirroredRepeat | unknown (n : Nat)
deriving DecidableEq, Repr

/-- const.go:347-353. -/
inductive Interpolation where
  | linear | step | cubicSpline | unknown (n : Nat)
deriving DecidableEq, Repr

/-- const.go:380-387. -/
inductive TRSProperty where
  | translation | rotation | scale | weights | unknown (n : Nat)
deriving DecidableEq, Repr

end Gltf
