/-
Model of the JSON methods of const.go and encode.go and of the struct tags of gltf.go.
-/
import Verif.Model.JsonCodec

namespace Gltf

/-! ### Enumerations -/

/-- const.go:64-91: the table of `MarshalJSON`; a missing key gives 0. -/
def ComponentType.code : ComponentType → Nat
  | .byte => 5120
  | .ubyte => 5121
  | .short => 5122
  | .ushort => 5123
  | .uint => 5125
  | .float => 5126
  | _ => 0

/-- const.go:64-91: the table of `UnmarshalJSON`; a missing key gives the zero value. -/
def ComponentType.ofCode (n : Nat) : ComponentType :=
  if n = 5120 then .byte
  else if n = 5121 then .ubyte
  else if n = 5122 then .short
  else if n = 5123 then .ushort
  else if n = 5125 then .uint
  else if n = 5126 then .float
  else .float

/-- const.go:64-91. -/
def componentTypeC : JC ComponentType := .enumNum 65536 .float ComponentType.code ComponentType.ofCode

/-- const.go:179-208: the table of `MarshalJSON`; a missing key gives 0. -/
def PrimitiveMode.code : PrimitiveMode → Nat
  | .points => 0
  | .lines => 1
  | .lineLoop => 2
  | .lineStrip => 3
  | .triangles => 4
  | .triangleStrip => 5
  | .triangleFan => 6
  | _ => 0

/-- const.go:179-208: the table of `UnmarshalJSON`; a missing key gives the zero value. -/
def PrimitiveMode.ofCode (n : Nat) : PrimitiveMode :=
  if n = 0 then .points
  else if n = 1 then .lines
  else if n = 2 then .lineLoop
  else if n = 3 then .lineStrip
  else if n = 4 then .triangles
  else if n = 5 then .triangleStrip
  else if n = 6 then .triangleFan
  else .triangles

/-- const.go:179-208. -/
def primitiveModeC : JC PrimitiveMode := .enumNum 256 .triangles PrimitiveMode.code PrimitiveMode.ofCode

/-- const.go:251-270: the table of `MarshalJSON`; a missing key gives 0. -/
def MagFilter.code : MagFilter → Nat
  | .nearest => 9728
  | .linear => 9729
  | _ => 0

/-- const.go:251-270: the table of `UnmarshalJSON`; a missing key gives the zero value. -/
def MagFilter.ofCode (n : Nat) : MagFilter :=
  if n = 9728 then .nearest
  else if n = 9729 then .linear
  else .undefined

/-- const.go:251-270. -/
def magFilterC : JC MagFilter := .enumNum 65536 .undefined MagFilter.code MagFilter.ofCode

/-- const.go:285-312: the table of `MarshalJSON`; a missing key gives 0. -/
def MinFilter.code : MinFilter → Nat
  | .nearest => 9728
  | .linear => 9729
  | .nearestMipMapNearest => 9984
  | .linearMipMapNearest => 9985
  | .nearestMipMapLinear => 9986
  | .linearMipMapLinear => 9987
  | _ => 0

/-- const.go:285-312: the table of `UnmarshalJSON`; a missing key gives the zero value. -/
def MinFilter.ofCode (n : Nat) : MinFilter :=
  if n = 9728 then .nearest
  else if n = 9729 then .linear
  else if n = 9984 then .nearestMipMapNearest
  else if n = 9985 then .linearMipMapNearest
  else if n = 9986 then .nearestMipMapLinear
  else if n = 9987 then .linearMipMapLinear
  else .undefined

/-- const.go:285-312. -/
def minFilterC : JC MinFilter := .enumNum 65536 .undefined MinFilter.code MinFilter.ofCode

/-- const.go:323-344: the table of `MarshalJSON`; a missing key gives 0. -/
def WrappingMode.code : WrappingMode → Nat
  | .clampToEdge => 33071
  | .mirroredRepeat => 33648
  | .repeated => 10497
  | _ => 0

/-- const.go:323-344: the table of `UnmarshalJSON`; a missing key gives the zero value. -/
def WrappingMode.ofCode (n : Nat) : WrappingMode :=
  if n = 33071 then .clampToEdge
  else if n = 33648 then .mirroredRepeat
  else if n = 10497 then .repeated
  else .repeated

/-- const.go:323-344. -/
def wrappingModeC : JC WrappingMode := .enumNum 65536 .repeated WrappingMode.code WrappingMode.ofCode

/-- const.go:119-152: the table of `MarshalJSON`; a missing key gives the empty string. -/
def AccessorType.code : AccessorType → Bytes
  | .scalar => b!"SCALAR"
  | .vec2 => b!"VEC2"
  | .vec3 => b!"VEC3"
  | .vec4 => b!"VEC4"
  | .mat2 => b!"MAT2"
  | .mat3 => b!"MAT3"
  | .mat4 => b!"MAT4"
  | .unknown _ => []

/-- const.go:119-152: the table of `UnmarshalJSON`; a missing key is an error. -/
def AccessorType.ofCode (s : Bytes) : Except Err AccessorType :=
  if s = b!"SCALAR" then .ok .scalar
  else if s = b!"VEC2" then .ok .vec2
  else if s = b!"VEC3" then .ok .vec3
  else if s = b!"VEC4" then .ok .vec4
  else if s = b!"MAT2" then .ok .mat2
  else if s = b!"MAT3" then .ok .mat3
  else if s = b!"MAT4" then .ok .mat4
  else .error (.msg "gltf: unknown accessor's type")

/-- const.go:119-152. -/
def accessorTypeC : JC AccessorType := .enumStr .scalar AccessorType.code AccessorType.ofCode

/-- const.go:219-240: the table of `MarshalJSON`; a missing key gives the empty string. -/
def AlphaMode.code : AlphaMode → Bytes
  | .opaque => b!"OPAQUE"
  | .mask => b!"MASK"
  | .blend => b!"BLEND"
  | .unknown _ => []

/-- const.go:219-240: the table of `UnmarshalJSON`; a missing key gives the zero value. -/
def AlphaMode.ofCode (s : Bytes) : AlphaMode :=
  if s = b!"OPAQUE" then .opaque
  else if s = b!"MASK" then .mask
  else if s = b!"BLEND" then .blend
  else .opaque

/-- const.go:219-240. -/
def alphaModeC : JC AlphaMode := .enumStr .opaque AlphaMode.code fun s => .ok (AlphaMode.ofCode s)

/-- const.go:355-376: the table of `MarshalJSON`; a missing key gives the empty string. -/
def Interpolation.code : Interpolation → Bytes
  | .linear => b!"LINEAR"
  | .step => b!"STEP"
  | .cubicSpline => b!"CUBICSPLINE"
  | .unknown _ => []

/-- const.go:355-376: the table of `UnmarshalJSON`; a missing key gives the zero value. -/
def Interpolation.ofCode (s : Bytes) : Interpolation :=
  if s = b!"LINEAR" then .linear
  else if s = b!"STEP" then .step
  else if s = b!"CUBICSPLINE" then .cubicSpline
  else .linear

/-- const.go:355-376. -/
def interpolationC : JC Interpolation := .enumStr .linear Interpolation.code fun s => .ok (Interpolation.ofCode s)

/-- const.go:389-412: the table of `MarshalJSON`; a missing key gives the empty string. -/
def TRSProperty.code : TRSProperty → Bytes
  | .translation => b!"translation"
  | .rotation => b!"rotation"
  | .scale => b!"scale"
  | .weights => b!"weights"
  | .unknown _ => []

/-- const.go:389-412: the table of `UnmarshalJSON`; a missing key gives the zero value. -/
def TRSProperty.ofCode (s : Bytes) : TRSProperty :=
  if s = b!"translation" then .translation
  else if s = b!"rotation" then .rotation
  else if s = b!"scale" then .scale
  else if s = b!"weights" then .weights
  else .translation

/-- const.go:389-412. -/
def trsPropertyC : JC TRSProperty := .enumStr .translation TRSProperty.code fun s => .ok (TRSProperty.ofCode s)

/-! ### Defaults -/

/-- Go `==` on `float64`: NaN is different from everything, the two zeros are equal. -/
def F64.feq (x y : F64) : Bool := !x.isNaN && !y.isNaN && (decide (x = y) || (decide (x.mag = 0) && decide (y.mag = 0)))

/-- Go `==` on arrays of `float64`. -/
def arrayEq {n : Nat} (a b : Vector F64 n) : Bool := (a.toList.zip b.toList).all fun p => p.1.feq p.2

/-- 0.0 -/
def f64zero : F64 := ⟨0⟩
/-- 0.5 -/
def f64half : F64 := ⟨0x3FE0000000000000⟩
/-- 1.0 -/
def f64one : F64 := ⟨0x3FF0000000000000⟩

/-- const.go:12. -/
def defaultMatrix : Vector F64 16 :=
  #v[f64one, f64zero, f64zero, f64zero, f64zero, f64one, f64zero, f64zero,
     f64zero, f64zero, f64one, f64zero, f64zero, f64zero, f64zero, f64one]
/-- const.go:14. -/
def defaultRotation : Vector F64 4 := #v[f64zero, f64zero, f64zero, f64one]
/-- const.go:16. -/
def defaultScale : Vector F64 3 := #v[f64one, f64one, f64one]
/-- const.go:18. -/
def defaultTranslation : Vector F64 3 := #v[f64zero, f64zero, f64zero]
/-- const.go:34. -/
def emptyMatrix : Vector F64 16 := Vector.replicate 16 f64zero
/-- const.go:35. -/
def emptyRotation : Vector F64 4 := Vector.replicate 4 f64zero
/-- const.go:36. -/
def emptyScale : Vector F64 3 := Vector.replicate 3 f64zero
/-- The factor of encode.go:408 and 431. -/
def white : Vector F64 4 := #v[f64one, f64one, f64one, f64one]

/-! ### Structs -/

/-- What the JSON form depends on: the text form of numbers and the registered extensions. -/
structure Env where
  io : FloatIO
  reg : Registry

/-- Go `float64`. -/
def Env.float (E : Env) : JC F64 := JC.float E.io

/-- The value is nil. -/
def GoAny.isNull : GoAny → Bool
  | .null => true
  | _ => false

/-- `Extensions Extensions` with `omitempty`. -/
def Env.ext (E : Env) : FE Extensions := (JC.extensions E.reg).omitIf List.isEmpty
/-- `Extras any` with `omitempty`. -/
def Env.extras (E : Env) : FE GoAny := (JC.any E.io).omitIf GoAny.isNull
/-- `string` with `omitempty`. -/
def omitString : FE Bytes := JC.string.omitIf List.isEmpty
/-- `int` with `omitempty`. -/
def omitInt : FE Int := JC.int.omitIf (· == 0)
/-- `bool` with `omitempty`. -/
def omitBool : FE Bool := JC.bool.omitIf (!·)
/-- `*int` with `omitempty`. -/
def omitIndex : FE (Option Int) := (JC.ptr JC.int).omitIf Option.isNone
/-- `[]int` with `omitempty`. -/
def omitInts : FE (List Int) := (JC.list JC.int).omitIf List.isEmpty
/-- `[]string` with `omitempty`. -/
def omitStrings : FE (List Bytes) := (JC.list JC.string).omitIf List.isEmpty
/-- `[]float64` with `omitempty`. -/
def Env.floats (E : Env) : FE (List F64) := (JC.list E.float).omitIf List.isEmpty
/-- `*float64` with `omitempty`. -/
def Env.omitFloat (E : Env) : FE (Option F64) := (JC.ptr E.float).omitIf Option.isNone
/-- `*float64` that is omitted if it is nil or points to the default. -/
def Env.omitFloatIf (E : Env) (d : F64) : FE (Option F64) := (JC.ptr E.float).omitIf fun x => x.all (F64.feq · d)

/-- gltf.go:21-28. -/
def assetC' (E : Env) : JC Asset :=
  .struct
    (fun s => (s.extensions, s.extras, s.copyright, s.generator, s.version, s.minVersion, ()))
    (fun t => { extensions := t.1, extras := t.2.1, copyright := t.2.2.1, generator := t.2.2.2.1, version := t.2.2.2.2.1, minVersion := t.2.2.2.2.2.1 })
    (.cons b!"extensions" E.ext <|
     .cons b!"extras" E.extras <|
     .cons b!"copyright" omitString <|
     .cons b!"generator" omitString <|
     .cons b!"version" JC.string.always <|
     .cons b!"minVersion" omitString <|
     .nil)

/-- encode.go:247-260, `Asset.MarshalJSON` for an empty version: the version is written first. -/
def assetMembers (E : Env) (a : Asset) : Except Err (List (Bytes × JVal)) :=
  (FC.cons b!"version" JC.string.always <|
   FC.cons b!"extensions" E.ext <|
   FC.cons b!"extras" E.extras <|
   FC.cons b!"copyright" omitString <|
   FC.cons b!"generator" omitString <|
   FC.cons b!"minVersion" omitString <|
   FC.nil).enc (b!"2.0", a.extensions, a.extras, a.copyright, a.generator, a.minVersion, ())

/-- encode.go:234-260, `Asset.MarshalJSON` and `Asset.UnmarshalJSON`. -/
def assetC (E : Env) : JC Asset :=
  { (assetC' E).withDefault { version := b!"2.0" } with
    enc := fun a => if a.version.isEmpty then (assetMembers E a).map .obj else (assetC' E).enc a }

/-- gltf.go:101-107. -/
def sparseIndicesC (E : Env) : JC SparseIndices :=
  .struct
    (fun s => (s.extensions, s.extras, s.bufferView, s.byteOffset, s.componentType, ()))
    (fun t => { extensions := t.1, extras := t.2.1, bufferView := t.2.2.1, byteOffset := t.2.2.2.1, componentType := t.2.2.2.2.1 })
    (.cons b!"extensions" E.ext <|
     .cons b!"extras" E.extras <|
     .cons b!"bufferView" JC.int.always <|
     .cons b!"byteOffset" omitInt <|
     .cons b!"componentType" componentTypeC.always <|
     .nil)

/-- gltf.go:93-98. -/
def sparseValuesC (E : Env) : JC SparseValues :=
  .struct
    (fun s => (s.extensions, s.extras, s.bufferView, s.byteOffset, ()))
    (fun t => { extensions := t.1, extras := t.2.1, bufferView := t.2.2.1, byteOffset := t.2.2.2.1 })
    (.cons b!"extensions" E.ext <|
     .cons b!"extras" E.extras <|
     .cons b!"bufferView" JC.int.always <|
     .cons b!"byteOffset" omitInt <|
     .nil)

/-- gltf.go:84-90. -/
def sparseC (E : Env) : JC Sparse :=
  .struct
    (fun s => (s.extensions, s.extras, s.count, s.indices, s.values, ()))
    (fun t => { extensions := t.1, extras := t.2.1, count := t.2.2.1, indices := t.2.2.2.1, values := t.2.2.2.2.1 })
    (.cons b!"extensions" E.ext <|
     .cons b!"extras" E.extras <|
     .cons b!"count" JC.int.always <|
     .cons b!"indices" ((sparseIndicesC E).always) <|
     .cons b!"values" ((sparseValuesC E).always) <|
     .nil)

/-- gltf.go:68-81. -/
def accessorC (E : Env) : JC Accessor :=
  .struct
    (fun s => (s.extensions, s.extras, s.name, s.bufferView, s.byteOffset, s.componentType, s.normalized, s.count, s.type, s.max, s.min, s.sparse, ()))
    (fun t => { extensions := t.1, extras := t.2.1, name := t.2.2.1, bufferView := t.2.2.2.1, byteOffset := t.2.2.2.2.1, componentType := t.2.2.2.2.2.1, normalized := t.2.2.2.2.2.2.1, count := t.2.2.2.2.2.2.2.1, type := t.2.2.2.2.2.2.2.2.1, max := t.2.2.2.2.2.2.2.2.2.1, min := t.2.2.2.2.2.2.2.2.2.2.1, sparse := t.2.2.2.2.2.2.2.2.2.2.2.1 })
    (.cons b!"extensions" E.ext <|
     .cons b!"extras" E.extras <|
     .cons b!"name" omitString <|
     .cons b!"bufferView" omitIndex <|
     .cons b!"byteOffset" omitInt <|
     .cons b!"componentType" componentTypeC.always <|
     .cons b!"normalized" omitBool <|
     .cons b!"count" JC.int.always <|
     .cons b!"type" accessorTypeC.always <|
     .cons b!"max" E.floats <|
     .cons b!"min" E.floats <|
     .cons b!"sparse" ((JC.ptr (sparseC E)).omitIf Option.isNone) <|
     .nil)

/-- gltf.go:112-119. -/
def bufferC (E : Env) : JC Buffer :=
  .struct
    (fun s => (s.extensions, s.extras, s.name, s.uri, s.byteLength, s.data, ()))
    (fun t => { extensions := t.1, extras := t.2.1, name := t.2.2.1, uri := t.2.2.2.1, byteLength := t.2.2.2.2.1, data := t.2.2.2.2.2.1 })
    (.cons b!"extensions" E.ext <|
     .cons b!"extras" E.extras <|
     .cons b!"name" omitString <|
     .cons b!"uri" omitString <|
     .cons b!"byteLength" JC.int.always <|
     .skip ([] : Bytes) <|
     .nil)

/-- gltf.go:148-157. -/
def bufferViewC (E : Env) : JC BufferView :=
  .struct
    (fun s => (s.extensions, s.extras, s.buffer, s.byteOffset, s.byteLength, s.byteStride, s.target, s.name, ()))
    (fun t => { extensions := t.1, extras := t.2.1, buffer := t.2.2.1, byteOffset := t.2.2.2.1, byteLength := t.2.2.2.2.1, byteStride := t.2.2.2.2.2.1, target := t.2.2.2.2.2.2.1, name := t.2.2.2.2.2.2.2.1 })
    (.cons b!"extensions" E.ext <|
     .cons b!"extras" E.extras <|
     .cons b!"buffer" JC.int.always <|
     .cons b!"byteOffset" omitInt <|
     .cons b!"byteLength" JC.int.always <|
     .cons b!"byteStride" omitInt <|
     .cons b!"target" (JC.uint16.omitIf (· == 0)) <|
     .cons b!"name" omitString <|
     .nil)

/-- gltf.go:160-165. -/
def sceneC (E : Env) : JC Scene :=
  .struct
    (fun s => (s.extensions, s.extras, s.name, s.nodes, ()))
    (fun t => { extensions := t.1, extras := t.2.1, name := t.2.2.1, nodes := t.2.2.2.1 })
    (.cons b!"extensions" E.ext <|
     .cons b!"extras" E.extras <|
     .cons b!"name" omitString <|
     .cons b!"nodes" omitInts <|
     .nil)

/-- gltf.go:169-182 and encode.go:277-304. The fields of the outer struct come first. -/
def nodeC' (E : Env) : JC Node :=
  .struct
    (fun s => (s.«matrix», s.rotation, s.scale, s.translation, s.extensions, s.extras, s.name, s.camera, s.children, s.skin, s.mesh, s.weights, ()))
    (fun t => { «matrix» := t.1, rotation := t.2.1, scale := t.2.2.1, translation := t.2.2.2.1, extensions := t.2.2.2.2.1, extras := t.2.2.2.2.2.1, name := t.2.2.2.2.2.2.1, camera := t.2.2.2.2.2.2.2.1, children := t.2.2.2.2.2.2.2.2.1, skin := t.2.2.2.2.2.2.2.2.2.1, mesh := t.2.2.2.2.2.2.2.2.2.2.1, weights := t.2.2.2.2.2.2.2.2.2.2.2.1 })
    (.cons b!"matrix" ((JC.array 16 E.float).omitIf fun m => arrayEq m defaultMatrix || arrayEq m emptyMatrix) <|
     .cons b!"rotation" ((JC.array 4 E.float).omitIf fun m => arrayEq m defaultRotation || arrayEq m emptyRotation) <|
     .cons b!"scale" ((JC.array 3 E.float).omitIf fun m => arrayEq m defaultScale || arrayEq m emptyScale) <|
     .cons b!"translation" ((JC.array 3 E.float).omitIf fun m => arrayEq m defaultTranslation) <|
     .cons b!"extensions" E.ext <|
     .cons b!"extras" E.extras <|
     .cons b!"name" omitString <|
     .cons b!"camera" omitIndex <|
     .cons b!"children" omitInts <|
     .cons b!"skin" omitIndex <|
     .cons b!"mesh" omitIndex <|
     .cons b!"weights" E.floats <|
     .nil)

/-- encode.go:262-275, `Node.UnmarshalJSON`. -/
def nodeC (E : Env) : JC Node :=
  (nodeC' E).withDefault { «matrix» := defaultMatrix, rotation := defaultRotation, scale := defaultScale }

/-- gltf.go:214-221. -/
def skinC (E : Env) : JC Skin :=
  .struct
    (fun s => (s.extensions, s.extras, s.name, s.inverseBindMatrices, s.skeleton, s.joints, ()))
    (fun t => { extensions := t.1, extras := t.2.1, name := t.2.2.1, inverseBindMatrices := t.2.2.2.1, skeleton := t.2.2.2.2.1, joints := t.2.2.2.2.2.1 })
    (.cons b!"extensions" E.ext <|
     .cons b!"extras" E.extras <|
     .cons b!"name" omitString <|
     .cons b!"inverseBindMatrices" omitIndex <|
     .cons b!"skeleton" omitIndex <|
     .cons b!"joints" ((JC.slice JC.int).always) <|
     .nil)

/-- gltf.go:233-240. -/
def orthographicC (E : Env) : JC Orthographic :=
  .struct
    (fun s => (s.extensions, s.extras, s.xmag, s.ymag, s.zfar, s.znear, ()))
    (fun t => { extensions := t.1, extras := t.2.1, xmag := t.2.2.1, ymag := t.2.2.2.1, zfar := t.2.2.2.2.1, znear := t.2.2.2.2.2.1 })
    (.cons b!"extensions" E.ext <|
     .cons b!"extras" E.extras <|
     .cons b!"xmag" E.float.always <|
     .cons b!"ymag" E.float.always <|
     .cons b!"zfar" E.float.always <|
     .cons b!"znear" E.float.always <|
     .nil)

/-- gltf.go:243-250. -/
def perspectiveC (E : Env) : JC Perspective :=
  .struct
    (fun s => (s.extensions, s.extras, s.aspectRatio, s.yfov, s.zfar, s.znear, ()))
    (fun t => { extensions := t.1, extras := t.2.1, aspectRatio := t.2.2.1, yfov := t.2.2.2.1, zfar := t.2.2.2.2.1, znear := t.2.2.2.2.2.1 })
    (.cons b!"extensions" E.ext <|
     .cons b!"extras" E.extras <|
     .cons b!"aspectRatio" E.omitFloat <|
     .cons b!"yfov" E.float.always <|
     .cons b!"zfar" E.omitFloat <|
     .cons b!"znear" E.float.always <|
     .nil)

/-- gltf.go:224-230. -/
def cameraC' (E : Env) : JC Camera :=
  .struct
    (fun s => (s.extensions, s.extras, s.name, s.orthographic, s.perspective, ()))
    (fun t => { extensions := t.1, extras := t.2.1, name := t.2.2.1, orthographic := t.2.2.2.1, perspective := t.2.2.2.2.1 })
    (.cons b!"extensions" E.ext <|
     .cons b!"extras" E.extras <|
     .cons b!"name" omitString <|
     .cons b!"orthographic" ((JC.ptr (orthographicC E)).omitIf Option.isNone) <|
     .cons b!"perspective" ((JC.ptr (perspectiveC E)).omitIf Option.isNone) <|
     .nil)

/-- The member that the outer struct of `Camera.MarshalJSON` adds. -/
def withType (t : Bytes) : JVal → JVal
  | .obj ms => .obj ((b!"type", .str t) :: ms)
  | v => v

/-- encode.go:306-328, `Camera.MarshalJSON`. The type is not decoded. -/
def cameraC (E : Env) : JC Camera :=
  { cameraC' E with
    enc := fun c =>
      if c.perspective.isSome then ((cameraC' E).enc c).map (withType b!"perspective")
      else if c.orthographic.isSome then ((cameraC' E).enc c).map (withType b!"orthographic")
      else .error (.msg "gltf: camera must defined either the perspective or orthographic property") }

/-- gltf.go:262-270. -/
def primitiveC (E : Env) : JC Primitive :=
  .struct
    (fun s => (s.extensions, s.extras, s.attributes, s.indices, s.material, s.mode, s.targets, ()))
    (fun t => { extensions := t.1, extras := t.2.1, attributes := t.2.2.1, indices := t.2.2.2.1, material := t.2.2.2.2.1, mode := t.2.2.2.2.2.1, targets := t.2.2.2.2.2.2.1 })
    (.cons b!"extensions" E.ext <|
     .cons b!"extras" E.extras <|
     .cons b!"attributes" ((JC.map JC.int).always) <|
     .cons b!"indices" omitIndex <|
     .cons b!"material" omitIndex <|
     .cons b!"mode" (primitiveModeC.omitIf (· == .triangles)) <|
     .cons b!"targets" ((JC.list (JC.map JC.int)).omitIf List.isEmpty) <|
     .nil)

/-- gltf.go:253-259. -/
def meshC (E : Env) : JC Mesh :=
  .struct
    (fun s => (s.extensions, s.extras, s.name, s.primitives, s.weights, ()))
    (fun t => { extensions := t.1, extras := t.2.1, name := t.2.2.1, primitives := t.2.2.2.1, weights := t.2.2.2.2.1 })
    (.cons b!"extensions" E.ext <|
     .cons b!"extras" E.extras <|
     .cons b!"name" omitString <|
     .cons b!"primitives" ((JC.slice (JC.ptr (primitiveC E))).always) <|
     .cons b!"weights" E.floats <|
     .nil)

/-- gltf.go:296-302 and encode.go:365-377. -/
def normalTextureC' (E : Env) : JC NormalTexture :=
  .struct
    (fun s => (s.extensions, s.extras, s.index, s.texCoord, s.scale, ()))
    (fun t => { extensions := t.1, extras := t.2.1, index := t.2.2.1, texCoord := t.2.2.2.1, scale := t.2.2.2.2.1 })
    (.cons b!"extensions" E.ext <|
     .cons b!"extras" E.extras <|
     .cons b!"index" omitIndex <|
     .cons b!"texCoord" omitInt <|
     .cons b!"scale" (E.omitFloatIf f64one) <|
     .nil)

/-- encode.go:353-363, `NormalTexture.UnmarshalJSON`. -/
def normalTextureC (E : Env) : JC NormalTexture := (normalTextureC' E).withDefault { scale := some f64one }

/-- gltf.go:313-319 and encode.go:391-403. -/
def occlusionTextureC' (E : Env) : JC OcclusionTexture :=
  .struct
    (fun s => (s.extensions, s.extras, s.index, s.texCoord, s.strength, ()))
    (fun t => { extensions := t.1, extras := t.2.1, index := t.2.2.1, texCoord := t.2.2.2.1, strength := t.2.2.2.2.1 })
    (.cons b!"extensions" E.ext <|
     .cons b!"extras" E.extras <|
     .cons b!"index" omitIndex <|
     .cons b!"texCoord" omitInt <|
     .cons b!"strength" (E.omitFloatIf f64one) <|
     .nil)

/-- encode.go:379-389, `OcclusionTexture.UnmarshalJSON`. -/
def occlusionTextureC (E : Env) : JC OcclusionTexture := (occlusionTextureC' E).withDefault { strength := some f64one }

/-- gltf.go:365-370. -/
def textureInfoC (E : Env) : JC TextureInfo :=
  .struct
    (fun s => (s.extensions, s.extras, s.index, s.texCoord, ()))
    (fun t => { extensions := t.1, extras := t.2.1, index := t.2.2.1, texCoord := t.2.2.2.1 })
    (.cons b!"extensions" E.ext <|
     .cons b!"extras" E.extras <|
     .cons b!"index" JC.int.always <|
     .cons b!"texCoord" omitInt <|
     .nil)

/-- gltf.go:330-338 and encode.go:417-435. -/
def pbrC' (E : Env) : JC PBRMetallicRoughness :=
  .struct
    (fun s => (s.extensions, s.extras, s.baseColorFactor, s.baseColorTexture, s.metallicFactor, s.roughnessFactor, s.metallicRoughnessTexture, ()))
    (fun t => { extensions := t.1, extras := t.2.1, baseColorFactor := t.2.2.1, baseColorTexture := t.2.2.2.1, metallicFactor := t.2.2.2.2.1, roughnessFactor := t.2.2.2.2.2.1, metallicRoughnessTexture := t.2.2.2.2.2.2.1 })
    (.cons b!"extensions" E.ext <|
     .cons b!"extras" E.extras <|
     .cons b!"baseColorFactor" ((JC.ptr (JC.array 4 E.float)).omitIf fun m => m.all (arrayEq · white)) <|
     .cons b!"baseColorTexture" ((JC.ptr (textureInfoC E)).omitIf Option.isNone) <|
     .cons b!"metallicFactor" (E.omitFloatIf f64one) <|
     .cons b!"roughnessFactor" (E.omitFloatIf f64one) <|
     .cons b!"metallicRoughnessTexture" ((JC.ptr (textureInfoC E)).omitIf Option.isNone) <|
     .nil)

/-- encode.go:405-415, `PBRMetallicRoughness.UnmarshalJSON`. -/
def pbrC (E : Env) : JC PBRMetallicRoughness :=
  (pbrC' E).withDefault { baseColorFactor := some white, metallicFactor := some f64one, roughnessFactor := some f64one }

/-- gltf.go:273-285 and encode.go:333-351. The fields of the outer struct come first. -/
def materialC' (E : Env) : JC Material :=
  .struct
    (fun s => (s.emissiveFactor, s.alphaCutoff, s.extensions, s.extras, s.name, s.pbrMetallicRoughness, s.normalTexture, s.occlusionTexture, s.emissiveTexture, s.alphaMode, s.doubleSided, ()))
    (fun t => { emissiveFactor := t.1, alphaCutoff := t.2.1, extensions := t.2.2.1, extras := t.2.2.2.1, name := t.2.2.2.2.1, pbrMetallicRoughness := t.2.2.2.2.2.1, normalTexture := t.2.2.2.2.2.2.1, occlusionTexture := t.2.2.2.2.2.2.2.1, emissiveTexture := t.2.2.2.2.2.2.2.2.1, alphaMode := t.2.2.2.2.2.2.2.2.2.1, doubleSided := t.2.2.2.2.2.2.2.2.2.2.1 })
    (.cons b!"emissiveFactor" ((JC.array 3 E.float).omitIf (arrayEq · defaultTranslation)) <|
     .cons b!"alphaCutoff" (E.omitFloatIf f64half) <|
     .cons b!"extensions" E.ext <|
     .cons b!"extras" E.extras <|
     .cons b!"name" omitString <|
     .cons b!"pbrMetallicRoughness" ((JC.ptr (pbrC E)).omitIf Option.isNone) <|
     .cons b!"normalTexture" ((JC.ptr (normalTextureC E)).omitIf Option.isNone) <|
     .cons b!"occlusionTexture" ((JC.ptr (occlusionTextureC E)).omitIf Option.isNone) <|
     .cons b!"emissiveTexture" ((JC.ptr (textureInfoC E)).omitIf Option.isNone) <|
     .cons b!"alphaMode" (alphaModeC.omitIf (· == .opaque)) <|
     .cons b!"doubleSided" omitBool <|
     .nil)

/-- encode.go:330-341, `Material.UnmarshalJSON`. -/
def materialC (E : Env) : JC Material := (materialC' E).withDefault { alphaCutoff := some f64half }

/-- gltf.go:373-379. -/
def textureC (E : Env) : JC Texture :=
  .struct
    (fun s => (s.extensions, s.extras, s.name, s.sampler, s.source, ()))
    (fun t => { extensions := t.1, extras := t.2.1, name := t.2.2.1, sampler := t.2.2.2.1, source := t.2.2.2.2.1 })
    (.cons b!"extensions" E.ext <|
     .cons b!"extras" E.extras <|
     .cons b!"name" omitString <|
     .cons b!"sampler" omitIndex <|
     .cons b!"source" omitIndex <|
     .nil)

/-- gltf.go:382-390. -/
def samplerC (E : Env) : JC Sampler :=
  .struct
    (fun s => (s.extensions, s.extras, s.name, s.magFilter, s.minFilter, s.wrapS, s.wrapT, ()))
    (fun t => { extensions := t.1, extras := t.2.1, name := t.2.2.1, magFilter := t.2.2.2.1, minFilter := t.2.2.2.2.1, wrapS := t.2.2.2.2.2.1, wrapT := t.2.2.2.2.2.2.1 })
    (.cons b!"extensions" E.ext <|
     .cons b!"extras" E.extras <|
     .cons b!"name" omitString <|
     .cons b!"magFilter" (magFilterC.omitIf (· == .undefined)) <|
     .cons b!"minFilter" (minFilterC.omitIf (· == .undefined)) <|
     .cons b!"wrapS" (wrappingModeC.omitIf (· == .repeated)) <|
     .cons b!"wrapT" (wrappingModeC.omitIf (· == .repeated)) <|
     .nil)

/-- gltf.go:394-401. -/
def imageC (E : Env) : JC Image :=
  .struct
    (fun s => (s.extensions, s.extras, s.name, s.uri, s.mimeType, s.bufferView, ()))
    (fun t => { extensions := t.1, extras := t.2.1, name := t.2.2.1, uri := t.2.2.2.1, mimeType := t.2.2.2.2.1, bufferView := t.2.2.2.2.2.1 })
    (.cons b!"extensions" E.ext <|
     .cons b!"extras" E.extras <|
     .cons b!"name" omitString <|
     .cons b!"uri" omitString <|
     .cons b!"mimeType" omitString <|
     .cons b!"bufferView" omitIndex <|
     .nil)

/-- gltf.go:434-440. -/
def animationSamplerC (E : Env) : JC AnimationSampler :=
  .struct
    (fun s => (s.extensions, s.extras, s.input, s.interpolation, s.output, ()))
    (fun t => { extensions := t.1, extras := t.2.1, input := t.2.2.1, interpolation := t.2.2.2.1, output := t.2.2.2.2.1 })
    (.cons b!"extensions" E.ext <|
     .cons b!"extras" E.extras <|
     .cons b!"input" JC.int.always <|
     .cons b!"interpolation" (interpolationC.omitIf (· == .linear)) <|
     .cons b!"output" JC.int.always <|
     .nil)

/-- gltf.go:455-460. -/
def animationChannelTargetC (E : Env) : JC AnimationChannelTarget :=
  .struct
    (fun s => (s.extensions, s.extras, s.node, s.path, ()))
    (fun t => { extensions := t.1, extras := t.2.1, node := t.2.2.1, path := t.2.2.2.1 })
    (.cons b!"extensions" E.ext <|
     .cons b!"extras" E.extras <|
     .cons b!"node" omitIndex <|
     .cons b!"path" trsPropertyC.always <|
     .nil)

/-- gltf.go:443-448. -/
def animationChannelC (E : Env) : JC AnimationChannel :=
  .struct
    (fun s => (s.extensions, s.extras, s.sampler, s.target, ()))
    (fun t => { extensions := t.1, extras := t.2.1, sampler := t.2.2.1, target := t.2.2.2.1 })
    (.cons b!"extensions" E.ext <|
     .cons b!"extras" E.extras <|
     .cons b!"sampler" JC.int.always <|
     .cons b!"target" ((animationChannelTargetC E).always) <|
     .nil)

/-- gltf.go:425-431. -/
def animationC (E : Env) : JC Animation :=
  .struct
    (fun s => (s.extensions, s.extras, s.name, s.channels, s.samplers, ()))
    (fun t => { extensions := t.1, extras := t.2.1, name := t.2.2.1, channels := t.2.2.2.1, samplers := t.2.2.2.2.1 })
    (.cons b!"extensions" E.ext <|
     .cons b!"extras" E.extras <|
     .cons b!"name" omitString <|
     .cons b!"channels" ((JC.slice (JC.ptr (animationChannelC E))).always) <|
     .cons b!"samplers" ((JC.slice (JC.ptr (animationSamplerC E))).always) <|
     .nil)

/-- gltf.go:31-51 and encode.go:196-202. The list of buffers of the outer struct comes first. -/
def documentC (E : Env) : JC Document :=
  .struct
    (fun s => (s.buffers, s.extensions, s.extras, s.extensionsUsed, s.extensionsRequired, s.accessors, s.animations, s.asset, s.bufferViews, s.cameras, s.images, s.materials, s.meshes, s.nodes, s.samplers, s.scene, s.scenes, s.skins, s.textures, ()))
    (fun t => { buffers := t.1, extensions := t.2.1, extras := t.2.2.1, extensionsUsed := t.2.2.2.1, extensionsRequired := t.2.2.2.2.1, accessors := t.2.2.2.2.2.1, animations := t.2.2.2.2.2.2.1, asset := t.2.2.2.2.2.2.2.1, bufferViews := t.2.2.2.2.2.2.2.2.1, cameras := t.2.2.2.2.2.2.2.2.2.1, images := t.2.2.2.2.2.2.2.2.2.2.1, materials := t.2.2.2.2.2.2.2.2.2.2.2.1, meshes := t.2.2.2.2.2.2.2.2.2.2.2.2.1, nodes := t.2.2.2.2.2.2.2.2.2.2.2.2.2.1, samplers := t.2.2.2.2.2.2.2.2.2.2.2.2.2.2.1, scene := t.2.2.2.2.2.2.2.2.2.2.2.2.2.2.2.1, scenes := t.2.2.2.2.2.2.2.2.2.2.2.2.2.2.2.2.1, skins := t.2.2.2.2.2.2.2.2.2.2.2.2.2.2.2.2.2.1, textures := t.2.2.2.2.2.2.2.2.2.2.2.2.2.2.2.2.2.2.1 })
    (.cons b!"buffers" ((JC.list (JC.ptr (bufferC E))).omitIf List.isEmpty) <|
     .cons b!"extensions" E.ext <|
     .cons b!"extras" E.extras <|
     .cons b!"extensionsUsed" omitStrings <|
     .cons b!"extensionsRequired" omitStrings <|
     .cons b!"accessors" ((JC.list (JC.ptr (accessorC E))).omitIf List.isEmpty) <|
     .cons b!"animations" ((JC.list (JC.ptr (animationC E))).omitIf List.isEmpty) <|
     .cons b!"asset" ((assetC E).always) <|
     .cons b!"bufferViews" ((JC.list (JC.ptr (bufferViewC E))).omitIf List.isEmpty) <|
     .cons b!"cameras" ((JC.list (JC.ptr (cameraC E))).omitIf List.isEmpty) <|
     .cons b!"images" ((JC.list (JC.ptr (imageC E))).omitIf List.isEmpty) <|
     .cons b!"materials" ((JC.list (JC.ptr (materialC E))).omitIf List.isEmpty) <|
     .cons b!"meshes" ((JC.list (JC.ptr (meshC E))).omitIf List.isEmpty) <|
     .cons b!"nodes" ((JC.list (JC.ptr (nodeC E))).omitIf List.isEmpty) <|
     .cons b!"samplers" ((JC.list (JC.ptr (samplerC E))).omitIf List.isEmpty) <|
     .cons b!"scene" omitIndex <|
     .cons b!"scenes" ((JC.list (JC.ptr (sceneC E))).omitIf List.isEmpty) <|
     .cons b!"skins" ((JC.list (JC.ptr (skinC E))).omitIf List.isEmpty) <|
     .cons b!"textures" ((JC.list (JC.ptr (textureC E))).omitIf List.isEmpty) <|
     .nil)

end Gltf
