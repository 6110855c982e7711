/-
The data types of gltf.go. Every struct of Go is a structure with the same fields.

* `string` is `Bytes`, `int` is `Int`, `float64` is `F64` (its bits), `*T` is `Option T`.
* Slices whose JSON tag has `omitempty` are lists (nil and empty are identified); the others are
  `Option (List _)` because nil and empty are printed differently.
* Lists of pointers are lists of options: a nil entry is `none`. Two entries that are the same
  pointer are not modelled.
* Maps are association lists; see `Verif/Model/JsonDoc.lean` for the canonical order.
-/
import Verif.Model.Const
import Verif.Model.Json

namespace Gltf

/-- A Go `float64`, identified with its IEEE 754 bit pattern. -/
structure F64 where
  bits : UInt64
deriving DecidableEq, Repr

/-- A Go value of static type `any` filled by encoding/json: the type of `Extras`. -/
inductive GoAny where
  | null
  | bool (b : Bool)
  | num (x : F64)
  | str (s : Bytes)
  | arr (l : List GoAny)
  | obj (l : List (Bytes × GoAny))

/-- A value of the `Extensions` map, gltf.go:462-465. A typed extension is represented by the result
of marshalling it. -/
inductive ExtVal where
  /-- a `json.RawMessage` -/
  | raw (v : JVal)
  /-- the result of a registered extension -/
  | typed (marshalled : Except Err JVal)

/-- gltf.go:462-465. Nil and empty maps are identified. -/
abbrev Extensions := List (Bytes × ExtVal)

/-- gltf.go:21-28. -/
structure Asset where
  extensions : Extensions := []
  extras : GoAny := .null
  copyright : Bytes := []
  generator : Bytes := []
  version : Bytes := []
  minVersion : Bytes := []

/-- gltf.go:101-107. -/
structure SparseIndices where
  extensions : Extensions := []
  extras : GoAny := .null
  bufferView : Int := 0
  byteOffset : Int := 0
  componentType : ComponentType := .float

/-- gltf.go:93-98. -/
structure SparseValues where
  extensions : Extensions := []
  extras : GoAny := .null
  bufferView : Int := 0
  byteOffset : Int := 0

/-- gltf.go:84-90. -/
structure Sparse where
  extensions : Extensions := []
  extras : GoAny := .null
  count : Int := 0
  indices : SparseIndices := {}
  values : SparseValues := {}

/-- gltf.go:68-81. -/
structure Accessor where
  extensions : Extensions := []
  extras : GoAny := .null
  name : Bytes := []
  bufferView : Option Int := none
  byteOffset : Int := 0
  componentType : ComponentType := .float
  normalized : Bool := false
  count : Int := 0
  type : AccessorType := .scalar
  max : List F64 := []
  min : List F64 := []
  sparse : Option Sparse := none

/-- gltf.go:112-119. -/
structure Buffer where
  extensions : Extensions := []
  extras : GoAny := .null
  name : Bytes := []
  uri : Bytes := []
  byteLength : Int := 0
  data : Bytes := []

/-- gltf.go:148-157. -/
structure BufferView where
  extensions : Extensions := []
  extras : GoAny := .null
  buffer : Int := 0
  byteOffset : Int := 0
  byteLength : Int := 0
  byteStride : Int := 0
  target : Target := 0
  name : Bytes := []

/-- gltf.go:160-165. -/
structure Scene where
  extensions : Extensions := []
  extras : GoAny := .null
  name : Bytes := []
  nodes : List Int := []

/-- gltf.go:169-182. -/
structure Node where
  extensions : Extensions := []
  extras : GoAny := .null
  name : Bytes := []
  camera : Option Int := none
  children : List Int := []
  skin : Option Int := none
  «matrix» : Vector F64 16 := Vector.replicate 16 ⟨0⟩
  mesh : Option Int := none
  rotation : Vector F64 4 := Vector.replicate 4 ⟨0⟩
  scale : Vector F64 3 := Vector.replicate 3 ⟨0⟩
  translation : Vector F64 3 := Vector.replicate 3 ⟨0⟩
  weights : List F64 := []

/-- gltf.go:214-221. -/
structure Skin where
  extensions : Extensions := []
  extras : GoAny := .null
  name : Bytes := []
  inverseBindMatrices : Option Int := none
  skeleton : Option Int := none
  joints : Option (List Int) := none

/-- gltf.go:233-240. -/
structure Orthographic where
  extensions : Extensions := []
  extras : GoAny := .null
  xmag : F64 := ⟨0⟩
  ymag : F64 := ⟨0⟩
  zfar : F64 := ⟨0⟩
  znear : F64 := ⟨0⟩

/-- gltf.go:243-250. -/
structure Perspective where
  extensions : Extensions := []
  extras : GoAny := .null
  aspectRatio : Option F64 := none
  yfov : F64 := ⟨0⟩
  zfar : Option F64 := none
  znear : F64 := ⟨0⟩

/-- gltf.go:224-230. -/
structure Camera where
  extensions : Extensions := []
  extras : GoAny := .null
  name : Bytes := []
  orthographic : Option Orthographic := none
  perspective : Option Perspective := none

/-- const.go:163-164, `PrimitiveAttributes`, a map from names to accessor indices. -/
abbrev PrimitiveAttributes := List (Bytes × Int)

/-- gltf.go:262-270. -/
structure Primitive where
  extensions : Extensions := []
  extras : GoAny := .null
  attributes : Option PrimitiveAttributes := none
  indices : Option Int := none
  material : Option Int := none
  mode : PrimitiveMode := .triangles
  targets : List (Option PrimitiveAttributes) := []

/-- gltf.go:253-259. -/
structure Mesh where
  extensions : Extensions := []
  extras : GoAny := .null
  name : Bytes := []
  primitives : Option (List (Option Primitive)) := none
  weights : List F64 := []

/-- gltf.go:296-302. -/
structure NormalTexture where
  extensions : Extensions := []
  extras : GoAny := .null
  index : Option Int := none
  texCoord : Int := 0
  scale : Option F64 := none

/-- gltf.go:313-319. -/
structure OcclusionTexture where
  extensions : Extensions := []
  extras : GoAny := .null
  index : Option Int := none
  texCoord : Int := 0
  strength : Option F64 := none

/-- gltf.go:365-370. -/
structure TextureInfo where
  extensions : Extensions := []
  extras : GoAny := .null
  index : Int := 0
  texCoord : Int := 0

/-- gltf.go:330-338. -/
structure PBRMetallicRoughness where
  extensions : Extensions := []
  extras : GoAny := .null
  baseColorFactor : Option (Vector F64 4) := none
  baseColorTexture : Option TextureInfo := none
  metallicFactor : Option F64 := none
  roughnessFactor : Option F64 := none
  metallicRoughnessTexture : Option TextureInfo := none

/-- gltf.go:273-285. -/
structure Material where
  extensions : Extensions := []
  extras : GoAny := .null
  name : Bytes := []
  pbrMetallicRoughness : Option PBRMetallicRoughness := none
  normalTexture : Option NormalTexture := none
  occlusionTexture : Option OcclusionTexture := none
  emissiveTexture : Option TextureInfo := none
  emissiveFactor : Vector F64 3 := Vector.replicate 3 ⟨0⟩
  alphaMode : AlphaMode := .opaque
  alphaCutoff : Option F64 := none
  doubleSided : Bool := false

/-- gltf.go:373-379. -/
structure Texture where
  extensions : Extensions := []
  extras : GoAny := .null
  name : Bytes := []
  sampler : Option Int := none
  source : Option Int := none

/-- gltf.go:382-390. -/
structure Sampler where
  extensions : Extensions := []
  extras : GoAny := .null
  name : Bytes := []
  magFilter : MagFilter := .undefined
  minFilter : MinFilter := .undefined
  wrapS : WrappingMode := .repeated
  wrapT : WrappingMode := .repeated

/-- gltf.go:394-401. -/
structure Image where
  extensions : Extensions := []
  extras : GoAny := .null
  name : Bytes := []
  uri : Bytes := []
  mimeType : Bytes := []
  bufferView : Option Int := none

/-- gltf.go:434-440. -/
structure AnimationSampler where
  extensions : Extensions := []
  extras : GoAny := .null
  input : Int := 0
  interpolation : Interpolation := .linear
  output : Int := 0

/-- gltf.go:455-460. -/
structure AnimationChannelTarget where
  extensions : Extensions := []
  extras : GoAny := .null
  node : Option Int := none
  path : TRSProperty := .translation

/-- gltf.go:443-448. -/
structure AnimationChannel where
  extensions : Extensions := []
  extras : GoAny := .null
  sampler : Int := 0
  target : AnimationChannelTarget := {}

/-- gltf.go:425-431. -/
structure Animation where
  extensions : Extensions := []
  extras : GoAny := .null
  name : Bytes := []
  channels : Option (List (Option AnimationChannel)) := none
  samplers : Option (List (Option AnimationSampler)) := none

/-- gltf.go:31-51. -/
structure Document where
  extensions : Extensions := []
  extras : GoAny := .null
  extensionsUsed : List Bytes := []
  extensionsRequired : List Bytes := []
  accessors : List (Option Accessor) := []
  animations : List (Option Animation) := []
  asset : Asset := {}
  buffers : List (Option Buffer) := []
  bufferViews : List (Option BufferView) := []
  cameras : List (Option Camera) := []
  images : List (Option Image) := []
  materials : List (Option Material) := []
  meshes : List (Option Mesh) := []
  nodes : List (Option Node) := []
  samplers : List (Option Sampler) := []
  scene : Option Int := none
  scenes : List (Option Scene) := []
  skins : List (Option Skin) := []
  textures : List (Option Texture) := []

/-- gltf.go:54-63, `NewDocument`. -/
def newDocument : Document where
  scene := some 0
  scenes := [some { name := b!"Root Scene" }]
  asset := { generator := b!"qmuntal/gltf", version := b!"2.0" }

end Gltf
