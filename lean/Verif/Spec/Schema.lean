/-
Specification of the JSON of glTF 2.0: the members of every object, their names, which of them are required, what
they stand for, and what their absence stands for. It is written as tables, without reference to the codecs of the
model. The names, the required members, the enumerated values and the defaults are those of the glTF 2.0
specification.
-/
import Verif.Spec.DocJson
import Verif.Spec.DocNorm
import Verif.Spec.Enum

namespace Gltf.Spec

/-- How values of a Go type are shown in JSON: which JSON values stand for a value, and which values the glTF
specification has a form for. -/
structure Typ (α : Type) where
  rel : α → JVal → Prop
  ready : α → Prop

/-- The number written with decimal digits. -/
def decimalOf (ds : Bytes) : Nat := ds.foldl (fun k c => 10 * k + (c.toNat - 48)) 0

/-- An integer in decimal notation. -/
def IntLit (lit : Bytes) (n : Int) : Prop :=
  ∃ ds : Bytes, IsDigits ds ∧ ((lit = ds ∧ n = decimalOf ds) ∨ (lit = b!"-" ++ ds ∧ n = -(decimalOf ds)))

def intT : Typ Int := ⟨fun n v => IntOk n ∧ ∃ lit, v = .num lit ∧ IntLit lit n, IntOk⟩

/-- Numbers: `io` says which number a literal stands for. -/
def numT (io : FloatIO) : Typ F64 := ⟨fun x v => ∃ lit, v = .num lit ∧ io.parse lit = some x, fun x => x.finite = true⟩

def boolT : Typ Bool := ⟨fun b v => v = .bool b, fun _ => True⟩

def strT : Typ Bytes := ⟨fun s v => v = .str s, fun _ => True⟩

/-- An enumeration of numbers. -/
def codeT {α : Type} (table : List (α × Nat)) : Typ α :=
  ⟨fun a v => ∃ lit, v = .num lit ∧ IsDigits lit ∧ (a, decimalOf lit) ∈ table, fun a => ∃ n, (a, n) ∈ table⟩

/-- An enumeration of strings. -/
def nameT {α : Type} (table : List (α × Bytes)) : Typ α :=
  ⟨fun a v => ∃ s, (a, s) ∈ table ∧ v = .str s, fun a => ∃ s, (a, s) ∈ table⟩

/-- A pointer, or a slice or map that may be nil: nil has no JSON form of its own. -/
def ptrT {α : Type} (T : Typ α) : Typ (Option α) :=
  ⟨fun o v => ∃ a, o = some a ∧ T.rel a v, fun o => ∃ a, o = some a ∧ T.ready a⟩

/-- Lists of the same length whose elements correspond. -/
def Each {α β : Type} (R : α → β → Prop) (l : List α) (m : List β) : Prop :=
  l.length = m.length ∧ ∀ (i : Nat) (a : α) (b : β), l[i]? = some a → m[i]? = some b → R a b

def listT {α : Type} (T : Typ α) : Typ (List α) :=
  ⟨fun l v => ∃ vs, v = .arr vs ∧ Each T.rel l vs, fun l => ∀ a ∈ l, T.ready a⟩

/-- Arrays of a fixed length. -/
def vecT {α : Type} (n : Nat) (T : Typ α) : Typ (Vector α n) :=
  ⟨fun m v => (listT T).rel m.toList v, fun m => (listT T).ready m.toList⟩

/-- The same keys, none of them twice, with corresponding values. -/
structure SameKeys {α β : Type} (R : Bytes → α → β → Prop) (m : List (Bytes × α)) (vs : List (Bytes × β)) : Prop where
  left : (m.map Prod.fst).Nodup
  right : (vs.map Prod.fst).Nodup
  keys : ∀ k, k ∈ m.map Prod.fst ↔ k ∈ vs.map Prod.fst
  values : ∀ k a v, (k, a) ∈ m → (k, v) ∈ vs → R k a v

def mapT {α : Type} (T : Typ α) : Typ (List (Bytes × α)) :=
  ⟨fun m v => ∃ vs, v = .obj vs ∧ SameKeys (fun _ => T.rel) m vs, fun m => (m.map Prod.fst).Nodup ∧ ∀ p ∈ m, T.ready p.2⟩

/-- The extra data of an application: any JSON value. -/
inductive AnyRel (io : FloatIO) : GoAny → JVal → Prop where
  | null : AnyRel io .null .null
  | bool (b : Bool) : AnyRel io (.bool b) (.bool b)
  | num (x : F64) (lit : Bytes) : io.parse lit = some x → AnyRel io (.num x) (.num lit)
  | str (s : Bytes) : AnyRel io (.str s) (.str s)
  | arr (l : List GoAny) (vs : List JVal) : l.length = vs.length →
      (∀ (i : Nat) (a : GoAny) (v : JVal), l[i]? = some a → vs[i]? = some v → AnyRel io a v) → AnyRel io (.arr l) (.arr vs)
  | obj (m : List (Bytes × GoAny)) (vs : List (Bytes × JVal)) : (m.map Prod.fst).Nodup → (vs.map Prod.fst).Nodup →
      (∀ k, k ∈ m.map Prod.fst ↔ k ∈ vs.map Prod.fst) →
      (∀ k a v, (k, a) ∈ m → (k, v) ∈ vs → AnyRel io a v) → AnyRel io (.obj m) (.obj vs)

def anyT (io : FloatIO) : Typ GoAny := ⟨AnyRel io, fun a => ∃ n, AnyOk n a⟩

/-- Extensions: an unknown one is its JSON. What the JSON of a registered one means is its own affair: it is what the
registered type is written as, or what the registered function was given (`reg` says which values a function
returns). -/
def ExtRel (reg : Registry) (key : Bytes) (x : ExtVal) (v : JVal) : Prop :=
  match x with
  | .raw w => v = w
  | .typed n => n = .ok v ∨ ∃ f, reg.query key = some f ∧ f v = .ok n

def extT (reg : Registry) : Typ Extensions :=
  ⟨fun m v => ∃ vs, v = .obj vs ∧ SameKeys (ExtRel reg) m vs, fun m => (m.map Prod.fst).Nodup⟩

/-! ### Objects -/

/-- A member of an object that stands for a Go struct: its name, what it stands for, and when it may be left out. -/
structure Field (σ : Type) where
  name : Bytes
  rel : σ → JVal → Prop
  absent : σ → Prop
  ready : σ → Prop

/-- A required member. -/
def req {σ α : Type} (name : Bytes) (get : σ → α) (T : Typ α) : Field σ :=
  ⟨name, fun s v => T.rel (get s) v, fun _ => False, fun s => T.ready (get s)⟩

/-- An optional member, and what its absence stands for. -/
def opt {σ α : Type} (name : Bytes) (get : σ → α) (T : Typ α) (absent : α → Prop) : Field σ :=
  ⟨name, fun s v => T.rel (get s) v, fun s => absent (get s), fun s => absent (get s) ∨ T.ready (get s)⟩

/-- The members of an object stand for the fields of a struct. If `strict`, there are no other members; otherwise
there may be others whose names differ from all names by more than case. -/
structure ObjRel {σ : Type} (strict : Bool) (fs : List (Field σ)) (s : σ) (ms : List (Bytes × JVal)) : Prop where
  distinct : (ms.map Prod.fst).Nodup
  known : strict = true → ∀ m ∈ ms, ∃ f ∈ fs, f.name = m.1
  exactly : ∀ m ∈ ms, ∀ f ∈ fs, foldKey m.1 = foldKey f.name → m.1 = f.name
  present : ∀ f ∈ fs, ∀ v, (f.name, v) ∈ ms → f.rel s v
  absent : ∀ f ∈ fs, f.name ∉ ms.map Prod.fst → f.absent s

def objT {σ : Type} (strict : Bool) (fs : List (Field σ)) : Typ σ :=
  ⟨fun s v => ∃ ms, v = .obj ms ∧ ObjRel strict fs s ms, fun s => ∀ f ∈ fs, f.ready s⟩

section Tables

variable (strict : Bool) (io : FloatIO) (reg : Registry)

/-- Every object may have extensions. -/
def extF {σ : Type} (get : σ → Extensions) : Field σ := opt b!"extensions" get (extT reg) (· = [])
/-- Every object may have extra data. -/
def extrasF {σ : Type} (get : σ → GoAny) : Field σ := opt b!"extras" get (anyT io) (· = .null)
/-- A name. -/
def nameF {σ : Type} (get : σ → Bytes) : Field σ := opt b!"name" get strT (· = [])
/-- An optional index. -/
def indexF {σ : Type} (name : Bytes) (get : σ → Option Int) : Field σ := opt name get (ptrT intT) (· = none)
/-- A list of objects. -/
def objectsF {σ α : Type} (name : Bytes) (get : σ → List (Option α)) (T : Typ α) : Field σ := opt name get (listT (ptrT T)) (· = [])
/-- An optional object. -/
def objectF {σ α : Type} (name : Bytes) (get : σ → Option α) (T : Typ α) : Field σ := opt name get (ptrT T) (· = none)
/-- A number with a default: nil stands for the default too. -/
def factorF {σ : Type} (name : Bytes) (get : σ → Option F64) (default : F64) : Field σ :=
  opt name get (ptrT (numT io)) fun x => ∀ y ∈ x, Same y default

/-- The version is written as 2.0 if it is empty. -/
def versionT : Typ Bytes := ⟨fun s v => v = .str s ∨ (s = [] ∧ v = .str b!"2.0"), fun _ => True⟩

def assetF : List (Field Asset) :=
  [extF reg (·.extensions),
   extrasF io (·.extras),
   opt b!"copyright" (·.copyright) strT (· = []),
   opt b!"generator" (·.generator) strT (· = []),
   req b!"version" (·.version) versionT,
   opt b!"minVersion" (·.minVersion) strT (· = [])]

/-- The component types of indices. -/
def indexCodes : List (ComponentType × Nat) := [(.ubyte, 5121), (.ushort, 5123), (.uint, 5125)]

def sparseIndicesF : List (Field SparseIndices) :=
  [extF reg (·.extensions),
   extrasF io (·.extras),
   req b!"bufferView" (·.bufferView) intT,
   opt b!"byteOffset" (·.byteOffset) intT (· = 0),
   req b!"componentType" (·.componentType) (codeT indexCodes)]

def sparseValuesF : List (Field SparseValues) :=
  [extF reg (·.extensions),
   extrasF io (·.extras),
   req b!"bufferView" (·.bufferView) intT,
   opt b!"byteOffset" (·.byteOffset) intT (· = 0)]

def sparseF : List (Field Sparse) :=
  [extF reg (·.extensions),
   extrasF io (·.extras),
   req b!"count" (·.count) intT,
   req b!"indices" (·.indices) (objT strict (sparseIndicesF io reg)),
   req b!"values" (·.values) (objT strict (sparseValuesF io reg))]

def accessorF : List (Field Accessor) :=
  [extF reg (·.extensions),
   extrasF io (·.extras),
   nameF (·.name),
   indexF b!"bufferView" (·.bufferView),
   opt b!"byteOffset" (·.byteOffset) intT (· = 0),
   req b!"componentType" (·.componentType) (codeT componentTypeCodes),
   opt b!"normalized" (·.normalized) boolT (· = false),
   req b!"count" (·.count) intT,
   req b!"type" (·.type) (nameT accessorTypeNames),
   opt b!"max" (·.max) (listT (numT io)) (· = []),
   opt b!"min" (·.min) (listT (numT io)) (· = []),
   objectF b!"sparse" (·.sparse) (objT strict (sparseF strict io reg))]

def bufferF : List (Field Buffer) :=
  [extF reg (·.extensions),
   extrasF io (·.extras),
   nameF (·.name),
   opt b!"uri" (·.uri) strT (· = []),
   req b!"byteLength" (·.byteLength) intT]

/-- The hints for the use of a buffer view. -/
def targetCodes : List (Target × Nat) := [(34962, 34962), (34963, 34963)]

def bufferViewF : List (Field BufferView) :=
  [extF reg (·.extensions),
   extrasF io (·.extras),
   req b!"buffer" (·.buffer) intT,
   opt b!"byteOffset" (·.byteOffset) intT (· = 0),
   req b!"byteLength" (·.byteLength) intT,
   opt b!"byteStride" (·.byteStride) intT (· = 0),
   opt b!"target" (·.target) (codeT targetCodes) (· = 0),
   nameF (·.name)]

def sceneF : List (Field Scene) :=
  [extF reg (·.extensions),
   extrasF io (·.extras),
   nameF (·.name),
   opt b!"nodes" (·.nodes) (listT intT) (· = [])]

/-- The Go zero value of a transform stands for its default too. -/
def nodeF : List (Field Node) :=
  [opt b!"matrix" (·.«matrix») (vecT 16 (numT io)) (fun m => SameAll m identity ∨ SameAll m zeros),
   opt b!"rotation" (·.rotation) (vecT 4 (numT io)) (fun m => SameAll m unitRotation ∨ SameAll m zeros),
   opt b!"scale" (·.scale) (vecT 3 (numT io)) (fun m => SameAll m ones ∨ SameAll m zeros),
   opt b!"translation" (·.translation) (vecT 3 (numT io)) (fun m => SameAll m zeros),
   extF reg (·.extensions),
   extrasF io (·.extras),
   nameF (·.name),
   indexF b!"camera" (·.camera),
   opt b!"children" (·.children) (listT intT) (· = []),
   indexF b!"skin" (·.skin),
   indexF b!"mesh" (·.mesh),
   opt b!"weights" (·.weights) (listT (numT io)) (· = [])]

def skinF : List (Field Skin) :=
  [extF reg (·.extensions),
   extrasF io (·.extras),
   nameF (·.name),
   indexF b!"inverseBindMatrices" (·.inverseBindMatrices),
   indexF b!"skeleton" (·.skeleton),
   req b!"joints" (·.joints) (ptrT (listT intT))]

def orthographicF : List (Field Orthographic) :=
  [extF reg (·.extensions),
   extrasF io (·.extras),
   req b!"xmag" (·.xmag) (numT io),
   req b!"ymag" (·.ymag) (numT io),
   req b!"zfar" (·.zfar) (numT io),
   req b!"znear" (·.znear) (numT io)]

def perspectiveF : List (Field Perspective) :=
  [extF reg (·.extensions),
   extrasF io (·.extras),
   opt b!"aspectRatio" (·.aspectRatio) (ptrT (numT io)) (· = none),
   req b!"yfov" (·.yfov) (numT io),
   opt b!"zfar" (·.zfar) (ptrT (numT io)) (· = none),
   req b!"znear" (·.znear) (numT io)]

/-- The type says which of the two projections the camera has. -/
def cameraTypeF : Field Camera :=
  ⟨b!"type",
   fun c v => (v = .str b!"perspective" ∧ c.perspective ≠ none) ∨
     (v = .str b!"orthographic" ∧ c.perspective = none ∧ c.orthographic ≠ none),
   fun _ => False, fun _ => True⟩

def cameraF : List (Field Camera) :=
  [cameraTypeF,
   extF reg (·.extensions),
   extrasF io (·.extras),
   nameF (·.name),
   objectF b!"orthographic" (·.orthographic) (objT strict (orthographicF io reg)),
   objectF b!"perspective" (·.perspective) (objT strict (perspectiveF io reg))]

def primitiveF : List (Field Primitive) :=
  [extF reg (·.extensions),
   extrasF io (·.extras),
   req b!"attributes" (·.attributes) (ptrT (mapT intT)),
   indexF b!"indices" (·.indices),
   indexF b!"material" (·.material),
   opt b!"mode" (·.mode) (codeT primitiveModeCodes) (· = .triangles),
   opt b!"targets" (·.targets) (listT (ptrT (mapT intT))) (· = [])]

def meshF : List (Field Mesh) :=
  [extF reg (·.extensions),
   extrasF io (·.extras),
   nameF (·.name),
   req b!"primitives" (·.primitives) (ptrT (listT (ptrT (objT strict (primitiveF io reg))))),
   opt b!"weights" (·.weights) (listT (numT io)) (· = [])]

def normalTextureF : List (Field NormalTexture) :=
  [extF reg (·.extensions),
   extrasF io (·.extras),
   req b!"index" (·.index) (ptrT intT),
   opt b!"texCoord" (·.texCoord) intT (· = 0),
   factorF io b!"scale" (·.scale) one]

def occlusionTextureF : List (Field OcclusionTexture) :=
  [extF reg (·.extensions),
   extrasF io (·.extras),
   req b!"index" (·.index) (ptrT intT),
   opt b!"texCoord" (·.texCoord) intT (· = 0),
   factorF io b!"strength" (·.strength) one]

def textureInfoF : List (Field TextureInfo) :=
  [extF reg (·.extensions),
   extrasF io (·.extras),
   req b!"index" (·.index) intT,
   opt b!"texCoord" (·.texCoord) intT (· = 0)]

def pbrF : List (Field PBRMetallicRoughness) :=
  [extF reg (·.extensions),
   extrasF io (·.extras),
   opt b!"baseColorFactor" (·.baseColorFactor) (ptrT (vecT 4 (numT io))) (fun x => ∀ y ∈ x, SameAll y ones),
   objectF b!"baseColorTexture" (·.baseColorTexture) (objT strict (textureInfoF io reg)),
   factorF io b!"metallicFactor" (·.metallicFactor) one,
   factorF io b!"roughnessFactor" (·.roughnessFactor) one,
   objectF b!"metallicRoughnessTexture" (·.metallicRoughnessTexture) (objT strict (textureInfoF io reg))]

def materialF : List (Field Material) :=
  [opt b!"emissiveFactor" (·.emissiveFactor) (vecT 3 (numT io)) (fun m => SameAll m zeros),
   factorF io b!"alphaCutoff" (·.alphaCutoff) half,
   extF reg (·.extensions),
   extrasF io (·.extras),
   nameF (·.name),
   objectF b!"pbrMetallicRoughness" (·.pbrMetallicRoughness) (objT strict (pbrF strict io reg)),
   objectF b!"normalTexture" (·.normalTexture) (objT strict (normalTextureF io reg)),
   objectF b!"occlusionTexture" (·.occlusionTexture) (objT strict (occlusionTextureF io reg)),
   objectF b!"emissiveTexture" (·.emissiveTexture) (objT strict (textureInfoF io reg)),
   opt b!"alphaMode" (·.alphaMode) (nameT alphaModeNames) (· = .opaque),
   opt b!"doubleSided" (·.doubleSided) boolT (· = false)]

def textureF : List (Field Texture) :=
  [extF reg (·.extensions),
   extrasF io (·.extras),
   nameF (·.name),
   indexF b!"sampler" (·.sampler),
   indexF b!"source" (·.source)]

def samplerF : List (Field Sampler) :=
  [extF reg (·.extensions),
   extrasF io (·.extras),
   nameF (·.name),
   opt b!"magFilter" (·.magFilter) (codeT (magFilterCodes.drop 1)) (· = .undefined),
   opt b!"minFilter" (·.minFilter) (codeT (minFilterCodes.drop 1)) (· = .undefined),
   opt b!"wrapS" (·.wrapS) (codeT wrappingModeCodes) (· = .repeated),
   opt b!"wrapT" (·.wrapT) (codeT wrappingModeCodes) (· = .repeated)]

def imageF : List (Field Image) :=
  [extF reg (·.extensions),
   extrasF io (·.extras),
   nameF (·.name),
   opt b!"uri" (·.uri) strT (· = []),
   opt b!"mimeType" (·.mimeType) strT (· = []),
   indexF b!"bufferView" (·.bufferView)]

def animationSamplerF : List (Field AnimationSampler) :=
  [extF reg (·.extensions),
   extrasF io (·.extras),
   req b!"input" (·.input) intT,
   opt b!"interpolation" (·.interpolation) (nameT interpolationNames) (· = .linear),
   req b!"output" (·.output) intT]

def animationTargetF : List (Field AnimationChannelTarget) :=
  [extF reg (·.extensions),
   extrasF io (·.extras),
   indexF b!"node" (·.node),
   req b!"path" (·.path) (nameT trsPropertyNames)]

def animationChannelF : List (Field AnimationChannel) :=
  [extF reg (·.extensions),
   extrasF io (·.extras),
   req b!"sampler" (·.sampler) intT,
   req b!"target" (·.target) (objT strict (animationTargetF io reg))]

def animationF : List (Field Animation) :=
  [extF reg (·.extensions),
   extrasF io (·.extras),
   nameF (·.name),
   req b!"channels" (·.channels) (ptrT (listT (ptrT (objT strict (animationChannelF strict io reg))))),
   req b!"samplers" (·.samplers) (ptrT (listT (ptrT (objT strict (animationSamplerF io reg)))))]

def documentF : List (Field Document) :=
  [objectsF b!"buffers" (·.buffers) (objT strict (bufferF io reg)),
   extF reg (·.extensions),
   extrasF io (·.extras),
   opt b!"extensionsUsed" (·.extensionsUsed) (listT strT) (· = []),
   opt b!"extensionsRequired" (·.extensionsRequired) (listT strT) (· = []),
   objectsF b!"accessors" (·.accessors) (objT strict (accessorF strict io reg)),
   objectsF b!"animations" (·.animations) (objT strict (animationF strict io reg)),
   req b!"asset" (·.asset) (objT strict (assetF io reg)),
   objectsF b!"bufferViews" (·.bufferViews) (objT strict (bufferViewF io reg)),
   objectsF b!"cameras" (·.cameras) (objT strict (cameraF strict io reg)),
   objectsF b!"images" (·.images) (objT strict (imageF io reg)),
   objectsF b!"materials" (·.materials) (objT strict (materialF strict io reg)),
   objectsF b!"meshes" (·.meshes) (objT strict (meshF strict io reg)),
   objectsF b!"nodes" (·.nodes) (objT strict (nodeF io reg)),
   objectsF b!"samplers" (·.samplers) (objT strict (samplerF io reg)),
   indexF b!"scene" (·.scene),
   objectsF b!"scenes" (·.scenes) (objT strict (sceneF io reg)),
   objectsF b!"skins" (·.skins) (objT strict (skinF io reg)),
   objectsF b!"textures" (·.textures) (objT strict (textureF io reg))]

/-- The JSON of a document. -/
def gltfT : Typ Document := objT strict (documentF strict io reg)

end Tables

end Gltf.Spec
