/-
Specification: the documents that have a JSON form. All numbers are finite, all extensions can be marshalled, and all cameras
have a projection.
-/
import Verif.Model.Doc
import Verif.Model.Float

namespace Gltf

mutual
/-- The numbers in a value of type `any`. -/
def Spec.numbers : GoAny → List F64
  | .null => []
  | .bool _ => []
  | .num x => [x]
  | .str _ => []
  | .arr l => Spec.numbersList l
  | .obj m => Spec.numbersMap m
def Spec.numbersList : List GoAny → List F64
  | [] => []
  | a :: l => Spec.numbers a ++ Spec.numbersList l
def Spec.numbersMap : List (Bytes × GoAny) → List F64
  | [] => []
  | (_, a) :: m => Spec.numbers a ++ Spec.numbersMap m
end

end Gltf

namespace Gltf.Spec

/-- All numbers are finite. -/
def AllFinite (l : List F64) : Prop := ∀ x ∈ l, x.finite = true

/-- The pointer is nil or what it points to has the property. -/
def AtPtr {α : Type} (P : α → Prop) (o : Option α) : Prop := ∀ a, o = some a → P a

/-- The same for all pointers of a slice. -/
def AtPtrs {α : Type} (P : α → Prop) (l : List (Option α)) : Prop := ∀ a, some a ∈ l → P a

/-- What the caller put into extensions and extras can be marshalled. -/
def Payload (e : Extensions) (x : GoAny) : Prop := (∀ k err, (k, ExtVal.typed (.error err)) ∉ e) ∧ AllFinite (numbers x)

def AssetEnc (s : Asset) : Prop := Payload s.extensions s.extras

def SparseEnc (s : Sparse) : Prop :=
  Payload s.extensions s.extras ∧ Payload s.indices.extensions s.indices.extras ∧ Payload s.values.extensions s.values.extras

def AccessorEnc (s : Accessor) : Prop := Payload s.extensions s.extras ∧ AllFinite s.max ∧ AllFinite s.min ∧ AtPtr SparseEnc s.sparse

def BufferEnc (s : Buffer) : Prop := Payload s.extensions s.extras

def BufferViewEnc (s : BufferView) : Prop := Payload s.extensions s.extras

def SceneEnc (s : Scene) : Prop := Payload s.extensions s.extras

def NodeEnc (s : Node) : Prop :=
  Payload s.extensions s.extras ∧ AllFinite s.«matrix».toList ∧ AllFinite s.rotation.toList ∧ AllFinite s.scale.toList ∧
    AllFinite s.translation.toList ∧ AllFinite s.weights

def SkinEnc (s : Skin) : Prop := Payload s.extensions s.extras

def OrthographicEnc (s : Orthographic) : Prop := Payload s.extensions s.extras ∧ AllFinite [s.xmag, s.ymag, s.zfar, s.znear]

def PerspectiveEnc (s : Perspective) : Prop :=
  Payload s.extensions s.extras ∧ AllFinite [s.yfov, s.znear] ∧ AllFinite s.aspectRatio.toList ∧ AllFinite s.zfar.toList

def CameraEnc (s : Camera) : Prop :=
  Payload s.extensions s.extras ∧ AtPtr OrthographicEnc s.orthographic ∧ AtPtr PerspectiveEnc s.perspective ∧
    (s.perspective ≠ none ∨ s.orthographic ≠ none)

def PrimitiveEnc (s : Primitive) : Prop := Payload s.extensions s.extras

def MeshEnc (s : Mesh) : Prop := Payload s.extensions s.extras ∧ AtPtr (AtPtrs PrimitiveEnc) s.primitives ∧ AllFinite s.weights

def NormalTextureEnc (s : NormalTexture) : Prop := Payload s.extensions s.extras ∧ AllFinite s.scale.toList

def OcclusionTextureEnc (s : OcclusionTexture) : Prop := Payload s.extensions s.extras ∧ AllFinite s.strength.toList

def TextureInfoEnc (s : TextureInfo) : Prop := Payload s.extensions s.extras

def PBREnc (s : PBRMetallicRoughness) : Prop :=
  Payload s.extensions s.extras ∧ AtPtr (fun c => AllFinite c.toList) s.baseColorFactor ∧ AllFinite s.metallicFactor.toList ∧
    AllFinite s.roughnessFactor.toList ∧ AtPtr TextureInfoEnc s.baseColorTexture ∧ AtPtr TextureInfoEnc s.metallicRoughnessTexture

def MaterialEnc (s : Material) : Prop :=
  Payload s.extensions s.extras ∧ AllFinite s.emissiveFactor.toList ∧ AllFinite s.alphaCutoff.toList ∧
    AtPtr PBREnc s.pbrMetallicRoughness ∧ AtPtr NormalTextureEnc s.normalTexture ∧
    AtPtr OcclusionTextureEnc s.occlusionTexture ∧ AtPtr TextureInfoEnc s.emissiveTexture

def TextureEnc (s : Texture) : Prop := Payload s.extensions s.extras

def SamplerEnc (s : Sampler) : Prop := Payload s.extensions s.extras

def ImageEnc (s : Image) : Prop := Payload s.extensions s.extras

def AnimationSamplerEnc (s : AnimationSampler) : Prop := Payload s.extensions s.extras

def AnimationChannelEnc (s : AnimationChannel) : Prop := Payload s.extensions s.extras ∧ Payload s.target.extensions s.target.extras

def AnimationEnc (s : Animation) : Prop :=
  Payload s.extensions s.extras ∧ AtPtr (AtPtrs AnimationChannelEnc) s.channels ∧ AtPtr (AtPtrs AnimationSamplerEnc) s.samplers

structure DocumentEnc (s : Document) : Prop where
  payload : Payload s.extensions s.extras
  asset : AssetEnc s.asset
  accessors : AtPtrs AccessorEnc s.accessors
  animations : AtPtrs AnimationEnc s.animations
  buffers : AtPtrs BufferEnc s.buffers
  bufferViews : AtPtrs BufferViewEnc s.bufferViews
  cameras : AtPtrs CameraEnc s.cameras
  images : AtPtrs ImageEnc s.images
  materials : AtPtrs MaterialEnc s.materials
  meshes : AtPtrs MeshEnc s.meshes
  nodes : AtPtrs NodeEnc s.nodes
  samplers : AtPtrs SamplerEnc s.samplers
  scenes : AtPtrs SceneEnc s.scenes
  skins : AtPtrs SkinEnc s.skins
  textures : AtPtrs TextureEnc s.textures

end Gltf.Spec
