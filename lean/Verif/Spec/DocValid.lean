/-
Specification: the documents that JSON can express. Strings are UTF-8, numbers are finite, integers are in
the range of Go's `int`, enumerations have named values, and the payloads of extensions and extras are nested
at most `n` deep. A camera has a projection.
-/
import Verif.Spec.DocJson

namespace Gltf.Spec

structure AssetOk (r : Registry) (n : Nat) (s : Asset) : Prop where
  extensions : ExtOk r n s.extensions
  extras : AnyOk n s.extras
  copyright : IsUtf8 s.copyright
  generator : IsUtf8 s.generator
  version : IsUtf8 s.version
  minVersion : IsUtf8 s.minVersion

structure SparseIndicesOk (r : Registry) (n : Nat) (s : SparseIndices) : Prop where
  extensions : ExtOk r n s.extensions
  extras : AnyOk n s.extras
  bufferView : IntOk s.bufferView
  byteOffset : IntOk s.byteOffset
  componentType : ∀ k, s.componentType ≠ .unknown k

structure SparseValuesOk (r : Registry) (n : Nat) (s : SparseValues) : Prop where
  extensions : ExtOk r n s.extensions
  extras : AnyOk n s.extras
  bufferView : IntOk s.bufferView
  byteOffset : IntOk s.byteOffset

structure SparseOk (r : Registry) (n : Nat) (s : Sparse) : Prop where
  extensions : ExtOk r n s.extensions
  extras : AnyOk n s.extras
  count : IntOk s.count
  indices : SparseIndicesOk r n s.indices
  values : SparseValuesOk r n s.values

structure AccessorOk (r : Registry) (n : Nat) (s : Accessor) : Prop where
  extensions : ExtOk r n s.extensions
  extras : AnyOk n s.extras
  name : IsUtf8 s.name
  bufferView : ∀ i ∈ s.bufferView, IntOk i
  byteOffset : IntOk s.byteOffset
  componentType : ∀ k, s.componentType ≠ .unknown k
  count : IntOk s.count
  type : ∀ k, s.type ≠ .unknown k
  max : ∀ x ∈ s.max, x.finite = true
  min : ∀ x ∈ s.min, x.finite = true
  sparse : ∀ a ∈ s.sparse, SparseOk r n a

structure BufferOk (r : Registry) (n : Nat) (s : Buffer) : Prop where
  extensions : ExtOk r n s.extensions
  extras : AnyOk n s.extras
  name : IsUtf8 s.name
  uri : IsUtf8 s.uri
  byteLength : IntOk s.byteLength

structure BufferViewOk (r : Registry) (n : Nat) (s : BufferView) : Prop where
  extensions : ExtOk r n s.extensions
  extras : AnyOk n s.extras
  buffer : IntOk s.buffer
  byteOffset : IntOk s.byteOffset
  byteLength : IntOk s.byteLength
  byteStride : IntOk s.byteStride
  name : IsUtf8 s.name

structure SceneOk (r : Registry) (n : Nat) (s : Scene) : Prop where
  extensions : ExtOk r n s.extensions
  extras : AnyOk n s.extras
  name : IsUtf8 s.name
  nodes : ∀ i ∈ s.nodes, IntOk i

structure NodeOk (r : Registry) (n : Nat) (s : Node) : Prop where
  «matrix» : ∀ x ∈ s.«matrix».toList, x.finite = true
  rotation : ∀ x ∈ s.rotation.toList, x.finite = true
  scale : ∀ x ∈ s.scale.toList, x.finite = true
  translation : ∀ x ∈ s.translation.toList, x.finite = true
  extensions : ExtOk r n s.extensions
  extras : AnyOk n s.extras
  name : IsUtf8 s.name
  camera : ∀ i ∈ s.camera, IntOk i
  children : ∀ i ∈ s.children, IntOk i
  skin : ∀ i ∈ s.skin, IntOk i
  mesh : ∀ i ∈ s.mesh, IntOk i
  weights : ∀ x ∈ s.weights, x.finite = true

structure SkinOk (r : Registry) (n : Nat) (s : Skin) : Prop where
  extensions : ExtOk r n s.extensions
  extras : AnyOk n s.extras
  name : IsUtf8 s.name
  inverseBindMatrices : ∀ i ∈ s.inverseBindMatrices, IntOk i
  skeleton : ∀ i ∈ s.skeleton, IntOk i
  joints : ∀ l ∈ s.joints, ∀ i ∈ l, IntOk i

structure OrthographicOk (r : Registry) (n : Nat) (s : Orthographic) : Prop where
  extensions : ExtOk r n s.extensions
  extras : AnyOk n s.extras
  xmag : s.xmag.finite = true
  ymag : s.ymag.finite = true
  zfar : s.zfar.finite = true
  znear : s.znear.finite = true

structure PerspectiveOk (r : Registry) (n : Nat) (s : Perspective) : Prop where
  extensions : ExtOk r n s.extensions
  extras : AnyOk n s.extras
  aspectRatio : ∀ x ∈ s.aspectRatio, x.finite = true
  yfov : s.yfov.finite = true
  zfar : ∀ x ∈ s.zfar, x.finite = true
  znear : s.znear.finite = true

structure CameraOk (r : Registry) (n : Nat) (s : Camera) : Prop where
  extensions : ExtOk r n s.extensions
  extras : AnyOk n s.extras
  name : IsUtf8 s.name
  orthographic : ∀ a ∈ s.orthographic, OrthographicOk r n a
  perspective : ∀ a ∈ s.perspective, PerspectiveOk r n a
  projection : s.perspective.isSome ∨ s.orthographic.isSome

structure PrimitiveOk (r : Registry) (n : Nat) (s : Primitive) : Prop where
  extensions : ExtOk r n s.extensions
  extras : AnyOk n s.extras
  attributes : ∀ m ∈ s.attributes, IsMap m ∧ ∀ p ∈ m, IntOk p.2
  indices : ∀ i ∈ s.indices, IntOk i
  material : ∀ i ∈ s.material, IntOk i
  mode : ∀ k, s.mode ≠ .unknown k
  targets : ∀ o ∈ s.targets, ∀ m ∈ o, IsMap m ∧ ∀ p ∈ m, IntOk p.2

structure MeshOk (r : Registry) (n : Nat) (s : Mesh) : Prop where
  extensions : ExtOk r n s.extensions
  extras : AnyOk n s.extras
  name : IsUtf8 s.name
  primitives : ∀ l ∈ s.primitives, ∀ o ∈ l, ∀ a ∈ o, PrimitiveOk r n a
  weights : ∀ x ∈ s.weights, x.finite = true

structure NormalTextureOk (r : Registry) (n : Nat) (s : NormalTexture) : Prop where
  extensions : ExtOk r n s.extensions
  extras : AnyOk n s.extras
  index : ∀ i ∈ s.index, IntOk i
  texCoord : IntOk s.texCoord
  scale : ∀ x ∈ s.scale, x.finite = true

structure OcclusionTextureOk (r : Registry) (n : Nat) (s : OcclusionTexture) : Prop where
  extensions : ExtOk r n s.extensions
  extras : AnyOk n s.extras
  index : ∀ i ∈ s.index, IntOk i
  texCoord : IntOk s.texCoord
  strength : ∀ x ∈ s.strength, x.finite = true

structure TextureInfoOk (r : Registry) (n : Nat) (s : TextureInfo) : Prop where
  extensions : ExtOk r n s.extensions
  extras : AnyOk n s.extras
  index : IntOk s.index
  texCoord : IntOk s.texCoord

structure PBRMetallicRoughnessOk (r : Registry) (n : Nat) (s : PBRMetallicRoughness) : Prop where
  extensions : ExtOk r n s.extensions
  extras : AnyOk n s.extras
  baseColorFactor : ∀ a ∈ s.baseColorFactor, ∀ x ∈ a.toList, x.finite = true
  baseColorTexture : ∀ a ∈ s.baseColorTexture, TextureInfoOk r n a
  metallicFactor : ∀ x ∈ s.metallicFactor, x.finite = true
  roughnessFactor : ∀ x ∈ s.roughnessFactor, x.finite = true
  metallicRoughnessTexture : ∀ a ∈ s.metallicRoughnessTexture, TextureInfoOk r n a

structure MaterialOk (r : Registry) (n : Nat) (s : Material) : Prop where
  emissiveFactor : ∀ x ∈ s.emissiveFactor.toList, x.finite = true
  alphaCutoff : ∀ x ∈ s.alphaCutoff, x.finite = true
  extensions : ExtOk r n s.extensions
  extras : AnyOk n s.extras
  name : IsUtf8 s.name
  pbrMetallicRoughness : ∀ a ∈ s.pbrMetallicRoughness, PBRMetallicRoughnessOk r n a
  normalTexture : ∀ a ∈ s.normalTexture, NormalTextureOk r n a
  occlusionTexture : ∀ a ∈ s.occlusionTexture, OcclusionTextureOk r n a
  emissiveTexture : ∀ a ∈ s.emissiveTexture, TextureInfoOk r n a
  alphaMode : ∀ k, s.alphaMode ≠ .unknown k

structure TextureOk (r : Registry) (n : Nat) (s : Texture) : Prop where
  extensions : ExtOk r n s.extensions
  extras : AnyOk n s.extras
  name : IsUtf8 s.name
  sampler : ∀ i ∈ s.sampler, IntOk i
  source : ∀ i ∈ s.source, IntOk i

structure SamplerOk (r : Registry) (n : Nat) (s : Sampler) : Prop where
  extensions : ExtOk r n s.extensions
  extras : AnyOk n s.extras
  name : IsUtf8 s.name
  magFilter : ∀ k, s.magFilter ≠ .unknown k
  minFilter : ∀ k, s.minFilter ≠ .unknown k
  wrapS : ∀ k, s.wrapS ≠ .unknown k
  wrapT : ∀ k, s.wrapT ≠ .unknown k

structure ImageOk (r : Registry) (n : Nat) (s : Image) : Prop where
  extensions : ExtOk r n s.extensions
  extras : AnyOk n s.extras
  name : IsUtf8 s.name
  uri : IsUtf8 s.uri
  mimeType : IsUtf8 s.mimeType
  bufferView : ∀ i ∈ s.bufferView, IntOk i

structure AnimationSamplerOk (r : Registry) (n : Nat) (s : AnimationSampler) : Prop where
  extensions : ExtOk r n s.extensions
  extras : AnyOk n s.extras
  input : IntOk s.input
  interpolation : ∀ k, s.interpolation ≠ .unknown k
  output : IntOk s.output

structure AnimationChannelTargetOk (r : Registry) (n : Nat) (s : AnimationChannelTarget) : Prop where
  extensions : ExtOk r n s.extensions
  extras : AnyOk n s.extras
  node : ∀ i ∈ s.node, IntOk i
  path : ∀ k, s.path ≠ .unknown k

structure AnimationChannelOk (r : Registry) (n : Nat) (s : AnimationChannel) : Prop where
  extensions : ExtOk r n s.extensions
  extras : AnyOk n s.extras
  sampler : IntOk s.sampler
  target : AnimationChannelTargetOk r n s.target

structure AnimationOk (r : Registry) (n : Nat) (s : Animation) : Prop where
  extensions : ExtOk r n s.extensions
  extras : AnyOk n s.extras
  name : IsUtf8 s.name
  channels : ∀ l ∈ s.channels, ∀ o ∈ l, ∀ a ∈ o, AnimationChannelOk r n a
  samplers : ∀ l ∈ s.samplers, ∀ o ∈ l, ∀ a ∈ o, AnimationSamplerOk r n a

structure DocumentOk (r : Registry) (n : Nat) (s : Document) : Prop where
  buffers : ∀ o ∈ s.buffers, ∀ a ∈ o, BufferOk r n a
  extensions : ExtOk r n s.extensions
  extras : AnyOk n s.extras
  extensionsUsed : ∀ t ∈ s.extensionsUsed, IsUtf8 t
  extensionsRequired : ∀ t ∈ s.extensionsRequired, IsUtf8 t
  accessors : ∀ o ∈ s.accessors, ∀ a ∈ o, AccessorOk r n a
  animations : ∀ o ∈ s.animations, ∀ a ∈ o, AnimationOk r n a
  asset : AssetOk r n s.asset
  bufferViews : ∀ o ∈ s.bufferViews, ∀ a ∈ o, BufferViewOk r n a
  cameras : ∀ o ∈ s.cameras, ∀ a ∈ o, CameraOk r n a
  images : ∀ o ∈ s.images, ∀ a ∈ o, ImageOk r n a
  materials : ∀ o ∈ s.materials, ∀ a ∈ o, MaterialOk r n a
  meshes : ∀ o ∈ s.meshes, ∀ a ∈ o, MeshOk r n a
  nodes : ∀ o ∈ s.nodes, ∀ a ∈ o, NodeOk r n a
  samplers : ∀ o ∈ s.samplers, ∀ a ∈ o, SamplerOk r n a
  scene : ∀ i ∈ s.scene, IntOk i
  scenes : ∀ o ∈ s.scenes, ∀ a ∈ o, SceneOk r n a
  skins : ∀ o ∈ s.skins, ∀ a ∈ o, SkinOk r n a
  textures : ∀ o ∈ s.textures, ∀ a ∈ o, TextureOk r n a

end Gltf.Spec
