/-
What decoding gives is valid: the structs of gltf.go.
-/
import Verif.Lemmas.JsonSound
import Verif.Lemmas.JsonField

namespace Gltf

open Spec

variable {E : Env} {n : Nat}

/-! ### Enumerations -/

theorem componentType_sound (n : Nat) : Sound componentTypeC.dec n (fun a => ∀ k, a ≠ .unknown k) :=
  sound_enumNum (fun c k => by intro h; unfold ComponentType.ofCode at h; grind) n

theorem primitiveMode_sound (n : Nat) : Sound primitiveModeC.dec n (fun a => ∀ k, a ≠ .unknown k) :=
  sound_enumNum (fun c k => by intro h; unfold PrimitiveMode.ofCode at h; grind) n

theorem magFilter_sound (n : Nat) : Sound magFilterC.dec n (fun a => ∀ k, a ≠ .unknown k) :=
  sound_enumNum (fun c k => by intro h; unfold MagFilter.ofCode at h; grind) n

theorem minFilter_sound (n : Nat) : Sound minFilterC.dec n (fun a => ∀ k, a ≠ .unknown k) :=
  sound_enumNum (fun c k => by intro h; unfold MinFilter.ofCode at h; grind) n

theorem wrappingMode_sound (n : Nat) : Sound wrappingModeC.dec n (fun a => ∀ k, a ≠ .unknown k) :=
  sound_enumNum (fun c k => by intro h; unfold WrappingMode.ofCode at h; grind) n

theorem accessorType_sound (n : Nat) : Sound accessorTypeC.dec n (fun a => ∀ k, a ≠ .unknown k) :=
  sound_enumStr (fun s a h k => by intro e; subst e; unfold AccessorType.ofCode at h; grind) n

theorem alphaMode_sound (n : Nat) : Sound alphaModeC.dec n (fun a => ∀ k, a ≠ .unknown k) :=
  sound_enumStr (fun s a h k => by intro e; subst e; unfold AlphaMode.ofCode at h; grind) n

theorem interpolation_sound (n : Nat) : Sound interpolationC.dec n (fun a => ∀ k, a ≠ .unknown k) :=
  sound_enumStr (fun s a h k => by intro e; subst e; unfold Interpolation.ofCode at h; grind) n

theorem trsProperty_sound (n : Nat) : Sound trsPropertyC.dec n (fun a => ∀ k, a ≠ .unknown k) :=
  sound_enumStr (fun s a h k => by intro e; subst e; unfold TRSProperty.ofCode at h; grind) n

/-! ### Structs -/

theorem intOk_zero : IntOk 0 := by unfold IntOk; decide

theorem zeroFinite : F64.finite ⟨0⟩ = true := by decide

theorem zeros4 : ∀ x ∈ (Vector.replicate 4 (⟨0⟩ : F64)).toList, x.finite = true := by decide +kernel

theorem utf8Nil : IsUtf8 ([] : Bytes) := ⟨[], rfl⟩

theorem extOkNil (r : Registry) (n : Nat) : ExtOk r n [] := ⟨isMap_nil, by simp⟩

/-- The zero values are valid. -/
macro "zero_ok" : tactic => `(tactic| first
  | exact extOkNil _ _ | exact .null _ | exact utf8Nil | exact intOk_zero
  | decide | decide +kernel | exact nofun)

/-- Valid cameras, with or without projection. -/
structure CameraFields (r : Registry) (n : Nat) (s : Camera) : Prop where
  extensions : ExtOk r n s.extensions
  extras : AnyOk n s.extras
  name : IsUtf8 s.name
  orthographic : ∀ a ∈ s.orthographic, OrthographicOk r n a
  perspective : ∀ a ∈ s.perspective, PerspectiveOk r n a

/-- Valid documents, except that cameras may have no projection. -/
def DocumentFields (r : Registry) (n : Nat) (d : Document) : Prop :=
  DocumentOk r n { d with cameras := [] } ∧ ∀ o ∈ d.cameras, ∀ c ∈ o, CameraFields r n c

theorem assetC_sound' (hp : FiniteParse E.io) (hr : LawfulRegistry E.reg n) :
    Sound (assetC' E).dec n (AssetOk E.reg n) :=
  sound_struct
    (sound_cons (sound_extensions hr) <|
    (sound_cons (sound_any hp n) <|
    (sound_cons (sound_string n) <|
    (sound_cons (sound_string n) <|
    (sound_cons (sound_string n) <|
    (sound_cons (sound_string n) <|
    sound_nil n))))))
    (fun _ h => ⟨h.extensions, h.extras, h.copyright, h.generator, h.version, h.minVersion, trivial⟩) (fun _ h => ⟨h.1, h.2.1, h.2.2.1, h.2.2.2.1, h.2.2.2.2.1, h.2.2.2.2.2.1⟩)

theorem asset_default (r : Registry) (n : Nat) : AssetOk r n { version := b!"2.0" } :=
  ⟨extOkNil _ _, .null _, utf8Nil, utf8Nil, utf8_ascii (by decide), utf8Nil⟩

theorem assetC_sound (hp : FiniteParse E.io) (hr : LawfulRegistry E.reg n) : Sound (assetC E).dec n (AssetOk E.reg n) :=
  sound_default (assetC_sound' hp hr) (asset_default _ _)

theorem sparseIndicesC_sound (hp : FiniteParse E.io) (hr : LawfulRegistry E.reg n) :
    Sound (sparseIndicesC E).dec n (SparseIndicesOk E.reg n) :=
  sound_struct
    (sound_cons (sound_extensions hr) <|
    (sound_cons (sound_any hp n) <|
    (sound_cons (sound_int n) <|
    (sound_cons (sound_int n) <|
    (sound_cons (componentType_sound n) <|
    sound_nil n)))))
    (fun _ h => ⟨h.extensions, h.extras, h.bufferView, h.byteOffset, h.componentType, trivial⟩) (fun _ h => ⟨h.1, h.2.1, h.2.2.1, h.2.2.2.1, h.2.2.2.2.1⟩)

theorem sparseIndices_zero (r : Registry) (n : Nat) : SparseIndicesOk r n {} := by constructor <;> zero_ok

theorem sparseValuesC_sound (hp : FiniteParse E.io) (hr : LawfulRegistry E.reg n) :
    Sound (sparseValuesC E).dec n (SparseValuesOk E.reg n) :=
  sound_struct
    (sound_cons (sound_extensions hr) <|
    (sound_cons (sound_any hp n) <|
    (sound_cons (sound_int n) <|
    (sound_cons (sound_int n) <|
    sound_nil n))))
    (fun _ h => ⟨h.extensions, h.extras, h.bufferView, h.byteOffset, trivial⟩) (fun _ h => ⟨h.1, h.2.1, h.2.2.1, h.2.2.2.1⟩)

theorem sparseValues_zero (r : Registry) (n : Nat) : SparseValuesOk r n {} := by constructor <;> zero_ok

theorem sparseC_sound (hp : FiniteParse E.io) (hr : LawfulRegistry E.reg n) :
    Sound (sparseC E).dec n (SparseOk E.reg n) :=
  sound_struct
    (sound_cons (sound_extensions hr) <|
    (sound_cons (sound_any hp n) <|
    (sound_cons (sound_int n) <|
    (sound_cons (sparseIndicesC_sound hp hr) <|
    (sound_cons (sparseValuesC_sound hp hr) <|
    sound_nil n)))))
    (fun _ h => ⟨h.extensions, h.extras, h.count, h.indices, h.values, trivial⟩) (fun _ h => ⟨h.1, h.2.1, h.2.2.1, h.2.2.2.1, h.2.2.2.2.1⟩)

theorem sparse_zero (r : Registry) (n : Nat) : SparseOk r n {} := by constructor <;> first | exact sparseIndices_zero _ _ | exact sparseValues_zero _ _ | zero_ok

theorem accessorC_sound (hp : FiniteParse E.io) (hr : LawfulRegistry E.reg n) :
    Sound (accessorC E).dec n (AccessorOk E.reg n) :=
  sound_struct
    (sound_cons (sound_extensions hr) <|
    (sound_cons (sound_any hp n) <|
    (sound_cons (sound_string n) <|
    (sound_cons (sound_ptr (sound_int n) intOk_zero) <|
    (sound_cons (sound_int n) <|
    (sound_cons (componentType_sound n) <|
    (sound_cons (sound_true _ n) <|
    (sound_cons (sound_int n) <|
    (sound_cons (accessorType_sound n) <|
    (sound_cons (sound_list (sound_float hp n) zeroFinite) <|
    (sound_cons (sound_list (sound_float hp n) zeroFinite) <|
    (sound_cons (sound_ptr (sparseC_sound hp hr) (sparse_zero _ _)) <|
    sound_nil n))))))))))))
    (fun _ h => ⟨h.extensions, h.extras, h.name, h.bufferView, h.byteOffset, h.componentType, trivial, h.count, h.type, h.max, h.min, h.sparse, trivial⟩) (fun _ h => ⟨h.1, h.2.1, h.2.2.1, h.2.2.2.1, h.2.2.2.2.1, h.2.2.2.2.2.1, h.2.2.2.2.2.2.2.1, h.2.2.2.2.2.2.2.2.1, h.2.2.2.2.2.2.2.2.2.1, h.2.2.2.2.2.2.2.2.2.2.1, h.2.2.2.2.2.2.2.2.2.2.2.1⟩)

theorem accessor_zero (r : Registry) (n : Nat) : AccessorOk r n {} := by constructor <;> zero_ok

theorem bufferC_sound (hp : FiniteParse E.io) (hr : LawfulRegistry E.reg n) :
    Sound (bufferC E).dec n (BufferOk E.reg n) :=
  sound_struct
    (sound_cons (sound_extensions hr) <|
    (sound_cons (sound_any hp n) <|
    (sound_cons (sound_string n) <|
    (sound_cons (sound_string n) <|
    (sound_cons (sound_int n) <|
    (sound_skip <|
    sound_nil n))))))
    (fun _ h => ⟨h.extensions, h.extras, h.name, h.uri, h.byteLength, trivial⟩) (fun _ h => ⟨h.1, h.2.1, h.2.2.1, h.2.2.2.1, h.2.2.2.2.1⟩)

theorem buffer_zero (r : Registry) (n : Nat) : BufferOk r n {} := by constructor <;> zero_ok

theorem bufferViewC_sound (hp : FiniteParse E.io) (hr : LawfulRegistry E.reg n) :
    Sound (bufferViewC E).dec n (BufferViewOk E.reg n) :=
  sound_struct
    (sound_cons (sound_extensions hr) <|
    (sound_cons (sound_any hp n) <|
    (sound_cons (sound_int n) <|
    (sound_cons (sound_int n) <|
    (sound_cons (sound_int n) <|
    (sound_cons (sound_int n) <|
    (sound_cons (sound_true _ n) <|
    (sound_cons (sound_string n) <|
    sound_nil n))))))))
    (fun _ h => ⟨h.extensions, h.extras, h.buffer, h.byteOffset, h.byteLength, h.byteStride, trivial, h.name, trivial⟩) (fun _ h => ⟨h.1, h.2.1, h.2.2.1, h.2.2.2.1, h.2.2.2.2.1, h.2.2.2.2.2.1, h.2.2.2.2.2.2.2.1⟩)

theorem bufferView_zero (r : Registry) (n : Nat) : BufferViewOk r n {} := by constructor <;> zero_ok

theorem sceneC_sound (hp : FiniteParse E.io) (hr : LawfulRegistry E.reg n) :
    Sound (sceneC E).dec n (SceneOk E.reg n) :=
  sound_struct
    (sound_cons (sound_extensions hr) <|
    (sound_cons (sound_any hp n) <|
    (sound_cons (sound_string n) <|
    (sound_cons (sound_list (sound_int n) intOk_zero) <|
    sound_nil n))))
    (fun _ h => ⟨h.extensions, h.extras, h.name, h.nodes, trivial⟩) (fun _ h => ⟨h.1, h.2.1, h.2.2.1, h.2.2.2.1⟩)

theorem scene_zero (r : Registry) (n : Nat) : SceneOk r n {} := by constructor <;> zero_ok

theorem nodeC_sound' (hp : FiniteParse E.io) (hr : LawfulRegistry E.reg n) :
    Sound (nodeC' E).dec n (NodeOk E.reg n) :=
  sound_struct
    (sound_cons (sound_array (sound_float hp n) zeroFinite _) <|
    (sound_cons (sound_array (sound_float hp n) zeroFinite _) <|
    (sound_cons (sound_array (sound_float hp n) zeroFinite _) <|
    (sound_cons (sound_array (sound_float hp n) zeroFinite _) <|
    (sound_cons (sound_extensions hr) <|
    (sound_cons (sound_any hp n) <|
    (sound_cons (sound_string n) <|
    (sound_cons (sound_ptr (sound_int n) intOk_zero) <|
    (sound_cons (sound_list (sound_int n) intOk_zero) <|
    (sound_cons (sound_ptr (sound_int n) intOk_zero) <|
    (sound_cons (sound_ptr (sound_int n) intOk_zero) <|
    (sound_cons (sound_list (sound_float hp n) zeroFinite) <|
    sound_nil n))))))))))))
    (fun _ h => ⟨h.«matrix», h.rotation, h.scale, h.translation, h.extensions, h.extras, h.name, h.camera, h.children, h.skin, h.mesh, h.weights, trivial⟩) (fun _ h => ⟨h.1, h.2.1, h.2.2.1, h.2.2.2.1, h.2.2.2.2.1, h.2.2.2.2.2.1, h.2.2.2.2.2.2.1, h.2.2.2.2.2.2.2.1, h.2.2.2.2.2.2.2.2.1, h.2.2.2.2.2.2.2.2.2.1, h.2.2.2.2.2.2.2.2.2.2.1, h.2.2.2.2.2.2.2.2.2.2.2.1⟩)

theorem node_zero (r : Registry) (n : Nat) : NodeOk r n {} := by constructor <;> zero_ok

theorem nodeC_sound (hp : FiniteParse E.io) (hr : LawfulRegistry E.reg n) : Sound (nodeC E).dec n (NodeOk E.reg n) :=
  sound_default (nodeC_sound' hp hr) (by constructor <;> first | zero_ok | (intro x hx; cases hx; first | decide | decide +kernel))

theorem skinC_sound (hp : FiniteParse E.io) (hr : LawfulRegistry E.reg n) :
    Sound (skinC E).dec n (SkinOk E.reg n) :=
  sound_struct
    (sound_cons (sound_extensions hr) <|
    (sound_cons (sound_any hp n) <|
    (sound_cons (sound_string n) <|
    (sound_cons (sound_ptr (sound_int n) intOk_zero) <|
    (sound_cons (sound_ptr (sound_int n) intOk_zero) <|
    (sound_cons (sound_slice (sound_int n) intOk_zero) <|
    sound_nil n))))))
    (fun _ h => ⟨h.extensions, h.extras, h.name, h.inverseBindMatrices, h.skeleton, h.joints, trivial⟩) (fun _ h => ⟨h.1, h.2.1, h.2.2.1, h.2.2.2.1, h.2.2.2.2.1, h.2.2.2.2.2.1⟩)

theorem skin_zero (r : Registry) (n : Nat) : SkinOk r n {} := by constructor <;> zero_ok

theorem orthographicC_sound (hp : FiniteParse E.io) (hr : LawfulRegistry E.reg n) :
    Sound (orthographicC E).dec n (OrthographicOk E.reg n) :=
  sound_struct
    (sound_cons (sound_extensions hr) <|
    (sound_cons (sound_any hp n) <|
    (sound_cons (sound_float hp n) <|
    (sound_cons (sound_float hp n) <|
    (sound_cons (sound_float hp n) <|
    (sound_cons (sound_float hp n) <|
    sound_nil n))))))
    (fun _ h => ⟨h.extensions, h.extras, h.xmag, h.ymag, h.zfar, h.znear, trivial⟩) (fun _ h => ⟨h.1, h.2.1, h.2.2.1, h.2.2.2.1, h.2.2.2.2.1, h.2.2.2.2.2.1⟩)

theorem orthographic_zero (r : Registry) (n : Nat) : OrthographicOk r n {} := by constructor <;> zero_ok

theorem perspectiveC_sound (hp : FiniteParse E.io) (hr : LawfulRegistry E.reg n) :
    Sound (perspectiveC E).dec n (PerspectiveOk E.reg n) :=
  sound_struct
    (sound_cons (sound_extensions hr) <|
    (sound_cons (sound_any hp n) <|
    (sound_cons (sound_ptr (sound_float hp n) zeroFinite) <|
    (sound_cons (sound_float hp n) <|
    (sound_cons (sound_ptr (sound_float hp n) zeroFinite) <|
    (sound_cons (sound_float hp n) <|
    sound_nil n))))))
    (fun _ h => ⟨h.extensions, h.extras, h.aspectRatio, h.yfov, h.zfar, h.znear, trivial⟩) (fun _ h => ⟨h.1, h.2.1, h.2.2.1, h.2.2.2.1, h.2.2.2.2.1, h.2.2.2.2.2.1⟩)

theorem perspective_zero (r : Registry) (n : Nat) : PerspectiveOk r n {} := by constructor <;> zero_ok

theorem cameraC_sound' (hp : FiniteParse E.io) (hr : LawfulRegistry E.reg n) :
    Sound (cameraC' E).dec n (CameraFields E.reg n) :=
  sound_struct
    (sound_cons (sound_extensions hr) <|
    (sound_cons (sound_any hp n) <|
    (sound_cons (sound_string n) <|
    (sound_cons (sound_ptr (orthographicC_sound hp hr) (orthographic_zero _ _)) <|
    (sound_cons (sound_ptr (perspectiveC_sound hp hr) (perspective_zero _ _)) <|
    sound_nil n)))))
    (fun _ h => ⟨h.extensions, h.extras, h.name, h.orthographic, h.perspective, trivial⟩) (fun _ h => ⟨h.1, h.2.1, h.2.2.1, h.2.2.2.1, h.2.2.2.2.1⟩)

theorem camera_zero (r : Registry) (n : Nat) : CameraFields r n {} := by constructor <;> zero_ok

theorem cameraC_sound (hp : FiniteParse E.io) (hr : LawfulRegistry E.reg n) : Sound (cameraC E).dec n (CameraFields E.reg n) :=
  cameraC_sound' hp hr

theorem primitiveC_sound (hp : FiniteParse E.io) (hr : LawfulRegistry E.reg n) :
    Sound (primitiveC E).dec n (PrimitiveOk E.reg n) :=
  sound_struct
    (sound_cons (sound_extensions hr) <|
    (sound_cons (sound_any hp n) <|
    (sound_cons (sound_map (sound_int n) intOk_zero) <|
    (sound_cons (sound_ptr (sound_int n) intOk_zero) <|
    (sound_cons (sound_ptr (sound_int n) intOk_zero) <|
    (sound_cons (primitiveMode_sound n) <|
    (sound_cons (sound_list (sound_map (sound_int n) intOk_zero) (fun _ h => nomatch h)) <|
    sound_nil n)))))))
    (fun _ h => ⟨h.extensions, h.extras, h.attributes, h.indices, h.material, h.mode, h.targets, trivial⟩) (fun _ h => ⟨h.1, h.2.1, h.2.2.1, h.2.2.2.1, h.2.2.2.2.1, h.2.2.2.2.2.1, h.2.2.2.2.2.2.1⟩)

theorem primitive_zero (r : Registry) (n : Nat) : PrimitiveOk r n {} := by constructor <;> zero_ok

theorem meshC_sound (hp : FiniteParse E.io) (hr : LawfulRegistry E.reg n) :
    Sound (meshC E).dec n (MeshOk E.reg n) :=
  sound_struct
    (sound_cons (sound_extensions hr) <|
    (sound_cons (sound_any hp n) <|
    (sound_cons (sound_string n) <|
    (sound_cons (sound_slice (sound_ptr (primitiveC_sound hp hr) (primitive_zero _ _)) (fun _ h => nomatch h)) <|
    (sound_cons (sound_list (sound_float hp n) zeroFinite) <|
    sound_nil n)))))
    (fun _ h => ⟨h.extensions, h.extras, h.name, h.primitives, h.weights, trivial⟩) (fun _ h => ⟨h.1, h.2.1, h.2.2.1, h.2.2.2.1, h.2.2.2.2.1⟩)

theorem mesh_zero (r : Registry) (n : Nat) : MeshOk r n {} := by constructor <;> zero_ok

theorem normalTextureC_sound' (hp : FiniteParse E.io) (hr : LawfulRegistry E.reg n) :
    Sound (normalTextureC' E).dec n (NormalTextureOk E.reg n) :=
  sound_struct
    (sound_cons (sound_extensions hr) <|
    (sound_cons (sound_any hp n) <|
    (sound_cons (sound_ptr (sound_int n) intOk_zero) <|
    (sound_cons (sound_int n) <|
    (sound_cons (sound_ptr (sound_float hp n) zeroFinite) <|
    sound_nil n)))))
    (fun _ h => ⟨h.extensions, h.extras, h.index, h.texCoord, h.scale, trivial⟩) (fun _ h => ⟨h.1, h.2.1, h.2.2.1, h.2.2.2.1, h.2.2.2.2.1⟩)

theorem normalTexture_zero (r : Registry) (n : Nat) : NormalTextureOk r n {} := by constructor <;> zero_ok

theorem normalTextureC_sound (hp : FiniteParse E.io) (hr : LawfulRegistry E.reg n) : Sound (normalTextureC E).dec n (NormalTextureOk E.reg n) :=
  sound_default (normalTextureC_sound' hp hr) (by constructor <;> first | zero_ok | (intro x hx; cases hx; first | decide | decide +kernel))

theorem occlusionTextureC_sound' (hp : FiniteParse E.io) (hr : LawfulRegistry E.reg n) :
    Sound (occlusionTextureC' E).dec n (OcclusionTextureOk E.reg n) :=
  sound_struct
    (sound_cons (sound_extensions hr) <|
    (sound_cons (sound_any hp n) <|
    (sound_cons (sound_ptr (sound_int n) intOk_zero) <|
    (sound_cons (sound_int n) <|
    (sound_cons (sound_ptr (sound_float hp n) zeroFinite) <|
    sound_nil n)))))
    (fun _ h => ⟨h.extensions, h.extras, h.index, h.texCoord, h.strength, trivial⟩) (fun _ h => ⟨h.1, h.2.1, h.2.2.1, h.2.2.2.1, h.2.2.2.2.1⟩)

theorem occlusionTexture_zero (r : Registry) (n : Nat) : OcclusionTextureOk r n {} := by constructor <;> zero_ok

theorem occlusionTextureC_sound (hp : FiniteParse E.io) (hr : LawfulRegistry E.reg n) : Sound (occlusionTextureC E).dec n (OcclusionTextureOk E.reg n) :=
  sound_default (occlusionTextureC_sound' hp hr) (by constructor <;> first | zero_ok | (intro x hx; cases hx; first | decide | decide +kernel))

theorem textureInfoC_sound (hp : FiniteParse E.io) (hr : LawfulRegistry E.reg n) :
    Sound (textureInfoC E).dec n (TextureInfoOk E.reg n) :=
  sound_struct
    (sound_cons (sound_extensions hr) <|
    (sound_cons (sound_any hp n) <|
    (sound_cons (sound_int n) <|
    (sound_cons (sound_int n) <|
    sound_nil n))))
    (fun _ h => ⟨h.extensions, h.extras, h.index, h.texCoord, trivial⟩) (fun _ h => ⟨h.1, h.2.1, h.2.2.1, h.2.2.2.1⟩)

theorem textureInfo_zero (r : Registry) (n : Nat) : TextureInfoOk r n {} := by constructor <;> zero_ok

theorem pbrC_sound' (hp : FiniteParse E.io) (hr : LawfulRegistry E.reg n) :
    Sound (pbrC' E).dec n (PBRMetallicRoughnessOk E.reg n) :=
  sound_struct
    (sound_cons (sound_extensions hr) <|
    (sound_cons (sound_any hp n) <|
    (sound_cons (sound_ptr (sound_array (sound_float hp n) zeroFinite _) zeros4) <|
    (sound_cons (sound_ptr (textureInfoC_sound hp hr) (textureInfo_zero _ _)) <|
    (sound_cons (sound_ptr (sound_float hp n) zeroFinite) <|
    (sound_cons (sound_ptr (sound_float hp n) zeroFinite) <|
    (sound_cons (sound_ptr (textureInfoC_sound hp hr) (textureInfo_zero _ _)) <|
    sound_nil n)))))))
    (fun _ h => ⟨h.extensions, h.extras, h.baseColorFactor, h.baseColorTexture, h.metallicFactor, h.roughnessFactor, h.metallicRoughnessTexture, trivial⟩) (fun _ h => ⟨h.1, h.2.1, h.2.2.1, h.2.2.2.1, h.2.2.2.2.1, h.2.2.2.2.2.1, h.2.2.2.2.2.2.1⟩)

theorem pbr_zero (r : Registry) (n : Nat) : PBRMetallicRoughnessOk r n {} := by constructor <;> zero_ok

theorem pbrC_sound (hp : FiniteParse E.io) (hr : LawfulRegistry E.reg n) : Sound (pbrC E).dec n (PBRMetallicRoughnessOk E.reg n) :=
  sound_default (pbrC_sound' hp hr) (by constructor <;> first | zero_ok | (intro x hx; cases hx; first | decide | decide +kernel))

theorem materialC_sound' (hp : FiniteParse E.io) (hr : LawfulRegistry E.reg n) :
    Sound (materialC' E).dec n (MaterialOk E.reg n) :=
  sound_struct
    (sound_cons (sound_array (sound_float hp n) zeroFinite _) <|
    (sound_cons (sound_ptr (sound_float hp n) zeroFinite) <|
    (sound_cons (sound_extensions hr) <|
    (sound_cons (sound_any hp n) <|
    (sound_cons (sound_string n) <|
    (sound_cons (sound_ptr (pbrC_sound hp hr) (pbr_zero _ _)) <|
    (sound_cons (sound_ptr (normalTextureC_sound hp hr) (normalTexture_zero _ _)) <|
    (sound_cons (sound_ptr (occlusionTextureC_sound hp hr) (occlusionTexture_zero _ _)) <|
    (sound_cons (sound_ptr (textureInfoC_sound hp hr) (textureInfo_zero _ _)) <|
    (sound_cons (alphaMode_sound n) <|
    (sound_cons (sound_true _ n) <|
    sound_nil n)))))))))))
    (fun _ h => ⟨h.emissiveFactor, h.alphaCutoff, h.extensions, h.extras, h.name, h.pbrMetallicRoughness, h.normalTexture, h.occlusionTexture, h.emissiveTexture, h.alphaMode, trivial, trivial⟩) (fun _ h => ⟨h.1, h.2.1, h.2.2.1, h.2.2.2.1, h.2.2.2.2.1, h.2.2.2.2.2.1, h.2.2.2.2.2.2.1, h.2.2.2.2.2.2.2.1, h.2.2.2.2.2.2.2.2.1, h.2.2.2.2.2.2.2.2.2.1⟩)

theorem material_zero (r : Registry) (n : Nat) : MaterialOk r n {} := by constructor <;> zero_ok

theorem materialC_sound (hp : FiniteParse E.io) (hr : LawfulRegistry E.reg n) : Sound (materialC E).dec n (MaterialOk E.reg n) :=
  sound_default (materialC_sound' hp hr) (by constructor <;> first | zero_ok | (intro x hx; cases hx; first | decide | decide +kernel))

theorem textureC_sound (hp : FiniteParse E.io) (hr : LawfulRegistry E.reg n) :
    Sound (textureC E).dec n (TextureOk E.reg n) :=
  sound_struct
    (sound_cons (sound_extensions hr) <|
    (sound_cons (sound_any hp n) <|
    (sound_cons (sound_string n) <|
    (sound_cons (sound_ptr (sound_int n) intOk_zero) <|
    (sound_cons (sound_ptr (sound_int n) intOk_zero) <|
    sound_nil n)))))
    (fun _ h => ⟨h.extensions, h.extras, h.name, h.sampler, h.source, trivial⟩) (fun _ h => ⟨h.1, h.2.1, h.2.2.1, h.2.2.2.1, h.2.2.2.2.1⟩)

theorem texture_zero (r : Registry) (n : Nat) : TextureOk r n {} := by constructor <;> zero_ok

theorem samplerC_sound (hp : FiniteParse E.io) (hr : LawfulRegistry E.reg n) :
    Sound (samplerC E).dec n (SamplerOk E.reg n) :=
  sound_struct
    (sound_cons (sound_extensions hr) <|
    (sound_cons (sound_any hp n) <|
    (sound_cons (sound_string n) <|
    (sound_cons (magFilter_sound n) <|
    (sound_cons (minFilter_sound n) <|
    (sound_cons (wrappingMode_sound n) <|
    (sound_cons (wrappingMode_sound n) <|
    sound_nil n)))))))
    (fun _ h => ⟨h.extensions, h.extras, h.name, h.magFilter, h.minFilter, h.wrapS, h.wrapT, trivial⟩) (fun _ h => ⟨h.1, h.2.1, h.2.2.1, h.2.2.2.1, h.2.2.2.2.1, h.2.2.2.2.2.1, h.2.2.2.2.2.2.1⟩)

theorem sampler_zero (r : Registry) (n : Nat) : SamplerOk r n {} := by constructor <;> zero_ok

theorem imageC_sound (hp : FiniteParse E.io) (hr : LawfulRegistry E.reg n) :
    Sound (imageC E).dec n (ImageOk E.reg n) :=
  sound_struct
    (sound_cons (sound_extensions hr) <|
    (sound_cons (sound_any hp n) <|
    (sound_cons (sound_string n) <|
    (sound_cons (sound_string n) <|
    (sound_cons (sound_string n) <|
    (sound_cons (sound_ptr (sound_int n) intOk_zero) <|
    sound_nil n))))))
    (fun _ h => ⟨h.extensions, h.extras, h.name, h.uri, h.mimeType, h.bufferView, trivial⟩) (fun _ h => ⟨h.1, h.2.1, h.2.2.1, h.2.2.2.1, h.2.2.2.2.1, h.2.2.2.2.2.1⟩)

theorem image_zero (r : Registry) (n : Nat) : ImageOk r n {} := by constructor <;> zero_ok

theorem animationSamplerC_sound (hp : FiniteParse E.io) (hr : LawfulRegistry E.reg n) :
    Sound (animationSamplerC E).dec n (AnimationSamplerOk E.reg n) :=
  sound_struct
    (sound_cons (sound_extensions hr) <|
    (sound_cons (sound_any hp n) <|
    (sound_cons (sound_int n) <|
    (sound_cons (interpolation_sound n) <|
    (sound_cons (sound_int n) <|
    sound_nil n)))))
    (fun _ h => ⟨h.extensions, h.extras, h.input, h.interpolation, h.output, trivial⟩) (fun _ h => ⟨h.1, h.2.1, h.2.2.1, h.2.2.2.1, h.2.2.2.2.1⟩)

theorem animationSampler_zero (r : Registry) (n : Nat) : AnimationSamplerOk r n {} := by constructor <;> zero_ok

theorem animationChannelTargetC_sound (hp : FiniteParse E.io) (hr : LawfulRegistry E.reg n) :
    Sound (animationChannelTargetC E).dec n (AnimationChannelTargetOk E.reg n) :=
  sound_struct
    (sound_cons (sound_extensions hr) <|
    (sound_cons (sound_any hp n) <|
    (sound_cons (sound_ptr (sound_int n) intOk_zero) <|
    (sound_cons (trsProperty_sound n) <|
    sound_nil n))))
    (fun _ h => ⟨h.extensions, h.extras, h.node, h.path, trivial⟩) (fun _ h => ⟨h.1, h.2.1, h.2.2.1, h.2.2.2.1⟩)

theorem animationChannelTarget_zero (r : Registry) (n : Nat) : AnimationChannelTargetOk r n {} := by constructor <;> zero_ok

theorem animationChannelC_sound (hp : FiniteParse E.io) (hr : LawfulRegistry E.reg n) :
    Sound (animationChannelC E).dec n (AnimationChannelOk E.reg n) :=
  sound_struct
    (sound_cons (sound_extensions hr) <|
    (sound_cons (sound_any hp n) <|
    (sound_cons (sound_int n) <|
    (sound_cons (animationChannelTargetC_sound hp hr) <|
    sound_nil n))))
    (fun _ h => ⟨h.extensions, h.extras, h.sampler, h.target, trivial⟩) (fun _ h => ⟨h.1, h.2.1, h.2.2.1, h.2.2.2.1⟩)

theorem animationChannel_zero (r : Registry) (n : Nat) : AnimationChannelOk r n {} := by constructor <;> first | exact animationChannelTarget_zero _ _ | zero_ok

theorem animationC_sound (hp : FiniteParse E.io) (hr : LawfulRegistry E.reg n) :
    Sound (animationC E).dec n (AnimationOk E.reg n) :=
  sound_struct
    (sound_cons (sound_extensions hr) <|
    (sound_cons (sound_any hp n) <|
    (sound_cons (sound_string n) <|
    (sound_cons (sound_slice (sound_ptr (animationChannelC_sound hp hr) (animationChannel_zero _ _)) (fun _ h => nomatch h)) <|
    (sound_cons (sound_slice (sound_ptr (animationSamplerC_sound hp hr) (animationSampler_zero _ _)) (fun _ h => nomatch h)) <|
    sound_nil n)))))
    (fun _ h => ⟨h.extensions, h.extras, h.name, h.channels, h.samplers, trivial⟩) (fun _ h => ⟨h.1, h.2.1, h.2.2.1, h.2.2.2.1, h.2.2.2.2.1⟩)

theorem animation_zero (r : Registry) (n : Nat) : AnimationOk r n {} := by constructor <;> zero_ok

theorem documentC_sound (hp : FiniteParse E.io) (hr : LawfulRegistry E.reg n) :
    Sound (documentC E).dec n (DocumentFields E.reg n) :=
  sound_struct
    (sound_cons (sound_list (sound_ptr (bufferC_sound hp hr) (buffer_zero _ _)) (fun _ h => nomatch h)) <|
    (sound_cons (sound_extensions hr) <|
    (sound_cons (sound_any hp n) <|
    (sound_cons (sound_list (sound_string n) utf8Nil) <|
    (sound_cons (sound_list (sound_string n) utf8Nil) <|
    (sound_cons (sound_list (sound_ptr (accessorC_sound hp hr) (accessor_zero _ _)) (fun _ h => nomatch h)) <|
    (sound_cons (sound_list (sound_ptr (animationC_sound hp hr) (animation_zero _ _)) (fun _ h => nomatch h)) <|
    (sound_cons (assetC_sound hp hr) <|
    (sound_cons (sound_list (sound_ptr (bufferViewC_sound hp hr) (bufferView_zero _ _)) (fun _ h => nomatch h)) <|
    (sound_cons (sound_list (sound_ptr (cameraC_sound hp hr) (camera_zero _ _)) (fun _ h => nomatch h)) <|
    (sound_cons (sound_list (sound_ptr (imageC_sound hp hr) (image_zero _ _)) (fun _ h => nomatch h)) <|
    (sound_cons (sound_list (sound_ptr (materialC_sound hp hr) (material_zero _ _)) (fun _ h => nomatch h)) <|
    (sound_cons (sound_list (sound_ptr (meshC_sound hp hr) (mesh_zero _ _)) (fun _ h => nomatch h)) <|
    (sound_cons (sound_list (sound_ptr (nodeC_sound hp hr) (node_zero _ _)) (fun _ h => nomatch h)) <|
    (sound_cons (sound_list (sound_ptr (samplerC_sound hp hr) (sampler_zero _ _)) (fun _ h => nomatch h)) <|
    (sound_cons (sound_ptr (sound_int n) intOk_zero) <|
    (sound_cons (sound_list (sound_ptr (sceneC_sound hp hr) (scene_zero _ _)) (fun _ h => nomatch h)) <|
    (sound_cons (sound_list (sound_ptr (skinC_sound hp hr) (skin_zero _ _)) (fun _ h => nomatch h)) <|
    (sound_cons (sound_list (sound_ptr (textureC_sound hp hr) (texture_zero _ _)) (fun _ h => nomatch h)) <|
    sound_nil n)))))))))))))))))))
    (fun _ h => ⟨h.1.buffers, h.1.extensions, h.1.extras, h.1.extensionsUsed, h.1.extensionsRequired, h.1.accessors, h.1.animations, h.1.asset, h.1.bufferViews, h.2, h.1.images, h.1.materials, h.1.meshes, h.1.nodes, h.1.samplers, h.1.scene, h.1.scenes, h.1.skins, h.1.textures, trivial⟩)
    (fun _ h => ⟨⟨h.1, h.2.1, h.2.2.1, h.2.2.2.1, h.2.2.2.2.1, h.2.2.2.2.2.1, h.2.2.2.2.2.2.1, h.2.2.2.2.2.2.2.1, h.2.2.2.2.2.2.2.2.1, (fun _ h => nomatch h), h.2.2.2.2.2.2.2.2.2.2.1, h.2.2.2.2.2.2.2.2.2.2.2.1, h.2.2.2.2.2.2.2.2.2.2.2.2.1, h.2.2.2.2.2.2.2.2.2.2.2.2.2.1, h.2.2.2.2.2.2.2.2.2.2.2.2.2.2.1, h.2.2.2.2.2.2.2.2.2.2.2.2.2.2.2.1, h.2.2.2.2.2.2.2.2.2.2.2.2.2.2.2.2.1, h.2.2.2.2.2.2.2.2.2.2.2.2.2.2.2.2.2.1, h.2.2.2.2.2.2.2.2.2.2.2.2.2.2.2.2.2.2.1⟩, h.2.2.2.2.2.2.2.2.2.1⟩)

end Gltf
