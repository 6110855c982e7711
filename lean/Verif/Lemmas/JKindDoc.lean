/-
The codecs of the structs follow the tables of `Spec/JKind.lean`.
-/
import Verif.Lemmas.JKind

namespace Gltf

open Spec

variable {E : Env}

theorem nullable_obj {fs : List (Bytes × JKind)} : (JKind.obj fs).Nullable := fun _ => nofun

theorem ptr_int_follows : Follows (JC.ptr JC.int).dec .int := ptr_follows int_follows fun _ => nofun

theorem ptr_num_follows (hio : ReadsNumbers E.io) : Follows (JC.ptr E.float).dec .num := ptr_follows (float_follows hio) fun _ => nofun

theorem accessorType_follows : Follows accessorTypeC.dec (.names [b!"SCALAR", b!"VEC2", b!"VEC3", b!"VEC4", b!"MAT2", b!"MAT3", b!"MAT4"]) := by
  refine names_follows _ _ _ _ (fun s => ?_) (by decide)
  simp only [List.mem_cons, List.not_mem_nil, or_false]
  unfold AccessorType.ofCode
  repeat' split
  all_goals simp_all

theorem componentType_follows : Follows componentTypeC.dec (.code 65536) := enumNum_follows _ _ _ _
theorem primitiveMode_follows : Follows primitiveModeC.dec (.code 256) := enumNum_follows _ _ _ _
theorem magFilter_follows : Follows magFilterC.dec (.code 65536) := enumNum_follows _ _ _ _
theorem minFilter_follows : Follows minFilterC.dec (.code 65536) := enumNum_follows _ _ _ _
theorem wrappingMode_follows : Follows wrappingModeC.dec (.code 65536) := enumNum_follows _ _ _ _
theorem alphaMode_follows : Follows alphaModeC.dec .str := enumStr_follows _ _ _
theorem interpolation_follows : Follows interpolationC.dec .str := enumStr_follows _ _ _
theorem trsProperty_follows : Follows trsPropertyC.dec .str := enumStr_follows _ _ _
theorem targets_follows : Follows (JC.list (JC.map JC.int)).dec (.list (.map .int)) := list_follows (map_follows int_follows)

/-- Fields of the codecs. -/
macro "kind_field" h:ident : tactic => `(tactic| first
  | exact extensions_follows _
  | exact any_follows $h
  | exact string_follows
  | exact int_follows
  | exact bool_follows
  | exact ptr_int_follows
  | exact uint16_follows
  | exact accessorType_follows
  | exact componentType_follows
  | exact primitiveMode_follows
  | exact magFilter_follows
  | exact minFilter_follows
  | exact wrappingMode_follows
  | exact alphaMode_follows
  | exact interpolation_follows
  | exact trsProperty_follows
  | exact float_follows $h
  | exact ptr_num_follows $h
  | exact list_follows int_follows
  | exact list_follows string_follows
  | exact list_follows (float_follows $h)
  | exact slice_follows int_follows
  | exact array_follows _ (float_follows $h)
  | exact ptr_follows (array_follows _ (float_follows $h)) fun _ => nofun
  | exact map_follows int_follows
  | exact targets_follows)

/-- The members of a struct. -/
macro "kind_members" h:ident : tactic => `(tactic| repeat' first
  | exact nil_follows
  | refine skip_follows ?_
  | refine cons_follows ?_ (by decide +kernel) ?_
  | kind_field $h)

theorem asset_follows (hio : ReadsNumbers E.io) : Follows (assetC E).dec assetS := by
  refine withDefault_follows (c := assetC' E) (struct_follows ?_) _
  kind_members hio

theorem sparse_follows (hio : ReadsNumbers E.io) : Follows (sparseC E).dec sparseS := by
  refine struct_follows ?_
  kind_members hio
  · refine struct_follows ?_
    kind_members hio
  · refine struct_follows ?_
    kind_members hio

theorem accessor_follows (hio : ReadsNumbers E.io) : Follows (accessorC E).dec accessorS := by
  refine struct_follows ?_
  kind_members hio
  exact ptr_follows (sparse_follows hio) nullable_obj

theorem buffer_follows (hio : ReadsNumbers E.io) : Follows (bufferC E).dec bufferS := by
  refine struct_follows ?_
  kind_members hio

theorem bufferView_follows (hio : ReadsNumbers E.io) : Follows (bufferViewC E).dec bufferViewS := by
  refine struct_follows ?_
  kind_members hio

theorem scene_follows (hio : ReadsNumbers E.io) : Follows (sceneC E).dec sceneS := by
  refine struct_follows ?_
  kind_members hio

theorem node_follows (hio : ReadsNumbers E.io) : Follows (nodeC E).dec nodeS := by
  refine withDefault_follows (c := nodeC' E) (struct_follows (FC.Follows.order (fs := [(b!"matrix", .vec 16 .num), (b!"rotation", .vec 4 .num),
    (b!"scale", .vec 3 .num), (b!"translation", .vec 3 .num), (b!"extensions", .extensions), (b!"extras", .any), (b!"name", .str),
    (b!"camera", .int), (b!"children", .list .int), (b!"skin", .int), (b!"mesh", .int), (b!"weights", .list .num)]) ?_ ?_)) _
  · kind_members hio
  · intro f
    simp only [List.mem_cons, List.not_mem_nil, or_false]
    grind

theorem skin_follows (hio : ReadsNumbers E.io) : Follows (skinC E).dec skinS := by
  refine struct_follows ?_
  kind_members hio

theorem camera_follows (hio : ReadsNumbers E.io) : Follows (cameraC E).dec cameraS := by
  show Follows (cameraC' E).dec _
  refine struct_follows ?_
  kind_members hio
  · refine ptr_follows (struct_follows ?_) nullable_obj
    kind_members hio
  · refine ptr_follows (struct_follows ?_) nullable_obj
    kind_members hio

theorem primitive_follows (hio : ReadsNumbers E.io) : Follows (primitiveC E).dec primitiveS := by
  refine struct_follows ?_
  kind_members hio

theorem mesh_follows (hio : ReadsNumbers E.io) : Follows (meshC E).dec meshS := by
  refine struct_follows ?_
  kind_members hio
  exact slice_follows (ptr_follows (primitive_follows hio) nullable_obj)

theorem textureInfo_follows (hio : ReadsNumbers E.io) : Follows (textureInfoC E).dec textureInfoS := by
  refine struct_follows ?_
  kind_members hio

theorem pbr_follows (hio : ReadsNumbers E.io) : Follows (pbrC E).dec pbrS := by
  refine withDefault_follows (c := pbrC' E) (struct_follows ?_) _
  kind_members hio
  · exact ptr_follows (textureInfo_follows hio) nullable_obj
  · exact ptr_follows (textureInfo_follows hio) nullable_obj

theorem normalTexture_follows (hio : ReadsNumbers E.io) :
    Follows (normalTextureC E).dec (object [(b!"index", .int), (b!"texCoord", .int), (b!"scale", .num)]) := by
  refine withDefault_follows (c := normalTextureC' E) (struct_follows ?_) _
  kind_members hio

theorem occlusionTexture_follows (hio : ReadsNumbers E.io) :
    Follows (occlusionTextureC E).dec (object [(b!"index", .int), (b!"texCoord", .int), (b!"strength", .num)]) := by
  refine withDefault_follows (c := occlusionTextureC' E) (struct_follows ?_) _
  kind_members hio

theorem material_follows (hio : ReadsNumbers E.io) : Follows (materialC E).dec materialS := by
  refine withDefault_follows (c := materialC' E) (struct_follows (FC.Follows.order (fs := [(b!"emissiveFactor", .vec 3 .num),
    (b!"alphaCutoff", .num), (b!"extensions", .extensions), (b!"extras", .any), (b!"name", .str), (b!"pbrMetallicRoughness", pbrS),
    (b!"normalTexture", object [(b!"index", .int), (b!"texCoord", .int), (b!"scale", .num)]),
    (b!"occlusionTexture", object [(b!"index", .int), (b!"texCoord", .int), (b!"strength", .num)]), (b!"emissiveTexture", textureInfoS),
    (b!"alphaMode", .str), (b!"doubleSided", .bool)]) ?_ ?_)) _
  · kind_members hio
    · exact ptr_follows (pbr_follows hio) nullable_obj
    · exact ptr_follows (normalTexture_follows hio) nullable_obj
    · exact ptr_follows (occlusionTexture_follows hio) nullable_obj
    · exact ptr_follows (textureInfo_follows hio) nullable_obj
  · intro f
    simp only [List.mem_cons, List.not_mem_nil, or_false]
    grind

theorem texture_follows (hio : ReadsNumbers E.io) : Follows (textureC E).dec textureS := by
  refine struct_follows ?_
  kind_members hio

theorem sampler_follows (hio : ReadsNumbers E.io) : Follows (samplerC E).dec samplerS := by
  refine struct_follows ?_
  kind_members hio

theorem image_follows (hio : ReadsNumbers E.io) : Follows (imageC E).dec imageS := by
  refine struct_follows ?_
  kind_members hio

theorem animation_follows (hio : ReadsNumbers E.io) : Follows (animationC E).dec animationS := by
  refine struct_follows ?_
  kind_members hio
  · refine slice_follows (ptr_follows (struct_follows ?_) nullable_obj)
    kind_members hio
    refine struct_follows ?_
    kind_members hio
  · refine slice_follows (ptr_follows (struct_follows ?_) nullable_obj)
    kind_members hio

theorem ptrs_follows {α : Type} {c : JC α} {fs : List (Bytes × JKind)} (h : Follows c.dec (.obj fs)) :
    Follows (JC.list (JC.ptr c)).dec (.list (.obj fs)) := list_follows (ptr_follows h nullable_obj)

theorem document_follows (hio : ReadsNumbers E.io) : Follows (documentC E).dec gltfS := by
  refine struct_follows (FC.Follows.order (fs := [(b!"buffers", .list bufferS), (b!"extensions", .extensions), (b!"extras", .any),
    (b!"extensionsUsed", .list .str), (b!"extensionsRequired", .list .str), (b!"accessors", .list accessorS),
    (b!"animations", .list animationS), (b!"asset", assetS), (b!"bufferViews", .list bufferViewS),
    (b!"cameras", .list cameraS), (b!"images", .list imageS), (b!"materials", .list materialS), (b!"meshes", .list meshS),
    (b!"nodes", .list nodeS), (b!"samplers", .list samplerS), (b!"scene", .int), (b!"scenes", .list sceneS), (b!"skins", .list skinS),
    (b!"textures", .list textureS)]) ?_ ?_)
  · kind_members hio
    · exact ptrs_follows (buffer_follows hio)
    · exact ptrs_follows (accessor_follows hio)
    · exact ptrs_follows (animation_follows hio)
    · exact asset_follows hio
    · exact ptrs_follows (bufferView_follows hio)
    · exact ptrs_follows (camera_follows hio)
    · exact ptrs_follows (image_follows hio)
    · exact ptrs_follows (material_follows hio)
    · exact ptrs_follows (mesh_follows hio)
    · exact ptrs_follows (node_follows hio)
    · exact ptrs_follows (sampler_follows hio)
    · exact ptrs_follows (scene_follows hio)
    · exact ptrs_follows (skin_follows hio)
    · exact ptrs_follows (texture_follows hio)
  · intro f
    simp only [List.mem_cons, List.not_mem_nil, or_false]
    grind

end Gltf
