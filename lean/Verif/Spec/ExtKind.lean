/-
Specification: the kinds of the values in the extensions for which there are packages.
-/
import Verif.Spec.JKind

namespace Gltf.Spec

def lightS : JKind := .obj
  [(b!"type", .str), (b!"name", .str), (b!"color", .vec 3 .num), (b!"intensity", .num), (b!"range", .num),
   (b!"spot", .obj [(b!"innerConeAngle", .num), (b!"outerConeAngle", .num)])]

/-- The lights of a document or the light of a node. -/
def punctualS : JKind := .obj [(b!"lights", .list lightS), (b!"light", .int)]

def specularS : JKind := .obj
  [(b!"diffuseFactor", .vec 4 .num), (b!"diffuseTexture", textureInfoS), (b!"specularFactor", .vec 3 .num), (b!"glossinessFactor", .num),
   (b!"specularGlossinessTexture", textureInfoS)]

def transformS : JKind := .obj [(b!"offset", .vec 2 .num), (b!"rotation", .num), (b!"scale", .vec 2 .num), (b!"texCoord", .int)]

/-- The extensions and the kinds of their values. -/
def extensionKinds : List (Bytes × JKind) :=
  [(b!"KHR_lights_punctual", punctualS), (b!"KHR_materials_pbrSpecularGlossiness", specularS), (b!"KHR_texture_transform", transformS),
   (b!"KHR_materials_unlit", .extensions)]

end Gltf.Spec
