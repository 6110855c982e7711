/-
The methods that report a value or its default.
-/
import Verif.Model.JsonDoc

namespace Gltf

/-- gltf.go:185-190. -/
def Node.matrixOrDefault (n : Node) : Vector F64 16 := if arrayEq n.matrix emptyMatrix then defaultMatrix else n.matrix

/-- gltf.go:193-198. -/
def Node.rotationOrDefault (n : Node) : Vector F64 4 := if arrayEq n.rotation emptyRotation then defaultRotation else n.rotation

/-- gltf.go:201-206. -/
def Node.scaleOrDefault (n : Node) : Vector F64 3 := if arrayEq n.scale emptyScale then defaultScale else n.scale

/-- gltf.go:209-211. -/
def Node.translationOrDefault (n : Node) : Vector F64 3 := n.translation

/-- gltf.go:288-293. -/
def Material.alphaCutoffOrDefault (m : Material) : F64 :=
  match m.alphaCutoff with
  | none => f64half
  | some x => x

/-- gltf.go:305-310. -/
def NormalTexture.scaleOrDefault (t : NormalTexture) : F64 :=
  match t.scale with
  | none => f64one
  | some x => x

/-- gltf.go:322-327. -/
def OcclusionTexture.strengthOrDefault (t : OcclusionTexture) : F64 :=
  match t.strength with
  | none => f64one
  | some x => x

/-- gltf.go:341-346. -/
def PBRMetallicRoughness.metallicFactorOrDefault (p : PBRMetallicRoughness) : F64 :=
  match p.metallicFactor with
  | none => f64one
  | some x => x

/-- gltf.go:349-354. -/
def PBRMetallicRoughness.roughnessFactorOrDefault (p : PBRMetallicRoughness) : F64 :=
  match p.roughnessFactor with
  | none => f64one
  | some x => x

/-- gltf.go:357-362. -/
def PBRMetallicRoughness.baseColorFactorOrDefault (p : PBRMetallicRoughness) : Vector F64 4 :=
  match p.baseColorFactor with
  | none => white
  | some x => x

end Gltf
