/-
Specification: the document with its defaults made explicit. This is what is left of a document after it was
written and read: omitted values are replaced by the defaults of the glTF specification.
-/
import Verif.Model.Doc

namespace Gltf.Spec

/-- 0, 1/2 and 1. -/
def zero : F64 := ⟨0⟩
def half : F64 := ⟨0x3FE0000000000000⟩
def one : F64 := ⟨0x3FF0000000000000⟩

/-- Positive or negative zero. -/
abbrev IsZero (x : F64) : Prop := x.bits = 0 ∨ x.bits = 0x8000000000000000

/-- The same number: negative and positive zero are not distinguished. -/
abbrev Same (x y : F64) : Prop := x = y ∨ (IsZero x ∧ IsZero y)

/-- The same vector of numbers. -/
abbrev SameAll {n : Nat} (a b : Vector F64 n) : Prop := ∀ i : Fin n, Same a[i] b[i]

def zeros {n : Nat} : Vector F64 n := Vector.ofFn fun _ => zero
def ones {n : Nat} : Vector F64 n := Vector.ofFn fun _ => one
def identity : Vector F64 16 := Vector.ofFn fun i => if i.val % 5 = 0 then one else zero
def unitRotation : Vector F64 4 := Vector.ofFn fun i => if i.val = 3 then one else zero

/-- Both the default and the Go zero value stand for the default. -/
def orDefault {n : Nat} (d a : Vector F64 n) : Vector F64 n := if SameAll a d ∨ SameAll a zeros then d else a

/-- A vector without negative zeros in the zero vector. -/
def orZeros {n : Nat} (a : Vector F64 n) : Vector F64 n := if SameAll a zeros then zeros else a

def normAsset (a : Asset) : Asset := { a with version := if a.version = [] then b!"2.0" else a.version }

/-- The data of a buffer is not part of the JSON. -/
def normBuffer (b : Buffer) : Buffer := { b with data := [] }

def normNode (n : Node) : Node :=
  { n with
    «matrix» := orDefault identity n.matrix
    rotation := orDefault unitRotation n.rotation
    scale := orDefault ones n.scale
    translation := orZeros n.translation }

def normNormalTexture (t : NormalTexture) : NormalTexture := { t with scale := some (t.scale.getD one) }

def normOcclusionTexture (t : OcclusionTexture) : OcclusionTexture := { t with strength := some (t.strength.getD one) }

def normPBR (p : PBRMetallicRoughness) : PBRMetallicRoughness :=
  { p with
    baseColorFactor := some (p.baseColorFactor.getD ones)
    metallicFactor := some (p.metallicFactor.getD one)
    roughnessFactor := some (p.roughnessFactor.getD one) }

def normMaterial (m : Material) : Material :=
  { m with
    pbrMetallicRoughness := m.pbrMetallicRoughness.map normPBR
    normalTexture := m.normalTexture.map normNormalTexture
    occlusionTexture := m.occlusionTexture.map normOcclusionTexture
    emissiveFactor := orZeros m.emissiveFactor
    alphaCutoff := some (m.alphaCutoff.getD half) }

def normDocument (d : Document) : Document :=
  { d with
    asset := normAsset d.asset
    buffers := d.buffers.map (Option.map normBuffer)
    materials := d.materials.map (Option.map normMaterial)
    nodes := d.nodes.map (Option.map normNode) }

end Gltf.Spec
