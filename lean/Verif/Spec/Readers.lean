/-
What the typed readers of package modeler accept and how they convert, independently of the code.
-/
import Verif.Spec.Document

namespace Gltf.Spec

open Gltf

/-- Types accepted by `ReadIndices`. -/
def acceptsIndices (c : ComponentType) (t : AccessorType) : Bool :=
  (c = .ubyte || c = .ushort || c = .uint) && t = .scalar

/-- Types accepted by `ReadTextureCoord`. -/
def acceptsTextureCoord (c : ComponentType) (t : AccessorType) : Bool :=
  (c = .ubyte || c = .ushort || c = .float) && t = .vec2

/-- Types accepted by `ReadWeights`. -/
def acceptsWeights (c : ComponentType) (t : AccessorType) : Bool :=
  (c = .ubyte || c = .ushort || c = .float) && t = .vec4

/-- Types accepted by `ReadJoints`. -/
def acceptsJoints (c : ComponentType) (t : AccessorType) : Bool :=
  (c = .ubyte || c = .ushort) && t = .vec4

/-- Types accepted by `ReadColor` and `ReadColor64`. -/
def acceptsColor (c : ComponentType) (t : AccessorType) : Bool :=
  (c = .ubyte || c = .ushort || c = .float) && (t = .vec3 || t = .vec4)

/-- Types accepted by `ReadNormal` and `ReadPosition`. -/
def acceptsVec3 (c : ComponentType) (t : AccessorType) : Bool := c = .float && t = .vec3

/-- Types accepted by `ReadTangent`. -/
def acceptsVec4 (c : ComponentType) (t : AccessorType) : Bool := c = .float && t = .vec4

/-- Types accepted by `ReadInverseBindMatrices`. -/
def acceptsMat4 (c : ComponentType) (t : AccessorType) : Bool := c = .float && t = .mat4

/-- The numbers of a slice of unsigned scalars. -/
def scalars : Slice → Option (List Nat)
  | ⟨.base .u8 .sc, d⟩ => some (d.map fun (x : UInt8) => x.toNat)
  | ⟨.base .u16 .sc, d⟩ => some (d.map fun (x : UInt16) => x.toNat)
  | ⟨.base .u32 .sc, d⟩ => some (d.map fun (x : UInt32) => x.toNat)
  | _ => none

/-- The numbers of a slice of unsigned vectors of three or four components, with the largest value
of a component. -/
def vectors : Slice → Option (Nat × List (List Nat))
  | ⟨.base .u8 .v3, d⟩ => some (255, d.map fun (v : V3 UInt8) => [v.x0.toNat, v.x1.toNat, v.x2.toNat])
  | ⟨.base .u8 .v4, d⟩ => some (255, d.map fun (v : V4 UInt8) => [v.x0.toNat, v.x1.toNat, v.x2.toNat, v.x3.toNat])
  | ⟨.base .u16 .v3, d⟩ => some (65535, d.map fun (v : V3 UInt16) => [v.x0.toNat, v.x1.toNat, v.x2.toNat])
  | ⟨.base .u16 .v4, d⟩ => some (65535, d.map fun (v : V4 UInt16) => [v.x0.toNat, v.x1.toNat, v.x2.toNat, v.x3.toNat])
  | _ => none

/-- `w` out of `wmax` is `v` out of `vmax` up to the resolution of `w`. -/
def SameLevel (v vmax w wmax : Nat) : Prop := w * vmax < v * wmax + vmax ∧ v * wmax < w * vmax + vmax

/-- The colour `w` (four components out of `wmax`) is the colour `v` (three or four components out
of `vmax`), opaque when `v` has no alpha. -/
def SameColor (v : List Nat) (vmax : Nat) (w : List Nat) (wmax : Nat) : Prop :=
  w.length = 4 ∧ (∀ j x y : Nat, v[j]? = some x → w[j]? = some y → SameLevel x vmax y wmax) ∧
    (v.length = 3 → w[3]? = some wmax)

/-- Same value, same error, or a panic in both cases. -/
def SameOutcome {α : Type} : Res α → Res α → Prop
  | .ok a, .ok b => a = b
  | .err e, .err e' => e = e'
  | .panic _, .panic _ => True
  | _, _ => False

/-- Facts about a document that hold for every document in memory or that the glTF specification
demands: Go slices have lengths below 2^63 and strides are not negative and not huge. -/
structure Tame (doc : Document) : Prop where
  buffers : ∀ b, some b ∈ doc.buffers → GoLen b.data
  strides : ∀ bv, some bv ∈ doc.bufferViews → 0 ≤ bv.byteStride ∧ bv.byteStride ≤ 2 ^ 14

/-- The buffers that the accessor needs can be allocated, and it is not a matrix type that
`MakeSliceBuffer` does not support. -/
structure Modest (acr : Accessor) : Prop where
  type : ¬ (acr.componentType = .uint ∧ acr.type = .mat3)
  count : acr.count.toNat * (acr.componentType.byteSize * acr.type.components) ≤ maxAlloc
  sparse : ∀ sp, acr.sparse = some sp →
    sp.count.toNat * (acr.componentType.byteSize * acr.type.components) ≤ maxAlloc ∧
    sp.count.toNat * sp.indices.componentType.byteSize ≤ maxAlloc

end Gltf.Spec

namespace Gltf.Spec
open Gltf

/-- Range of Go's `int`. -/
def IsInt (x : Int) : Prop := -2 ^ 63 ≤ x ∧ x < 2 ^ 63

/-- The fields of the buffer view are not negative, their sum does not overflow and its buffer, if
there, is not nil. The range may lie outside of the buffer. -/
structure SaneView (doc : Document) (bv : BufferView) : Prop where
  buffer : 0 ≤ bv.buffer
  nonNil : doc.buffers[bv.buffer.toNat]? ≠ some none
  offset : 0 ≤ bv.byteOffset
  length : 0 ≤ bv.byteLength
  sum : bv.byteOffset + bv.byteLength < 2 ^ 63

/-- The index of a buffer view is not negative (it may be past the end), and the view is sane; the
offset lies inside of the view; for scalar bytes the view must not be longer than `count`. -/
def SaneIndex (doc : Document) (c : ComponentType) (t : AccessorType) (count i offset : Int) : Prop :=
  0 ≤ i ∧ ∀ q, doc.bufferViews[i.toNat]? = some q → ∃ bv, q = some bv ∧ SaneView doc bv ∧
    0 ≤ offset ∧ offset ≤ bv.byteLength ∧ (c = .byte ∧ t = .scalar → bv.byteLength - offset ≤ count)

/-- The accessor that designates the indices of sparse data. -/
def indicesAccessor (sp : Sparse) : Accessor :=
  { componentType := sp.indices.componentType, type := .scalar, count := sp.count,
    bufferView := some sp.indices.bufferView, byteOffset := sp.indices.byteOffset }

/-- The accessor that designates the values of sparse data. -/
def valuesAccessor (acr : Accessor) (sp : Sparse) : Accessor :=
  { componentType := acr.componentType, type := acr.type, count := sp.count,
    bufferView := some sp.values.bufferView, byteOffset := sp.values.byteOffset }

/-- `r` is `dense` with `values[j]` at place `indices[j]` for every `j`, the last one winning. -/
structure Patched {α : Type} (dense : List α) (indices : List Nat) (values : List α) (r : List α) : Prop where
  length : r.length = dense.length
  replaced : ∀ j i : Nat, indices[j]? = some i → (∀ j', j < j' → indices[j']? ≠ some i) →
    ∃ x, values[j]? = some x ∧ r[i]? = some x
  kept : ∀ i, i ∉ indices → r[i]? = dense[i]?

end Gltf.Spec
