/-
Specification of how newly written data is described by its accessor and its buffer view.
-/
import Verif.Spec.Document

namespace Gltf.Spec

open Gltf

/-- Size of an element without any padding. -/
def plainSize (k : Kind) (s : Shape) : Nat := rows s * cols s * size k

/-- Stride of a buffer view with the elements of one slice: given exactly when the view holds vertex
attributes (target 34962) and the elements are padded. -/
def strideFor (target : Target) (t : ETy) : Nat :=
  if target = 34962 ∧ plainSize (kind t) (shape t) < elemSize (kind t) (shape t) then elemSize (kind t) (shape t) else 0

/-- The fields of an accessor that describe a slice. -/
structure AccessorDescribes (acr : Accessor) (view offset : Nat) (data : Slice) (normalized : Bool) : Prop where
  bufferView : acr.bufferView = some (view : Int)
  byteOffset : acr.byteOffset = (offset : Int)
  componentType : acr.componentType = componentTypeOf (kind data.ty)
  type : acr.type = accessorTypeOf (shape data.ty)
  count : acr.count = (data.data.length : Int)
  normalized : acr.normalized = normalized
  sparse : acr.sparse = none
  name : acr.name = []

/-- The document has got one accessor and one buffer view, which describe `data`. -/
def Described (doc doc' : Document) (target : Target) (data : Slice) (normalized : Bool) : Prop :=
  ∃ acr bv, doc'.accessors = doc.accessors ++ [some acr] ∧ doc'.bufferViews = doc.bufferViews ++ [some bv] ∧
    AccessorDescribes acr doc.bufferViews.length 0 data normalized ∧
    bv.target = target ∧ bv.byteStride = (strideFor target data.ty : Int) ∧ bv.byteLength = (byteCount data : Int)

/-- Element types that the writer of indices takes. -/
def IndexType (t : ETy) : Prop := t = .base .u16 .sc ∨ t = .base .u32 .sc

/-- Element types that the writer of joints takes. -/
def JointType (t : ETy) : Prop := t = .base .u8 .v4 ∨ t = .base .u16 .v4

/-- Element types that the writer of weights takes. -/
def WeightType (t : ETy) : Prop := t = .base .u8 .v4 ∨ t = .base .u16 .v4 ∨ t = .base .f32 .v4

/-- Element types that the writer of texture coordinates takes. -/
def TexCoordType (t : ETy) : Prop := t = .base .u8 .v2 ∨ t = .base .u16 .v2 ∨ t = .base .f32 .v2

/-- Element types that the writer of colours takes. -/
def ColorType (t : ETy) : Prop :=
  t = .rgba ∨ t = .rgba64 ∨ t = .base .u8 .v3 ∨ t = .base .u8 .v4 ∨ t = .base .u16 .v3 ∨ t = .base .u16 .v4 ∨
    t = .base .f32 .v3 ∨ t = .base .f32 .v4

end Gltf.Spec
