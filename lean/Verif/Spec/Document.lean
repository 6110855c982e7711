/-
Specification vocabulary for documents: extension of a document, well-formed documents.
-/
import Verif.Model.Doc
import Verif.Spec.Layout

namespace Gltf.Spec

open Gltf

/-- A buffer whose data may have grown at the end. -/
def BufferExtends (p p' : Option Buffer) : Prop :=
  p = p' ∨ ∃ b data len, p = some b ∧ p' = some { b with data := data, byteLength := len } ∧ b.data <+: data

/-- `d'` is `d` after appending: the lists of accessors, buffer views and images have grown at the
end, the data of the buffers has grown at the end, new buffers may have been added at the end, and
everything else is the same. -/
structure Extends (d d' : Document) : Prop where
  accessors : d.accessors <+: d'.accessors
  bufferViews : d.bufferViews <+: d'.bufferViews
  images : d.images <+: d'.images
  buffers : ∀ (i : Nat) (p : Option Buffer), d.buffers[i]? = some p → ∃ p', d'.buffers[i]? = some p' ∧ BufferExtends p p'
  rest : { d' with accessors := d.accessors, bufferViews := d.bufferViews, images := d.images, buffers := d.buffers } = d

end Gltf.Spec

namespace Gltf.Spec
open Gltf

/-- Element type that a written slice reads back as: colours become arrays. -/
def backTy : ETy → ETy
  | .base k s => .base k s
  | .rgba => .base .u8 .v4
  | .rgba64 => .base .u16 .v4

/-- The element read back. -/
def backElem : (t : ETy) → t.Elem → (backTy t).Elem
  | .base _ _, x => x
  | .rgba, x => (⟨x.R, x.G, x.B, x.A⟩ : V4 UInt8)
  | .rgba64, x => (⟨x.R, x.G, x.B, x.A⟩ : V4 UInt16)

/-- What a written slice reads back as: the same slice, except that `[]color.RGBA` becomes
`[][4]uint8` and `[]color.RGBA64` becomes `[][4]uint16`. -/
def back (s : Slice) : Slice := ⟨backTy s.ty, s.data.map (backElem s.ty)⟩

/-- Size of one element of each of the slices. -/
def rowSize (ds : List Slice) : Nat := (ds.map fun d => elemSize (kind d.ty) (shape d.ty)).sum

end Gltf.Spec

namespace Gltf.Spec
open Gltf

/-- Component type of a kind of components. -/
def componentTypeOf : Kind → ComponentType
  | .i8 => .byte
  | .u8 => .ubyte
  | .i16 => .short
  | .u16 => .ushort
  | .u32 => .uint
  | .f32 => .float

/-- Accessor type of a shape. -/
def accessorTypeOf : Shape → AccessorType
  | .sc => .scalar
  | .v2 => .vec2
  | .v3 => .vec3
  | .v4 => .vec4
  | .m2 => .mat2
  | .m3 => .mat3
  | .m4 => .mat4

/-- The buffer view lies inside its buffer. -/
def ViewInside (doc : Document) (bv : BufferView) : Prop :=
  ∃ i o l : Nat, bv.buffer = i ∧ bv.byteOffset = o ∧ bv.byteLength = l ∧
    ∃ b, doc.buffers[i]? = some (some b) ∧ o + l ≤ b.data.length

/-- The accessor designates a buffer view that holds all of its elements. -/
def AccessorInside (doc : Document) (a : Accessor) : Prop :=
  ∃ (v off n st l : Nat) (bv : BufferView) (k : Kind) (s : Shape),
    a.bufferView = some (v : Int) ∧ doc.bufferViews[v]? = some (some bv) ∧
    a.byteOffset = off ∧ a.count = n ∧ bv.byteStride = st ∧ bv.byteLength = l ∧
    a.componentType = componentTypeOf k ∧ a.type = accessorTypeOf s ∧
    off + needed (.base k s) st n ≤ l

/-- Well-formed documents: no nil pointers, buffers have the length they declare, buffer views lie
inside their buffers and accessors inside their buffer views. -/
structure WellFormed (doc : Document) : Prop where
  buffers : ∀ p ∈ doc.buffers, ∃ b, p = some b ∧ b.byteLength = b.data.length
  bufferViews : ∀ p ∈ doc.bufferViews, ∃ bv, p = some bv ∧ ViewInside doc bv
  accessors : ∀ p ∈ doc.accessors, ∃ a, p = some a ∧ AccessorInside doc a

end Gltf.Spec

namespace Gltf.Spec
open Gltf

/-- The last buffer is there and holds `n` bytes, or there is no buffer yet and `n = 0`. -/
def LastLength (doc : Document) (n : Nat) : Prop :=
  (doc.buffers = [] ∧ n = 0) ∨ ∃ bs b, doc.buffers = bs ++ [some b] ∧ b.data.length = n

/-- Number of bytes that the elements of a slice take. -/
def byteCount (d : Slice) : Nat := d.data.length * elemSize (kind d.ty) (shape d.ty)

/-- Number of bytes that the elements of some slices take. -/
def byteCounts (ds : List Slice) : Nat := (ds.map byteCount).sum

end Gltf.Spec

namespace Gltf.Spec
open Gltf

/-- Contents of the last buffer; empty if there is no buffer yet. -/
def LastData (doc : Document) (data : Bytes) : Prop :=
  (doc.buffers = [] ∧ data = []) ∨ ∃ bs b, doc.buffers = bs ++ [some b] ∧ b.data = data

/-- The buffer view of an accessor. -/
def ViewOf (doc : Document) (a : Accessor) (bv : BufferView) : Prop :=
  ∃ v : Nat, a.bufferView = some (v : Int) ∧ doc.bufferViews[v]? = some (some bv)

end Gltf.Spec
