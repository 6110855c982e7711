/-
Specification of where glTF puts the data of an accessor: chapter 3.6.2 of the glTF 2.0 specification,
independent of the code.
-/
import Verif.Spec.Document

namespace Gltf.Spec

open Gltf

/-- Size of an element in glTF: the components of scalars and vectors follow each other without padding,
the columns of matrices start at multiples of four. -/
def packedSize (k : Kind) : Shape → Nat
  | .m2 => 2 * columnStride k .m2
  | .m3 => 3 * columnStride k .m3
  | .m4 => 4 * columnStride k .m4
  | s => rows s * size k

/-- Distance between the elements of an accessor in glTF: the stride of its buffer view; if there is none,
the elements are tightly packed. -/
def gltfStride (k : Kind) (s : Shape) (byteStride : Nat) : Nat :=
  if byteStride = 0 then packedSize k s else byteStride

/-- The components of `s`, in little-endian order, are in the buffer of the accessor, the elements `dist`
apart from each other where `dist` may depend on the stride of the buffer view. -/
def PlacedWith (dist : Nat → Nat) (doc : Document) (acr : Accessor) (s : Slice) : Prop :=
  ∃ (bv : BufferView) (b : Buffer) (n start stride off : Nat), ViewOf doc acr bv ∧ bv.buffer = n ∧ bv.byteOffset = start ∧
    bv.byteStride = stride ∧ acr.byteOffset = off ∧ doc.buffers[n]? = some (some b) ∧
    ∀ (i : Nat) (x : s.ty.Elem) (r c : Nat) (v : (kind s.ty).T) (j : Nat), s.data[i]? = some x →
      r < rows (shape s.ty) → c < cols (shape s.ty) → component s.ty x r c = some v → j < size (kind s.ty) →
      b.data[start + off + dist stride * i + componentOffset (kind s.ty) (shape s.ty) r c + j]? =
        some (byteOf (kind s.ty) v j)

/-- The data is where other programs look for it. -/
def PlacedAsGltf (doc : Document) (acr : Accessor) (s : Slice) : Prop :=
  PlacedWith (gltfStride (kind s.ty) (shape s.ty)) doc acr s

/-- Vectors whose size is not a multiple of four: two or three bytes, three 16 bit numbers. -/
def OddVector (t : ETy) : Prop := shape t ∈ [.v2, .v3, .v4] ∧ rows (shape t) * size (kind t) % 4 ≠ 0

end Gltf.Spec
