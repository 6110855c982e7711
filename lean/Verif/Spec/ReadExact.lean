/-
Specification: accessors that fit in their buffer views.
-/
import Verif.Spec.Layout
import Verif.Spec.Readers

namespace Gltf.Spec

open Gltf

/-- The buffer view exists and lies in its buffer, its distance between elements is `stride`, and there are `room` bytes from the
offset to its end. -/
def Room (doc : Document) (view offset : Int) (stride room : Nat) : Prop :=
  ∃ (v n start len o : Nat) (bv : BufferView) (b : Buffer), view = v ∧ doc.bufferViews[v]? = some (some bv) ∧ bv.buffer = n ∧
    doc.buffers[n]? = some (some b) ∧ bv.byteOffset = start ∧ bv.byteLength = len ∧ start + len ≤ b.data.length ∧
    bv.byteStride = stride ∧ offset = o ∧ o + room = len

/-- The accessor designates `count` elements that exist: its types are those of glTF, and the elements lie in the buffer view, if
there is one. Sparse data is not looked at. -/
def FitsIn (doc : Document) (acr : Accessor) : Prop :=
  ∃ (k : Kind) (s : Shape) (count : Nat), acr.componentType = componentTypeOf k ∧ acr.type = accessorTypeOf s ∧ acr.count = count ∧
    ∀ v, acr.bufferView = some v → ∃ stride room, Room doc v acr.byteOffset stride room ∧ needed (.base k s) stride count ≤ room

/-- The accessors that fit and are not accepted: scalar bytes with further bytes behind them, and empty accessors near the end of a
buffer view with a stride. -/
def Unlucky (doc : Document) (acr : Accessor) : Prop :=
  ∃ v stride room, acr.bufferView = some v ∧ Room doc v acr.byteOffset stride room ∧
    ((acr.componentType = .byte ∧ acr.type = .scalar ∧ acr.count < room) ∨
     (acr.count = 0 ∧ 0 < stride ∧ ∃ k s, acr.componentType = componentTypeOf k ∧ acr.type = accessorTypeOf s ∧ room + stride < elemSize k s))

/-- The numbers in the buffer views are of type `int`. -/
def Ints (doc : Document) : Prop := ∀ bv, some bv ∈ doc.bufferViews → IsInt bv.byteLength

end Gltf.Spec

namespace Gltf.Spec

open Gltf

/-- Signed scalar bytes that are followed by further bytes of their buffer view. -/
def BytesBehind (doc : Document) (acr : Accessor) : Prop :=
  acr.componentType = .byte ∧ acr.type = .scalar ∧ ∃ v stride room, acr.bufferView = some v ∧ Room doc v acr.byteOffset stride room ∧ acr.count < room

end Gltf.Spec
