/-
The typed readers once more, with the recycled buffer as a slice in memory.
-/
import Verif.Model.Heap
import Verif.Model.Pool

namespace Gltf.Heap

open Gltf Conc

/-- modeler/read.go:116-125, `makeBufferOf`: `append` works in place if the capacity suffices, and otherwise in a new array, to whose
capacity the runtime adds `extra`. A nil slice stays what it is; it shows the same as an empty one. -/
def makeBufferOf {α : Type} (extra : Nat) (zero : α) (count : Int) (m : List (List α)) (s : GoSlice) : Res (List (List α) × GoSlice) :=
  if (s.len : Int) < count then
    if count.toNat ≤ s.cap then .ok (s.store m s.len (List.replicate (count.toNat - s.len) zero), { s with len := count.toNat })
    else .ok (m ++ [s.bytes m ++ List.replicate (count.toNat - s.len + extra) zero], ⟨m.length, 0, count.toNat, count.toNat + extra⟩)
  else if count ≠ 0 then
    if 0 ≤ count then .ok (m, { s with len := count.toNat }) else .panic "slice bounds out of range"
  else .ok (m, s)

/-- The typed readers, modeler/read.go:132-474: `m` has the arrays of the caller with elements of the type of the result, and `s` is the
buffer to be recycled. The conversion loop assigns to the elements of the buffer one after the other; here they are stored at once.
The data of the document and the scratch buffers are in other arrays. -/
def readRecycled (cf : ColorFns) (r : Reader) (extra : Nat) (doc : Document) (acr : Accessor) (m : List (List r.ty.Elem)) (s : GoSlice)
    (b0 : Bytes) (p : Pools) : Res (List (List r.ty.Elem) × GoSlice) := do
  r.check acr.componentType acr.type
  let data ← readAccessor doc acr b0 p
  let (m, s) ← makeBufferOf extra r.ty.zero acr.count m s
  let l ← r.conv cf (s.bytes m) data
  return (s.store m 0 l, s)

end Gltf.Heap
