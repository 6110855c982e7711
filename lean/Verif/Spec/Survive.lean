/-
Specification: calls of the writing functions whose results can be stored in files, and documents that can take
them.
-/
import Verif.Spec.History
import Verif.Spec.RoundTrip
import Verif.Spec.DocValid
import Verif.Spec.Bounds

namespace Gltf.Spec

/-- Calls that JSON can record: positions are finite numbers, the names of images are UTF-8. -/
def PlainOp : WriteOp → Prop
  | .position data => ∀ v ∈ data, FiniteVec v
  | .primitiveAttributes attr => ∀ a ∈ attr, a.name = b!"POSITION" → ∀ v, a.data = some ⟨.base .f32 .v3, v⟩ → ∀ x ∈ v, FiniteVec x
  | .image name mimeType _ => IsUtf8 name ∧ IsUtf8 mimeType
  | _ => True

/-- `doc'` is reached from `doc` by a finite sequence of such calls, none of which panics. -/
inductive PlainHistory : Document → Document → Prop
  | nil (doc : Document) : PlainHistory doc doc
  | step {doc doc' : Document} (op : WriteOp) (plain : PlainOp op) (h : (op.run doc).2.isPanic = false)
      (rest : PlainHistory (op.run doc).1 doc') : PlainHistory doc doc'

/-- Documents that can be saved after writing to them: there is no buffer yet, or the last buffer has no URI or that of
a file, and as many bytes as it says; the other buffers can be stored. -/
structure Growable (r : Registry) (n : Nat) (bin : Bool) (d : Document) : Prop where
  ok : DocumentOk r n d
  images : none ∉ d.images
  buffers : d.buffers = [] ∨ ∃ bs b, d.buffers = bs ++ [some b] ∧ AllStorable bin bs ∧ (b.uri = [] ∨ ∃ name, FileUri b.uri name ∧ FileName name) ∧
    b.byteLength = b.data.length

end Gltf.Spec

namespace Gltf.Spec

/-- No buffer has a URI. -/
def NoUris (d : Document) : Prop := ∀ b, some b ∈ d.buffers → b.uri = []

end Gltf.Spec
