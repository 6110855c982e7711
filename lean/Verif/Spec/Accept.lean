/-
Specification: where the data of the buffers of a file is found.
-/
import Verif.Spec.RoundTrip

namespace Gltf.Spec

/-- A buffer of the JSON, and the buffer with its data: from the binary chunk, from the data URI, or from a file, of
which at most the declared length is used; without file system there is no data. -/
inductive Loads (files : Option (Bytes → Bytes × Option Err)) (bin : Option Bytes) (b : Buffer) : Buffer → Prop where
  | chunk (data : Bytes) : bin = some data → b.uri = [] → b.byteLength ≤ data.length →
      Loads files bin b { b with data := data.take b.byteLength.toNat }
  | embedded (t data : Bytes) : b.uri = octetPrefix ++ t → IsBase64 (t.filter fun c => c ≠ 10 ∧ c ≠ 13) data →
      Loads files bin b { b with data := data }
  | file (read : Bytes → Bytes × Option Err) (content name : Bytes) : FileRef b.uri name → files = some read →
      read name = (content, none) → Loads files bin b { b with uri := name, data := content.take b.byteLength.toNat }
  | noFile (name : Bytes) : FileRef b.uri name → files = none → Loads files bin b { b with uri := name, data := [] }

/-- The same for all buffers, which have a length; only the first can be in the binary chunk. -/
def AllLoad (files : Option (Bytes → Bytes × Option Err)) : Option Bytes → List (Option Buffer) → List (Option Buffer) → Prop
  | _, [], [] => True
  | bin, some b :: l, some b' :: l' => 0 < b.byteLength ∧ Loads files bin b b' ∧ AllLoad files none l l'
  | _, _, _ => False

end Gltf.Spec
