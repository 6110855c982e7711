/-
Specification: where the data of a decoded buffer comes from. It speaks of the bytes of the file, of the files that can be
read, and of the buffer as it is returned.
-/
import Verif.Spec.Glb
import Verif.Spec.Base64
import Verif.Model.Doc

namespace Gltf.Spec

/-- The beginning of the URIs of embedded buffers. -/
def octetMime : Bytes := b!"data:application/octet-stream;base64"

/-- The data of the buffer `b` of a file: from a binary chunk after the beginning of the JSON chunk, only for the first
buffer of a GLB file (the length of the chunk is only checked for buffers below 4 GiB); from its data URI; or from the file that its URI names, of which at most the declared length is
used. -/
inductive DataFrom (file : Bytes) (files : Option (Bytes → Bytes × Option Err)) (first : Bool) (b : Buffer) : Prop where
  | chunk (pre len rest : Bytes) : first = true → b.uri = [] → b!"glTF" <+: file →
      file = pre ++ (len ++ b!"BIN\x00" ++ (b.data ++ rest)) → 20 ≤ pre.length → pre.length ≤ 20 + leNat ((file.drop 12).take 4) →
      len.length = 4 → (b.byteLength < 2 ^ 32 → b.data.length ≤ leNat len) → 0 < b.byteLength → (b.data.length : Int) = b.byteLength → DataFrom file files first b
  | embedded (c : UInt8) (t : Bytes) : b.uri = octetMime ++ c :: t → b.byteLength ≠ 0 → IsBase64 (t.filter fun c => c ≠ 10 ∧ c ≠ 13) b.data →
      DataFrom file files first b
  | file (read : Bytes → Bytes × Option Err) (content : Bytes) : b.uri ≠ [] → ¬ octetMime <+: b.uri → files = some read →
      read b.uri = (content, none) → 0 < b.byteLength → b.data = content.take b.byteLength.toNat → DataFrom file files first b
  | noFile : b.uri ≠ [] → ¬ octetMime <+: b.uri → files = none → b.byteLength ≠ 0 → b.data = [] → DataFrom file files first b

/-- The same for all buffers of a document; none of them is nil. -/
def AllFrom (file : Bytes) (files : Option (Bytes → Bytes × Option Err)) : Bool → List (Option Buffer) → Prop
  | _, [] => True
  | _, none :: _ => False
  | first, some b :: l => DataFrom file files first b ∧ AllFrom file files false l

/-- The URIs of the buffers that are not embedded. -/
def fileUris (l : List (Option Buffer)) : List Bytes :=
  (l.filterMap fun b => b.map (·.uri)).filter fun uri => uri ≠ [] ∧ ¬ octetMime <+: uri

end Gltf.Spec
