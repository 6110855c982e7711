/-
Specification: how buffers and images are stored in files, and what is read back.
-/
import Verif.Spec.Base64
import Verif.Spec.Path
import Verif.Spec.Json
import Verif.Spec.Glb
import Verif.Model.Doc

namespace Gltf.Spec

/-- The beginning of the data URI of a buffer. -/
abbrev octetPrefix : Bytes := b!"data:application/octet-stream;base64,"

/-- How the data of a buffer is stored: in the binary chunk (`bin`), in the JSON, or in a file that `files` gives
(its content and an error); without file system there is no data. -/
inductive Stored (files : Option (Bytes → Bytes × Option Err)) (bin : Bool) (b : Buffer) : Prop where
  | chunk : bin = true → b.uri = [] → (b.data.length : Int) = b.byteLength → Stored files bin b
  | inline : bin = false → b.uri = [] → b.data ≠ [] → Stored files bin b
  | embedded (t : Bytes) : b.uri = octetPrefix ++ t → IsBase64 t b.data → Stored files bin b
  | file (read : Bytes → Bytes × Option Err) (content name : Bytes) : FileUri b.uri name → files = some read →
      read name = (content, none) → b.data = content.take b.byteLength.toNat → Stored files bin b
  | noFile (name : Bytes) : FileUri b.uri name → files = none → b.data = [] → Stored files bin b

/-- All buffers exist, have a length and are stored somehow; only the first can be in the binary chunk. -/
def AllStored (files : Option (Bytes → Bytes × Option Err)) (bin : Bool) : List (Option Buffer) → Prop
  | [] => True
  | none :: _ => False
  | some b :: l => 0 < b.byteLength ∧ Stored files bin b ∧ AllStored files false l

/-- What is read back is the same, except that a buffer without URI that is not in the binary chunk gets a data
URI, and that escapes in the URI are replaced. -/
def SameBuffer (bin : Bool) (b b' : Buffer) : Prop :=
  if b.uri = [] ∧ bin = false then ∃ t, IsBase64 t b.data ∧ b' = { b with uri := octetPrefix ++ t }
  else ∃ uri, SameUri b.uri uri ∧ b' = { b with uri := uri }

/-- The same for the list of buffers. -/
def SameBuffers (bin : Bool) : List (Option Buffer) → List (Option Buffer) → Prop
  | [], [] => True
  | some b :: l, some b' :: l' => SameBuffer bin b b' ∧ SameBuffers false l l'
  | _, _ => False

/-- The URIs of images that are kept: none, data URIs, and plain paths. -/
def ImageKept (im : Image) : Prop :=
  im.uri = [] ∨ b!"data:image/png;base64" <+: im.uri ∨ b!"data:image/jpeg;base64" <+: im.uri ∨ PlainPath im.uri

/-- Images are the same, except for the URIs of images that are not kept; those of them that are relative paths are
replaced by what they stand for. -/
def SameImages : List (Option Image) → List (Option Image) → Prop
  | [], [] => True
  | some im :: l, some im' :: l' => (im' = { im with uri := im'.uri } ∧ (ImageKept im → im' = im) ∧
      ∀ name, UriPath im.uri name → im'.uri = name) ∧ SameImages l l'
  | _, _ => False

/-- The name of a file in a file system of io/fs: UTF-8 without zero bytes, names separated by slashes. -/
def FileName (name : Bytes) : Prop := IsUtf8 name ∧ (0 : UInt8) ∉ name ∧ ∃ cs, IsPath name cs ∧ ∀ c ∈ cs, IsName c

/-- Buffers whose data can be stored: in the binary chunk, in the JSON, or in a file. -/
inductive Storable (bin : Bool) (b : Buffer) : Prop where
  | chunk : bin = true → b.uri = [] → (b.data.length : Int) = b.byteLength → Storable bin b
  | inline : bin = false → b.uri = [] → b.data ≠ [] → Storable bin b
  | embedded (t : Bytes) : b.uri = octetPrefix ++ t → IsBase64 t b.data → Storable bin b
  | file (name : Bytes) : FileUri b.uri name → FileName name → b.data ≠ [] → (b.data.length : Int) ≤ b.byteLength → Storable bin b

/-- All buffers exist, have a length and can be stored. -/
def AllStorable (bin : Bool) : List (Option Buffer) → Prop
  | [] => True
  | none :: _ => False
  | some b :: l => 0 < b.byteLength ∧ Storable bin b ∧ AllStorable false l

end Gltf.Spec
