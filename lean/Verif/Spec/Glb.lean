/-
Specification of the GLB container of glTF 2.0.
-/
import Verif.Go.Prelude

namespace Gltf.Spec

/-- The number that bytes stand for, the least significant byte first. -/
def leNat : Bytes → Nat
  | [] => 0
  | b :: s => b.toNat + 256 * leNat s

/-- Four bytes that stand for a number. -/
def IsLe4 (s : Bytes) (n : Nat) : Prop := s.length = 4 ∧ leNat s = n

/-- A chunk: length, type and content; the content is padded to a multiple of four bytes. -/
def IsChunk (kind : Bytes) (fill : UInt8) (content s : Bytes) : Prop :=
  ∃ len k, s = len ++ kind ++ content ++ List.replicate k fill ∧ k < 4 ∧ (content.length + k) % 4 = 0 ∧
    IsLe4 len (content.length + k)

/-- A GLB file with a JSON chunk and possibly a binary chunk, and nothing else. -/
def IsGlb (json : Bytes) (bin : Option Bytes) (s : Bytes) : Prop :=
  ∃ version total c1 c2, s = b!"glTF" ++ version ++ total ++ c1 ++ c2 ∧ IsLe4 version 2 ∧ IsLe4 total s.length ∧
    IsChunk b!"JSON" 32 json c1 ∧
    match bin with
    | none => c2 = []
    | some data => IsChunk b!"BIN\x00" 0 data c2

end Gltf.Spec
