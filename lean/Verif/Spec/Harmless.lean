/-
Specification of the JSON that `Decode` must at least digest: no null buffers and images, and no strange lengths. It
speaks of the JSON of the file and not of the document that is read from it.
-/
import Verif.Spec.Schema
import Verif.Spec.JsonText

namespace Gltf.Spec

/-- encoding/json finds the field of a member whatever the case of its letters; the Kelvin sign and the long s are
taken for k and s. -/
inductive SameName : Bytes → Bytes → Prop
  | nil : SameName [] []
  | same {c : UInt8} {k n : Bytes} : SameName k n → SameName (c :: k) (c :: n)
  | upper {c : UInt8} {k n : Bytes} : 97 ≤ c → c ≤ 122 → SameName k n → SameName ((c - 32) :: k) (c :: n)
  | lower {c : UInt8} {k n : Bytes} : 65 ≤ c → c ≤ 90 → SameName k n → SameName ((c + 32) :: k) (c :: n)
  | kelvin {c : UInt8} {k n : Bytes} : c = 75 ∨ c = 107 → SameName k n → SameName (0xE2 :: 0x84 :: 0xAA :: k) (c :: n)
  | longS {c : UInt8} {k n : Bytes} : c = 83 ∨ c = 115 → SameName k n → SameName (0xC5 :: 0xBF :: k) (c :: n)

/-- `x` is what the object `v` has under a name. -/
def Member (v : JVal) (name : Bytes) (x : JVal) : Prop := ∃ ms k, v = .obj ms ∧ (k, x) ∈ ms ∧ SameName k name

/-- `x` is an element of the list that the object `v` has under a name. -/
def Element (v : JVal) (name : Bytes) (x : JVal) : Prop := ∃ l, Member v name (.arr l) ∧ x ∈ l

/-- The buffers and images are not null, and the lengths of buffers are between 0 and 2^48. -/
structure Harmless (v : JVal) : Prop where
  buffer : ¬ Element v b!"buffers" .null
  image : ¬ Element v b!"images" .null
  length : ∀ b lit n, Element v b!"buffers" b → Member b b!"byteLength" (.num lit) → IntLit lit n → 0 ≤ n ∧ n ≤ 2 ^ 48

end Gltf.Spec
