/-
What base64 (RFC 4648, with padding) means, in terms of numbers written in base 64 and base 256.
-/
import Verif.Go.Prelude

namespace Gltf.Spec

/-- The alphabet of RFC 4648. -/
def base64Alphabet : Bytes := b!"ABCDEFGHIJKLMNOPQRSTUVWXYZabcdefghijklmnopqrstuvwxyz0123456789+/"

/-- The number with the given digits, most significant first. -/
def numeral (base : Nat) : List Nat → Nat
  | [] => 0
  | d :: ds => d * base ^ ds.length + numeral base ds

/-- `text` is the base64 form of `data`: digits of the alphabet followed by `k` padding characters, in
groups of four, and the digits are those of the number with the bytes of `data`, followed by `2 * k`
bits that do not matter. -/
def IsBase64 (text data : Bytes) : Prop :=
  ∃ (digits : List Nat) (k : Nat), k ≤ 2 ∧ (∀ d ∈ digits, d < 64) ∧
    text = digits.map (fun d => base64Alphabet.getD d 0) ++ List.replicate k 61 ∧
    3 * (digits.length + k) = 4 * (data.length + k) ∧
    numeral 256 (data.map (·.toNat)) = numeral 64 digits / 4 ^ k

end Gltf.Spec
