/-
Specification of the text of JSON values: the grammar of RFC 8259 together with the value that a text stands for,
written without reference to the parser.
-/
import Verif.Spec.Json
import Verif.Spec.Path
import Verif.Spec.Glb

namespace Gltf.Spec

/-- Four hexadecimal digits and their value. -/
def Hex4 (h : Bytes) (n : Nat) : Prop :=
  ∃ a b c d x y z w, h = [a, b, c, d] ∧ HexDigit a x ∧ HexDigit b y ∧ HexDigit c z ∧ HexDigit d w ∧
    n = x * 16 ^ 3 + y * 16 ^ 2 + z * 16 + w

/-- The escapes of one character: what follows the backslash, and the character (RFC 8259, section 7). -/
def shortEscapes : List (UInt8 × UInt8) :=
  [(34, 34), (92, 92), (47, 47), (98, 8), (102, 12), (110, 10), (114, 13), (116, 9)]

/-- U+FFFD in UTF-8. -/
def replacementChar : Bytes := String.utf8EncodeChar (Char.ofNat 0xFFFD)

/-- The contents of a string and the text of its literal between the quotes. If `lax` holds, halves of surrogate
pairs and bytes that are not UTF-8 are allowed, too, and stand for U+FFFD; RFC 8259 leaves them open. -/
inductive Chars (lax : Bool) : Bytes → Bytes → Prop where
  | nil : Chars lax [] []
  | char (c : Char) {s t : Bytes} : 0x20 ≤ c.toNat → c ≠ '"' → c ≠ '\\' → Chars lax s t →
      Chars lax (String.utf8EncodeChar c ++ s) (String.utf8EncodeChar c ++ t)
  | short {e c : UInt8} {s t : Bytes} : (e, c) ∈ shortEscapes → Chars lax s t → Chars lax (c :: s) (92 :: e :: t)
  | hex (c : Char) {h s t : Bytes} : Hex4 h c.toNat → Chars lax s t →
      Chars lax (String.utf8EncodeChar c ++ s) (b!"\\u" ++ h ++ t)
  | pair (c : Char) {h1 h2 s t : Bytes} {x y : Nat} : x < 1024 → y < 1024 → Hex4 h1 (0xD800 + x) → Hex4 h2 (0xDC00 + y) →
      c.toNat = 0x10000 + 1024 * x + y → Chars lax s t →
      Chars lax (String.utf8EncodeChar c ++ s) (b!"\\u" ++ h1 ++ b!"\\u" ++ h2 ++ t)
  | half {h s t : Bytes} {n : Nat} : lax = true → 0xD800 ≤ n → n < 0xE000 → Hex4 h n → Chars lax s t →
      Chars lax (replacementChar ++ s) (b!"\\u" ++ h ++ t)
  | stray {b : UInt8} {s t : Bytes} : lax = true → 0x80 ≤ b → Chars lax s t → Chars lax (replacementChar ++ s) (b :: t)

/-- A value, or the elements of an array, or the members of an object. -/
inductive Item where
  | value (v : JVal)
  | elems (l : List JVal)
  | members (l : List (Bytes × JVal))

/-- The grammar of RFC 8259: what a text stands for. -/
inductive Text (lax : Bool) : Item → Bytes → Prop where
  | null : Text lax (.value .null) b!"null"
  | true : Text lax (.value (.bool true)) b!"true"
  | false : Text lax (.value (.bool false)) b!"false"
  | num {lit : Bytes} : IsNumber lit → Text lax (.value (.num lit)) lit
  | str {s t : Bytes} : Chars lax s t → Text lax (.value (.str s)) (b!"\"" ++ t ++ b!"\"")
  | arrNil {w : Bytes} : IsBlank w → Text lax (.value (.arr [])) (b!"[" ++ w ++ b!"]")
  | arr {l : List JVal} {t : Bytes} : Text lax (.elems l) t → Text lax (.value (.arr l)) (b!"[" ++ t ++ b!"]")
  | objNil {w : Bytes} : IsBlank w → Text lax (.value (.obj [])) (b!"{" ++ w ++ b!"}")
  | obj {l : List (Bytes × JVal)} {t : Bytes} : Text lax (.members l) t → Text lax (.value (.obj l)) (b!"{" ++ t ++ b!"}")
  | elem {v : JVal} {w t w' : Bytes} : IsBlank w → IsBlank w' → Text lax (.value v) t → Text lax (.elems [v]) (w ++ t ++ w')
  | elems {v : JVal} {l : List JVal} {w t w' r : Bytes} : IsBlank w → IsBlank w' → Text lax (.value v) t → Text lax (.elems l) r →
      Text lax (.elems (v :: l)) (w ++ t ++ w' ++ b!"," ++ r)
  | member {k : Bytes} {v : JVal} {w kt w1 w2 t w' : Bytes} : IsBlank w → IsBlank w1 → IsBlank w2 → IsBlank w' → Chars lax k kt →
      Text lax (.value v) t →
      Text lax (.members [(k, v)]) (w ++ b!"\"" ++ kt ++ b!"\"" ++ w1 ++ b!":" ++ w2 ++ t ++ w')
  | members {k : Bytes} {v : JVal} {l : List (Bytes × JVal)} {w kt w1 w2 t w' r : Bytes} : IsBlank w → IsBlank w1 → IsBlank w2 →
      IsBlank w' → Chars lax k kt → Text lax (.value v) t → Text lax (.members l) r →
      Text lax (.members ((k, v) :: l)) (w ++ b!"\"" ++ kt ++ b!"\"" ++ w1 ++ b!":" ++ w2 ++ t ++ w' ++ b!"," ++ r)

/-- The bytes start with white space and the text of a value, and may go on. -/
def StartsWith (lax : Bool) (v : JVal) (data : Bytes) : Prop :=
  ∃ w t rest, IsBlank w ∧ Text lax (.value v) t ∧ data = w ++ t ++ rest

/-- A text or GLB file with the JSON of a value. -/
def FileOf (v : JVal) (data : Bytes) : Prop :=
  StartsWith false v data ∨ ∃ json bin, IsGlb json bin data ∧ StartsWith false v json

/-- The bytes of a file that should be JSON: all, or those of the first chunk of a GLB file. -/
def jsonPart (data : Bytes) : Bytes :=
  if b!"glTF" <+: data then (data.drop 20).take (leNat ((data.drop 12).take 4)) else data

/-- The JSON of a file is nested at most `n` deep. -/
def NestedLe (n : Nat) (data : Bytes) : Prop := ∀ v, StartsWith true v (jsonPart data) → DepthLe n v

end Gltf.Spec
