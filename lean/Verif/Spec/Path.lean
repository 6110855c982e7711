/-
Specification: paths that stay below a directory, and URIs with a scheme.
-/
import Verif.Go.Prelude

namespace Gltf.Spec

/-- A path with the given components. -/
def IsPath (p : Bytes) (cs : List Bytes) : Prop := cs ≠ [] ∧ (∀ c ∈ cs, (47 : UInt8) ∉ c) ∧ p = [47].intercalate cs

/-- The component is the name of a file or directory. -/
abbrev IsName (c : Bytes) : Prop := c ≠ [] ∧ c ≠ b!"." ∧ c ≠ b!".."

/-- Following the components from some directory never leads above it: in no prefix are there more steps up
than down. -/
def NeverAbove (cs : List Bytes) : Prop :=
  ∀ k, (cs.take k).countP (fun c => c = b!"..") ≤ (cs.take k).countP (fun c => IsName c)

/-- The path is relative, not empty, and does not climb out of the directory it starts from. -/
def Local (p : Bytes) : Prop := p ≠ [] ∧ p.head? ≠ some 47 ∧ ∃ cs, IsPath p cs ∧ NeverAbove cs

/-- A letter. -/
def Letter (c : UInt8) : Prop := (97 ≤ c ∧ c ≤ 122) ∨ (65 ≤ c ∧ c ≤ 90)

/-- The text starts with a scheme and a colon (RFC 3986). -/
def HasScheme (s : Bytes) : Prop :=
  ∃ c t r, s = c :: t ++ 58 :: r ∧ Letter c ∧ ∀ d ∈ t, Letter d ∨ (48 ≤ d ∧ d ≤ 57) ∨ d = 43 ∨ d = 45 ∨ d = 46

/-- Characters without meaning in paths and URIs. -/
def PlainChar (c : UInt8) : Prop := 32 ≤ c ∧ c ≠ 127 ∧ c ≠ 47 ∧ c ≠ 92 ∧ c ≠ 37 ∧ c ≠ 63 ∧ c ≠ 35 ∧ c ≠ 58

/-- A relative path of names without special characters. -/
def PlainPath (p : Bytes) : Prop := ∃ cs, IsPath p cs ∧ ∀ c ∈ cs, IsName c ∧ ∀ x ∈ c, PlainChar x

/-- A hexadecimal digit and its value. -/
def HexDigit (c : UInt8) (n : Nat) : Prop :=
  (48 ≤ c ∧ c ≤ 57 ∧ c.toNat = 48 + n) ∨ (65 ≤ c ∧ c ≤ 70 ∧ c.toNat + 10 = 65 + n) ∨ (97 ≤ c ∧ c ≤ 102 ∧ c.toNat + 10 = 97 + n)

/-- The percent-encoded text and the text it stands for (RFC 3986, section 2.1). -/
inductive Escaped : Bytes → Bytes → Prop where
  | nil : Escaped [] []
  | char {c : UInt8} {s t : Bytes} : c ≠ 37 → Escaped s t → Escaped (c :: s) (c :: t)
  | hex {a b d : UInt8} {x y : Nat} {s t : Bytes} : HexDigit a x → HexDigit b y → d.toNat = 16 * x + y → Escaped s t →
      Escaped (37 :: a :: b :: s) (d :: t)

/-- A relative path of names without special characters other than percent escapes, and the name of the file it
stands for. -/
def UriPath (u name : Bytes) : Prop :=
  (∃ cs, IsPath u cs ∧ ∀ c ∈ cs, IsName c ∧ ∀ x ∈ c, x = 37 ∨ PlainChar x) ∧ Escaped u name

/-- The beginning of the data URIs of buffers. -/
def OctetUri (s : Bytes) : Prop := b!"data:application/octet-stream;base64" <+: s

/-- A URI that stands for the name of a file below the directory. -/
def FileUri (u name : Bytes) : Prop := UriPath u name ∧ Local name ∧ ¬ OctetUri name

/-- Removing the dot segments of a path (RFC 3986, section 5.2.4): what is left of the segments. -/
def removeDots (cs : List Bytes) : List Bytes :=
  (cs.foldl (fun stack c => if c = b!"." then stack else if c = b!".." then stack.tail else c :: stack) []).reverse

/-- A relative reference without scheme, query and fragment, whose last segment is a name, and the name of the file that it
resolves to from the directory (RFC 3986, section 5.2), without percent escapes. -/
def Resolves (u name : Bytes) : Prop :=
  ∃ cs, IsPath u cs ∧ (∀ c ∈ cs, c ≠ [] ∧ ∀ x ∈ c, x = 37 ∨ PlainChar x) ∧ NeverAbove cs ∧ (∃ l, cs.getLast? = some l ∧ IsName l) ∧
    Escaped ([47].intercalate (removeDots cs)) name

/-- The only dot segments of the path are single dots, no two of them next to each other. -/
def SingleDots (u : Bytes) : Prop :=
  ∃ cs, IsPath u cs ∧ b!".." ∉ cs ∧ ∀ i, cs[i]? = some b!"." → cs[i + 1]? ≠ some b!"."

/-- A reference that resolves to the name of a file below the directory, with no other dot segments than these. -/
def FileRef (u name : Bytes) : Prop := Resolves u name ∧ SingleDots u ∧ Local name ∧ ¬ OctetUri name

/-- How a URI is read back: relative paths are replaced by what they stand for, other URIs are the same. -/
def SameUri (u u' : Bytes) : Prop := UriPath u u' ∨ (¬ ∃ name, UriPath u name) ∧ u' = u

end Gltf.Spec
