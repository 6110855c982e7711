/-
Specification of JSON texts: the grammar of RFC 8259, written without reference to the model.
-/
import Verif.Model.Json

namespace Gltf.Spec

/-- Decimal digits, at least one. -/
def IsDigits (s : Bytes) : Prop := s ≠ [] ∧ ∀ c ∈ s, 48 ≤ c ∧ c ≤ 57

/-- The grammar of numbers: sign, integer part without leading zeros, fraction, exponent. -/
def IsNumber (s : Bytes) : Prop :=
  ∃ sign int frac exp : Bytes, s = sign ++ int ++ frac ++ exp ∧
    (sign = [] ∨ sign = b!"-") ∧
    (int = b!"0" ∨ (IsDigits int ∧ int.head? ≠ some 48)) ∧
    (frac = [] ∨ ∃ ds, IsDigits ds ∧ frac = b!"." ++ ds) ∧
    (exp = [] ∨ ∃ e s ds, (e = b!"e" ∨ e = b!"E") ∧ (s = [] ∨ s = b!"+" ∨ s = b!"-") ∧ IsDigits ds ∧ exp = e ++ s ++ ds)

/-- Text in UTF-8: the concatenation of the encodings of some characters. -/
def IsUtf8 (s : Bytes) : Prop := ∃ cs : List Char, s = cs.flatMap String.utf8EncodeChar

/-- White space. -/
def IsBlank (s : Bytes) : Prop := ∀ c ∈ s, c = 32 ∨ c = 9 ∨ c = 10 ∨ c = 13

/-- Strings are UTF-8 and numbers follow the grammar. -/
inductive JsonOk : JVal → Prop where
  | null : JsonOk .null
  | bool (b : Bool) : JsonOk (.bool b)
  | num (lit : Bytes) : IsNumber lit → JsonOk (.num lit)
  | str (s : Bytes) : IsUtf8 s → JsonOk (.str s)
  | arr (l : List JVal) : (∀ v ∈ l, JsonOk v) → JsonOk (.arr l)
  | obj (l : List (Bytes × JVal)) : (∀ m ∈ l, IsUtf8 m.1) → (∀ m ∈ l, JsonOk m.2) → JsonOk (.obj l)

/-- Arrays and objects are nested at most `n` deep. -/
inductive DepthLe : Nat → JVal → Prop where
  | null (n : Nat) : DepthLe n .null
  | bool (n : Nat) (b : Bool) : DepthLe n (.bool b)
  | num (n : Nat) (lit : Bytes) : DepthLe n (.num lit)
  | str (n : Nat) (s : Bytes) : DepthLe n (.str s)
  | arr (n : Nat) (l : List JVal) : (∀ v ∈ l, DepthLe n v) → DepthLe (n + 1) (.arr l)
  | obj (n : Nat) (l : List (Bytes × JVal)) : (∀ m ∈ l, DepthLe n m.2) → DepthLe (n + 1) (.obj l)

end Gltf.Spec
