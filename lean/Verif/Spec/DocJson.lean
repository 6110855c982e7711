/-
Specification: which Go values have a JSON form that can be read back.
-/
import Verif.Spec.Json
import Verif.Model.JsonCodec

namespace Gltf.Spec

/-- The range of Go's `int`. -/
def IntOk (n : Int) : Prop := -9223372036854775808 ≤ n ∧ n < 9223372036854775808

/-- What is assumed of the text form of numbers: finite numbers are written as JSON numbers that read back
as the same number. -/
structure FloatLaws (io : FloatIO) : Prop where
  number : ∀ x : F64, x.finite = true → IsNumber (io.fmt x)
  parse_fmt : ∀ x : F64, x.finite = true → io.parse (io.fmt x) = some x

/-- The keys of a map: sorted and in UTF-8. -/
structure IsMap {α : Type} (m : List (Bytes × α)) : Prop where
  sorted : m.Pairwise fun a b => a.1 < b.1
  utf8 : ∀ p ∈ m, IsUtf8 p.1

/-- Values of type `any` nested at most `n` deep that JSON can express. -/
inductive AnyOk : Nat → GoAny → Prop where
  | null (n : Nat) : AnyOk n .null
  | bool (n : Nat) (b : Bool) : AnyOk n (.bool b)
  | num (n : Nat) (x : F64) : x.finite = true → AnyOk n (.num x)
  | str (n : Nat) (s : Bytes) : IsUtf8 s → AnyOk n (.str s)
  | arr (n : Nat) (l : List GoAny) : (∀ a ∈ l, AnyOk n a) → AnyOk (n + 1) (.arr l)
  | obj (n : Nat) (m : List (Bytes × GoAny)) : IsMap m → (∀ p ∈ m, AnyOk n p.2) → AnyOk (n + 1) (.obj m)

/-- Extensions whose payloads are nested at most `n` deep, and that are what decoding their JSON form gives:
raw JSON for extensions that are not registered (or fail to decode), otherwise the registered type. -/
structure ExtOk (r : Registry) (n : Nat) (m : Extensions) : Prop where
  keys : IsMap m
  payload : ∀ p ∈ m, ∃ v, p.2.enc = .ok v ∧ JsonOk v ∧ DepthLe n v ∧ r.decode p.1 v = p.2

/-- Reading a number gives a finite one, or fails. -/
def FiniteParse (io : FloatIO) : Prop := ∀ s x, io.parse s = some x → x.finite = true

/-- The registered types of extensions are written as valid JSON, not deeper than `n`, and reading that gives a value
that is written the same. -/
def LawfulRegistry (r : Registry) (n : Nat) : Prop :=
  ∀ key f, r.query key = some f → ∀ v, JsonOk v → DepthLe n v → ∀ x, f v = .ok x →
    ∃ w, x = .ok w ∧ JsonOk w ∧ DepthLe n w ∧ f w = .ok (.ok w)

end Gltf.Spec
