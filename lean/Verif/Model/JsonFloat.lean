/-
A text form of numbers that satisfies what the proofs assume of strconv: it shows that the assumptions
can be met. It is not the shortest form that Go writes: every number is written exactly, in multiples
of 10^-1074. The reader is that of Go: the nearest float64, ties to even, and an error for numbers that
are too large.
-/
import Verif.Model.JsonText
import Verif.Model.JsonCodec

namespace Gltf

/-- The number of binary places of the smallest number, 2^-1074, which is also the number of its decimal places. -/
def floatPlaces : Nat := 1074

/-- Exact decimal form of a finite number. -/
def exactFmt (x : F64) : Bytes :=
  (if x.neg then b!"-" else []) ++ printNat (decodeMag 52 x.mag * 5 ^ floatPlaces) ++ b!"e-" ++ printNat floatPlaces

/-- Exponent of a literal. -/
def literalExp : Bytes → Int
  | [] => 0
  | _ :: 45 :: ds => -(digitsValue ds : Int)
  | _ :: 43 :: ds => (digitsValue ds : Int)
  | _ :: ds => (digitsValue ds : Int)

/-- The magnitude of a literal without sign: `m * 10 ^ e`. -/
def literalParts (s : Bytes) : Nat × Int :=
  let int := s.takeWhile isDigit
  let rest := s.dropWhile isDigit
  match rest with
  | 46 :: rest =>
    let frac := rest.takeWhile isDigit
    (digitsValue (int ++ frac), literalExp (rest.dropWhile isDigit) - (frac.length : Int))
  | _ => (digitsValue int, literalExp rest)

/-- The nearest float to `m * 10 ^ e`. -/
def nearest (neg : Bool) (m : Nat) (e : Int) : Option F64 :=
  let mag := match e with
    | .ofNat k => roundMag 52 (m * 10 ^ k * 2 ^ floatPlaces) 1
    | .negSucc k => roundMag 52 (m * 2 ^ floatPlaces) (10 ^ (k + 1))
  if mag < inf64 then some (F64.make neg mag) else none

/-- `strconv.ParseFloat(s, 64)` of a JSON number. -/
def parseFloat (s : Bytes) : Option F64 :=
  match s with
  | 45 :: s => nearest true (literalParts s).1 (literalParts s).2
  | s => nearest false (literalParts s).1 (literalParts s).2

/-- Exact text form of numbers. -/
def exactFloatIO : FloatIO := ⟨exactFmt, parseFloat⟩

end Gltf
