/-
The text form of numbers that encoding/json writes: the shortest decimal number that reads back as the
same float64. Model of the float encoder of encoding/json and of strconv (Go standard library).

Simplification: strconv finds the digits from the interval of the numbers that read back; here the two
neighbours with one digit, two digits and so on are read back. If none with up to 17 digits reads back,
which does not happen, the exact form is used.
-/
import Verif.Model.JsonFloat

namespace Gltf

/-- Number of decimal digits, up to a few too many; `fuel` steps down remove those. -/
def digitCount (fuel : Nat) (n guess : Nat) : Nat :=
  match fuel with
  | 0 => guess
  | f + 1 => if n < 10 ^ (guess - 1) then digitCount f n (guess - 1) else guess

/-- Remove trailing zeros from a decimal mantissa. -/
def stripZeros : Nat → Nat → Int → Nat × Int
  | 0, m, e => (m, e)
  | f + 1, m, e => if m % 10 = 0 then stripZeros f (m / 10) (e + 1) else (m, e)

/-- strconv, `fmtF`: the number `m * 10 ^ e` without exponent. -/
def fmtF (m : Nat) (e : Int) : Bytes :=
  let ds := printNat m
  if 0 ≤ e then ds ++ (if m = 0 then [] else List.replicate e.toNat 48)
  else
    let k := (-e).toNat
    if k < ds.length then ds.take (ds.length - k) ++ b!"." ++ ds.drop (ds.length - k)
    else b!"0." ++ List.replicate (k - ds.length) 48 ++ ds

/-- strconv, `fmtE`, with the clean-up of the exponent by encoding/json. -/
def fmtE (m : Nat) (e : Int) : Bytes :=
  let ds := printNat m
  let x := e + (ds.length : Int) - 1
  ds.take 1 ++ (if ds.length = 1 then [] else b!"." ++ ds.drop 1) ++ b!"e" ++ (if x < 0 then b!"-" else b!"+") ++ printNat x.natAbs

/-- The text of a number with sign, in one of the two forms. -/
def floatText (neg sci : Bool) (m : Nat) (e : Int) : Bytes :=
  let (m, e) := stripZeros 17 m e
  (if neg then b!"-" else []) ++ if sci then fmtE m e else fmtF m e

/-- strconv, `roundShortest`: the first number of digits for which one of the two decimal neighbours reads
back, the closer one if both do. The number is `n * 10 ^ -1074` and `n` has `count` digits. -/
def shortest (x : F64) (n count : Nat) (sci : Bool) : Nat → Nat → Bytes
  | 0, _ => exactFmt x
  | f + 1, d =>
    let down := n / 10 ^ (count - d)
    let near := roundHalfEven n (10 ^ (count - d))
    let far := if near = down then down + 1 else down
    let e := (count : Int) - d - floatPlaces
    if parseFloat (floatText x.neg sci near e) = some x then floatText x.neg sci near e
    else if parseFloat (floatText x.neg sci far e) = some x then floatText x.neg sci far e
    else shortest x n count sci f (d + 1)

/-- The bits of the constants 1e-6 and 1e21. -/
def mag1e6 : Nat := 0x3EB0C6F7A0B5ED8D
@[inherit_doc mag1e6]
def mag1e21 : Nat := 0x444B1AE4D6E2EF50

/-- encoding/json, `floatEncoder.encode` for finite numbers. -/
def goFmt (x : F64) : Bytes :=
  if x.mag = 0 then (if x.neg then b!"-0" else b!"0")
  else
    let n := decodeMag 52 x.mag * 5 ^ floatPlaces
    let count := digitCount 4 n (n.log2 * 1233 / 4096 + 3)
    shortest x n count (decide (x.mag < mag1e6 ∨ mag1e21 ≤ x.mag)) 17 1

/-- How Go writes and reads numbers. -/
def goFloatIO : FloatIO := ⟨goFmt, parseFloat⟩

end Gltf
