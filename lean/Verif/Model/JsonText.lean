/-
The text form of JSON: model of the printer and the scanner of encoding/json (Go standard library).

Simplifications: printing works on trees instead of Go values (`json.Indent` and `json.Compact`, which
edit text, are the same printer with other white space). The scanner of Go is a state machine that is
fed byte by byte and remembers where the value ends; here it is a recursive parser of the bytes read so
far, which answers `more` when they are the beginning of a value.
-/
import Verif.Model.Json

namespace Gltf

/-! ### Strings -/

/-- A continuation byte of UTF-8. -/
def isCont (b : UInt8) : Bool := 0x80 ≤ b && b ≤ 0xBF

/-- unicode/utf8, `acceptRanges`: the second byte of a sequence of three or four bytes. -/
def isSecond (b0 b1 : UInt8) : Bool :=
  (if b0 = 0xE0 then 0xA0 else if b0 = 0xF0 then 0x90 else 0x80) ≤ b1 &&
  b1 ≤ (if b0 = 0xED then 0x9F else if b0 = 0xF4 then 0x8F else 0xBF)

/-- unicode/utf8, `DecodeRune` on a sequence that does not start with an ASCII byte: the number of bytes
after the first one, or 0 if the sequence is not valid. -/
def seqLen : Bytes → Nat
  | b0 :: b1 :: rest =>
    if 0xC2 ≤ b0 ∧ b0 ≤ 0xDF then (if isCont b1 then 1 else 0)
    else if 0xE0 ≤ b0 ∧ b0 ≤ 0xEF then
      match rest with
      | b2 :: _ =>
        if isSecond b0 b1 ∧ isCont b2 then 2 else 0
      | [] => 0
    else if 0xF0 ≤ b0 ∧ b0 ≤ 0xF4 then
      match rest with
      | b2 :: b3 :: _ =>
        if isSecond b0 b1 ∧ isCont b2 ∧ isCont b3 then 3 else 0
      | _ => 0
    else 0
  | _ => 0

/-- unicode/utf8, `EncodeRune` for a number below 0x110000 that is not a surrogate. -/
def encodeRune (r : Nat) : Bytes :=
  if r < 0x80 then [UInt8.ofNat r]
  else if r < 0x800 then [UInt8.ofNat (0xC0 + r / 64), UInt8.ofNat (0x80 + r % 64)]
  else if r < 0x10000 then
    [UInt8.ofNat (0xE0 + r / 4096), UInt8.ofNat (0x80 + r / 64 % 64), UInt8.ofNat (0x80 + r % 64)]
  else
    [UInt8.ofNat (0xF0 + r / 262144), UInt8.ofNat (0x80 + r / 4096 % 64), UInt8.ofNat (0x80 + r / 64 % 64),
     UInt8.ofNat (0x80 + r % 64)]

/-- The encoding of U+FFFD. -/
def replacement : Bytes := [0xEF, 0xBF, 0xBD]

/-- A hexadecimal digit. -/
def hexDigit (n : Nat) : UInt8 := if n < 10 then UInt8.ofNat (48 + n) else UInt8.ofNat (87 + n)

/-- encoding/json, `appendString` with HTML escaping, for an ASCII byte. -/
def escByte (b : UInt8) : Bytes :=
  if b = 34 then b!"\\\""
  else if b = 92 then b!"\\\\"
  else if b = 8 then b!"\\b"
  else if b = 12 then b!"\\f"
  else if b = 10 then b!"\\n"
  else if b = 13 then b!"\\r"
  else if b = 9 then b!"\\t"
  else if b < 32 ∨ b = 60 ∨ b = 62 ∨ b = 38 then
    b!"\\u00" ++ [hexDigit (b.toNat / 16), hexDigit (b.toNat % 16)]
  else [b]

/-- encoding/json, `appendString` with HTML escaping: what is printed for the bytes that start with `b`
and continue with `s`, and how many bytes of `s` that covers. -/
def escHead (b : UInt8) (s : Bytes) : Bytes × Nat :=
  if b < 0x80 then (escByte b, 0)
  else
    match seqLen (b :: s) with
    | 0 => (b!"\\ufffd", 0)
    | n + 1 =>
      if b = 0xE2 ∧ s.take 2 = [0x80, 0xA8] then (b!"\\u2028", n + 1)
      else if b = 0xE2 ∧ s.take 2 = [0x80, 0xA9] then (b!"\\u2029", n + 1)
      else (b :: s.take (n + 1), n + 1)

/-- encoding/json, `appendString`: the contents of a string literal. The first `skip` bytes are done. -/
def escape : (skip : Nat) → Bytes → Bytes
  | _, [] => []
  | k + 1, _ :: s => escape k s
  | 0, b :: s => (escHead b s).1 ++ escape (escHead b s).2 s

/-- A string literal. -/
def printStr (s : Bytes) : Bytes := 34 :: (escape 0 s ++ [34])

/-! ### Printing -/

/-- White space between tokens: before a member or element (or the end of the collection) at a depth,
and after a colon. -/
structure Layout where
  newline : Nat → Bytes
  colon : Bytes

/-- `json.Marshal`. -/
def compact : Layout := ⟨fun _ => [], []⟩

/-- `json.MarshalIndent`. -/
def indented (pre indent : Bytes) : Layout :=
  ⟨fun n => 10 :: (pre ++ (List.replicate n indent).flatten), [32]⟩

mutual
/-- A value at a depth. -/
def JVal.print (L : Layout) (n : Nat) : JVal → Bytes
  | .null => b!"null"
  | .bool true => b!"true"
  | .bool false => b!"false"
  | .num lit => lit
  | .str s => printStr s
  | .arr [] => b!"[]"
  | .arr (v :: l) => b!"[" ++ L.newline (n + 1) ++ v.print L (n + 1) ++ printElems L (n + 1) l ++ L.newline n ++ b!"]"
  | .obj [] => b!"{}"
  | .obj ((k, v) :: l) => b!"{" ++ L.newline (n + 1) ++ printStr k ++ b!":" ++ L.colon ++ v.print L (n + 1)
      ++ printMembers L (n + 1) l ++ L.newline n ++ b!"}"
/-- The elements after the first. -/
def printElems (L : Layout) (n : Nat) : List JVal → Bytes
  | [] => []
  | v :: l => b!"," ++ L.newline n ++ v.print L n ++ printElems L n l
/-- The members after the first. -/
def printMembers (L : Layout) (n : Nat) : List (Bytes × JVal) → Bytes
  | [] => []
  | (k, v) :: l => b!"," ++ L.newline n ++ printStr k ++ b!":" ++ L.colon ++ v.print L n ++ printMembers L n l
end

/-! ### Parsing -/

/-- Result of parsing the bytes read so far. -/
inductive PRes (α : Type) where
  /-- the value and the bytes after it -/
  | ok (a : α) (rest : Bytes)
  /-- the bytes are the beginning of something -/
  | more
  /-- syntax error -/
  | bad
deriving DecidableEq

def PRes.map {α β : Type} (f : α → β) : PRes α → PRes β
  | .ok a rest => .ok (f a) rest
  | .more => .more
  | .bad => .bad

def PRes.then {α β : Type} (x : PRes α) (f : α → Bytes → PRes β) : PRes β :=
  match x with
  | .ok a rest => f a rest
  | .more => .more
  | .bad => .bad

/-- The value of a hexadecimal digit. -/
def hexValue (b : UInt8) : Option Nat :=
  if 48 ≤ b ∧ b ≤ 57 then some (b.toNat - 48)
  else if 97 ≤ b ∧ b ≤ 102 then some (b.toNat - 87)
  else if 65 ≤ b ∧ b ≤ 70 then some (b.toNat - 55)
  else none

/-- Four hexadecimal digits. -/
def hex4 (a b c d : UInt8) : Option Nat := do
  let a ← hexValue a
  let b ← hexValue b
  let c ← hexValue c
  let d ← hexValue d
  return a * 4096 + b * 256 + c * 16 + d

/-- The escapes of one character. -/
def simpleEscape (c : UInt8) : Option UInt8 :=
  if c = 34 ∨ c = 92 ∨ c = 47 then some c
  else if c = 98 then some 8
  else if c = 102 then some 12
  else if c = 110 then some 10
  else if c = 114 then some 13
  else if c = 116 then some 9
  else none

/-- One step through a string literal. -/
inductive StrStep where
  /-- the closing quote -/
  | close
  /-- contents, and how many bytes after the first one they cover -/
  | emit (out : Bytes) (n : Nat)
  /-- more bytes are needed -/
  | more
  /-- syntax error -/
  | bad

/-- The bytes could be the beginning of `\uXXXX`. -/
def startsHex4 : Bytes → Bool
  | [] => true
  | [c] => c = 92
  | c :: d :: hs => c = 92 && d = 117 && hs.length < 4 && hs.all fun h => (hexValue h).isSome

/-- `unquote`: a `\uXXXX` escape with value `r`, followed by `s`. A surrogate pair is one character; a
lone surrogate is replaced. -/
def runeStep (r : Nat) (s : Bytes) : StrStep :=
  if r < 0xD800 ∨ 0xE000 ≤ r then .emit (encodeRune r) 5
  else if 0xDC00 ≤ r then .emit replacement 5
  else if startsHex4 s then .more
  else
    match s with
    | c1 :: c2 :: g1 :: g2 :: g3 :: g4 :: _ =>
      match hex4 g1 g2 g3 g4 with
      | some r2 =>
        if c1 = 92 ∧ c2 = 117 ∧ 0xDC00 ≤ r2 ∧ r2 < 0xE000 then
          .emit (encodeRune (0x10000 + (r - 0xD800) * 1024 + (r2 - 0xDC00))) 11
        else .emit replacement 5
      | none => .emit replacement 5
    | _ => .emit replacement 5

/-- The scanner states after a backslash, and `unquote`. -/
def escStep : Bytes → StrStep
  | [] => .more
  | c :: s =>
    match simpleEscape c with
    | some e => .emit [e] 1
    | none =>
      if c ≠ 117 then .bad
      else
        match s with
        | h1 :: h2 :: h3 :: h4 :: s2 =>
          match hex4 h1 h2 h3 h4 with
          | none => .bad
          | some r => runeStep r s2
        | _ => if s.all fun h => (hexValue h).isSome then .more else .bad

/-- The number of bytes that must follow the first byte of a UTF-8 sequence. -/
def seqNeed (b : UInt8) : Nat :=
  if 0xC2 ≤ b ∧ b ≤ 0xDF then 1
  else if 0xE0 ≤ b ∧ b ≤ 0xEF then 2
  else if 0xF0 ≤ b ∧ b ≤ 0xF4 then 3
  else 0

/-- The string states of the scanner and `unquote`, at byte `b` followed by `s`. Invalid UTF-8 is
replaced. -/
def strStep (b : UInt8) (s : Bytes) : StrStep :=
  if b = 34 then .close
  else if b = 92 then escStep s
  else if b < 32 then .bad
  else if b < 0x80 then .emit [b] 0
  else
    match seqLen (b :: s) with
    | 0 => if s.length < seqNeed b ∧ s.all isCont then .more else .emit replacement 0
    | n + 1 => .emit (b :: s.take (n + 1)) (n + 1)

/-- The rest of a string literal after the opening quote. The first `k` bytes are done. -/
def parseStr : (k : Nat) → Bytes → PRes Bytes
  | _, [] => .more
  | k + 1, _ :: s => parseStr k s
  | 0, b :: s =>
    match strStep b s with
    | .close => .ok [] s
    | .emit out n => (parseStr n s).map (out ++ ·)
    | .more => .more
    | .bad => .bad

/-- A decimal digit. -/
def isDigit (b : UInt8) : Bool := 48 ≤ b && b ≤ 57

/-- The digits at the beginning, at least one. -/
def parseDigits : Bytes → PRes Bytes
  | [] => .more
  | b :: s =>
    if isDigit b then
      if s.dropWhile isDigit = [] then .more else .ok (b :: s.takeWhile isDigit) (s.dropWhile isDigit)
    else .bad

/-- The exponent of a number, if any. -/
def parseExp : Bytes → PRes Bytes
  | [] => .more
  | b :: s =>
    if b = 101 ∨ b = 69 then
      match s with
      | [] => .more
      | c :: s1 =>
        if c = 43 ∨ c = 45 then (parseDigits s1).map fun ds => b :: c :: ds
        else (parseDigits s).map (b :: ·)
    else .ok [] (b :: s)

/-- The fraction of a number, if any. -/
def parseFrac : Bytes → PRes Bytes
  | [] => .more
  | b :: s => if b = 46 then (parseDigits s).map (b :: ·) else .ok [] (b :: s)

/-- The integer part of a number. -/
def parseInt : Bytes → PRes Bytes
  | [] => .more
  | b :: s => if b = 48 then (if s = [] then .more else .ok [48] s) else parseDigits (b :: s)

/-- A number. Bytes must follow it, otherwise it might be longer. -/
def parseNum (b : Bytes) : PRes Bytes :=
  let (sign, b1) := if b.head? = some 45 then ([45], b.drop 1) else ([], b)
  (parseInt b1).then fun i b2 =>
  (parseFrac b2).then fun f b3 =>
  (parseExp b3).then fun e b4 => .ok (sign ++ i ++ f ++ e) b4

/-- White space. -/
def isSpace (b : UInt8) : Bool := b = 32 || b = 9 || b = 10 || b = 13

/-- Skip white space. -/
def skipWs (b : Bytes) : Bytes := b.dropWhile isSpace

/-- A fixed word. -/
def parseWord (v : JVal) : Bytes → Bytes → PRes JVal
  | [], b => .ok v b
  | _ :: _, [] => .more
  | c :: w, b :: s => if b = c then parseWord v w s else .bad

mutual
/-- A value. `d` is the nesting depth that is still allowed. The first argument bounds the recursion. -/
def parseValue : Nat → Nat → Bytes → PRes JVal
  | 0, _, _ => .more
  | f + 1, d, b =>
    match skipWs b with
    | [] => .more
    | c :: s =>
      if c = 123 then
        if d = 0 then .bad
        else
          match skipWs s with
          | [] => .more
          | c' :: s' => if c' = 125 then .ok (.obj []) s' else (parseMembers f (d - 1) s).map .obj
      else if c = 91 then
        if d = 0 then .bad
        else
          match skipWs s with
          | [] => .more
          | c' :: s' => if c' = 93 then .ok (.arr []) s' else (parseElems f (d - 1) s).map .arr
      else if c = 34 then (parseStr 0 s).map .str
      else if c = 116 then parseWord (.bool true) b!"rue" s
      else if c = 102 then parseWord (.bool false) b!"alse" s
      else if c = 110 then parseWord .null b!"ull" s
      else if c = 45 ∨ isDigit c then (parseNum (c :: s)).map .num
      else .bad
/-- Elements of an array up to the closing bracket. -/
def parseElems : Nat → Nat → Bytes → PRes (List JVal)
  | 0, _, _ => .more
  | f + 1, d, b =>
    (parseValue f d b).then fun v r =>
      match skipWs r with
      | [] => .more
      | c :: s =>
        if c = 44 then (parseElems f d s).map (v :: ·)
        else if c = 93 then .ok [v] s
        else .bad
/-- Members of an object up to the closing brace. -/
def parseMembers : Nat → Nat → Bytes → PRes (List (Bytes × JVal))
  | 0, _, _ => .more
  | f + 1, d, b =>
    match skipWs b with
    | [] => .more
    | c :: s =>
      if c ≠ 34 then .bad
      else
        (parseStr 0 s).then fun k r =>
          match skipWs r with
          | [] => .more
          | c :: s =>
            if c ≠ 58 then .bad
            else
              (parseValue f d s).then fun v r =>
                match skipWs r with
                | [] => .more
                | c :: s =>
                  if c = 44 then (parseMembers f d s).map ((k, v) :: ·)
                  else if c = 125 then .ok [(k, v)] s
                  else .bad
end

/-- encoding/json, `maxNestingDepth`. -/
def maxDepth : Nat := 10000

/-- The value at the beginning of the bytes read so far. Objects and arrays end with their closing
character; the end of other values is only seen with the next byte. -/
def parseTop (b : Bytes) : PRes JVal :=
  match parseValue (2 * b.length + 2) maxDepth b with
  | .ok (.obj l) rest => .ok (.obj l) rest
  | .ok (.arr l) rest => .ok (.arr l) rest
  | .ok v rest => if rest = [] then .more else .ok v rest
  | r => r

end Gltf
