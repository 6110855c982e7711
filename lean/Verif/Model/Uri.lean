/-
Model of the URI handling of decoder.go: `validateBufferURI` and `sanitizeURI`, with the parts of net/url,
strings and path/filepath (on Unix) that they use.
-/
import Verif.Model.JsonText

namespace Gltf

/-- What is left open of net/url: which authorities (`user@host:port`) are valid, and the text form of a
parsed URL with a scheme. -/
structure UrlLib where
  authorityOk : Bytes → Bool
  render : Bytes → Bytes

/-- The part before the first `c`. -/
def before (c : UInt8) (s : Bytes) : Bytes := s.takeWhile (· != c)

/-- The part after the first `c`, empty if there is none. -/
def after (c : UInt8) (s : Bytes) : Bytes := (s.dropWhile (· != c)).drop 1

/-- net/url, `unescape` of a path or fragment: an error unless every `%` is followed by two hexadecimal
digits. -/
def unescape : Bytes → Option Bytes
  | [] => some []
  | 37 :: a :: b :: s =>
    match hexValue a, hexValue b, unescape s with
    | some x, some y, some t => some (UInt8.ofNat (x * 16 + y) :: t)
    | _, _, _ => none
  | [37] => none
  | [37, _] => none
  | c :: s => (unescape s).map (c :: ·)

/-- A letter. -/
def isLetter (c : UInt8) : Bool := (97 ≤ c && c ≤ 122) || (65 ≤ c && c ≤ 90)

/-- A digit, `+`, `-` or `.`. -/
def isSchemeChar (c : UInt8) : Bool := (48 ≤ c && c ≤ 57) || c == 43 || c == 45 || c == 46

/-- net/url, `getScheme` after the first character. `none`: there is no scheme. -/
def schemeRest : Bytes → Option (Bytes × Bytes)
  | [] => none
  | c :: s =>
    if isLetter c || isSchemeChar c then (schemeRest s).map fun p => (c :: p.1, p.2)
    else if c = 58 then some ([], s)
    else none

/-- net/url, `getScheme`: the scheme and the rest; an error if the text begins with a colon. -/
def getScheme (s : Bytes) : Option (Bytes × Bytes) :=
  match s with
  | [] => some ([], [])
  | c :: t =>
    if isLetter c then
      match schemeRest t with
      | some (a, b) => some (c :: a, b)
      | none => some ([], s)
    else if c = 58 then none
    else some ([], s)

/-- A control character. -/
def isCtl (c : UInt8) : Bool := c < 32 || c == 127

/-- net/url, `parse`: whether the text without fragment is a valid URL, and its scheme (not lowered). -/
def parseUrl (U : UrlLib) (s : Bytes) : Option Bytes :=
  if s.any isCtl then none
  else if s = b!"*" then some []
  else
    match getScheme s with
    | none => none
    | some (scheme, rest) =>
      let rest := before 63 rest
      if rest.head? ≠ some 47 ∧ scheme ≠ [] then some scheme
      else if rest.head? ≠ some 47 ∧ (before 47 rest).contains 58 then none
      else
        let hasAuthority := (scheme ≠ [] ∨ rest.take 3 ≠ b!"///") ∧ rest.take 2 = b!"//"
        let authority := before 47 (rest.drop 2)
        let path := if hasAuthority then (rest.drop 2).drop authority.length else rest
        if hasAuthority ∧ U.authorityOk authority = false then none
        else if (unescape path).isNone then none
        else some scheme

/-- net/url, `Parse`: the scheme of a valid URL. -/
def urlParse (U : UrlLib) (s : Bytes) : Option Bytes :=
  match parseUrl U (before 35 s) with
  | none => none
  | some scheme => if (unescape (after 35 s)).isNone then none else some scheme

/-- The components of a path. -/
def components : Bytes → List Bytes
  | [] => [[]]
  | c :: s =>
    if c = 47 then [] :: components s
    else match components s with
      | [] => [[c]]
      | p :: ps => (c :: p) :: ps

/-- Components joined by slashes. -/
def joinPath : List Bytes → Bytes
  | [] => []
  | [p] => p
  | p :: ps => p ++ 47 :: joinPath ps

/-- One component of path/filepath `Clean` of a relative path; the stack has the last component first. -/
def cleanStep (stack : List Bytes) (p : Bytes) : List Bytes :=
  if p = [] ∨ p = b!"." then stack
  else if p = b!".." then
    match stack with
    | [] => [p]
    | q :: rest => if q = b!".." then p :: stack else rest
  else p :: stack

/-- path/filepath, `Clean` of a relative path. -/
def cleanPath (s : Bytes) : Bytes :=
  match (components s).foldl cleanStep [] with
  | [] => b!"."
  | stack => joinPath stack.reverse

/-- path/filepath, `IsLocal` on Unix. -/
def isLocal (s : Bytes) : Bool :=
  if s = [] ∨ s.head? = some 47 then false
  else
    let s := if (components s).any (fun p => p == b!"." || p == b!"..") then cleanPath s else s
    !(s == b!".." || b!"../".isPrefixOf s)

/-- decoder.go:194-202, `validateBufferURI`; `true` stands for a nil error. -/
def validateBufferURI (U : UrlLib) (uri : Bytes) : Bool :=
  match urlParse U uri with
  | some (_ :: _) => true
  | _ => isLocal uri

/-- The error of `validateBufferURI`. -/
def uriErr : Err := .msg "gltf: Invalid buffer.uri value"

/-- `strings.Replace(s, "\\", "/", -1)`. -/
def fixSlashes (s : Bytes) : Bytes := s.map fun c => if c = 92 then 47 else c

/-- `strings.Replace(s, "/./", "/", -1)`. -/
def dropDots : Bytes → Bytes
  | [] => []
  | 47 :: 46 :: 47 :: s => 47 :: dropDots s
  | c :: s => c :: dropDots s

/-- `strings.TrimPrefix(s, "./")`. -/
def trimDot : Bytes → Bytes
  | 46 :: 47 :: s => s
  | s => s

/-- decoder.go:204-222, `sanitizeURI`. -/
def sanitizeURI (U : UrlLib) (uri : Bytes) : Option Bytes :=
  let uri := trimDot (dropDots (fixSlashes uri))
  match urlParse U uri with
  | none => none
  | some [] => unescape uri
  | some (_ :: _) => some (U.render uri)

end Gltf
