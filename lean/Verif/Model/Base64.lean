/-
Model of base64.StdEncoding of encoding/base64 and of the data URIs of gltf.go.
-/
import Verif.Model.Doc

namespace Gltf

/-- The digit of a 6 bit number: `A`-`Z`, `a`-`z`, `0`-`9`, `+`, `/`. -/
def b64Digit (n : Nat) : UInt8 :=
  if n < 26 then UInt8.ofNat (65 + n)
  else if n < 52 then UInt8.ofNat (71 + n)
  else if n < 62 then UInt8.ofNat (n - 4)
  else if n = 62 then 43
  else 47

/-- The value of a digit. -/
def b64Value (c : UInt8) : Option Nat :=
  if 65 ≤ c ∧ c ≤ 90 then some (c.toNat - 65)
  else if 97 ≤ c ∧ c ≤ 122 then some (c.toNat - 71)
  else if 48 ≤ c ∧ c ≤ 57 then some (c.toNat + 4)
  else if c = 43 then some 62
  else if c = 47 then some 63
  else none

/-- The padding character `=`. -/
def b64Pad : UInt8 := 61

/-- encoding/base64, `StdEncoding.EncodeToString`. -/
def b64Encode : Bytes → Bytes
  | [] => []
  | [a] => [b64Digit (a.toNat / 4), b64Digit (a.toNat * 16 % 64), b64Pad, b64Pad]
  | [a, b] =>
    let n := a.toNat * 256 + b.toNat
    [b64Digit (n / 1024), b64Digit (n / 16 % 64), b64Digit (n * 4 % 64), b64Pad]
  | a :: b :: c :: rest =>
    let n := a.toNat * 65536 + b.toNat * 256 + c.toNat
    b64Digit (n / 262144) :: b64Digit (n / 4096 % 64) :: b64Digit (n / 64 % 64) :: b64Digit (n % 64) :: b64Encode rest

/-- The error of a failed decoding. -/
def b64Err : Err := .msg "illegal base64 data"

/-- encoding/base64, `decodeQuantum` in a loop, on the input without line breaks. The first component
is the data decoded so far, the second the error. Trailing bits are not checked (the encoding is not
strict). -/
def b64Groups : Bytes → Bytes × Option Err
  | [] => ([], none)
  | a :: b :: c :: d :: rest =>
    match b64Value a, b64Value b with
    | some w, some x =>
      if c = b64Pad then
        if d ≠ b64Pad then ([], some b64Err)
        else ([UInt8.ofNat ((w * 64 + x) / 16)], if rest = [] then none else some b64Err)
      else
        match b64Value c with
        | none => ([], some b64Err)
        | some y =>
          if d = b64Pad then
            let n := w * 4096 + x * 64 + y
            ([UInt8.ofNat (n / 1024), UInt8.ofNat (n / 4 % 256)], if rest = [] then none else some b64Err)
          else
            match b64Value d with
            | none => ([], some b64Err)
            | some z =>
              let n := w * 262144 + x * 4096 + y * 64 + z
              let r := b64Groups rest
              (UInt8.ofNat (n / 65536) :: UInt8.ofNat (n / 256 % 256) :: UInt8.ofNat (n % 256) :: r.1, r.2)
    | _, _ => ([], some b64Err)
  | _ => ([], some b64Err)

/-- encoding/base64, `StdEncoding.DecodeString`: line breaks are ignored. -/
def b64Decode (s : Bytes) : Bytes × Option Err := b64Groups (s.filter fun c => c ≠ 10 ∧ c ≠ 13)

/-- const.go:433. -/
def mimetypeApplicationOctet : Bytes := b!"data:application/octet-stream;base64"
/-- const.go:434. -/
def mimetypeImagePNG : Bytes := b!"data:image/png;base64"
/-- const.go:435. -/
def mimetypeImageJPG : Bytes := b!"data:image/jpeg;base64"

/-- `strings.HasPrefix`. -/
def hasPrefix (s pre : Bytes) : Bool := pre.isPrefixOf s

/-- gltf.go:122-124, `Buffer.IsEmbeddedResource`. -/
def Buffer.isEmbeddedResource (b : Buffer) : Bool := hasPrefix b.uri mimetypeApplicationOctet

/-- gltf.go:127-129, `Buffer.EmbeddedResource`. -/
def Buffer.embeddedResource (b : Buffer) : Buffer :=
  { b with uri := mimetypeApplicationOctet ++ b!"," ++ b64Encode b.data }

/-- gltf.go:132-145, `Buffer.marshalData`. The result nil is the empty list. -/
def Buffer.marshalData (b : Buffer) : Res Bytes :=
  if !b.isEmbeddedResource then .ok []
  else
    let startPos := mimetypeApplicationOctet.length + 1
    if b.uri.length < startPos then .err (.msg "gltf: Invalid base64 content")
    else
      let (sl, err) := b64Decode (b.uri.drop startPos)
      match err with
      | some e => .err e
      | none => .ok sl

/-- gltf.go:404-406, `Image.IsEmbeddedResource`. -/
def Image.isEmbeddedResource (im : Image) : Bool :=
  hasPrefix im.uri mimetypeImagePNG || hasPrefix im.uri mimetypeImageJPG

/-- gltf.go:409-422, `Image.MarshalData`: the bytes returned (also next to an error) and the error. -/
def Image.marshalData (im : Image) : Bytes × Option Err :=
  if !im.isEmbeddedResource then ([], none)
  else
    let mimetype := if hasPrefix im.uri mimetypeImageJPG then mimetypeImageJPG else mimetypeImagePNG
    let startPos := mimetype.length + 1
    if im.uri.length < startPos then ([], some (.msg "gltf: Invalid base64 content"))
    else b64Decode (im.uri.drop startPos)

end Gltf
