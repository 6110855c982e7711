/-
Model of decoder.go.
-/
import Verif.Model.JsonDoc
import Verif.Model.Base64
import Verif.Model.Stream
import Verif.Model.Uri

namespace Gltf

/-- `binary.LittleEndian.Uint32`. -/
def le32 : Bytes → Nat
  | a :: b :: c :: d :: _ => a.toNat + b.toNat * 256 + c.toNat * 65536 + d.toNat * 16777216
  | _ => 0

/-- `binary.LittleEndian.PutUint32`. -/
def putLe32 (n : Nat) : Bytes := [UInt8.ofNat n, UInt8.ofNat (n / 256), UInt8.ofNat (n / 65536), UInt8.ofNat (n / 16777216)]

/-- The size of `uint32`: arithmetic wraps around here. -/
def size32 : Nat := 4294967296

/-- const.go:415. -/
def glbHeaderMagic : Nat := 0x46546c67
/-- const.go:416. -/
def glbChunkJSON : Nat := 0x4e4f534a
/-- const.go:417. -/
def glbChunkBIN : Nat := 0x004e4942

/-- const.go:425-430 (with 420-423): the fields are `uint32`. -/
structure GlbHeader where
  magic : Nat
  version : Nat
  length : Nat
  jsonLength : Nat
  jsonType : Nat

/-- `binary.Read` of a header. -/
def GlbHeader.parse (b : Bytes) : GlbHeader where
  magic := le32 b
  version := le32 (b.drop 4)
  length := le32 (b.drop 8)
  jsonLength := le32 (b.drop 12)
  jsonType := le32 (b.drop 16)

/-- The parts of the environment that decoding depends on. -/
structure DecEnv where
  json : Env
  url : UrlLib
  /-- `fs.ReadFile` on `Fsys`: the data and the error; `none` if `Fsys` is nil -/
  fsys : Option (Bytes → Bytes × Option Err)

/-- decoder.go:131-136, `validateGLBHeader`. The sum is a `uint32`. -/
def validateGLBHeader (h : GlbHeader) : Bool :=
  !(h.jsonType ≠ glbChunkJSON ∨ h.length < (h.jsonLength + 20) % size32)

/-- decoder.go:116-129, `readGLBHeader`. -/
def readGLBHeader (b : BufReader) : Res (Option GlbHeader) × BufReader :=
  match b.peek 20 with
  | (none, b) => (.ok none, b)
  | (some chunk, b) =>
    let h := GlbHeader.parse chunk
    if h.magic ≠ glbHeaderMagic then (.ok none, b)
    else
      let b := (b.read 20).2.2
      if validateGLBHeader h then (.ok (some h), b) else (.err (.msg "gltf: Invalid GLB JSON header"), b)

/-- decoder.go:95-114, `decodeDocument`: whether the stream is a GLB, and the document decoded into `doc`. -/
def decodeDocument (E : DecEnv) (b : BufReader) (doc : Document) : Res (Bool × Document) × BufReader :=
  match readGLBHeader b with
  | (.ok h, b) =>
    let (v, l) := LimReader.readJson { limit := h.map (·.jsonLength), r := b }
    match v with
    | .ok v =>
      match (documentC E.json).dec v doc with
      | .ok doc => (.ok (h.isSome, doc), l.r)
      | .error e => (.err e, l.r)
    | .err e => (.err e, l.r)
    | .panic w => (.panic w, l.r)
  | (.err e, b) => (.err e, b)
  | (.panic w, b) => (.panic w, b)

/-- decoder.go:65-71: the URI of a buffer is sanitized, a nil buffer panics. -/
def sanitizeBuffer (U : UrlLib) : Option Buffer → Res Buffer
  | none => .panic "nil pointer dereference"
  | some b =>
    if b.isEmbeddedResource then .ok b
    else match sanitizeURI U b.uri with
      | some uri => .ok { b with uri }
      | none => .ok b

/-- decoder.go:72-78: the URI of an image is sanitized, a nil image panics. -/
def sanitizeImage (U : UrlLib) : Option Image → Res Image
  | none => .panic "nil pointer dereference"
  | some im =>
    if im.isEmbeddedResource then .ok im
    else match sanitizeURI U im.uri with
      | some uri => .ok { im with uri }
      | none => .ok im

/-- decoder.go:187-192, `validateBuffer`. -/
def validateBuffer (b : Buffer) : Res Unit :=
  if b.byteLength = 0 then .err (.msg "gltf: Invalid buffer.byteLength value = 0") else .ok ()

/-- decoder.go:146-169, `decodeBuffer`: the buffer with its data, and the names that were opened. -/
def decodeBuffer (E : DecEnv) (b : Buffer) : Res Buffer × List Bytes :=
  match validateBuffer b with
  | .err e => (.err e, [])
  | .panic w => (.panic w, [])
  | .ok () =>
    if b.uri = [] then (.err (.msg "gltf: buffer without URI"), [])
    else if b.isEmbeddedResource then (b.marshalData.map fun d => { b with data := d }, [])
    else if !validateBufferURI E.url b.uri then (.err uriErr, [])
    else
      match E.fsys with
      | none => (.ok b, [])
      | some read =>
        let (d, e) := read b.uri
        if b.byteLength < d.length then
          if b.byteLength < 0 then (.panic "slice bounds out of range", [b.uri])
          else
            match e with
            | some e => (.err e, [b.uri])
            | none => (.ok { b with data := d.take b.byteLength.toNat }, [b.uri])
        else
          match e with
          | some e => (.err e, [b.uri])
          | none => (.ok { b with data := d }, [b.uri])

/-- `uint32(n)` of an `int`. -/
def uint32 (n : Int) : Nat := (n % 4294967296).toNat

/-- decoder.go:138-144 and 171-185, `chunkHeader` and `decodeBinaryBuffer`. -/
def decodeBinaryBuffer (b : Buffer) (r : BufReader) : Res Buffer × BufReader :=
  match validateBuffer b with
  | .err e => (.err e, r)
  | .panic w => (.panic w, r)
  | .ok () =>
    match r.full 8 with
    | (.err e, r) => (.err e, r)
    | (.panic w, r) => (.panic w, r)
    | (.ok h, r) =>
      if le32 (h.drop 4) ≠ glbChunkBIN ∨ le32 h < uint32 b.byteLength then (.err (.msg "gltf: Invalid GLB BIN header"), r)
      else if b.byteLength < 0 ∨ maxAlloc < b.byteLength then (.panic "makeslice: len out of range", r)
      else
        match r.full b.byteLength.toNat with
        | (.ok d, r) => (.ok { b with data := d }, r)
        | (.err e, r) => (.err e, r)
        | (.panic w, r) => (.panic w, r)

/-- The loops of decoder.go:65-78: the first failure ends them. -/
def mapRes {α β : Type} (f : α → Res β) : List α → Res (List β)
  | [] => .ok []
  | a :: l => do
    let b ← f a
    let bs ← mapRes f l
    return b :: bs

/-- The loop of decoder.go:87-91: the buffers with their data, and the names that were opened. -/
def decodeBuffers (E : DecEnv) : List Buffer → Res (List Buffer) × List Bytes
  | [] => (.ok [], [])
  | b :: l =>
    match decodeBuffer E b with
    | (.ok b, t) =>
      let (r, t') := decodeBuffers E l
      (r.map (b :: ·), t ++ t')
    | (.err e, t) => (.err e, t)
    | (.panic w, t) => (.panic w, t)

/-- decoder.go:80-86: the first buffer of a GLB, if it has no URI. -/
def decodeFirst (isBinary : Bool) (l : List Buffer) (r : BufReader) : Res (List Buffer × List Buffer) × BufReader :=
  match l with
  | b :: l =>
    if isBinary ∧ b.uri = [] then
      match decodeBinaryBuffer b r with
      | (.ok b, r) => (.ok ([b], l), r)
      | (.err e, r) => (.err e, r)
      | (.panic w, r) => (.panic w, r)
    else (.ok ([], b :: l), r)
  | [] => (.ok ([], []), r)

/-- What a call of `Decode` does: its result, the names opened in `Fsys`, and the reader afterwards. -/
structure Decoded where
  result : Res Document
  opened : List Bytes
  reader : BufReader

/-- decoder.go:59-93, `Decoder.Decode`. -/
def decode (E : DecEnv) (r : BufReader) (doc : Document) : Decoded :=
  match decodeDocument E r doc with
  | (.err e, r) => ⟨.err e, [], r⟩
  | (.panic w, r) => ⟨.panic w, [], r⟩
  | (.ok (isBinary, doc), r) =>
    match mapRes (sanitizeBuffer E.url) doc.buffers, mapRes (sanitizeImage E.url) doc.images with
    | .ok buffers, .ok images =>
      match decodeFirst isBinary buffers r with
      | (.err e, r) => ⟨.err e, [], r⟩
      | (.panic w, r) => ⟨.panic w, [], r⟩
      | (.ok (first, rest), r) =>
        let (l, opened) := decodeBuffers E rest
        ⟨l.map fun l => { doc with buffers := (first ++ l).map some, images := images.map some }, opened, r⟩
    | .ok _, .err e => ⟨.err e, [], r⟩
    | .ok _, .panic w => ⟨.panic w, [], r⟩
    | .err e, _ => ⟨.err e, [], r⟩
    | .panic w, _ => ⟨.panic w, [], r⟩

/-- decoder.go:43-47 and 50-55, `NewDecoder` and `NewDecoderFS`. -/
def newDecoder (s : Source) : BufReader := { src := s }

/-- Decode the first document of a stream into a new document. -/
def decodeSource (E : DecEnv) (s : Source) : Decoded := decode E (newDecoder s) {}

/-- Decode the first document of a stream that is available at once. -/
def decodeBytes (E : DecEnv) (b : Bytes) : Res Document := (decodeSource E { data := b }).result

end Gltf
