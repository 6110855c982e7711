/-
Model of the Encoder of encode.go.
-/
import Verif.Model.Decode

namespace Gltf

/-- encode.go:59-65, 68-73, 76-82 and 84-88: the settings of an encoder; the defaults are those of `NewEncoder` and
`NewEncoderFS`. -/
structure EncOpts where
  asBinary : Bool := true
  pre : Bytes := []
  indent : Bytes := []

/-- encode.go:208-227: the buffer as it is written in the JSON, a nil buffer panics. -/
def customBuffer (first : Bool) : Option Buffer → Res Buffer
  | none => .panic "nil pointer dereference"
  | some b =>
    if first ∧ b.uri = [] then .ok b
    else if b.data ≠ [] ∧ b.uri = [] ∧ !b.isEmbeddedResource then
      .ok ({ extensions := b.extensions, extras := b.extras, name := b.name, byteLength := b.byteLength, data := b.data : Buffer }).embeddedResource
    else .ok b

/-- The loop of encode.go:208-227. -/
def customBuffers (asBinary : Bool) : List (Option Buffer) → Res (List Buffer)
  | [] => .ok []
  | b :: l => do
    let b ← customBuffer asBinary b
    let l ← mapRes (customBuffer false) l
    return b :: l

/-- encode.go:228-231: which of `json.Marshal` and `json.MarshalIndent` is used. -/
def EncOpts.layout (o : EncOpts) : Layout := if o.pre ≠ [] ∨ o.indent ≠ [] then indented o.pre o.indent else compact

/-- encode.go:197-232, `marshalJSONDoc`. -/
def marshalJSONDoc (E : Env) (o : EncOpts) (doc : Document) : Res Bytes := do
  let buffers ← customBuffers o.asBinary doc.buffers
  match (documentC E).enc { doc with buffers := buffers.map some } with
  | .ok v => .ok (v.print o.layout 0)
  | .error e => .err e

/-- Go integer division by four. -/
def goDiv4 (x : Int) : Int := x.tdiv 4

/-- encode.go:170: the length of the BIN chunk. -/
def binPadded (n : Int) : Int := wrap64 (goDiv4 (wrap64 (n + 3)) * 4)

/-- encode.go:152-155: the length of the JSON chunk as `uint32`. -/
def jsonPadded (n : Nat) : Nat := (n + 3) / 4 * 4 % size32

/-- encode.go:156-161 and 171: the header. -/
def glbHeader (jsonLength : Nat) (bin : Option Int) : Bytes :=
  let length := (20 + jsonPadded jsonLength) % size32
  let length := match bin with
    | none => length
    | some n => (length + uint32 (wrap64 (8 + binPadded n))) % size32
  putLe32 glbHeaderMagic ++ putLe32 2 ++ putLe32 length ++ putLe32 (jsonPadded jsonLength) ++ putLe32 glbChunkJSON

/-- encode.go:147-194, `encodeBinary` for a JSON text. Errors of the writer are only looked at after the
header and after the padding of the BIN chunk. -/
def writeBinary (jsonText : Bytes) (first : Option Buffer) (w : Sink) : Res Bool × Sink :=
  let padding := List.replicate ((jsonPadded jsonText.length + size32 - jsonText.length % size32) % size32) (32 : UInt8)
  match w.write (glbHeader jsonText.length (first.map (·.byteLength))) with
  | (some e, w) => (.err e, w)
  | (none, w) =>
    let w := (w.write jsonText).2
    let w := (w.write padding).2
    match first with
    | none => (.ok false, w)
    | some b =>
      let n := wrap64 (binPadded b.byteLength - b.byteLength)
      if n < 0 ∨ maxAlloc < n then (.panic "makeslice: len out of range", w)
      else
        let w := (w.write (putLe32 (uint32 (binPadded b.byteLength)) ++ putLe32 glbChunkBIN)).2
        let w := (w.write b.data).2
        match w.write (List.replicate n.toNat 0) with
        | (some e, w) => (.err e, w)
        | (none, w) => (.ok true, w)

/-- encode.go:167: the first buffer, if it goes to the BIN chunk. Nil buffers have panicked before. -/
def binBuffer (doc : Document) : Option Buffer :=
  match doc.buffers with
  | some b :: _ => if b.uri = [] then some b else none
  | _ => none

/-- A `CreateFS`: the files by name, and for each name whether creating, writing (after how many bytes) and
closing it fails. -/
structure CreateFS where
  files : Bytes → Option Bytes
  createErr : Bytes → Option Err := fun _ => none
  writeErr : Bytes → Option (Nat × Err) := fun _ => none
  closeErr : Bytes → Option Err := fun _ => none

/-- The content of a file changes. -/
def CreateFS.set (fs : CreateFS) (name content : Bytes) : CreateFS :=
  { fs with files := fun n => if n = name then some content else fs.files n }

/-- encode.go:136-144: create a file, write it and close it. -/
def CreateFS.writeFile (fs : CreateFS) (name data : Bytes) : Res Unit × CreateFS :=
  match fs.createErr name with
  | some e => (.err e, fs)
  | none =>
    match fs.writeErr name with
    | some (k, e) => (.err e, fs.set name (data.take k))
    | none =>
      match fs.closeErr name with
      | some e => (.err e, fs.set name data)
      | none => (.ok (), fs.set name data)

/-- encode.go:125-145, `encodeBuffer`: the result, the file system afterwards and the names passed to
`Create`. -/
def encodeBuffer (U : UrlLib) (b : Buffer) (fs : Option CreateFS) : Res Unit × Option CreateFS × List Bytes :=
  if !validateBufferURI U b.uri then (.err uriErr, fs, [])
  else
    match fs with
    | none => (.ok (), none, [])
    | some fs =>
      match sanitizeURI U b.uri with
      | none => (.ok (), some fs, [])
      | some uri =>
        let (r, fs) := fs.writeFile uri b.data
        (r, some fs, [uri])

/-- encode.go:112-120: the loop over the external buffers. -/
def encodeBuffers (U : UrlLib) : List (Option Buffer) → Option CreateFS → Res Unit × Option CreateFS × List Bytes
  | [], fs => (.ok (), fs, [])
  | none :: _, fs => (.panic "nil pointer dereference", fs, [])
  | some b :: l, fs =>
    if b.data = [] ∨ b.uri = [] ∨ b.isEmbeddedResource then encodeBuffers U l fs
    else
      match encodeBuffer U b fs with
      | (.ok (), fs, t) =>
        let (r, fs, t') := encodeBuffers U l fs
        (r, fs, t ++ t')
      | (r, fs, t) => (r, fs, t)

/-- What a call of `Encode` does: its result, the writer and the file system afterwards, and the names passed to
`Create`. -/
structure Encoded where
  result : Res Unit
  sink : Sink
  fsys : Option CreateFS
  created : List Bytes

/-- encode.go:91-123, `Encoder.Encode`. -/
def encode (E : Env) (U : UrlLib) (o : EncOpts) (doc : Document) (w : Sink) (fs : Option CreateFS) : Encoded :=
  match marshalJSONDoc E o doc with
  | .err e => ⟨.err e, w, fs, []⟩
  | .panic m => ⟨.panic m, w, fs, []⟩
  | .ok text =>
    if o.asBinary then
      match writeBinary text (binBuffer doc) w with
      | (.err e, w) => ⟨.err e, w, fs, []⟩
      | (.panic m, w) => ⟨.panic m, w, fs, []⟩
      | (.ok hasBinChunk, w) =>
        let (r, fs, t) := encodeBuffers U (doc.buffers.drop (if hasBinChunk then 1 else 0)) fs
        ⟨r, w, fs, t⟩
    else
      match w.write text with
      | (some e, w) => ⟨.err e, w, fs, []⟩
      | (none, w) =>
        let (r, fs, t) := encodeBuffers U doc.buffers fs
        ⟨r, w, fs, t⟩

end Gltf
