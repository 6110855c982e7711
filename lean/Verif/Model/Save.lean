/-
Model of Open, Save and SaveBinary.
-/
import Verif.Model.Encode

namespace Gltf

/-- encode.go:32-34, 37-39 and 41-54, `Save`, `SaveBinary` and `save` for a file `base` in a directory with the file system
`fs` (encode.go:27-29, `dirFS.Create`). The writes to the file fail as `plan` says, closing it fails as `closeErr` says. The
file is written before the files of the buffers are created, so its content is set first; the name of the directory is
not modelled. Files are known by their names as they are given to `Create`: that `a//b` and `a/b` are the same file for the
host is not modelled. -/
def save (E : Env) (U : UrlLib) (doc : Document) (base : Bytes) (asBinary : Bool) (fs : CreateFS) (plan : List (Option (Nat × Err)))
    (closeErr : Option Err) : Res Unit × CreateFS :=
  match fs.createErr base with
  | some e => (.err e, fs)
  | none =>
    let written := (encode E U { asBinary } doc { plan } none).sink.out
    let e := encode E U { asBinary } doc { plan } (some (fs.set base written))
    let fs' := e.fsys.getD fs
    match e.result with
    | .ok () =>
      match closeErr with
      | some e => (.err e, fs')
      | none => (.ok (), fs')
    | r => (r, fs')

/-- unicode/utf8, `ValidString`. The first `k` bytes belong to a valid sequence. -/
def validUtf8 : (k : Nat) → Bytes → Bool
  | _, [] => true
  | k + 1, _ :: s => validUtf8 k s
  | 0, b :: s =>
    if b < 0x80 then validUtf8 0 s
    else
      match seqLen (b :: s) with
      | 0 => false
      | n + 1 => validUtf8 (n + 1) s

/-- io/fs, `ValidPath`, except that the directory `.` itself is left out: it is not a file that can be read. -/
def validPath (name : Bytes) : Bool :=
  validUtf8 0 name && (components name).all fun c => c != [] && c != b!"." && c != b!".."

/-- `fs.ReadFile` with the files of a directory. As io/fs asks of every file system, and as `os.DirFS` does, names that
are not valid paths are rejected; names with a zero byte are not possible. -/
def CreateFS.read (fs : CreateFS) (name : Bytes) : Bytes × Option Err :=
  if !validPath name || name.contains 0 then ([], some (.msg "invalid argument"))
  else
    match fs.files name with
    | some content => (content, none)
    | none => ([], some (.msg "file does not exist"))

/-- decoder.go:19-31, `Open` for a file `base` in a directory with the file system `fs`. Reads of files return as
much as asked for. -/
def openFile (E : Env) (U : UrlLib) (base : Bytes) (fs : CreateFS) : Res Document :=
  match fs.files base with
  | none => .err (.msg "file does not exist")
  | some content => (decodeSource { json := E, url := U, fsys := some fs.read } { data := content }).result

end Gltf
