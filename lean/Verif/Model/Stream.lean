/-
Model of the readers and writers that Encoder and Decoder use: an arbitrary io.Reader that splits its data in
an arbitrary way, bufio.Reader, io.LimitedReader, io.ReadFull, the buffering of json.Decoder, and an arbitrary
io.Writer.
-/
import Verif.Model.JsonText

namespace Gltf

/-- An `io.Reader`: the data it will still return, how it returns them, and the error at the end. The list has an
entry for each of the next reads that return data: the number of reads before it that return neither data nor an
error, and the size of the read minus one. When the list is used up every read returns as much as asked for. If
`together` holds the last data come together with the error. Simplifications: at most 99 reads in a row return nothing
(after 100 of them bufio gives up with `io.ErrNoProgress`), and errors other than `io.EOF` come without data. -/
structure Source where
  data : Bytes
  sizes : List (Fin 100 × Nat) := []
  together : Bool := false
  fin : Err := .eof

/-- A read that returns data, at most `k > 0` bytes. -/
def Source.give (s : Source) (k : Nat) : Bytes × Option Err × Source :=
  if s.data = [] then ([], some s.fin, s)
  else
    (s.data.take k, if s.data.drop k = [] ∧ s.together = true ∧ s.fin = .eof then some .eof else none,
     { s with data := s.data.drop k, sizes := s.sizes.tail })

/-- One call of `Read` with a buffer of `n > 0` bytes. -/
def Source.read (s : Source) (n : Nat) : Bytes × Option Err × Source :=
  match s.sizes with
  | [] => s.give n
  | (e, c) :: cs =>
    if e.val = 0 then s.give (min n (c + 1)) else ([], none, { s with sizes := (⟨e.val - 1, by omega⟩, c) :: cs })

/-- bufio.Reader: the buffered bytes and the pending error. -/
structure BufReader where
  buf : Bytes := []
  err : Option Err := none
  src : Source

/-- bufio, `defaultBufSize`. -/
def bufSize : Nat := 4096

/-- bufio, the loop of `fill`: reads into the free part of the buffer until there is data or an error. -/
def BufReader.fillLoop : Nat → BufReader → BufReader
  | 0, b => { b with err := some (.msg "multiple Read calls return no data or error") }
  | i + 1, b =>
    let (d, e, s) := b.src.read (bufSize - b.buf.length)
    if d = [] ∧ e = none then fillLoop i { b with src := s } else { buf := b.buf ++ d, err := e, src := s }

/-- bufio, `fill`; the number of attempts is `maxConsecutiveEmptyReads`. -/
def BufReader.fill (b : BufReader) : BufReader := b.fillLoop 100

/-- bufio, the loop of `Peek` (with fuel: every round reads at least one byte or sets the error). -/
def BufReader.peekLoop : Nat → Nat → BufReader → BufReader
  | 0, _, b => b
  | fuel + 1, n, b =>
    if b.buf.length < n ∧ b.buf.length < bufSize ∧ b.err = none then peekLoop fuel n b.fill else b

/-- bufio, `Peek` for `n` at most the size of the buffer. `none`: there are fewer than `n` bytes; the error
has been consumed. -/
def BufReader.peek (b : BufReader) (n : Nat) : Option Bytes × BufReader :=
  let b := b.peekLoop (n + 1) n
  if b.buf.length < n then (none, { b with err := none }) else (some (b.buf.take n), b)

/-- bufio, `Read` with a buffer of `n > 0` bytes. -/
def BufReader.read (b : BufReader) (n : Nat) : Bytes × Option Err × BufReader :=
  if b.buf = [] then
    match b.err with
    | some e => ([], some e, { b with err := none })
    | none =>
      if bufSize ≤ n then
        let (d, e, s) := b.src.read n
        (d, e, { b with src := s })
      else
        let (d, e, s) := b.src.read bufSize
        if d = [] then ([], e, { b with src := s })
        else (d.take n, none, { buf := d.drop n, err := e, src := s })
  else (b.buf.take n, none, { b with buf := b.buf.drop n })

/-- Everything that is still to be read. -/
def BufReader.rest (b : BufReader) : Bytes := b.buf ++ b.src.data

/-- A bound for the number of reads before the end of the data is seen. -/
def BufReader.turns (b : BufReader) : Nat := b.rest.length + (b.src.sizes.map fun p => p.1.val).sum

/-- io, `ReadAtLeast` of exactly `n` more bytes after `acc` (with fuel). -/
def BufReader.readFull : Nat → Nat → Bytes → BufReader → Res Bytes × BufReader
  | 0, _, acc, b => (.ok acc, b)
  | fuel + 1, n, acc, b =>
    if n = 0 then (.ok acc, b)
    else
      match b.read n with
      | (d, none, b) => readFull fuel (n - d.length) (acc ++ d) b
      | (d, some e, b) =>
        if n ≤ d.length then (.ok (acc ++ d), b)
        else (.err (if e = .eof ∧ acc ++ d ≠ [] then .unexpectedEOF else e), b)

/-- io, `ReadFull` with a buffer of `n` bytes. -/
def BufReader.full (b : BufReader) (n : Nat) : Res Bytes × BufReader := b.readFull (b.turns + 1) n []

/-- io.LimitedReader around a bufio.Reader; without limit it is the bufio.Reader itself. -/
structure LimReader where
  limit : Option Nat
  r : BufReader

/-- io, `LimitedReader.Read`. -/
def LimReader.read (l : LimReader) (n : Nat) : Bytes × Option Err × LimReader :=
  match l.limit with
  | none =>
    let (d, e, r) := l.r.read n
    (d, e, { l with r })
  | some 0 => ([], some .eof, l)
  | some k =>
    let (d, e, r) := l.r.read (min n k)
    (d, e, { limit := some (k - d.length), r })

/-- encoding/json, `Decoder.readValue` with `refill`: `buf` are the bytes read so far, `cap` the capacity of
the buffer and `pending` the error of the last read. -/
def readValue : Nat → LimReader → Bytes → Nat → Option Err → Res JVal × LimReader
  | 0, l, _, _, _ => (.err .eof, l)
  | fuel + 1, l, buf, cap, pending =>
    match parseTop buf with
    | .ok v _ => (.ok v, l)
    | .bad => (.err (.msg "invalid character"), l)
    | .more =>
      match pending with
      | some .eof =>
        match parseTop (buf ++ [32]) with
        | .ok v _ => (.ok v, l)
        | _ => (.err (if skipWs buf = [] then .eof else .unexpectedEOF), l)
      | some e => (.err e, l)
      | none =>
        let cap := if cap - buf.length < 512 then 2 * cap + 512 else cap
        let (d, e, l) := l.read (cap - buf.length)
        readValue fuel l (buf ++ d) cap e

/-- encoding/json, `Decoder.Decode` up to the end of the value. -/
def LimReader.readJson (l : LimReader) : Res JVal × LimReader := readValue (l.r.turns + 2) l [] 0 none

/-- An `io.Writer`: what it accepted so far, and for the next calls whether they fail: after how many bytes, and
with which error. When the plan is used up no call fails. -/
structure Sink where
  out : Bytes := []
  plan : List (Option (Nat × Err)) := []

/-- One call of `Write`. -/
def Sink.write (s : Sink) (p : Bytes) : Option Err × Sink :=
  match s.plan with
  | some (k, e) :: plan => (some e, { out := s.out ++ p.take k, plan })
  | plan => (none, { out := s.out ++ p, plan := plan.tail })

end Gltf
