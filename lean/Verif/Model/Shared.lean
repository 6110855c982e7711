/-
The Encoder once more, with memory that it shares with other goroutines: the buffers of a document and the descriptions of its
materials are pointers, encode.go:91-232 and 420-438. The rest of the model treats them as values.

A goroutine is a program of loads, stores and allocations of objects; everything else that it does, in particular what it writes to
its own writer and to its own files, is between them. The other parts of a document are only read by the code, which assigns to no field
of them; they are values here too. Simplification: an object is loaded and stored at once, not field by field.
-/
import Verif.Model.Encode

namespace Gltf.Shared

open Gltf

/-- The objects that are pointed to. -/
inductive Obj where
  | buf (b : Buffer)
  | pbr (p : PBRMetallicRoughness)

/-- The memory: an object for each address that is in use. -/
abbrev Mem : Type := List Obj

/-- What a goroutine does. -/
inductive Prog (α : Type) where
  /-- the end, with a result -/
  | ret (r : Res α)
  | load (a : Nat) (next : Obj → Prog α)
  | store (a : Nat) (o : Obj) (next : Prog α)
  | alloc (o : Obj) (next : Nat → Prog α)

namespace Prog

/-- One program after the other. -/
def bind {α β : Type} : Prog α → (α → Prog β) → Prog β
  | .ret (.ok a), f => f a
  | .ret (.err e), _ => .ret (.err e)
  | .ret (.panic w), _ => .ret (.panic w)
  | .load a k, f => .load a fun o => (k o).bind f
  | .store a o k, f => .store a o (k.bind f)
  | .alloc o k, f => .alloc o fun a => (k a).bind f

instance : Monad Prog where
  pure a := .ret (.ok a)
  bind := Prog.bind

/-- The result as a value, so that the program can go on after errors. -/
def attempt {α : Type} : Prog α → Prog (Res α)
  | .ret r => .ret (.ok r)
  | .load a k => .load a fun o => (k o).attempt
  | .store a o k => .store a o k.attempt
  | .alloc o k => .alloc o fun a => (k a).attempt

end Prog

/-- Load a buffer. -/
def loadBuf (a : Nat) : Prog Buffer := .load a fun
  | .buf b => .ret (.ok b)
  | .pbr _ => .ret (.panic "not a buffer")

/-- Load the description of a material. -/
def loadPbr (a : Nat) : Prog PBRMetallicRoughness := .load a fun
  | .pbr p => .ret (.ok p)
  | .buf _ => .ret (.panic "not a material")

/-- A new object. -/
def new (o : Obj) : Prog Nat := .alloc o fun a => .ret (.ok a)

/-- Assignments to a buffer. -/
def setBuf (a : Nat) (f : Buffer → Buffer) : Prog Unit := do
  let b ← loadBuf a
  .store a (.buf (f b)) (.ret (.ok ()))

/-- Assignments to the description of a material. -/
def setPbr (a : Nat) (f : PBRMetallicRoughness → PBRMetallicRoughness) : Prog Unit := do
  let p ← loadPbr a
  .store a (.pbr (f p)) (.ret (.ok ()))

/-- A document with pointers: `buffers` are those of the buffers, and `pbrs` those of the descriptions of the materials, in the order
of the materials; these fields of `doc` are not used. -/
structure PDoc where
  doc : Document
  buffers : List (Option Nat)
  pbrs : List (Option Nat)

/-- gltf.go:127-129, `EmbeddedResource`. -/
def embeddedResource (a : Nat) : Prog Unit := setBuf a Buffer.embeddedResource

/-- encode.go:208-227: the pointer that goes to `CustomBuffers`. -/
def customBuffer (first : Bool) : Option Nat → Prog Nat
  | none => .ret (.panic "nil pointer dereference")
  | some a => do
    let b ← loadBuf a
    if first ∧ b.uri = [] then return a
    else if b.data ≠ [] ∧ b.uri = [] ∧ !b.isEmbeddedResource then
      let t ← new (.buf { extensions := b.extensions, extras := b.extras, name := b.name, byteLength := b.byteLength, data := b.data })
      embeddedResource t
      return t
    else return a

/-- A loop. -/
def mapProg {α β : Type} (f : α → Prog β) : List α → Prog (List β)
  | [] => return []
  | a :: l => do
    let b ← f a
    let bs ← mapProg f l
    return b :: bs

/-- The loop of encode.go:208-227. -/
def customBuffers (asBinary : Bool) : List (Option Nat) → Prog (List Nat)
  | [] => return []
  | p :: l => do
    let a ← customBuffer asBinary p
    let as ← mapProg (customBuffer false) l
    return a :: as

/-- encode.go:421-437, `PBRMetallicRoughness.MarshalJSON` up to the call of `json.Marshal`: the struct that is given to it. -/
def marshalPbr : Option Nat → Prog (Option PBRMetallicRoughness)
  | none => return none
  | some a => do
    let p ← loadPbr a
    let tmp ← new (.pbr p)
    if p.metallicFactor.any (·.feq f64one) then setPbr tmp fun t => { t with metallicFactor := none }
    if p.roughnessFactor.any (·.feq f64one) then setPbr tmp fun t => { t with roughnessFactor := none }
    if p.baseColorFactor.any (arrayEq · white) then setPbr tmp fun t => { t with baseColorFactor := none }
    let t ← loadPbr tmp
    return some t

/-- encode.go:197-232, `marshalJSONDoc`. All objects are loaded before the first value is marshalled. -/
def marshalJSONDoc (E : Env) (o : EncOpts) (d : PDoc) : Prog Bytes := do
  let custom ← customBuffers o.asBinary d.buffers
  let buffers ← mapProg loadBuf custom
  let pbrs ← mapProg marshalPbr d.pbrs
  match (documentC E).enc { d.doc with
      buffers := buffers.map some,
      materials := List.zipWith (fun m p => m.map fun m => { m with pbrMetallicRoughness := p }) d.doc.materials pbrs } with
  | .ok v => .ret (.ok (v.print o.layout 0))
  | .error e => .ret (.err e)

/-- encode.go:167: the first buffer, if it goes to the BIN chunk. -/
def binBuffer : List (Option Nat) → Prog (Option Buffer)
  | some a :: _ => do
    let b ← loadBuf a
    return if b.uri = [] then some b else none
  | _ => return none

/-- encode.go:112-120: the loop over the external buffers. -/
def encodeBuffers (U : UrlLib) : List (Option Nat) → Option CreateFS → Prog (Res Unit × Option CreateFS × List Bytes)
  | [], fs => return (.ok (), fs, [])
  | none :: _, fs => return (.panic "nil pointer dereference", fs, [])
  | some a :: l, fs => do
    let b ← loadBuf a
    if b.data = [] ∨ b.uri = [] ∨ b.isEmbeddedResource then encodeBuffers U l fs
    else
      match encodeBuffer U b fs with
      | (.ok (), fs, t) =>
        let (r, fs, t') ← encodeBuffers U l fs
        return (r, fs, t ++ t')
      | (r, fs, t) => return (r, fs, t)

/-- encode.go:91-123, `Encoder.Encode`. The result has the panics of `Encode`. -/
def encode (E : Env) (U : UrlLib) (o : EncOpts) (d : PDoc) (w : Sink) (fs : Option CreateFS) : Prog Encoded := do
  match ← (marshalJSONDoc E o d).attempt with
  | .err e => return ⟨.err e, w, fs, []⟩
  | .panic m => return ⟨.panic m, w, fs, []⟩
  | .ok text =>
    if o.asBinary then
      let first ← binBuffer d.buffers
      match writeBinary text first w with
      | (.err e, w) => return ⟨.err e, w, fs, []⟩
      | (.panic m, w) => return ⟨.panic m, w, fs, []⟩
      | (.ok hasBinChunk, w) =>
        let (r, fs, t) ← encodeBuffers U (d.buffers.drop (if hasBinChunk then 1 else 0)) fs
        return ⟨r, w, fs, t⟩
    else
      match w.write text with
      | (some e, w) => return ⟨.err e, w, fs, []⟩
      | (none, w) =>
        let (r, fs, t) ← encodeBuffers U d.buffers fs
        return ⟨r, w, fs, t⟩

/-! ### Goroutines -/

/-- The accesses of the memory. -/
inductive Access where
  | read (a : Nat)
  | write (a : Nat)
  | alloc (a : Nat)

/-- The state of all goroutines. -/
structure State (α : Type) where
  mem : Mem
  threads : List (Prog α)
  /-- all accesses with the goroutine that did them, in the order in which they happened (not part of the program) -/
  log : List (Nat × Access)

/-- The next step of goroutine `i`; none if it has finished. -/
def step {α : Type} (s : State α) (i : Nat) : Option (State α) :=
  match s.threads[i]? with
  | none => none
  | some (.ret _) => none
  | some (.load a k) =>
    match s.mem[a]? with
    | some o => some { s with threads := s.threads.set i (k o), log := s.log ++ [(i, .read a)] }
    | none => some { s with threads := s.threads.set i (.ret (.panic "invalid memory address")) }
  | some (.store a o k) => some { mem := s.mem.set a o, threads := s.threads.set i k, log := s.log ++ [(i, .write a)] }
  | some (.alloc o k) =>
    some { mem := s.mem ++ [o], threads := s.threads.set i (k s.mem.length), log := s.log ++ [(i, .alloc s.mem.length)] }

/-- The states that can be reached in any order of the steps. -/
inductive Reach {α : Type} (s : State α) : State α → Prop where
  | refl : Reach s s
  | step (t u : State α) (i : Nat) : Reach s t → step t i = some u → Reach s u

end Gltf.Shared
