/-
Specification: what goroutines that share a document may do.
-/
import Verif.Model.Shared

namespace Gltf.Shared

/-- The buffer at an address. -/
def bufAt (m : Mem) (a : Nat) : Buffer :=
  match m[a]? with
  | some (.buf b) => b
  | _ => {}

/-- The description of a material at an address. -/
def pbrAt (m : Mem) (a : Nat) : PBRMetallicRoughness :=
  match m[a]? with
  | some (.pbr p) => p
  | _ => {}

/-- The document without pointers. -/
def PDoc.value (m : Mem) (d : PDoc) : Document :=
  { d.doc with
    buffers := d.buffers.map (Option.map (bufAt m)),
    materials := List.zipWith (fun x p => x.map fun x => { x with pbrMetallicRoughness := p.map (pbrAt m) }) d.doc.materials d.pbrs }

/-- The pointers of the document are nil or point to objects of the right types. Several can be the same. -/
structure PDoc.Valid (m : Mem) (d : PDoc) : Prop where
  buffer : ∀ a, some a ∈ d.buffers → ∃ b, m[a]? = some (.buf b)
  pbr : ∀ a, some a ∈ d.pbrs → ∃ p, m[a]? = some (.pbr p)
  materials : d.pbrs.length = d.doc.materials.length

/-- The goroutine has finished with this result. -/
def Finished {α : Type} (s : State α) (i : Nat) (r : Res α) : Prop := s.threads[i]? = some (.ret r)

/-- The address that an access is about. -/
def Access.addr : Access → Nat
  | .read a => a
  | .write a => a
  | .alloc a => a

/-- An access that another goroutine may do at the same time. -/
def Access.IsRead : Access → Prop
  | .read _ => True
  | _ => False

/-- A call of `Encode`: the settings of the encoder, the document, the writer and the file system. -/
structure Call where
  opts : EncOpts
  doc : PDoc
  sink : Sink
  fsys : Option CreateFS

/-- The state before the goroutines call `Encode`. -/
def start (E : Env) (U : UrlLib) (m : Mem) (calls : List Call) : State Encoded :=
  ⟨m, calls.map fun c => encode E U c.opts c.doc c.sink c.fsys, []⟩

end Gltf.Shared
