/-
Concurrent readers: several goroutines run `ReadAccessor` and the typed readers of modeler/read.go on
one document. Scratch buffers come from two pools shared by all goroutines (modeler/read.go:14-19 and
109-114). The document is never written, so it is not part of the state.

A goroutine is a program of atomic steps: taking an array from a pool, giving it back, reading one
element of an array and writing one element of an array. Simplifications: what the code computes
without touching scratch arrays happens together with the step before; the array that `append`
allocates when the scratch array is too small is identified with the scratch array (which allows more
interference than there is); the buffers that the callers give are not shared by goroutines.
-/
import Verif.Model.Read

namespace Gltf.Conc

open Gltf

/-- The two pools. -/
inductive Pool where
  | buf
  | idx
  deriving DecidableEq

/-- Contents of a scratch array: raw bytes, the typed slice that `MakeSliceBuffer` makes of them, or
the integers of `uint32Pool`. -/
inductive Mem where
  | raw (b : Bytes)
  | view (s : Slice)
  | words (w : List UInt32)

/-- The contents as bytes. `repr` tells which bytes a typed slice leaves in memory; it is arbitrary. -/
def Mem.bytes (repr : Slice → Bytes) : Mem → Bytes
  | .raw b => b
  | .view s => repr s
  | .words _ => []

/-- The contents as integers. -/
def Mem.toWords : Mem → List UInt32
  | .words w => w
  | _ => []

/-- A program of a goroutine. -/
inductive Prog (α : Type) : Type where
  | ret (a : α)
  /-- `Get` of a pool -/
  | get (p : Pool) (k : Nat → Prog α)
  /-- `Put` of a pool -/
  | put (p : Pool) (id : Nat) (k : Prog α)
  /-- look at an array -/
  | load (id : Nat) (k : Mem → Prog α)
  /-- change an array -/
  | upd (id : Nat) (f : Mem → Mem) (k : Prog α)

/-- Sequential composition. -/
def Prog.bind {α β : Type} : Prog α → (α → Prog β) → Prog β
  | .ret a, f => f a
  | .get p k, f => .get p fun id => (k id).bind f
  | .put p id k, f => .put p id (k.bind f)
  | .load id k, f => .load id fun m => (k m).bind f
  | .upd id g k, f => .upd id g (k.bind f)

instance : Monad Prog where
  pure := .ret
  bind := Prog.bind

/-- Look at an array. -/
def load (id : Nat) : Prog Mem := .load id .ret
/-- Change an array. -/
def upd (id : Nat) (f : Mem → Mem) : Prog Unit := .upd id f (.ret ())

/-- `x := pool.Get(); defer pool.Put(x)` around the rest of a function. -/
def withArray {α : Type} (p : Pool) (body : Nat → Prog α) : Prog α :=
  .get p fun id => (body id).bind fun a => .put p id (.ret a)

/-- Assignment of one element of a typed slice. -/
def setElem (ty : ETy) (i : Nat) (x : ty.Elem) : Mem → Mem
  | .view ⟨ty', d⟩ => if h : ty' = ty then .view ⟨ty, (h ▸ d).set i x⟩ else .view ⟨ty', d⟩
  | m => m

/-- One element of a typed slice. -/
def getElem (ty : ETy) (i : Nat) : Mem → Option ty.Elem
  | .view ⟨ty', d⟩ => if h : ty' = ty then (h ▸ d)[i]? else none
  | _ => none

/-- Assignment of one integer. -/
def setWord (i : Nat) (x : UInt32) : Mem → Mem
  | .words w => .words (w.set i x)
  | m => m

/-- Write the elements one by one. -/
def storeFrom (id : Nat) (ty : ETy) : List ty.Elem → Nat → Prog Unit
  | [], _ => .ret ()
  | x :: xs, i => .upd id (setElem ty i x) (storeFrom id ty xs (i + 1))

/-- Read `n` elements one by one. -/
def loadFrom (id : Nat) (ty : ETy) : Nat → Nat → Prog (Option (List ty.Elem))
  | 0, _ => .ret (some [])
  | n + 1, i => .load id fun m =>
    match getElem ty i m with
    | none => .ret none
    | some x => (loadFrom id ty n (i + 1)).bind fun r => .ret (r.map (x :: ·))

/-- Write the integers one by one. -/
def storeWords (id : Nat) : List UInt32 → Nat → Prog Unit
  | [], _ => .ret ()
  | x :: xs, i => .upd id (setWord i x) (storeWords id xs (i + 1))

/-- Read `n` integers one by one. -/
def loadWords (id : Nat) : Nat → Nat → Prog (Option (List UInt32))
  | 0, _ => .ret (some [])
  | n + 1, i => .load id fun m =>
    match m.toWords[i]? with
    | none => .ret none
    | some x => (loadWords id n (i + 1)).bind fun r => .ret (r.map (x :: ·))

/-- modeler/read.go:36-46, the part of `ReadAccessor` after `MakeSliceBuffer` and before the sparse data. -/
def readInto (doc : Document) (bufferView : Option Int) (byteOffset : Int) (data : Slice) : Res Slice :=
  match bufferView with
  | none => .ok data
  | some i => do
    let buf ← readBufferViewIndex doc i
    let bv ← bufferViewAt doc i
    let tail ← sliceFrom buf byteOffset
    let d ← read tail bv.byteStride data.ty data.data
    return ⟨data.ty, d⟩

/-- modeler/read.go:32-46 with the scratch array `id`. When reading fails the array keeps the typed
view. The type and the length of the slice are known to the goroutine, its elements are in the array. -/
def denseProg (repr : Slice → Bytes) (doc : Document) (c : ComponentType) (t : AccessorType) (count : Int)
    (bufferView : Option Int) (byteOffset : Int) (id : Nat) : Prog (Res (ETy × Nat)) :=
  .load id fun m =>
    match makeSliceBuffer c t count (m.bytes repr) with
    | .err e => .ret (.err e)
    | .panic w => .ret (.panic w)
    | .ok data => .upd id (fun _ => .view data) <|
      match readInto doc bufferView byteOffset data with
      | .err e => .ret (.err e)
      | .panic w => .ret (.panic w)
      | .ok s => (storeFrom id s.ty s.data 0).bind fun _ => .ret (.ok (s.ty, s.data.length))

/-- The elements of the slice in a scratch array. -/
def contents (id : Nat) (ty : ETy) (n : Nat) : Prog (Res Slice) :=
  (loadFrom id ty n 0).bind fun r =>
    match r with
    | some d => .ret (.ok ⟨ty, d⟩)
    | none => .ret (.panic "concurrent modification")

/-- Continue after a success. -/
def andThen {α β : Type} (p : Prog (Res α)) (f : α → Prog (Res β)) : Prog (Res β) :=
  p.bind fun r =>
    match r with
    | .ok a => f a
    | .err e => .ret (.err e)
    | .panic w => .ret (.panic w)

/-- `ReadIndices` (modeler/read.go:132-161) called for sparse indices, with the destination in the
array `j` of `uint32Pool`. -/
def indicesProg (repr : Slice → Bytes) (doc : Document) (c : ComponentType) (count : Int) (bufferView : Int)
    (byteOffset : Int) (j : Nat) : Prog (Res Nat) :=
  match checkIndices c .scalar with
  | .err e => .ret (.err e)
  | .panic w => .ret (.panic w)
  | .ok _ =>
    withArray .buf fun b1 =>
      andThen (denseProg repr doc c .scalar count (some bufferView) byteOffset b1) fun (ty, n) =>
      andThen (contents b1 ty n) fun data =>
      .load j fun m =>
        match makeBufferOf 0 count m.toWords with
        | .err e => .ret (.err e)
        | .panic w => .ret (.panic w)
        | .ok buffer => .upd j (fun _ => .words buffer) <|
          match indicesOf buffer data with
          | .err e => .ret (.err e)
          | .panic w => .ret (.panic w)
          | .ok r => (storeWords j r 0).bind fun _ => .ret (.ok r.length)

/-- modeler/read.go:77-79, the assignments of the sparse values. -/
def assignSparse (sp : Sparse) (data : Slice) (indices : List UInt32) (values : Slice) : Res Slice :=
  if h : values.ty = data.ty then do
    let d ← sparseLoop indices (h ▸ values.data) sp.count.toNat 0 data.data
    return ⟨data.ty, d⟩
  else .panic "reflect.Set: value not assignable"

/-- modeler/read.go:48-80, the sparse part of `ReadAccessor`. -/
def sparseProg (repr : Slice → Bytes) (doc : Document) (acr : Accessor) (sp : Sparse) (data : Slice) : Prog (Res Slice) :=
  withArray .idx fun j =>
    andThen (indicesProg repr doc sp.indices.componentType sp.count sp.indices.bufferView sp.indices.byteOffset j) fun n =>
    withArray .buf fun b2 =>
      andThen (denseProg repr doc acr.componentType acr.type sp.count (some sp.values.bufferView) sp.values.byteOffset b2) fun (ty, m) =>
      (loadWords j n 0).bind fun indices =>
      match indices with
      | none => .ret (.panic "concurrent modification")
      | some indices => andThen (contents b2 ty m) fun values => .ret (assignSparse sp data indices values)

/-- The typed readers. -/
inductive Reader where
  | indices | normal | tangent | textureCoord | weights | joints | position | color | color64 | inverseBindMatrices

/-- Element type of the result. -/
def Reader.ty : Reader → ETy
  | .indices => .base .u32 .sc
  | .normal | .position => .base .f32 .v3
  | .tangent | .weights => .base .f32 .v4
  | .textureCoord => .base .f32 .v2
  | .joints | .color64 => .base .u16 .v4
  | .color => .base .u8 .v4
  | .inverseBindMatrices => .base .f32 .m4

/-- The type checks. -/
def Reader.check : Reader → ComponentType → AccessorType → Res Unit
  | .indices => checkIndices
  | .normal | .position => checkExact (ETy.base .f32 .v3).c (ETy.base .f32 .v3).t
  | .tangent => checkExact (ETy.base .f32 .v4).c (ETy.base .f32 .v4).t
  | .textureCoord => checkNormalized .vec2
  | .weights => checkNormalized .vec4
  | .joints => checkReadJoints
  | .color | .color64 => checkReadColor
  | .inverseBindMatrices => checkExact (ETy.base .f32 .m4).c (ETy.base .f32 .m4).t

/-- The conversions. -/
def Reader.conv (cf : ColorFns) : (r : Reader) → List r.ty.Elem → Slice → Res (List r.ty.Elem)
  | .indices => indicesOf
  | .normal | .position => copyExact (.base .f32 .v3)
  | .tangent => copyExact (.base .f32 .v4)
  | .textureCoord => texCoordOf
  | .weights => weightsOf
  | .joints => jointsOf
  | .color => colorOf cf
  | .color64 => color64Of cf
  | .inverseBindMatrices => copyExact (.base .f32 .m4)

/-- The sequential model of the reader. -/
def Reader.read (cf : ColorFns) : (r : Reader) → Document → Accessor → List r.ty.Elem → Bytes → Pools → Res (List r.ty.Elem)
  | .indices => readIndices
  | .normal => readNormal
  | .position => readPosition
  | .tangent => readTangent
  | .textureCoord => readTextureCoord
  | .weights => readWeights
  | .joints => readJoints
  | .color => readColor cf
  | .color64 => readColor64 cf
  | .inverseBindMatrices => readInverseBindMatrices

/-- The last part of the typed readers: `buffer = makeBufferOf(…)` and the conversion loop. -/
def Reader.finish (cf : ColorFns) (r : Reader) (acr : Accessor) (buffer : List r.ty.Elem) (data : Slice) : Res Slice :=
  ((makeBufferOf r.ty.zero acr.count buffer) >>= fun b => r.conv cf b data).map fun l => ⟨r.ty, l⟩

/-- Calls of the API. -/
inductive Call where
  | accessor (acr : Accessor) (buffer : Bytes)
  | typed (r : Reader) (acr : Accessor) (buffer : List r.ty.Elem)

/-- The program of a goroutine that makes one call. -/
def Call.prog (repr : Slice → Bytes) (cf : ColorFns) (doc : Document) : Call → Prog (Res Slice)
  | .accessor acr buffer =>
    match readDense doc acr.componentType acr.type acr.count acr.bufferView acr.byteOffset buffer with
    | .err e => .ret (.err e)
    | .panic w => .ret (.panic w)
    | .ok data =>
      match acr.sparse with
      | none => .ret (.ok data)
      | some sp => sparseProg repr doc acr sp data
  | .typed r acr buffer =>
    match r.check acr.componentType acr.type with
    | .err e => .ret (.err e)
    | .panic w => .ret (.panic w)
    | .ok _ =>
      withArray .buf fun b0 =>
        andThen (denseProg repr doc acr.componentType acr.type acr.count acr.bufferView acr.byteOffset b0) fun (ty, n) =>
        andThen
          (match acr.sparse with
          | none => .ret (.ok ())
          | some sp =>
            andThen (contents b0 ty n) fun data =>
            andThen (sparseProg repr doc acr sp data) fun s =>
            (storeFrom b0 s.ty s.data 0).bind fun _ => .ret (.ok ()))
          fun _ => andThen (contents b0 ty n) fun data => .ret (r.finish cf acr buffer data)

/-- What the sequential model gives for a call, with given contents of the pools. -/
def Call.solo (cf : ColorFns) (doc : Document) : Call → Bytes → Pools → Res Slice
  | .accessor acr buffer, _, p => readAccessor doc acr buffer p
  | .typed r acr buffer, b0, p => (r.read cf doc acr buffer b0 p).map fun l => ⟨r.ty, l⟩

/-- State of the process. -/
structure State where
  /-- scratch arrays -/
  heap : Nat → Mem
  /-- arrays from here on have not been allocated -/
  next : Nat
  /-- arrays in the pools -/
  free : List (Pool × Nat)
  /-- rest of the program of every goroutine -/
  threads : List (Prog (Res Slice))

/-- Change of one array. -/
def setHeap (h : Nat → Mem) (id : Nat) (m : Mem) : Nat → Mem := fun i => if i = id then m else h i

/-- `New` of the pools, modeler/read.go:15-18 and 110-113. -/
def freshArray : Pool → Mem
  | .buf => .raw (List.replicate 1024 0)
  | .idx => .words (List.replicate 100 0)

/-- One step of one goroutine, or of the garbage collector, which may empty pools at any time. -/
inductive Step : State → State → Prop where
  | reuse {s : State} {i : Nat} {p : Pool} {k : Nat → Prog (Res Slice)} {id : Nat} :
      s.threads[i]? = some (.get p k) → (p, id) ∈ s.free →
      Step s { s with free := s.free.erase (p, id), threads := s.threads.set i (k id) }
  | new {s : State} {i : Nat} {p : Pool} {k : Nat → Prog (Res Slice)} :
      s.threads[i]? = some (.get p k) →
      Step s { heap := setHeap s.heap s.next (freshArray p), next := s.next + 1, free := s.free,
               threads := s.threads.set i (k s.next) }
  | put {s : State} {i : Nat} {p : Pool} {id : Nat} {k : Prog (Res Slice)} :
      s.threads[i]? = some (.put p id k) →
      Step s { s with free := (p, id) :: s.free, threads := s.threads.set i k }
  | load {s : State} {i : Nat} {id : Nat} {k : Mem → Prog (Res Slice)} :
      s.threads[i]? = some (.load id k) → Step s { s with threads := s.threads.set i (k (s.heap id)) }
  | upd {s : State} {i : Nat} {id : Nat} {f : Mem → Mem} {k : Prog (Res Slice)} :
      s.threads[i]? = some (.upd id f k) →
      Step s { s with heap := setHeap s.heap id (f (s.heap id)), threads := s.threads.set i k }
  | collect {s : State} {x : Pool × Nat} : x ∈ s.free → Step s { s with free := s.free.erase x }

/-- Any number of steps. -/
inductive Steps : State → State → Prop where
  | refl (s : State) : Steps s s
  | step {s s' s'' : State} : Steps s s' → Step s' s'' → Steps s s''

end Gltf.Conc
