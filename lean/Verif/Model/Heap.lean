/-
The data of the buffers as Go slices: arrays in memory that several slices may share. The rest of the model treats slices as values;
here are the functions of modeler/write.go once more, with memory.
-/
import Verif.Spec.History
import Verif.Model.Read

namespace Gltf.Heap

open Gltf

/-- The arrays of bytes in memory. They are never freed. -/
abbrev Mem : Type := List Bytes

/-- A slice of bytes: a part of an array, and how far it may grow. The nil slice has no capacity. -/
structure GoSlice where
  arr : Nat := 0
  off : Nat := 0
  len : Nat := 0
  cap : Nat := 0
deriving DecidableEq

/-- What the slice shows. The elements are bytes, except in Model/HeapRead. -/
def GoSlice.bytes {α : Type} (s : GoSlice) (m : List (List α)) : List α := ((m[s.arr]?.getD []).drop s.off).take s.len

/-- `s[i:]`, where `i ≤ len(s)`. -/
def GoSlice.tail (s : GoSlice) (i : Nat) : GoSlice := { s with off := s.off + i, len := s.len - i, cap := s.cap - i }

/-- `s[lo:hi]`, where `lo ≤ hi ≤ cap(s)`. -/
def GoSlice.range (s : GoSlice) (lo hi : Nat) : GoSlice := { s with off := s.off + lo, len := hi - lo, cap := s.cap - lo }

/-- Replace the bytes of an array from `i` on. -/
def splice {α : Type} (a : List α) (i : Nat) (bs : List α) : List α := a.take i ++ bs ++ a.drop (i + bs.length)

/-- Store bytes in a slice from place `i` on. -/
def GoSlice.store {α : Type} (s : GoSlice) (m : List (List α)) (i : Nat) (bs : List α) : List (List α) := m.modify s.arr fun a => splice a (s.off + i) bs

/-- What the runtime adds to the capacity of a slice that it reallocates. -/
abbrev Grow : Type := Mem → GoSlice → Nat → Nat

/-- `append(s, make([]byte, n)...)`: in place if the capacity suffices, and otherwise in a new array. The panic is that of
`appendZeros`. -/
def append (G : Grow) (m : Mem) (s : GoSlice) (n : Nat) : Res (Mem × GoSlice) :=
  if s.len + n ≤ maxAlloc then
    if s.len + n ≤ s.cap then .ok (s.store m s.len (List.replicate n 0), { s with len := s.len + n })
    else .ok (m ++ [s.bytes m ++ List.replicate (n + G m s n) 0], ⟨m.length, 0, s.len + n, s.len + n + G m s n⟩)
  else .panic "growslice: len out of range"

/-- A document in memory: `data` has the slices `Data` of the buffers; the field `data` of the buffers of `doc` is not used. -/
structure MDoc where
  mem : Mem := []
  doc : Document := {}
  data : List GoSlice := []

/-- The document that the rest of the model is about. -/
def MDoc.value (d : MDoc) : Document :=
  { d.doc with buffers := List.zipWith (fun b s => b.map fun b => { b with data := s.bytes d.mem }) d.doc.buffers d.data }

/-- A function that changes a document in memory. After a panic the document is unspecified. -/
def MW (α : Type) : Type := MDoc → MDoc × Res α

namespace MW

/-- Sequencing. -/
@[inline] def bind {α β : Type} (x : MW α) (f : α → MW β) : MW β := fun d =>
  match x d with
  | (d, .ok a) => f a d
  | (d, .err e) => (d, .err e)
  | (d, .panic w) => (d, .panic w)

/-- No effect. -/
@[inline] def pure {α : Type} (a : α) : MW α := fun d => (d, .ok a)

instance : Monad MW where
  pure := MW.pure
  bind := MW.bind

/-- Code that does not access the data of the buffers: as in Model/Write. -/
def rest {α : Type} (w : W α) : MW α := fun d =>
  let (doc, r) := w d.doc
  ({ d with doc }, r)

end MW

/-- modeler/write.go:363-367: a first buffer, if there is none. Its data is nil. -/
def withBuffer (d : MDoc) : MDoc :=
  if d.doc.buffers.length = 0 then
    { d with doc := { d.doc with buffers := d.doc.buffers ++ [some {}] }, data := d.data ++ [{}] }
  else d

/-- The last buffer and its data. -/
def last (d : MDoc) : Option (Buffer × GoSlice) :=
  match d.doc.buffers.getLast?.join, d.data.getLast? with
  | some b, some s => some (b, s)
  | _, _ => none

/-- Assignments to the fields of the last buffer. -/
def setLast (d : MDoc) (m : Mem) (byteLength : Int) (b : Buffer) (s : GoSlice) : MDoc where
  mem := m
  doc := { d.doc with buffers := d.doc.buffers.dropLast ++ [some { b with byteLength }] }
  data := d.data.dropLast ++ [s]

/-- modeler/write.go:356-361, `ensurePadding`. -/
def ensurePadding (G : Grow) : MW Unit := fun d =>
  let d := withBuffer d
  match last d with
  | none => (d, .panic "nil pointer dereference")
  | some (b, s) =>
    let padding := getPadding s.len
    match append G d.mem s padding with
    | .ok (m, s) => (setLast d m (wrap64 (b.byteLength + padding)) b s, .ok ())
    | .err e => (d, .err e)
    | .panic w => (d, .panic w)

/-- The second loop of `writeBufferViews`, modeler/write.go:338-344. `binary.Write` changes the bytes of the slice that it gets
as in Model/Binary. The elements to be written are values: they do not share memory with the part of the buffer that is written. -/
def writeAll (stride : Nat) (s : GoSlice) : (dataOffset : Nat) → Mem → List Slice → Res Mem
  | _, m, [] => .ok m
  | dataOffset, m, d :: ds =>
    if dataOffset ≤ s.len then
      let t := s.tail dataOffset
      match writeIgnore (t.bytes m) stride d with
      | .ok bs => writeAll stride s (dataOffset + sizeOfElement d.ty.c d.ty.t) (t.store m 0 bs) ds
      | .err e => .err e
      | .panic w => .panic w
    else .panic "slice bounds out of range"

/-- modeler/write.go:317-354, `writeBufferViews`. -/
def writeBufferViews (G : Grow) (target : Target) (data : List Slice) : MW Nat := fun d =>
  match viewSizes target (decide (1 < data.length)) 0 0 0 0 data with
  | .err e => (d, .err e)
  | .panic w => (d, .panic w)
  | .ok (stride, size) =>
    let d := withBuffer d
    match last d with
    | none => (d, .panic "nil pointer dereference")
    | some (b, s) =>
      let offset := s.len
      match append G d.mem s size with
      | .err e => (d, .err e)
      | .panic w => (d, .panic w)
      | .ok (m, s) =>
        match writeAll stride s offset m data with
        | .err e => (d, .err e)
        | .panic w => (d, .panic w)
        | .ok m =>
          let d := setLast d m (wrap64 (b.byteLength + size)) b s
          let bufferView : BufferView :=
            { buffer := (d.doc.buffers.length : Int) - 1, byteLength := size, byteOffset := offset, byteStride := stride, target := target }
          ({ d with doc := { d.doc with bufferViews := d.doc.bufferViews ++ [some bufferView] } }, .ok d.doc.bufferViews.length)

/-- modeler/write.go:312-315, `WriteBufferView`. -/
def writeBufferView (G : Grow) (target : Target) (data : Slice) : MW Nat := fun d =>
  match writeBufferViews G target [data] d with
  | (d, .err _) => (d, .ok 0)
  | r => r

/-- modeler/write.go:196-208, `WriteAccessor`. -/
def writeAccessor (G : Grow) (target : Target) (data : Slice) : MW Nat := do
  ensurePadding G
  let index ← writeBufferView G target data
  let (c, a, l) := typeOf data
  MW.rest (appendAccessor { bufferView := some index, byteOffset := 0, componentType := c, type := a, count := l })

/-- modeler/write.go:216-237, `WriteAccessorsInterleaved`. -/
def writeAccessorsInterleaved (G : Grow) (data : List Slice) : MW (List Nat) := do
  ensurePadding G
  let index ← writeBufferViews G targetArrayBuffer data
  MW.rest (appendInterleaved index 0 data)

/-- modeler/write.go:21-28, `WriteIndices`. -/
def writeIndices (G : Grow) (data : Slice) : MW Nat :=
  match data.ty with
  | .base .u16 .sc | .base .u32 .sc => writeAccessor G targetElementArrayBuffer data
  | _ => MW.rest (W.lift (.panic "modeler.WriteIndices: invalid type"))

/-- modeler/write.go:47-55, 72-80 and 147-155: `WriteTextureCoord`, `WriteWeights` and `WriteColor`. -/
def writeNormalized (G : Grow) (check : Slice → Res Bool) (data : Slice) : MW Nat := do
  let normalized ← MW.rest (W.lift (panicOnErr (check data)))
  let index ← writeAccessor G targetArrayBuffer data
  MW.rest (modifyAccessor index fun a => { a with normalized := normalized })
  return index

/-- modeler/write.go:97-103, `WriteJoints`. -/
def writeJoints (G : Grow) (data : Slice) : MW Nat := do
  MW.rest (W.lift (panicOnErr (checkJoints data)))
  writeAccessor G targetArrayBuffer data

/-- modeler/write.go:124-130, `WritePosition`. -/
def writePosition (G : Grow) (data : List (V3 F32)) : MW Nat := do
  let index ← writeAccessor G targetArrayBuffer ⟨.base .f32 .v3, data⟩
  let (min, max) := minMaxFloat32 data
  MW.rest (modifyAccessor index fun a => { a with min := min.toList })
  MW.rest (modifyAccessor index fun a => { a with max := max.toList })
  return index

/-- `doc.Images = append(doc.Images, &image)`, returning the new index. -/
def appendImage (image : Image) : W Nat := do
  let doc ← W.get
  W.put { doc with images := doc.images ++ [some image] }
  return doc.images.length

/-- modeler/write.go:172-191, `WriteImage`. -/
def writeImage (G : Grow) (name mimeType : Bytes) (r : Except Err Bytes) : MW Nat :=
  match r with
  | .error e => MW.rest (W.lift (.err e))
  | .ok data => do
    let index ← writeBufferView G targetNone ⟨.base .u8 .sc, data⟩
    MW.rest (appendImage { name := name, mimeType := mimeType, bufferView := some index })

/-- modeler/write.go:247-298, `WritePrimitiveAttributes`. -/
def writePrimitiveAttributes (G : Grow) (attr : List PrimitiveAttribute) : MW PrimitiveAttributes := do
  let st ← MW.rest (W.lift (collectAttrs {} attr))
  let indices ← writeAccessorsInterleaved G st.data
  let attrs ← MW.rest (assignAttrs [] (indices.zip st.props))
  match mapGet attrs POSITION with
  | none => return attrs
  | some pos => do
    MW.rest (modifyAccessor pos.toNat fun a => { a with min := st.min.toList })
    MW.rest (modifyAccessor pos.toNat fun a => { a with max := st.max.toList })
    return attrs

/-- Forget the value of a result. -/
def discard {α : Type} (r : MDoc × Res α) : MDoc × Res Unit := (r.1, r.2.map fun _ => ())

/-- Run a call of a writing function. -/
def run (G : Grow) (d : MDoc) : WriteOp → MDoc × Res Unit
  | .indices data => discard (writeIndices G data d)
  | .normal data => discard (writeAccessor G targetArrayBuffer ⟨.base .f32 .v3, data⟩ d)
  | .tangent data => discard (writeAccessor G targetArrayBuffer ⟨.base .f32 .v4, data⟩ d)
  | .textureCoord data => discard (writeNormalized G checkTextureCoord data d)
  | .weights data => discard (writeNormalized G checkWeights data d)
  | .joints data => discard (writeJoints G data d)
  | .inverseBindMatrices data => discard (writeAccessor G targetArrayBuffer ⟨.base .f32 .m4, data⟩ d)
  | .position data => discard (writePosition G data d)
  | .color data => discard (writeNormalized G checkColor data d)
  | .image name mimeType r => discard (writeImage G name mimeType r d)
  | .accessor target data => discard (writeAccessor G target data d)
  | .accessorsInterleaved data => discard (writeAccessorsInterleaved G data d)
  | .primitiveAttributes attr => discard (writePrimitiveAttributes G attr d)
  | .bufferView target data => discard (writeBufferView G target data d)
  | .bufferViewInterleaved data => discard (writeBufferViews G targetArrayBuffer data d)

/-- A sequence of calls that do not panic. The runtime may choose the capacities differently each time. -/
inductive Calls : MDoc → MDoc → Prop
  | nil (d : MDoc) : Calls d d
  | step {d d' : MDoc} (G : Grow) (op : WriteOp) (h : (run G d op).2.isPanic = false) (more : Calls (run G d op).1 d') : Calls d d'

/-- modeler/read.go:96-107, `ReadBufferView`: the slice that it returns. -/
def readBufferView (d : MDoc) (bv : BufferView) : Res GoSlice :=
  if (d.doc.buffers.length : Int) ≤ bv.buffer then .err (.msg "gltf: buffer index overflows")
  else if bv.buffer < 0 then .panic "index out of range"
  else
    match d.doc.buffers[bv.buffer.toNat]?, d.data[bv.buffer.toNat]? with
    | some (some _), some buf =>
      let high := wrap64 (bv.byteOffset + bv.byteLength)
      if (buf.len : Int) < high then .err .shortBuffer
      else if 0 ≤ bv.byteOffset ∧ bv.byteOffset ≤ high then .ok (buf.range bv.byteOffset.toNat high.toNat)
      else .panic "slice bounds out of range"
    | _, _ => .panic "nil pointer dereference"

end Gltf.Heap
