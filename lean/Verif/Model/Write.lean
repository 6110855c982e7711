/-
Model of modeler/write.go: the functions that append data to a document.
-/
import Verif.Model.Binary
import Verif.Model.Math

namespace Gltf

/-- A function of the modeler that mutates the document: new document and result. After a panic the
document is unspecified (the model gives the state at some earlier point). -/
def W (α : Type) : Type := Document → Document × Res α

namespace W

/-- Sequencing. -/
@[inline] def bind {α β : Type} (x : W α) (f : α → W β) : W β := fun doc =>
  match x doc with
  | (doc, .ok a) => f a doc
  | (doc, .err e) => (doc, .err e)
  | (doc, .panic w) => (doc, .panic w)

/-- No effect. -/
@[inline] def pure {α : Type} (a : α) : W α := fun doc => (doc, .ok a)

instance : Monad W where
  pure := W.pure
  bind := W.bind

/-- Read the document. -/
def get : W Document := fun doc => (doc, .ok doc)

/-- Replace the document. -/
def put (d : Document) : W Unit := fun _ => (d, .ok ())

/-- A computation that does not touch the document. -/
def lift {α : Type} (r : Res α) : W α := fun doc => (doc, r)

end W

/-- `append(b, make([]byte, n)...)`. The runtime panics beyond its address space limit; running
out of memory below it is not modelled. -/
def appendZeros (b : Bytes) (n : Nat) : Res Bytes :=
  if b.length + n ≤ maxAlloc then .ok (b ++ List.replicate n 0)
  else .panic "growslice: len out of range"

/-- modeler/write.go:370-376, `getPadding`. -/
def getPadding (offset : Nat) : Nat :=
  let padAlign := offset % 4
  if padAlign = 0 then 0 else 4 - padAlign

/-- modeler/write.go:363-368, `lastBuffer`: the pointed buffer; `none` is a nil pointer. -/
def lastBuffer : W (Option Buffer) := fun doc =>
  let doc := if doc.buffers.length = 0 then { doc with buffers := doc.buffers ++ [some {}] } else doc
  (doc, .ok doc.buffers.getLast?.join)

/-- Assignments through the pointer returned by `lastBuffer`. -/
def setLastBuffer (b : Buffer) : W Unit := fun doc =>
  ({ doc with buffers := doc.buffers.dropLast ++ [some b] }, .ok ())

/-- Dereference of a pointer. -/
def deref {α : Type} : Option α → Res α
  | some a => .ok a
  | none => .panic "nil pointer dereference"

/-- modeler/write.go:356-361, `ensurePadding`. -/
def ensurePadding : W Unit := do
  let p ← lastBuffer
  let buffer ← W.lift (deref p)
  let padding := getPadding buffer.data.length
  let data ← W.lift (appendZeros buffer.data padding)
  setLastBuffer { buffer with data := data, byteLength := wrap64 (buffer.byteLength + padding) }

/-- The first loop of `writeBufferViews`, modeler/write.go:319-333, from index `i` on: final stride
and size. `many` is `len(data) > 1`. The products and sums are not wrapped: the data is in memory. -/
def viewSizes (target : Target) (many : Bool) :
    (i : Nat) → (refLength stride size : Nat) → List Slice → Res (Nat × Nat)
  | _, _, stride, size, [] => .ok (stride, size)
  | i, refLength, stride, size, d :: ds =>
    let (c, a, l) := typeOf d
    if i ≠ 0 ∧ refLength ≠ l then
      .err (.msg "gltf: interleaved data shall have the same number of elements in all chunks")
    else
      let refLength := if i = 0 then l else refLength
      let sizeOfElement := sizeOfElement c a
      let size := size + l * sizeOfElement
      let stride :=
        if many then stride + sizeOfElement
        else if target = targetArrayBuffer ∧ c.byteSize * a.components ≠ sizeOfElement then sizeOfElement
        else stride
      viewSizes target many (i + 1) refLength stride size ds

/-- `_ = binary.Write(b, stride, d)`: an error is ignored, and then `b` is unchanged. -/
def writeIgnore (b : Bytes) (stride : Nat) (d : Slice) : Res Bytes :=
  match write b stride d.ty d.data with
  | .err _ => .ok b
  | r => r

/-- The second loop of `writeBufferViews`, modeler/write.go:338-344. -/
def writeAll (stride : Nat) : (dataOffset : Nat) → Bytes → List Slice → Res Bytes
  | _, b, [] => .ok b
  | dataOffset, b, d :: ds => do
    let b ← withSliceFrom b dataOffset (fun tail => writeIgnore tail stride d)
    writeAll stride (dataOffset + sizeOfElement d.ty.c d.ty.t) b ds

/-- modeler/write.go:317-354, `writeBufferViews`. -/
def writeBufferViews (target : Target) (data : List Slice) : W Nat := do
  let (stride, size) ← W.lift (viewSizes target (decide (1 < data.length)) 0 0 0 0 data)
  let p ← lastBuffer
  let buffer ← W.lift (deref p)
  let offset := buffer.data.length
  let bytes ← W.lift (appendZeros buffer.data size)
  let bytes ← W.lift (writeAll stride offset bytes data)
  setLastBuffer { buffer with byteLength := wrap64 (buffer.byteLength + size), data := bytes }
  let doc ← W.get
  let bufferView : BufferView :=
    { buffer := (doc.buffers.length : Int) - 1, byteLength := size, byteOffset := offset,
      byteStride := stride, target := target }
  W.put { doc with bufferViews := doc.bufferViews ++ [some bufferView] }
  return doc.bufferViews.length

/-- modeler/write.go:305-307, `WriteBufferViewInterleaved`. -/
def writeBufferViewInterleaved (data : List Slice) : W Nat := writeBufferViews targetArrayBuffer data

/-- modeler/write.go:312-315, `WriteBufferView`: an error is dropped (the index is then 0). -/
def writeBufferView (target : Target) (data : Slice) : W Nat := fun doc =>
  match writeBufferViews target [data] doc with
  | (doc, .err _) => (doc, .ok 0)
  | r => r

/-- `doc.Accessors = append(doc.Accessors, &acr)`, returning the new index. -/
def appendAccessor (acr : Accessor) : W Nat := do
  let doc ← W.get
  W.put { doc with accessors := doc.accessors ++ [some acr] }
  return doc.accessors.length

/-- modeler/write.go:196-208, `WriteAccessor`. -/
def writeAccessor (target : Target) (data : Slice) : W Nat := do
  ensurePadding
  let index ← writeBufferView target data
  let (c, a, l) := typeOf data
  appendAccessor { bufferView := some index, byteOffset := 0, componentType := c, type := a, count := l }

/-- The loop of `WriteAccessorsInterleaved`, modeler/write.go:224-235. -/
def appendInterleaved (index : Nat) : (byteOffset : Nat) → List Slice → W (List Nat)
  | _, [] => return []
  | byteOffset, d :: ds => do
    let (c, t, l) := typeOf d
    let i ← appendAccessor
      { bufferView := some index, byteOffset := byteOffset, componentType := c, type := t, count := l }
    let is ← appendInterleaved index (byteOffset + sizeOfElement c t) ds
    return i :: is

/-- modeler/write.go:216-237, `WriteAccessorsInterleaved`. -/
def writeAccessorsInterleaved (data : List Slice) : W (List Nat) := do
  ensurePadding
  let index ← writeBufferViewInterleaved data
  appendInterleaved index 0 data

/-- Assignments to fields of `doc.Accessors[i]`. -/
def modifyAccessor (i : Nat) (f : Accessor → Accessor) : W Unit := fun doc =>
  match doc.accessors[i]? with
  | none => (doc, .panic "index out of range")
  | some none => (doc, .panic "nil pointer dereference")
  | some (some a) => ({ doc with accessors := doc.accessors.set i (some (f a)) }, .ok ())

/-- modeler/write.go:21-28, `WriteIndices`. -/
def writeIndices (data : Slice) : W Nat :=
  match data.ty with
  | .base .u16 .sc | .base .u32 .sc => writeAccessor targetElementArrayBuffer data
  | _ => W.lift (.panic "modeler.WriteIndices: invalid type")

/-- modeler/write.go:33-35, `WriteNormal`. -/
def writeNormal (data : List (V3 F32)) : W Nat := writeAccessor targetArrayBuffer ⟨.base .f32 .v3, data⟩

/-- modeler/write.go:40-42, `WriteTangent`. -/
def writeTangent (data : List (V4 F32)) : W Nat := writeAccessor targetArrayBuffer ⟨.base .f32 .v4, data⟩

/-- modeler/write.go:57-67, `checkTextureCoord`. -/
def checkTextureCoord (data : Slice) : Res Bool :=
  match data.ty with
  | .base .u8 .v2 | .base .u16 .v2 => .ok true
  | .base .f32 .v2 => .ok false
  | _ => .err (.msg "invalid type")

/-- modeler/write.go:82-92, `checkWeights`. -/
def checkWeights (data : Slice) : Res Bool :=
  match data.ty with
  | .base .u8 .v4 | .base .u16 .v4 => .ok true
  | .base .f32 .v4 => .ok false
  | _ => .err (.msg "invalid type")

/-- modeler/write.go:112-119, `checkJoints`. -/
def checkJoints (data : Slice) : Res Unit :=
  match data.ty with
  | .base .u8 .v4 | .base .u16 .v4 => .ok ()
  | _ => .err (.msg "invalid type")

/-- modeler/write.go:157-167, `checkColor`. -/
def checkColor (data : Slice) : Res Bool :=
  match data.ty with
  | .rgba | .rgba64 | .base .u8 .v4 | .base .u8 .v3 | .base .u16 .v4 | .base .u16 .v3 => .ok true
  | .base .f32 .v3 | .base .f32 .v4 => .ok false
  | _ => .err (.msg "invalid type")

/-- `if err != nil { panic(err) }`. -/
def panicOnErr {α : Type} : Res α → Res α
  | .err _ => .panic "invalid type"
  | r => r

/-- The common body of the helpers that write an attribute and set `Normalized`. -/
def writeNormalized (check : Slice → Res Bool) (data : Slice) : W Nat := do
  let normalized ← W.lift (panicOnErr (check data))
  let index ← writeAccessor targetArrayBuffer data
  modifyAccessor index fun a => { a with normalized := normalized }
  return index

/-- modeler/write.go:47-55, `WriteTextureCoord`. -/
def writeTextureCoord (data : Slice) : W Nat := writeNormalized checkTextureCoord data

/-- modeler/write.go:72-80, `WriteWeights`. -/
def writeWeights (data : Slice) : W Nat := writeNormalized checkWeights data

/-- modeler/write.go:147-155, `WriteColor`. -/
def writeColor (data : Slice) : W Nat := writeNormalized checkColor data

/-- modeler/write.go:97-103, `WriteJoints`. -/
def writeJoints (data : Slice) : W Nat := do
  W.lift (panicOnErr (checkJoints data))
  writeAccessor targetArrayBuffer data

/-- modeler/write.go:108-110, `WriteInverseBindMatrices`. -/
def writeInverseBindMatrices (data : List (V4 (V4 F32))) : W Nat :=
  writeAccessor targetArrayBuffer ⟨.base .f32 .m4, data⟩

/-- Body of the loop of `minMaxFloat32` for one component, modeler/write.go:137-138. -/
def minMaxStep (acc : F64 × F64) (x : F32) : F64 × F64 :=
  (acc.1.min x.toF64, acc.2.max x.toF64)

/-- modeler/write.go:132-142, `minMaxFloat32`; the accumulators are per component. -/
def minMaxFloat32 (data : List (V3 F32)) : V3 F64 × V3 F64 :=
  data.foldl (fun (mn, mx) v =>
    (⟨(minMaxStep (mn.x0, mx.x0) v.x0).1, (minMaxStep (mn.x1, mx.x1) v.x1).1, (minMaxStep (mn.x2, mx.x2) v.x2).1⟩,
     ⟨(minMaxStep (mn.x0, mx.x0) v.x0).2, (minMaxStep (mn.x1, mx.x1) v.x1).2, (minMaxStep (mn.x2, mx.x2) v.x2).2⟩))
    (⟨maxFloat64, maxFloat64, maxFloat64⟩, ⟨negMaxFloat64, negMaxFloat64, negMaxFloat64⟩)

/-- The slice `a[:]` of an array of three numbers. -/
def V3.toList {α : Type} (v : V3 α) : List α := [v.x0, v.x1, v.x2]

/-- modeler/write.go:124-130, `WritePosition`. -/
def writePosition (data : List (V3 F32)) : W Nat := do
  let index ← writeAccessor targetArrayBuffer ⟨.base .f32 .v3, data⟩
  let (min, max) := minMaxFloat32 data
  modifyAccessor index fun a => { a with min := min.toList }
  modifyAccessor index fun a => { a with max := max.toList }
  return index

/-- modeler/write.go:172-191, `WriteImage`. The reader is represented by what reading all of it
gives. -/
def writeImage (name mimeType : Bytes) (r : Except Err Bytes) : W Nat := do
  match r with
  | .error e => W.lift (.err e)
  | .ok data =>
    let index ← writeBufferView targetNone ⟨.base .u8 .sc, data⟩
    let doc ← W.get
    let image : Image := { name := name, mimeType := mimeType, bufferView := some index }
    W.put { doc with images := doc.images ++ [some image] }
    return doc.images.length

/-- const.go:22-31, the attribute names with special treatment. -/
def POSITION : Bytes := b!"POSITION"
@[inherit_doc POSITION] def TEXCOORD_0 : Bytes := b!"TEXCOORD_0"
@[inherit_doc POSITION] def TEXCOORD_1 : Bytes := b!"TEXCOORD_1"
@[inherit_doc POSITION] def WEIGHTS_0 : Bytes := b!"WEIGHTS_0"
@[inherit_doc POSITION] def JOINTS_0 : Bytes := b!"JOINTS_0"
@[inherit_doc POSITION] def COLOR_0 : Bytes := b!"COLOR_0"

/-- modeler/write.go:240-243, `PrimitiveAttribute`; `none` is a nil `Data`. -/
structure PrimitiveAttribute where
  name : Bytes
  data : Option Slice

/-- State of the first loop of `WritePrimitiveAttributes`. -/
structure AttrState where
  data : List Slice := []
  props : List (Bytes × Bool) := []
  min : V3 F64 := ⟨⟨0⟩, ⟨0⟩, ⟨0⟩⟩
  max : V3 F64 := ⟨⟨0⟩, ⟨0⟩, ⟨0⟩⟩

/-- The switch on the name of an attribute, modeler/write.go:260-276: the `normalized` flag and the
new bounds. -/
def checkAttr (name : Bytes) (d : Slice) (min max : V3 F64) : Res (Bool × V3 F64 × V3 F64) :=
  if name = POSITION then
    match d with
    | ⟨.base .f32 .v3, v⟩ => let (mn, mx) := minMaxFloat32 v; .ok (false, mn, mx)
    | _ => .err (.msg "invalid type")
  else if name = TEXCOORD_0 ∨ name = TEXCOORD_1 then (checkTextureCoord d).map fun n => (n, min, max)
  else if name = WEIGHTS_0 then (checkWeights d).map fun n => (n, min, max)
  else if name = JOINTS_0 then (checkJoints d).map fun _ => (false, min, max)
  else if name = COLOR_0 then (checkColor d).map fun n => (n, min, max)
  else .ok (false, min, max)

/-- The first loop of `WritePrimitiveAttributes`, modeler/write.go:256-282. The length is that of `sliceLength`,
modeler/write.go:378-390, which also panics on data that is not a slice; such data is not modelled. -/
def collectAttrs (st : AttrState) : List PrimitiveAttribute → Res AttrState
  | [] => .ok st
  | a :: rest =>
    match a.data with
    | none => collectAttrs st rest
    | some d =>
      if d.len = 0 then collectAttrs st rest
      else do
        let (normalized, min, max) ← checkAttr a.name d st.min st.max
        collectAttrs { data := st.data ++ [d], props := st.props ++ [(a.name, normalized)], min, max } rest

/-- Assignment to a map entry. -/
def mapSet {α : Type} (m : List (Bytes × α)) (k : Bytes) (v : α) : List (Bytes × α) :=
  match m with
  | [] => [(k, v)]
  | (k', v') :: m => if k' = k then (k, v) :: m else (k', v') :: mapSet m k v

/-- Lookup of a map entry. -/
def mapGet {α : Type} (m : List (Bytes × α)) (k : Bytes) : Option α :=
  match m with
  | [] => none
  | (k', v) :: m => if k' = k then some v else mapGet m k

/-- The second loop of `WritePrimitiveAttributes`, modeler/write.go:288-292. -/
def assignAttrs (attrs : PrimitiveAttributes) : List (Nat × Bytes × Bool) → W PrimitiveAttributes
  | [] => return attrs
  | (index, name, normalized) :: rest => do
    modifyAccessor index fun a => { a with normalized := normalized }
    assignAttrs (mapSet attrs name index) rest

/-- modeler/write.go:247-298, `WritePrimitiveAttributes`. -/
def writePrimitiveAttributes (attr : List PrimitiveAttribute) : W PrimitiveAttributes := do
  let st ← W.lift (collectAttrs {} attr)
  let indices ← writeAccessorsInterleaved st.data
  let attrs ← assignAttrs [] (indices.zip st.props)
  match mapGet attrs POSITION with
  | none => return attrs
  | some pos =>
    modifyAccessor pos.toNat fun a => { a with min := st.min.toList }
    modifyAccessor pos.toNat fun a => { a with max := st.max.toList }
    return attrs

end Gltf
