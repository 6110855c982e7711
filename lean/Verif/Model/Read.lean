/-
Model of modeler/read.go. The scratch buffers that the code takes from its two `sync.Pool`s are
explicit arguments with arbitrary contents.
-/
import Verif.Model.Write

namespace Gltf

/-- modeler/read.go:96-107, `ReadBufferView`. -/
def readBufferView (doc : Document) (bv : BufferView) : Res Bytes :=
  if (doc.buffers.length : Int) ≤ bv.buffer then .err (.msg "gltf: buffer index overflows")
  else if bv.buffer < 0 then .panic "index out of range"
  else
    match doc.buffers[bv.buffer.toNat]? with
    | some (some buffer) =>
      let buf := buffer.data
      let high := wrap64 (bv.byteOffset + bv.byteLength)
      if (buf.length : Int) < high then .err .shortBuffer
      else if 0 ≤ bv.byteOffset ∧ bv.byteOffset ≤ high then
        .ok ((buf.take high.toNat).drop bv.byteOffset.toNat)
      else .panic "slice bounds out of range"
    | _ => .panic "nil pointer dereference"

/-- `doc.BufferViews[i]` dereferenced. -/
def bufferViewAt (doc : Document) (i : Int) : Res BufferView :=
  if i < 0 then .panic "index out of range"
  else
    match doc.bufferViews[i.toNat]? with
    | some (some bv) => .ok bv
    | some none => .panic "nil pointer dereference"
    | none => .panic "index out of range"

/-- modeler/read.go:84-89, `readBufferView`. -/
def readBufferViewIndex (doc : Document) (i : Int) : Res Bytes :=
  if (doc.bufferViews.length : Int) ≤ i then .err (.msg "gltf: bufferview index overflows")
  else do
    let bv ← bufferViewAt doc i
    readBufferView doc bv

/-- modeler/read.go:32-46, the part of `ReadAccessor` before the sparse data. `buffer` is the
scratch buffer extended to its capacity. -/
def readDense (doc : Document) (c : ComponentType) (t : AccessorType) (count : Int) (bufferView : Option Int)
    (byteOffset : Int) (buffer : Bytes) : Res Slice := do
  let data ← makeSliceBuffer c t count buffer
  match bufferView with
  | none => return data
  | some i =>
    let buf ← readBufferViewIndex doc i
    let bv ← bufferViewAt doc i
    let tail ← sliceFrom buf byteOffset
    let d ← read tail bv.byteStride data.ty data.data
    return ⟨data.ty, d⟩

/-- modeler/read.go:116-125, `makeBufferOf`; a nil buffer is the empty list. -/
def makeBufferOf {α : Type} (zero : α) (count : Int) (buffer : List α) : Res (List α) :=
  if (buffer.length : Int) < count then .ok (buffer ++ List.replicate (count - buffer.length).toNat zero)
  else if count ≠ 0 then
    if 0 ≤ count then .ok (buffer.take count.toNat) else .panic "slice bounds out of range"
  else .ok buffer

/-- The loop `for i, e := range data { buffer[i] = f(e) }`. -/
def fill {α β : Type} (buffer : List β) (f : α → β) (data : List α) : Res (List β) :=
  if data.length ≤ buffer.length then .ok (data.map f ++ buffer.drop data.length)
  else .panic "index out of range"

/-- The type switch of `ReadIndices`, modeler/read.go:148-159. -/
def indicesOf (buffer : List UInt32) : Slice → Res (List UInt32)
  | ⟨.base .u8 .sc, data⟩ => fill buffer (fun e => UInt32.ofNat e.toNat) data
  | ⟨.base .u16 .sc, data⟩ => fill buffer (fun e => UInt32.ofNat e.toNat) data
  | ⟨.base .u32 .sc, data⟩ => .ok (goCopy buffer data)
  | _ => .ok buffer

/-- The type checks of `ReadIndices`, modeler/read.go:133-140. -/
def checkIndices (c : ComponentType) (t : AccessorType) : Res Unit :=
  match c with
  | .ubyte | .ushort | .uint =>
    if t ≠ .scalar then .err (.msg "gltf: accessor type not allowed") else .ok ()
  | _ => .err (.msg "gltf: component type not allowed")

/-- `ReadIndices` (modeler/read.go:132-161) for an accessor without sparse data; `pool` is the
scratch buffer taken from `bufPool`. -/
def readIndicesDense (doc : Document) (c : ComponentType) (t : AccessorType) (count : Int)
    (bufferView : Option Int) (byteOffset : Int) (buffer : List UInt32) (pool : Bytes) : Res (List UInt32) := do
  checkIndices c t
  let data ← readDense doc c t count bufferView byteOffset pool
  let buffer ← makeBufferOf 0 count buffer
  indicesOf buffer data

/-- Scratch buffers taken from the pools during one call of `ReadAccessor`. -/
structure Pools where
  /-- `uint32Pool`, modeler/read.go:49 -/
  idx : List UInt32
  /-- `bufPool` in the nested `ReadIndices`, modeler/read.go:141 -/
  b1 : Bytes
  /-- `bufPool` for the sparse values, modeler/read.go:62 -/
  b2 : Bytes

/-- The loop of the sparse branch, modeler/read.go:77-79, for `i` in `[i, n)`. Both slices have the
same element type. -/
def sparseLoop {α : Type} (indices : List UInt32) (vals : List α) : (n i : Nat) → List α → Res (List α)
  | 0, _, s => .ok s
  | n + 1, i, s =>
    match indices[i]?, vals[i]? with
    | some k, some v =>
      if k.toNat < s.length then sparseLoop indices vals n (i + 1) (s.set k.toNat v)
      else .panic "reflect: slice index out of range"
    | _, _ => .panic "index out of range"

/-- modeler/read.go:31-82, `ReadAccessor`. The two accessors built for the sparse indices and
values have no sparse data themselves, so the recursion is unfolded once. -/
def readAccessor (doc : Document) (acr : Accessor) (buffer : Bytes) (p : Pools) : Res Slice := do
  let data ← readDense doc acr.componentType acr.type acr.count acr.bufferView acr.byteOffset buffer
  match acr.sparse with
  | none => return data
  | some sp =>
    let indices ← readIndicesDense doc sp.indices.componentType .scalar sp.count (some sp.indices.bufferView)
      sp.indices.byteOffset p.idx p.b1
    let values ← readDense doc acr.componentType acr.type sp.count (some sp.values.bufferView)
      sp.values.byteOffset p.b2
    if h : values.ty = data.ty then
      let d ← sparseLoop indices (h ▸ values.data) sp.count.toNat 0 data.data
      return ⟨data.ty, d⟩
    else .panic "reflect.Set: value not assignable"

/-- modeler/read.go:132-161, `ReadIndices`; `b0` is the scratch buffer taken from `bufPool`. -/
def readIndices (doc : Document) (acr : Accessor) (buffer : List UInt32) (b0 : Bytes) (p : Pools) : Res (List UInt32) := do
  checkIndices acr.componentType acr.type
  let data ← readAccessor doc acr b0 p
  let buffer ← makeBufferOf 0 acr.count buffer
  indicesOf buffer data

/-- Check for exactly one component type and accessor type, as in modeler/read.go:167-172. -/
def checkExact (c0 : ComponentType) (t0 : AccessorType) (c : ComponentType) (t : AccessorType) : Res Unit :=
  if c ≠ c0 then .err (.msg "gltf: component type not allowed")
  else if t ≠ t0 then .err (.msg "gltf: accessor type not allowed")
  else .ok ()

/-- `data.([]T)` for a given element type, then `copy(buffer, data)`. -/
def copyExact (t0 : ETy) (buffer : List t0.Elem) (data : Slice) : Res (List t0.Elem) :=
  if h : data.ty = t0 then .ok (goCopy buffer (h ▸ data.data)) else .panic "interface conversion"

/-- The common body of the readers that only accept one type. -/
def readExact (t0 : ETy) (doc : Document) (acr : Accessor) (buffer : List t0.Elem) (b0 : Bytes) (p : Pools) :
    Res (List t0.Elem) := do
  checkExact t0.c t0.t acr.componentType acr.type
  let data ← readAccessor doc acr b0 p
  let buffer ← makeBufferOf t0.zero acr.count buffer
  copyExact t0 buffer data

/-- modeler/read.go:166-182, `ReadNormal`. -/
def readNormal := readExact (.base .f32 .v3)

/-- modeler/read.go:187-203, `ReadTangent`. -/
def readTangent := readExact (.base .f32 .v4)

/-- modeler/read.go:325-341, `ReadPosition`. -/
def readPosition := readExact (.base .f32 .v3)

/-- modeler/read.go:458-474, `ReadInverseBindMatrices`. -/
def readInverseBindMatrices := readExact (.base .f32 .m4)

/-- The checks of `ReadTextureCoord` and `ReadWeights`, modeler/read.go:211-218 and 251-258. -/
def checkNormalized (t0 : AccessorType) (c : ComponentType) (t : AccessorType) : Res Unit :=
  match c with
  | .ubyte | .ushort | .float =>
    if t ≠ t0 then .err (.msg "gltf: accessor type not allowed") else .ok ()
  | _ => .err (.msg "gltf: component type not allowed")

/-- The type switch of `ReadTextureCoord`, modeler/read.go:226-241. -/
def texCoordOf (buffer : List (V2 F32)) : Slice → Res (List (V2 F32))
  | ⟨.base .u8 .v2, data⟩ => fill buffer (fun e => ⟨denormalizeUbyte e.x0, denormalizeUbyte e.x1⟩) data
  | ⟨.base .u16 .v2, data⟩ => fill buffer (fun e => ⟨denormalizeUshort e.x0, denormalizeUshort e.x1⟩) data
  | ⟨.base .f32 .v2, data⟩ => .ok (goCopy buffer data)
  | _ => .ok buffer

/-- modeler/read.go:210-243, `ReadTextureCoord`. -/
def readTextureCoord (doc : Document) (acr : Accessor) (buffer : List (V2 F32)) (b0 : Bytes) (p : Pools) :
    Res (List (V2 F32)) := do
  checkNormalized .vec2 acr.componentType acr.type
  let data ← readAccessor doc acr b0 p
  let buffer ← makeBufferOf ⟨⟨0⟩, ⟨0⟩⟩ acr.count buffer
  texCoordOf buffer data

/-- The type switch of `ReadWeights`, modeler/read.go:266-283. -/
def weightsOf (buffer : List (V4 F32)) : Slice → Res (List (V4 F32))
  | ⟨.base .u8 .v4, data⟩ => fill buffer (fun e =>
      ⟨denormalizeUbyte e.x0, denormalizeUbyte e.x1, denormalizeUbyte e.x2, denormalizeUbyte e.x3⟩) data
  | ⟨.base .u16 .v4, data⟩ => fill buffer (fun e =>
      ⟨denormalizeUshort e.x0, denormalizeUshort e.x1, denormalizeUshort e.x2, denormalizeUshort e.x3⟩) data
  | ⟨.base .f32 .v4, data⟩ => .ok (goCopy buffer data)
  | _ => .ok buffer

/-- modeler/read.go:250-285, `ReadWeights`. -/
def readWeights (doc : Document) (acr : Accessor) (buffer : List (V4 F32)) (b0 : Bytes) (p : Pools) :
    Res (List (V4 F32)) := do
  checkNormalized .vec4 acr.componentType acr.type
  let data ← readAccessor doc acr b0 p
  let buffer ← makeBufferOf ⟨⟨0⟩, ⟨0⟩, ⟨0⟩, ⟨0⟩⟩ acr.count buffer
  weightsOf buffer data

/-- The checks of `ReadJoints`, modeler/read.go:293-300. -/
def checkReadJoints (c : ComponentType) (t : AccessorType) : Res Unit :=
  match c with
  | .ubyte | .ushort =>
    if t ≠ .vec4 then .err (.msg "gltf: accessor type not allowed") else .ok ()
  | _ => .err (.msg "gltf: component type not allowed")

/-- The type switch of `ReadJoints`, modeler/read.go:308-318. -/
def jointsOf (buffer : List (V4 UInt16)) : Slice → Res (List (V4 UInt16))
  | ⟨.base .u8 .v4, data⟩ => fill buffer (fun e =>
      ⟨e.x0.toUInt16, e.x1.toUInt16, e.x2.toUInt16, e.x3.toUInt16⟩) data
  | ⟨.base .u16 .v4, data⟩ => .ok (goCopy buffer data)
  | _ => .ok buffer

/-- modeler/read.go:292-320, `ReadJoints`. -/
def readJoints (doc : Document) (acr : Accessor) (buffer : List (V4 UInt16)) (b0 : Bytes) (p : Pools) :
    Res (List (V4 UInt16)) := do
  checkReadJoints acr.componentType acr.type
  let data ← readAccessor doc acr b0 p
  let buffer ← makeBufferOf ⟨0, 0, 0, 0⟩ acr.count buffer
  jointsOf buffer data

/-- The checks of `ReadColor` and `ReadColor64`, modeler/read.go:349-358 and 400-409. -/
def checkReadColor (c : ComponentType) (t : AccessorType) : Res Unit :=
  match c with
  | .ubyte | .ushort | .float =>
    match t with
    | .vec3 | .vec4 => .ok ()
    | _ => .err (.msg "gltf: accessor type not allowed")
  | _ => .err (.msg "gltf: component type not allowed")

/-- The sRGB conversions of math.go:45-127 that the colour readers use. They rely on `math.Pow`,
which is not modelled, so they are parameters; `ColorFns.ofMath` (Model/ColorRead.lean) has those of math.go. -/
structure ColorFns where
  rgb : V3 F32 → V3 UInt8
  rgba : V4 F32 → V4 UInt8
  rgb64 : V3 F32 → V3 UInt16
  rgba64 : V4 F32 → V4 UInt16

/-- The type switch of `ReadColor`, modeler/read.go:366-390. -/
def colorOf (cf : ColorFns) (buffer : List (V4 UInt8)) : Slice → Res (List (V4 UInt8))
  | ⟨.base .u8 .v3, data⟩ => fill buffer (fun e => ⟨e.x0, e.x1, e.x2, 255⟩) data
  | ⟨.base .u8 .v4, data⟩ => .ok (goCopy buffer data)
  | ⟨.base .u16 .v3, data⟩ => fill buffer (fun e => ⟨e.x0.toUInt8, e.x1.toUInt8, e.x2.toUInt8, 255⟩) data
  | ⟨.base .u16 .v4, data⟩ => fill buffer (fun e =>
      ⟨e.x0.toUInt8, e.x1.toUInt8, e.x2.toUInt8, e.x3.toUInt8⟩) data
  | ⟨.base .f32 .v3, data⟩ => fill buffer (fun e =>
      let tmp := cf.rgb e; ⟨tmp.x0, tmp.x1, tmp.x2, 255⟩) data
  | ⟨.base .f32 .v4, data⟩ => fill buffer cf.rgba data
  | _ => .ok buffer

/-- modeler/read.go:348-392, `ReadColor`. -/
def readColor (cf : ColorFns) (doc : Document) (acr : Accessor) (buffer : List (V4 UInt8)) (b0 : Bytes) (p : Pools) :
    Res (List (V4 UInt8)) := do
  checkReadColor acr.componentType acr.type
  let data ← readAccessor doc acr b0 p
  let buffer ← makeBufferOf ⟨0, 0, 0, 0⟩ acr.count buffer
  colorOf cf buffer data

/-- `uint16(e) | uint16(e)<<8`, modeler/read.go:421. -/
def widen (e : UInt8) : UInt16 := e.toUInt16 ||| (e.toUInt16 <<< 8)

/-- The type switch of `ReadColor64`, modeler/read.go:417-451. -/
def color64Of (cf : ColorFns) (buffer : List (V4 UInt16)) : Slice → Res (List (V4 UInt16))
  | ⟨.base .u8 .v3, data⟩ => fill buffer (fun e => ⟨widen e.x0, widen e.x1, widen e.x2, 65535⟩) data
  | ⟨.base .u8 .v4, data⟩ => fill buffer (fun e => ⟨widen e.x0, widen e.x1, widen e.x2, widen e.x3⟩) data
  | ⟨.base .u16 .v3, data⟩ => fill buffer (fun e => ⟨e.x0, e.x1, e.x2, 65535⟩) data
  | ⟨.base .u16 .v4, data⟩ => .ok (goCopy buffer data)
  | ⟨.base .f32 .v3, data⟩ => fill buffer (fun e =>
      let tmp := cf.rgb64 e; ⟨tmp.x0, tmp.x1, tmp.x2, 65535⟩) data
  | ⟨.base .f32 .v4, data⟩ => fill buffer cf.rgba64 data
  | _ => .ok buffer

/-- modeler/read.go:399-453, `ReadColor64`. -/
def readColor64 (cf : ColorFns) (doc : Document) (acr : Accessor) (buffer : List (V4 UInt16)) (b0 : Bytes) (p : Pools) :
    Res (List (V4 UInt16)) := do
  checkReadColor acr.componentType acr.type
  let data ← readAccessor doc acr b0 p
  let buffer ← makeBufferOf ⟨0, 0, 0, 0⟩ acr.count buffer
  color64Of cf buffer data

end Gltf
