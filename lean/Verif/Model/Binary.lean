/-
Model of binary/encode.go (Read, Write) and binary/slice.go (MakeSlice, MakeSliceBuffer).
-/
import Verif.Model.Component

namespace Gltf

/-- The get function that `Read` applies to `b[e*i:]` for each element type,
binary/encode.go:31-214. The entries for `[]int8` and `[]uint8` are not the whole story: see
`read`. -/
def elemGet : (t : ETy) → Bytes → Res t.Elem
  | .rgba => fun b => do
    let c ← Ubyte.vec4 b
    return ⟨c.x0, c.x1, c.x2, c.x3⟩
  | .rgba64 => fun b => do
    let c ← Ushort.vec4 b
    return ⟨c.x0, c.x1, c.x2, c.x3⟩
  | .base .i8 .sc => Byte.scalar
  | .base .i8 .v2 => Byte.vec2
  | .base .i8 .v3 => Byte.vec3
  | .base .i8 .v4 => Byte.vec4
  | .base .i8 .m2 => Byte.mat2
  | .base .i8 .m3 => Byte.mat3
  | .base .i8 .m4 => Byte.mat4
  | .base .u8 .sc => Ubyte.scalar
  | .base .u8 .v2 => Ubyte.vec2
  | .base .u8 .v3 => Ubyte.vec3
  | .base .u8 .v4 => Ubyte.vec4
  | .base .u8 .m2 => Ubyte.mat2
  | .base .u8 .m3 => Ubyte.mat3
  | .base .u8 .m4 => Ubyte.mat4
  | .base .i16 .sc => Short.scalar
  | .base .i16 .v2 => Short.vec2
  | .base .i16 .v3 => Short.vec3
  | .base .i16 .v4 => Short.vec4
  | .base .i16 .m2 => Short.mat2
  | .base .i16 .m3 => Short.mat3
  | .base .i16 .m4 => Short.mat4
  | .base .u16 .sc => Ushort.scalar
  | .base .u16 .v2 => Ushort.vec2
  | .base .u16 .v3 => Ushort.vec3
  | .base .u16 .v4 => Ushort.vec4
  | .base .u16 .m2 => Ushort.mat2
  | .base .u16 .m3 => Ushort.mat3
  | .base .u16 .m4 => Ushort.mat4
  | .base .f32 .sc => Float.scalar
  | .base .f32 .v2 => Float.vec2
  | .base .f32 .v3 => Float.vec3
  | .base .f32 .v4 => Float.vec4
  | .base .f32 .m2 => Float.mat2
  | .base .f32 .m3 => Float.mat3
  | .base .f32 .m4 => Float.mat4
  | .base .u32 .sc => Uint.scalar
  | .base .u32 .v2 => Uint.vec2
  | .base .u32 .v3 => Uint.vec3
  | .base .u32 .v4 => Uint.vec4
  | .base .u32 .m2 => Uint.mat2
  | .base .u32 .m3 => Uint.mat3
  | .base .u32 .m4 => Uint.mat4

/-- The put function that `Write` applies to `b[e*i:]` for each element type,
binary/encode.go:238-413. The entry for `[]uint8` is not used: see `write`. -/
def elemPut : (t : ETy) → Bytes → t.Elem → Res Bytes
  | .rgba => fun b x => Ubyte.putVec4 b ⟨x.R, x.G, x.B, x.A⟩
  | .rgba64 => fun b x => Ushort.putVec4 b ⟨x.R, x.G, x.B, x.A⟩
  | .base .i8 .sc => fun b x => put8 b 0 x.toUInt8
  | .base .i8 .v2 => Byte.putVec2
  | .base .i8 .v3 => Byte.putVec3
  | .base .i8 .v4 => Byte.putVec4
  | .base .i8 .m2 => Byte.putMat2
  | .base .i8 .m3 => Byte.putMat3
  | .base .i8 .m4 => Byte.putMat4
  | .base .u8 .sc => Ubyte.putScalar
  | .base .u8 .v2 => Ubyte.putVec2
  | .base .u8 .v3 => Ubyte.putVec3
  | .base .u8 .v4 => Ubyte.putVec4
  | .base .u8 .m2 => Ubyte.putMat2
  | .base .u8 .m3 => Ubyte.putMat3
  | .base .u8 .m4 => Ubyte.putMat4
  | .base .i16 .sc => Short.putScalar
  | .base .i16 .v2 => Short.putVec2
  | .base .i16 .v3 => Short.putVec3
  | .base .i16 .v4 => Short.putVec4
  | .base .i16 .m2 => Short.putMat2
  | .base .i16 .m3 => Short.putMat3
  | .base .i16 .m4 => Short.putMat4
  | .base .u16 .sc => Ushort.putScalar
  | .base .u16 .v2 => Ushort.putVec2
  | .base .u16 .v3 => Ushort.putVec3
  | .base .u16 .v4 => Ushort.putVec4
  | .base .u16 .m2 => Ushort.putMat2
  | .base .u16 .m3 => Ushort.putMat3
  | .base .u16 .m4 => Ushort.putMat4
  | .base .f32 .sc => Float.putScalar
  | .base .f32 .v2 => Float.putVec2
  | .base .f32 .v3 => Float.putVec3
  | .base .f32 .v4 => Float.putVec4
  | .base .f32 .m2 => Float.putMat2
  | .base .f32 .m3 => Float.putMat3
  | .base .f32 .m4 => Float.putMat4
  | .base .u32 .sc => Uint.putScalar
  | .base .u32 .v2 => Uint.putVec2
  | .base .u32 .v3 => Uint.putVec3
  | .base .u32 .v4 => Uint.putVec4
  | .base .u32 .m2 => Uint.putMat2
  | .base .u32 .m3 => Uint.putMat3
  | .base .u32 .m4 => Uint.putMat4

/-- The loop `for i := range data { data[i] = get(b[e*i:]) }`, starting at index `i`. -/
def readLoop {α : Type} (get : Bytes → Res α) (b : Bytes) (e : Int) : Nat → List α → Res (List α)
  | _, [] => .ok []
  | i, _ :: ds => do
    let tail ← sliceFrom b (wrap64 (e * i))
    let x ← get tail
    let xs ← readLoop get b e (i + 1) ds
    return x :: xs

/-- The loop `for i := range data { put(b[e*i:], data[i]) }`, starting at index `i`. -/
def writeLoop {α : Type} (put : Bytes → α → Res Bytes) (e : Int) : Nat → Bytes → List α → Res Bytes
  | _, b, [] => .ok b
  | i, b, x :: xs => do
    let b ← withSliceFrom b (wrap64 (e * i)) (fun tail => put tail x)
    writeLoop put e (i + 1) b xs

/-- binary/encode.go:42-45: `for i, x := range b { data[i] = int8(x) }`. The loop runs over the
bytes, so it panics when there are more bytes than elements. -/
def readInt8 (b : Bytes) (data : List Int8) : Res (List Int8) :=
  if b.length ≤ data.length then .ok (b.map UInt8.toInt8 ++ data.drop b.length)
  else .panic "index out of range"

/-- Go's built-in `copy(dst, src)`. -/
def goCopy {α : Type} (dst src : List α) : List α :=
  src.take dst.length ++ dst.drop src.length

/-- The switch of `Read` on the type of the data, binary/encode.go:31-216; `e` is the effective
stride. -/
def readSwitch (b : Bytes) (e : Int) : (t : ETy) → List t.Elem → Res (List t.Elem)
  | .base .i8 .sc, data => readInt8 b data
  | .base .u8 .sc, data =>
    if e ≠ 1 then .ok (goCopy data b)
    else readLoop Ubyte.scalar b e 0 data
  | t, data => readLoop (elemGet t) b e 0 data

/-- binary/encode.go:17-218, `Read`. The result is the new content of `data`; when it is an error
`data` has not been touched. -/
def read (b : Bytes) (byteStride : Int) (t : ETy) (data : List t.Elem) : Res (List t.Elem) :=
  let n := data.length
  let size : Int := sizeOfElement t.c t.t
  let byteStride := if byteStride = 0 then size else byteStride
  let e := byteStride
  let high := wrap64 (n * e)
  let high := if byteStride ≠ size then wrap64 (high - wrap64 (byteStride - size)) else high
  if (b.length : Int) < high then .err .shortBuffer
  else readSwitch b e t data

/-- The switch of `Write` on the type of the data, binary/encode.go:238-413. -/
def writeSwitch (b : Bytes) (e : Int) : (t : ETy) → List t.Elem → Res Bytes
  | .base .u8 .sc, data => .ok (goCopy b data)
  | t, data => writeLoop (elemPut t) e 0 b data

/-- binary/encode.go:225-415, `Write`. The result is the new content of `b`; when it is an error
`b` has not been touched. For an empty slice the code calls `encoding/binary.Write` on a
`bytes.Buffer`, which writes zero bytes and returns nil. -/
def write (b : Bytes) (stride : Int) (t : ETy) (data : List t.Elem) : Res Bytes :=
  let n := data.length
  if n = 0 then .ok b
  else
    let size : Int := sizeOfElement t.c t.t
    let e := if stride = 0 then size else stride
    if (b.length : Int) < wrap64 (wrap64 (e * (n - 1)) + size) then .err .shortBuffer
    else writeSwitch b e t data

/-- Size in bytes of a value of the element type in memory: Go arrays are packed. -/
def ETy.memSize (t : ETy) : Nat := t.c.byteSize * t.t.components

/-- Element type chosen by `castSlice` (binary/slice.go:33-136); `none` where the switch has no
`return` and the function panics (binary/slice.go:137). -/
def castType : ComponentType → AccessorType → Option ETy
  | .ubyte, .scalar => some (.base .u8 .sc)
  | .ubyte, .vec2 => some (.base .u8 .v2)
  | .ubyte, .vec3 => some (.base .u8 .v3)
  | .ubyte, .vec4 => some (.base .u8 .v4)
  | .ubyte, .mat2 => some (.base .u8 .m2)
  | .ubyte, .mat3 => some (.base .u8 .m3)
  | .ubyte, .mat4 => some (.base .u8 .m4)
  | .byte, .scalar => some (.base .i8 .sc)
  | .byte, .vec2 => some (.base .i8 .v2)
  | .byte, .vec3 => some (.base .i8 .v3)
  | .byte, .vec4 => some (.base .i8 .v4)
  | .byte, .mat2 => some (.base .i8 .m2)
  | .byte, .mat3 => some (.base .i8 .m3)
  | .byte, .mat4 => some (.base .i8 .m4)
  | .ushort, .scalar => some (.base .u16 .sc)
  | .ushort, .vec2 => some (.base .u16 .v2)
  | .ushort, .vec3 => some (.base .u16 .v3)
  | .ushort, .vec4 => some (.base .u16 .v4)
  | .ushort, .mat2 => some (.base .u16 .m2)
  | .ushort, .mat3 => some (.base .u16 .m3)
  | .ushort, .mat4 => some (.base .u16 .m4)
  | .short, .scalar => some (.base .i16 .sc)
  | .short, .vec2 => some (.base .i16 .v2)
  | .short, .vec3 => some (.base .i16 .v3)
  | .short, .vec4 => some (.base .i16 .v4)
  | .short, .mat2 => some (.base .i16 .m2)
  | .short, .mat3 => some (.base .i16 .m3)
  | .short, .mat4 => some (.base .i16 .m4)
  | .uint, .scalar => some (.base .u32 .sc)
  | .uint, .vec2 => some (.base .u32 .v2)
  | .uint, .vec3 => some (.base .u32 .v3)
  | .uint, .vec4 => some (.base .u32 .v4)
  | .uint, .mat2 => some (.base .u32 .m2)
  | .uint, .mat3 => none
  | .uint, .mat4 => some (.base .u32 .m4)
  | .float, .scalar => some (.base .f32 .sc)
  | .float, .vec2 => some (.base .f32 .v2)
  | .float, .vec3 => some (.base .f32 .v3)
  | .float, .vec4 => some (.base .f32 .v4)
  | .float, .mat2 => some (.base .f32 .m2)
  | .float, .mat3 => some (.base .f32 .m3)
  | .float, .mat4 => some (.base .f32 .m4)
  | _, _ => none

/-- Component from its bytes in memory (little-endian host). -/
def Kind.ofMem (k : Kind) (b : Bytes) : k.T :=
  match k with
  | .i8 => (UInt8.ofNat (leNat b)).toInt8
  | .u8 => UInt8.ofNat (leNat b)
  | .i16 => (UInt16.ofNat (leNat b)).toInt16
  | .u16 => UInt16.ofNat (leNat b)
  | .u32 => UInt32.ofNat (leNat b)
  | .f32 => ⟨UInt32.ofNat (leNat b)⟩

/-- Number of columns of a shape in a Go value `v[row][col]`. -/
def Shape.goCols : Shape → Nat
  | .m2 => 2 | .m3 => 3 | .m4 => 4 | _ => 1

/-- Value of an element read directly from memory, as the `unsafe.Slice` of `reslice` does
(binary/slice.go:12-22). -/
def ETy.ofMem : (t : ETy) → Bytes → t.Elem
  | .base k s, b =>
    let size := k.ofMem
    let w := (ETy.base k .sc).memSize
    s.build fun r c => size ((b.drop ((r * s.goCols + c) * w)).take w)
  | .rgba, b => ⟨UInt8.ofNat (leNat (b.take 1)), UInt8.ofNat (leNat ((b.drop 1).take 1)),
      UInt8.ofNat (leNat ((b.drop 2).take 1)), UInt8.ofNat (leNat ((b.drop 3).take 1))⟩
  | .rgba64, b => ⟨UInt16.ofNat (leNat (b.take 2)), UInt16.ofNat (leNat ((b.drop 2).take 2)),
      UInt16.ofNat (leNat ((b.drop 4).take 2)), UInt16.ofNat (leNat ((b.drop 6).take 2))⟩

/-- `make([]T, count)` for an element type, as a list of zeros. -/
def makeZeros (t : ETy) (count : Int) : Res (List t.Elem) :=
  if count < 0 then .panic "makeslice: len out of range"
  else if maxAlloc < count.toNat * t.memSize then .panic "makeslice: len out of range"
  else .ok (List.replicate count.toNat t.zero)

/-- binary/slice.go:12-22, `reslice`: the first `length` elements are the memory of `v`, followed by
`rem` zeros. `unsafe.Slice` panics on a negative length. -/
def reslice (t : ETy) (v : Bytes) (length : Int) (rem : Int) : Res (List t.Elem) :=
  if length < 0 then .panic "unsafe.Slice: len out of range"
  else
    let s := (List.range length.toNat).map fun i => t.ofMem (v.drop (i * t.memSize))
    if rem > 0 then (makeZeros t rem).map (s ++ ·) else .ok s

/-- binary/slice.go:24-138, `castSlice`. -/
def castSlice (c : ComponentType) (t : AccessorType) (count : Int) (v : Bytes) : Res Slice :=
  let l : Int := (v.length / (c.byteSize * t.components) : Nat)
  let rem : Int := if count < l then 0 else if count > l then count - l else 0
  let l := if count < l then count else l
  match castType c t with
  | some ty => (reslice ty v l rem).map fun d => ⟨ty, d⟩
  | none => .panic "gltf: unsupported component type or accessor type"

/-- Component kind selected by `MakeSlice`, binary/slice.go:162-177. -/
def kindOf : ComponentType → Option Kind
  | .ubyte => some .u8
  | .byte => some .i8
  | .ushort => some .u16
  | .short => some .i16
  | .uint => some .u32
  | .float => some .f32
  | .unknown _ => none

/-- Array shape selected by `MakeSlice`, binary/slice.go:179-196. -/
def shapeOf : AccessorType → Option Shape
  | .scalar => some .sc
  | .vec2 => some .v2
  | .vec3 => some .v3
  | .vec4 => some .v4
  | .mat2 => some .m2
  | .mat3 => some .m3
  | .mat4 => some .m4
  | .unknown _ => none

/-- binary/slice.go:157-198, `MakeSlice`. -/
def makeSlice (c : ComponentType) (t : AccessorType) (count : Int) : Res Slice := do
  checkAccessorType c t
  match kindOf c with
  | none => .panic "gltf: unsupported component type"
  | some k =>
    match shapeOf t with
    | none => .panic "gltf: unsupported accessor type"
    | some s => (makeZeros (.base k s) count).map fun d => ⟨.base k s, d⟩

/-- binary/slice.go:143-152, `MakeSliceBuffer`. The argument `buffer` is the scratch slice extended
to its capacity (a nil slice is the empty list). -/
def makeSliceBuffer (c : ComponentType) (t : AccessorType) (count : Int) (buffer : Bytes) : Res Slice := do
  checkAccessorType c t
  if buffer.length = 0 then makeSlice c t count
  else castSlice c t count buffer

end Gltf
