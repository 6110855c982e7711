/-
Model of binary/binary.go and binary/unsafe.go: the get and put functions of the six component
types. Every function works on the sub-slice it is given and panics when it is too short.

The `unsafe.Pointer` casts of binary/unsafe.go reinterpret the bits of an array of unsigned
integers as signed integers or floats of the same size; they are modelled by mapping the bit cast
over the components.
-/
import Verif.Model.Elem

namespace Gltf

/-- Little-endian value of a byte string. -/
def leNat : Bytes → Nat
  | [] => 0
  | b :: bs => b.toNat + 256 * leNat bs

/-- The `n` low bytes of a number in little-endian order. -/
def leBytes : Nat → Nat → Bytes
  | 0, _ => []
  | n + 1, v => UInt8.ofNat v :: leBytes n (v / 256)

/-- Overwrite bytes at an offset; index out of range panics. -/
def storeAt (b : Bytes) (off : Nat) (bs : Bytes) : Res Bytes :=
  if off + bs.length ≤ b.length then .ok (b.take off ++ bs ++ b.drop (off + bs.length))
  else .panic "index out of range"

/-- Load `n` bytes at an offset; index out of range panics. -/
def loadAt (b : Bytes) (off n : Nat) : Res Bytes :=
  if off + n ≤ b.length then .ok ((b.drop off).take n) else .panic "index out of range"

/-- `b[off] = v`. -/
def put8 (b : Bytes) (off : Nat) (v : UInt8) : Res Bytes := storeAt b off [v]

/-- `binary.LittleEndian.PutUint16(b[off:], v)` of encoding/binary. -/
def put16 (b : Bytes) (off : Nat) (v : UInt16) : Res Bytes := storeAt b off (leBytes 2 v.toNat)

/-- `binary.LittleEndian.PutUint32(b[off:], v)` of encoding/binary. -/
def put32 (b : Bytes) (off : Nat) (v : UInt32) : Res Bytes := storeAt b off (leBytes 4 v.toNat)

/-- `b[off]`. -/
def get8 (b : Bytes) (off : Nat) : Res UInt8 :=
  (loadAt b off 1).map fun l => UInt8.ofNat (leNat l)

/-- `binary.LittleEndian.Uint16(b[off:])`, binary/binary.go:157-159 (`getUint16`). -/
def get16 (b : Bytes) (off : Nat) : Res UInt16 :=
  (loadAt b off 2).map fun l => UInt16.ofNat (leNat l)

/-- `binary.LittleEndian.Uint32(b[off:])`, binary/binary.go:261-263 (`getUint32`). -/
def get32 (b : Bytes) (off : Nat) : Res UInt32 :=
  (loadAt b off 4).map fun l => UInt32.ofNat (leNat l)

/-- binary/binary.go:58-60. -/
def Ubyte.scalar (b : Bytes) : Res (UInt8) := do
  get8 b 0

/-- binary/binary.go:62-64. -/
def Ubyte.putScalar (b : Bytes) (v : UInt8) : Res Bytes := do
  let b ← put8 b 0 v
  return b

/-- binary/binary.go:66-68. -/
def Ubyte.vec2 (b : Bytes) : Res (V2 UInt8) := do
  return ⟨(← get8 b 0), (← get8 b 1)⟩

/-- binary/binary.go:70-73. -/
def Ubyte.putVec2 (b : Bytes) (v : V2 UInt8) : Res Bytes := do
  let b ← put8 b 0 v.x0
  let b ← put8 b 1 v.x1
  return b

/-- binary/binary.go:75-77. -/
def Ubyte.vec3 (b : Bytes) : Res (V3 UInt8) := do
  return ⟨(← get8 b 0), (← get8 b 1), (← get8 b 2)⟩

/-- binary/binary.go:79-83. -/
def Ubyte.putVec3 (b : Bytes) (v : V3 UInt8) : Res Bytes := do
  let b ← put8 b 0 v.x0
  let b ← put8 b 1 v.x1
  let b ← put8 b 2 v.x2
  return b

/-- binary/binary.go:85-87. -/
def Ubyte.vec4 (b : Bytes) : Res (V4 UInt8) := do
  return ⟨(← get8 b 0), (← get8 b 1), (← get8 b 2), (← get8 b 3)⟩

/-- binary/binary.go:89-94. -/
def Ubyte.putVec4 (b : Bytes) (v : V4 UInt8) : Res Bytes := do
  let b ← put8 b 0 v.x0
  let b ← put8 b 1 v.x1
  let b ← put8 b 2 v.x2
  let b ← put8 b 3 v.x3
  return b

/-- binary/binary.go:96-101. -/
def Ubyte.mat2 (b : Bytes) : Res (V2 (V2 UInt8)) := do
  return ⟨⟨(← get8 b 0), (← get8 b 4)⟩,
    ⟨(← get8 b 1), (← get8 b 5)⟩⟩

/-- binary/binary.go:103-108. -/
def Ubyte.putMat2 (b : Bytes) (v : V2 (V2 UInt8)) : Res Bytes := do
  let b ← put8 b 0 v.x0.x0
  let b ← put8 b 1 v.x1.x0
  let b ← put8 b 4 v.x0.x1
  let b ← put8 b 5 v.x1.x1
  return b

/-- binary/binary.go:110-116. -/
def Ubyte.mat3 (b : Bytes) : Res (V3 (V3 UInt8)) := do
  return ⟨⟨(← get8 b 0), (← get8 b 4), (← get8 b 8)⟩,
    ⟨(← get8 b 1), (← get8 b 5), (← get8 b 9)⟩,
    ⟨(← get8 b 2), (← get8 b 6), (← get8 b 10)⟩⟩

/-- binary/binary.go:118-128. -/
def Ubyte.putMat3 (b : Bytes) (v : V3 (V3 UInt8)) : Res Bytes := do
  let b ← put8 b 0 v.x0.x0
  let b ← put8 b 1 v.x1.x0
  let b ← put8 b 2 v.x2.x0
  let b ← put8 b 4 v.x0.x1
  let b ← put8 b 5 v.x1.x1
  let b ← put8 b 6 v.x2.x1
  let b ← put8 b 8 v.x0.x2
  let b ← put8 b 9 v.x1.x2
  let b ← put8 b 10 v.x2.x2
  return b

/-- binary/binary.go:129-136. -/
def Ubyte.mat4 (b : Bytes) : Res (V4 (V4 UInt8)) := do
  return ⟨⟨(← get8 b 0), (← get8 b 4), (← get8 b 8), (← get8 b 12)⟩,
    ⟨(← get8 b 1), (← get8 b 5), (← get8 b 9), (← get8 b 13)⟩,
    ⟨(← get8 b 2), (← get8 b 6), (← get8 b 10), (← get8 b 14)⟩,
    ⟨(← get8 b 3), (← get8 b 7), (← get8 b 11), (← get8 b 15)⟩⟩

/-- binary/binary.go:138-155. -/
def Ubyte.putMat4 (b : Bytes) (v : V4 (V4 UInt8)) : Res Bytes := do
  let b ← put8 b 0 v.x0.x0
  let b ← put8 b 1 v.x1.x0
  let b ← put8 b 2 v.x2.x0
  let b ← put8 b 3 v.x3.x0
  let b ← put8 b 4 v.x0.x1
  let b ← put8 b 5 v.x1.x1
  let b ← put8 b 6 v.x2.x1
  let b ← put8 b 7 v.x3.x1
  let b ← put8 b 8 v.x0.x2
  let b ← put8 b 9 v.x1.x2
  let b ← put8 b 10 v.x2.x2
  let b ← put8 b 11 v.x3.x2
  let b ← put8 b 12 v.x0.x3
  let b ← put8 b 13 v.x1.x3
  let b ← put8 b 14 v.x2.x3
  let b ← put8 b 15 v.x3.x3
  return b

/-- binary/binary.go:161-163. -/
def Ushort.scalar (b : Bytes) : Res (UInt16) := do
  get16 b 0

/-- binary/binary.go:165-167. -/
def Ushort.putScalar (b : Bytes) (v : UInt16) : Res Bytes := do
  let b ← put16 b 0 v
  return b

/-- binary/binary.go:169-171. -/
def Ushort.vec2 (b : Bytes) : Res (V2 UInt16) := do
  return ⟨(← get16 b 0), (← get16 b 2)⟩

/-- binary/binary.go:173-176. -/
def Ushort.putVec2 (b : Bytes) (v : V2 UInt16) : Res Bytes := do
  let b ← put16 b 0 v.x0
  let b ← put16 b 2 v.x1
  return b

/-- binary/binary.go:178-180. -/
def Ushort.vec3 (b : Bytes) : Res (V3 UInt16) := do
  return ⟨(← get16 b 0), (← get16 b 2), (← get16 b 4)⟩

/-- binary/binary.go:182-186. -/
def Ushort.putVec3 (b : Bytes) (v : V3 UInt16) : Res Bytes := do
  let b ← put16 b 0 v.x0
  let b ← put16 b 2 v.x1
  let b ← put16 b 4 v.x2
  return b

/-- binary/binary.go:188-190. -/
def Ushort.vec4 (b : Bytes) : Res (V4 UInt16) := do
  return ⟨(← get16 b 0), (← get16 b 2), (← get16 b 4), (← get16 b 6)⟩

/-- binary/binary.go:192-197. -/
def Ushort.putVec4 (b : Bytes) (v : V4 UInt16) : Res Bytes := do
  let b ← put16 b 0 v.x0
  let b ← put16 b 2 v.x1
  let b ← put16 b 4 v.x2
  let b ← put16 b 6 v.x3
  return b

/-- binary/binary.go:199-204. -/
def Ushort.mat2 (b : Bytes) : Res (V2 (V2 UInt16)) := do
  return ⟨⟨(← get16 b 0), (← get16 b 4)⟩,
    ⟨(← get16 b 2), (← get16 b 6)⟩⟩

/-- binary/binary.go:206-211. -/
def Ushort.putMat2 (b : Bytes) (v : V2 (V2 UInt16)) : Res Bytes := do
  let b ← put16 b 0 v.x0.x0
  let b ← put16 b 2 v.x1.x0
  let b ← put16 b 4 v.x0.x1
  let b ← put16 b 6 v.x1.x1
  return b

/-- binary/binary.go:213-219. -/
def Ushort.mat3 (b : Bytes) : Res (V3 (V3 UInt16)) := do
  return ⟨⟨(← get16 b 0), (← get16 b 8), (← get16 b 16)⟩,
    ⟨(← get16 b 2), (← get16 b 10), (← get16 b 18)⟩,
    ⟨(← get16 b 4), (← get16 b 12), (← get16 b 20)⟩⟩

/-- binary/binary.go:221-231. -/
def Ushort.putMat3 (b : Bytes) (v : V3 (V3 UInt16)) : Res Bytes := do
  let b ← put16 b 0 v.x0.x0
  let b ← put16 b 2 v.x1.x0
  let b ← put16 b 4 v.x2.x0
  let b ← put16 b 8 v.x0.x1
  let b ← put16 b 10 v.x1.x1
  let b ← put16 b 12 v.x2.x1
  let b ← put16 b 16 v.x0.x2
  let b ← put16 b 18 v.x1.x2
  let b ← put16 b 20 v.x2.x2
  return b

/-- binary/binary.go:233-240. -/
def Ushort.mat4 (b : Bytes) : Res (V4 (V4 UInt16)) := do
  return ⟨⟨(← get16 b 0), (← get16 b 8), (← get16 b 16), (← get16 b 24)⟩,
    ⟨(← get16 b 2), (← get16 b 10), (← get16 b 18), (← get16 b 26)⟩,
    ⟨(← get16 b 4), (← get16 b 12), (← get16 b 20), (← get16 b 28)⟩,
    ⟨(← get16 b 6), (← get16 b 14), (← get16 b 22), (← get16 b 30)⟩⟩

/-- binary/binary.go:242-259. -/
def Ushort.putMat4 (b : Bytes) (v : V4 (V4 UInt16)) : Res Bytes := do
  let b ← put16 b 0 v.x0.x0
  let b ← put16 b 2 v.x1.x0
  let b ← put16 b 4 v.x2.x0
  let b ← put16 b 6 v.x3.x0
  let b ← put16 b 8 v.x0.x1
  let b ← put16 b 10 v.x1.x1
  let b ← put16 b 12 v.x2.x1
  let b ← put16 b 14 v.x3.x1
  let b ← put16 b 16 v.x0.x2
  let b ← put16 b 18 v.x1.x2
  let b ← put16 b 20 v.x2.x2
  let b ← put16 b 22 v.x3.x2
  let b ← put16 b 24 v.x0.x3
  let b ← put16 b 26 v.x1.x3
  let b ← put16 b 28 v.x2.x3
  let b ← put16 b 30 v.x3.x3
  return b

/-- binary/binary.go:265-267. -/
def Uint.scalar (b : Bytes) : Res (UInt32) := do
  get32 b 0

/-- binary/binary.go:269-271. -/
def Uint.putScalar (b : Bytes) (v : UInt32) : Res Bytes := do
  let b ← put32 b 0 v
  return b

/-- binary/binary.go:273-275. -/
def Uint.vec2 (b : Bytes) : Res (V2 UInt32) := do
  return ⟨(← get32 b 0), (← get32 b 4)⟩

/-- binary/binary.go:277-280. -/
def Uint.putVec2 (b : Bytes) (v : V2 UInt32) : Res Bytes := do
  let b ← put32 b 0 v.x0
  let b ← put32 b 4 v.x1
  return b

/-- binary/binary.go:282-284. -/
def Uint.vec3 (b : Bytes) : Res (V3 UInt32) := do
  return ⟨(← get32 b 0), (← get32 b 4), (← get32 b 8)⟩

/-- binary/binary.go:286-290. -/
def Uint.putVec3 (b : Bytes) (v : V3 UInt32) : Res Bytes := do
  let b ← put32 b 0 v.x0
  let b ← put32 b 4 v.x1
  let b ← put32 b 8 v.x2
  return b

/-- binary/binary.go:292-294. -/
def Uint.vec4 (b : Bytes) : Res (V4 UInt32) := do
  return ⟨(← get32 b 0), (← get32 b 4), (← get32 b 8), (← get32 b 12)⟩

/-- binary/binary.go:296-301. -/
def Uint.putVec4 (b : Bytes) (v : V4 UInt32) : Res Bytes := do
  let b ← put32 b 0 v.x0
  let b ← put32 b 4 v.x1
  let b ← put32 b 8 v.x2
  let b ← put32 b 12 v.x3
  return b

/-- binary/binary.go:303-308. -/
def Uint.mat2 (b : Bytes) : Res (V2 (V2 UInt32)) := do
  return ⟨⟨(← get32 b 0), (← get32 b 8)⟩,
    ⟨(← get32 b 4), (← get32 b 12)⟩⟩

/-- binary/binary.go:310-315. -/
def Uint.putMat2 (b : Bytes) (v : V2 (V2 UInt32)) : Res Bytes := do
  let b ← put32 b 0 v.x0.x0
  let b ← put32 b 4 v.x1.x0
  let b ← put32 b 8 v.x0.x1
  let b ← put32 b 12 v.x1.x1
  return b

/-- binary/binary.go:317-323. -/
def Uint.mat3 (b : Bytes) : Res (V3 (V3 UInt32)) := do
  return ⟨⟨(← get32 b 0), (← get32 b 12), (← get32 b 24)⟩,
    ⟨(← get32 b 4), (← get32 b 16), (← get32 b 28)⟩,
    ⟨(← get32 b 8), (← get32 b 20), (← get32 b 32)⟩⟩

/-- binary/binary.go:325-335. -/
def Uint.putMat3 (b : Bytes) (v : V3 (V3 UInt32)) : Res Bytes := do
  let b ← put32 b 0 v.x0.x0
  let b ← put32 b 4 v.x1.x0
  let b ← put32 b 8 v.x2.x0
  let b ← put32 b 12 v.x0.x1
  let b ← put32 b 16 v.x1.x1
  let b ← put32 b 20 v.x2.x1
  let b ← put32 b 24 v.x0.x2
  let b ← put32 b 28 v.x1.x2
  let b ← put32 b 32 v.x2.x2
  return b

/-- binary/binary.go:337-344. -/
def Uint.mat4 (b : Bytes) : Res (V4 (V4 UInt32)) := do
  return ⟨⟨(← get32 b 0), (← get32 b 16), (← get32 b 32), (← get32 b 48)⟩,
    ⟨(← get32 b 4), (← get32 b 20), (← get32 b 36), (← get32 b 52)⟩,
    ⟨(← get32 b 8), (← get32 b 24), (← get32 b 40), (← get32 b 56)⟩,
    ⟨(← get32 b 12), (← get32 b 28), (← get32 b 44), (← get32 b 60)⟩⟩

/-- binary/binary.go:346-363. -/
def Uint.putMat4 (b : Bytes) (v : V4 (V4 UInt32)) : Res Bytes := do
  let b ← put32 b 0 v.x0.x0
  let b ← put32 b 4 v.x1.x0
  let b ← put32 b 8 v.x2.x0
  let b ← put32 b 12 v.x3.x0
  let b ← put32 b 16 v.x0.x1
  let b ← put32 b 20 v.x1.x1
  let b ← put32 b 24 v.x2.x1
  let b ← put32 b 28 v.x3.x1
  let b ← put32 b 32 v.x0.x2
  let b ← put32 b 36 v.x1.x2
  let b ← put32 b 40 v.x2.x2
  let b ← put32 b 44 v.x3.x2
  let b ← put32 b 48 v.x0.x3
  let b ← put32 b 52 v.x1.x3
  let b ← put32 b 56 v.x2.x3
  let b ← put32 b 60 v.x3.x3
  return b

/-- binary/unsafe.go:11-14. -/
def Byte.scalar (b : Bytes) : Res (Int8) := do
  let v ← Ubyte.scalar b
  return UInt8.toInt8 v

/-- binary/unsafe.go:16-18. -/
def Byte.putScalar (b : Bytes) (v : Int8) : Res Bytes :=
  Ubyte.putScalar b (Int8.toUInt8 v)

/-- binary/unsafe.go:20-23. -/
def Byte.vec2 (b : Bytes) : Res (V2 Int8) := do
  let v ← Ubyte.vec2 b
  return v.map UInt8.toInt8

/-- binary/unsafe.go:25-27. -/
def Byte.putVec2 (b : Bytes) (v : V2 Int8) : Res Bytes :=
  Ubyte.putVec2 b (v.map Int8.toUInt8)

/-- binary/unsafe.go:29-32. -/
def Byte.vec3 (b : Bytes) : Res (V3 Int8) := do
  let v ← Ubyte.vec3 b
  return v.map UInt8.toInt8

/-- binary/unsafe.go:34-36. -/
def Byte.putVec3 (b : Bytes) (v : V3 Int8) : Res Bytes :=
  Ubyte.putVec3 b (v.map Int8.toUInt8)

/-- binary/unsafe.go:38-41. -/
def Byte.vec4 (b : Bytes) : Res (V4 Int8) := do
  let v ← Ubyte.vec4 b
  return v.map UInt8.toInt8

/-- binary/unsafe.go:43-45. -/
def Byte.putVec4 (b : Bytes) (v : V4 Int8) : Res Bytes :=
  Ubyte.putVec4 b (v.map Int8.toUInt8)

/-- binary/unsafe.go:47-50. -/
def Byte.mat2 (b : Bytes) : Res (V2 (V2 Int8)) := do
  let v ← Ubyte.mat2 b
  return v.map (V2.map UInt8.toInt8)

/-- binary/unsafe.go:52-54. -/
def Byte.putMat2 (b : Bytes) (v : V2 (V2 Int8)) : Res Bytes :=
  Ubyte.putMat2 b (v.map (V2.map Int8.toUInt8))

/-- binary/unsafe.go:56-59. -/
def Byte.mat3 (b : Bytes) : Res (V3 (V3 Int8)) := do
  let v ← Ubyte.mat3 b
  return v.map (V3.map UInt8.toInt8)

/-- binary/unsafe.go:61-63. -/
def Byte.putMat3 (b : Bytes) (v : V3 (V3 Int8)) : Res Bytes :=
  Ubyte.putMat3 b (v.map (V3.map Int8.toUInt8))

/-- binary/unsafe.go:65-68. -/
def Byte.mat4 (b : Bytes) : Res (V4 (V4 Int8)) := do
  let v ← Ubyte.mat4 b
  return v.map (V4.map UInt8.toInt8)

/-- binary/unsafe.go:70-72. -/
def Byte.putMat4 (b : Bytes) (v : V4 (V4 Int8)) : Res Bytes :=
  Ubyte.putMat4 b (v.map (V4.map Int8.toUInt8))

/-- binary/unsafe.go:74-77. -/
def Short.scalar (b : Bytes) : Res (Int16) := do
  let v ← Ushort.scalar b
  return UInt16.toInt16 v

/-- binary/unsafe.go:79-81. -/
def Short.putScalar (b : Bytes) (v : Int16) : Res Bytes :=
  Ushort.putScalar b (Int16.toUInt16 v)

/-- binary/unsafe.go:83-86. -/
def Short.vec2 (b : Bytes) : Res (V2 Int16) := do
  let v ← Ushort.vec2 b
  return v.map UInt16.toInt16

/-- binary/unsafe.go:88-90. -/
def Short.putVec2 (b : Bytes) (v : V2 Int16) : Res Bytes :=
  Ushort.putVec2 b (v.map Int16.toUInt16)

/-- binary/unsafe.go:92-95. -/
def Short.vec3 (b : Bytes) : Res (V3 Int16) := do
  let v ← Ushort.vec3 b
  return v.map UInt16.toInt16

/-- binary/unsafe.go:97-99. -/
def Short.putVec3 (b : Bytes) (v : V3 Int16) : Res Bytes :=
  Ushort.putVec3 b (v.map Int16.toUInt16)

/-- binary/unsafe.go:101-104. -/
def Short.vec4 (b : Bytes) : Res (V4 Int16) := do
  let v ← Ushort.vec4 b
  return v.map UInt16.toInt16

/-- binary/unsafe.go:106-108. -/
def Short.putVec4 (b : Bytes) (v : V4 Int16) : Res Bytes :=
  Ushort.putVec4 b (v.map Int16.toUInt16)

/-- binary/unsafe.go:110-113. -/
def Short.mat2 (b : Bytes) : Res (V2 (V2 Int16)) := do
  let v ← Ushort.mat2 b
  return v.map (V2.map UInt16.toInt16)

/-- binary/unsafe.go:115-117. -/
def Short.putMat2 (b : Bytes) (v : V2 (V2 Int16)) : Res Bytes :=
  Ushort.putMat2 b (v.map (V2.map Int16.toUInt16))

/-- binary/unsafe.go:119-122. -/
def Short.mat3 (b : Bytes) : Res (V3 (V3 Int16)) := do
  let v ← Ushort.mat3 b
  return v.map (V3.map UInt16.toInt16)

/-- binary/unsafe.go:124-126. -/
def Short.putMat3 (b : Bytes) (v : V3 (V3 Int16)) : Res Bytes :=
  Ushort.putMat3 b (v.map (V3.map Int16.toUInt16))

/-- binary/unsafe.go:128-131. -/
def Short.mat4 (b : Bytes) : Res (V4 (V4 Int16)) := do
  let v ← Ushort.mat4 b
  return v.map (V4.map UInt16.toInt16)

/-- binary/unsafe.go:133-135. -/
def Short.putMat4 (b : Bytes) (v : V4 (V4 Int16)) : Res Bytes :=
  Ushort.putMat4 b (v.map (V4.map Int16.toUInt16))

/-- binary/unsafe.go:137-140. -/
def Float.scalar (b : Bytes) : Res (F32) := do
  let v ← Uint.scalar b
  return F32.mk v

/-- binary/unsafe.go:142-144. -/
def Float.putScalar (b : Bytes) (v : F32) : Res Bytes :=
  Uint.putScalar b (F32.bits v)

/-- binary/unsafe.go:146-149. -/
def Float.vec2 (b : Bytes) : Res (V2 F32) := do
  let v ← Uint.vec2 b
  return v.map F32.mk

/-- binary/unsafe.go:151-153. -/
def Float.putVec2 (b : Bytes) (v : V2 F32) : Res Bytes :=
  Uint.putVec2 b (v.map F32.bits)

/-- binary/unsafe.go:155-158. -/
def Float.vec3 (b : Bytes) : Res (V3 F32) := do
  let v ← Uint.vec3 b
  return v.map F32.mk

/-- binary/unsafe.go:160-162. -/
def Float.putVec3 (b : Bytes) (v : V3 F32) : Res Bytes :=
  Uint.putVec3 b (v.map F32.bits)

/-- binary/unsafe.go:164-167. -/
def Float.vec4 (b : Bytes) : Res (V4 F32) := do
  let v ← Uint.vec4 b
  return v.map F32.mk

/-- binary/unsafe.go:169-171. -/
def Float.putVec4 (b : Bytes) (v : V4 F32) : Res Bytes :=
  Uint.putVec4 b (v.map F32.bits)

/-- binary/unsafe.go:173-176. -/
def Float.mat2 (b : Bytes) : Res (V2 (V2 F32)) := do
  let v ← Uint.mat2 b
  return v.map (V2.map F32.mk)

/-- binary/unsafe.go:178-180. -/
def Float.putMat2 (b : Bytes) (v : V2 (V2 F32)) : Res Bytes :=
  Uint.putMat2 b (v.map (V2.map F32.bits))

/-- binary/unsafe.go:182-185. -/
def Float.mat3 (b : Bytes) : Res (V3 (V3 F32)) := do
  let v ← Uint.mat3 b
  return v.map (V3.map F32.mk)

/-- binary/unsafe.go:187-189. -/
def Float.putMat3 (b : Bytes) (v : V3 (V3 F32)) : Res Bytes :=
  Uint.putMat3 b (v.map (V3.map F32.bits))

/-- binary/unsafe.go:191-194. -/
def Float.mat4 (b : Bytes) : Res (V4 (V4 F32)) := do
  let v ← Uint.mat4 b
  return v.map (V4.map F32.mk)

/-- binary/unsafe.go:196-198. -/
def Float.putMat4 (b : Bytes) (v : V4 (V4 F32)) : Res Bytes :=
  Uint.putMat4 b (v.map (V4.map F32.bits))

end Gltf
