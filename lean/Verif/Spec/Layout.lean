/-
Specification of the glTF accessor memory layout, independent of the code: numbers of rows and
columns, component sizes, four byte alignment of matrix columns and of elements, little-endian
components.
-/
import Verif.Model.Elem

namespace Gltf.Spec

open Gltf

/-- Size in bytes of a component. -/
def size : Kind → Nat
  | .i8 | .u8 => 1
  | .i16 | .u16 => 2
  | .u32 | .f32 => 4

/-- Number of rows. -/
def rows : Shape → Nat
  | .sc => 1
  | .v2 | .m2 => 2
  | .v3 | .m3 => 3
  | .v4 | .m4 => 4

/-- Number of columns. -/
def cols : Shape → Nat
  | .sc | .v2 | .v3 | .v4 => 1
  | .m2 => 2
  | .m3 => 3
  | .m4 => 4

/-- Round up to a multiple of four. -/
def roundUp4 (n : Nat) : Nat := (n + 3) / 4 * 4

/-- Distance between two columns of an element: columns start at multiples of four bytes. -/
def columnStride (k : Kind) (s : Shape) : Nat := roundUp4 (rows s * size k)

/-- Size of an element: scalars are not padded, everything else is a whole number of padded
columns. -/
def elemSize (k : Kind) (s : Shape) : Nat :=
  match s with
  | .sc => size k
  | s => cols s * columnStride k s

/-- Offset of the component at a row and column inside an element. -/
def componentOffset (k : Kind) (s : Shape) (r c : Nat) : Nat :=
  c * columnStride k s + r * size k

/-- Component kind of an element type; colours are unsigned vectors of four components. -/
def kind : ETy → Kind
  | .base k _ => k
  | .rgba => .u8
  | .rgba64 => .u16

/-- Shape of an element type. -/
def shape : ETy → Shape
  | .base _ s => s
  | .rgba => .v4
  | .rgba64 => .v4

/-- Indexing `[2]α`. -/
def at2 {α : Type} (v : V2 α) : Nat → Option α
  | 0 => some v.x0
  | 1 => some v.x1
  | _ => none

/-- Indexing `[3]α`. -/
def at3 {α : Type} (v : V3 α) : Nat → Option α
  | 0 => some v.x0
  | 1 => some v.x1
  | 2 => some v.x2
  | _ => none

/-- Indexing `[4]α`. -/
def at4 {α : Type} (v : V4 α) : Nat → Option α
  | 0 => some v.x0
  | 1 => some v.x1
  | 2 => some v.x2
  | 3 => some v.x3
  | _ => none

/-- The component of an array at a row and column (Go indexes matrices `v[row][col]`). -/
def arrayComponent {α : Type} : (s : Shape) → s.A α → Nat → Nat → Option α
  | .sc, v, r, c => if r = 0 ∧ c = 0 then some v else none
  | .v2, v, r, c => if c = 0 then at2 v r else none
  | .v3, v, r, c => if c = 0 then at3 v r else none
  | .v4, v, r, c => if c = 0 then at4 v r else none
  | .m2, v, r, c => (at2 v r).bind (at2 · c)
  | .m3, v, r, c => (at3 v r).bind (at3 · c)
  | .m4, v, r, c => (at4 v r).bind (at4 · c)

/-- The component of an element at a row and column. -/
def component : (t : ETy) → t.Elem → Nat → Nat → Option (kind t).T
  | .base _ s, v, r, c => arrayComponent s v r c
  | .rgba, v, r, c => arrayComponent .v4 ⟨v.R, v.G, v.B, v.A⟩ r c
  | .rgba64, v, r, c => arrayComponent .v4 ⟨v.R, v.G, v.B, v.A⟩ r c

/-- Bit pattern of a component as a number: two's complement for signed integers, IEEE 754 for
floats. -/
def bits : (k : Kind) → k.T → Nat
  | .i8, x => (x.toInt % 256).toNat
  | .u8, x => x.toNat
  | .i16, x => (x.toInt % 65536).toNat
  | .u16, x => x.toNat
  | .u32, x => x.toNat
  | .f32, x => x.bits.toNat

/-- Byte `j` of a component in little-endian order. -/
def byteOf (k : Kind) (x : k.T) (j : Nat) : UInt8 := UInt8.ofNat (bits k x / 256 ^ j % 256)

end Gltf.Spec

namespace Gltf.Spec
open Gltf

/-- Effective stride: zero means tightly packed. -/
def effStride (t : ETy) (stride : Nat) : Nat :=
  if stride = 0 then elemSize (kind t) (shape t) else stride

/-- Number of bytes needed for `n` elements with an effective stride. -/
def needed (t : ETy) (stride n : Nat) : Nat :=
  if n = 0 then 0 else effStride t stride * (n - 1) + elemSize (kind t) (shape t)

/-- Lengths of Go slices fit in an `int`. -/
abbrev GoLen {α : Type} (l : List α) : Prop := l.length < 2 ^ 63

end Gltf.Spec
