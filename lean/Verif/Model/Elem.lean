/-
Element types of the slices that package binary supports, and their reflection in glTF terms.
-/
import Verif.Model.Const

namespace Gltf

/-- Go `[2]α`. -/
structure V2 (α : Type) where
  x0 : α
  x1 : α
deriving DecidableEq, Repr

/-- Go `[3]α`. -/
structure V3 (α : Type) where
  x0 : α
  x1 : α
  x2 : α
deriving DecidableEq, Repr

/-- Go `[4]α`. -/
structure V4 (α : Type) where
  x0 : α
  x1 : α
  x2 : α
  x3 : α
deriving DecidableEq, Repr

/-- Reinterpret every component (the `unsafe.Pointer` casts of binary/unsafe.go). -/
def V2.map {α β} (f : α → β) (v : V2 α) : V2 β := ⟨f v.x0, f v.x1⟩
@[inherit_doc V2.map]
def V3.map {α β} (f : α → β) (v : V3 α) : V3 β := ⟨f v.x0, f v.x1, f v.x2⟩
@[inherit_doc V2.map]
def V4.map {α β} (f : α → β) (v : V4 α) : V4 β := ⟨f v.x0, f v.x1, f v.x2, f v.x3⟩

/-- A Go `float32`, identified with its IEEE 754 bit pattern. -/
structure F32 where
  bits : UInt32
deriving DecidableEq, Repr

/-- `color.RGBA` of image/color. -/
structure RGBA where
  R : UInt8
  G : UInt8
  B : UInt8
  A : UInt8
deriving DecidableEq, Repr

/-- `color.RGBA64` of image/color. -/
structure RGBA64 where
  R : UInt16
  G : UInt16
  B : UInt16
  A : UInt16
deriving DecidableEq, Repr

/-- The six Go component types. -/
inductive Kind where
  | i8 | u8 | i16 | u16 | u32 | f32
deriving DecidableEq, Repr

/-- The seven shapes of elements. -/
inductive Shape where
  | sc | v2 | v3 | v4 | m2 | m3 | m4
deriving DecidableEq, Repr

/-- Go type of a component. -/
abbrev Kind.T : Kind → Type
  | .i8 => Int8
  | .u8 => UInt8
  | .i16 => Int16
  | .u16 => UInt16
  | .u32 => UInt32
  | .f32 => F32

/-- Go array type of a shape: `α`, `[2]α`, ..., `[4][4]α`. -/
abbrev Shape.A (α : Type) : Shape → Type
  | .sc => α
  | .v2 => V2 α
  | .v3 => V3 α
  | .v4 => V4 α
  | .m2 => V2 (V2 α)
  | .m3 => V3 (V3 α)
  | .m4 => V4 (V4 α)

/-- The 44 supported element types of slices: 42 arrays of numbers and the two colour structs. -/
inductive ETy where
  | base (k : Kind) (s : Shape)
  | rgba
  | rgba64
deriving DecidableEq, Repr

/-- Go type of the elements. -/
abbrev ETy.Elem : ETy → Type
  | .base k s => s.A k.T
  | .rgba => RGBA
  | .rgba64 => RGBA64

/-- A value of static type `any` holding a slice of a supported type. Slices of other types (for
which `binary.Type` panics, binary/slice.go:294) are not modelled. -/
structure Slice where
  ty : ETy
  data : List ty.Elem

/-- Equality of components is decidable. -/
def Kind.decEq : (k : Kind) → DecidableEq k.T
  | .i8 | .u8 | .i16 | .u16 | .u32 | .f32 => inferInstance

/-- Equality of arrays is decidable. -/
def Shape.decEq {α : Type} [DecidableEq α] : (s : Shape) → DecidableEq (s.A α)
  | .sc | .v2 | .v3 | .v4 | .m2 | .m3 | .m4 => inferInstance

/-- Equality of elements is decidable. -/
def ETy.decEq : (t : ETy) → DecidableEq t.Elem
  | .base k s => @Shape.decEq _ k.decEq s
  | .rgba | .rgba64 => inferInstance

instance : DecidableEq Slice
  | ⟨t, d⟩, ⟨t', d'⟩ =>
    if h : t = t' then
      match t', h, d' with
      | _, rfl, d' => @decidable_of_iff _ (d = d') (by simp) (@instDecidableEqList _ t.decEq d d')
    else isFalse fun e => h (congrArg Slice.ty e)

/-- Number of elements, `reflect.Value.Len`. -/
def Slice.len (s : Slice) : Nat := s.data.length

/-- The type switch of `binary.Type`, binary/slice.go:208-295, entry by entry. -/
def ETy.ct : ETy → ComponentType × AccessorType
  | .base .i8 .sc => (.byte, .scalar)
  | .base .i8 .v2 => (.byte, .vec2)
  | .base .i8 .v3 => (.byte, .vec3)
  | .base .i8 .v4 => (.byte, .vec4)
  | .base .i8 .m2 => (.byte, .mat2)
  | .base .i8 .m3 => (.byte, .mat3)
  | .base .i8 .m4 => (.byte, .mat4)
  | .base .u8 .sc => (.ubyte, .scalar)
  | .base .u8 .v2 => (.ubyte, .vec2)
  | .base .u8 .v3 => (.ubyte, .vec3)
  | .rgba => (.ubyte, .vec4)
  | .base .u8 .v4 => (.ubyte, .vec4)
  | .base .u8 .m2 => (.ubyte, .mat2)
  | .base .u8 .m3 => (.ubyte, .mat3)
  | .base .u8 .m4 => (.ubyte, .mat4)
  | .base .i16 .sc => (.short, .scalar)
  | .base .i16 .v2 => (.short, .vec2)
  | .base .i16 .v3 => (.short, .vec3)
  | .base .i16 .v4 => (.short, .vec4)
  | .base .i16 .m2 => (.short, .mat2)
  | .base .i16 .m3 => (.short, .mat3)
  | .base .i16 .m4 => (.short, .mat4)
  | .base .u16 .sc => (.ushort, .scalar)
  | .base .u16 .v2 => (.ushort, .vec2)
  | .base .u16 .v3 => (.ushort, .vec3)
  | .rgba64 => (.ushort, .vec4)
  | .base .u16 .v4 => (.ushort, .vec4)
  | .base .u16 .m2 => (.ushort, .mat2)
  | .base .u16 .m3 => (.ushort, .mat3)
  | .base .u16 .m4 => (.ushort, .mat4)
  | .base .u32 .sc => (.uint, .scalar)
  | .base .u32 .v2 => (.uint, .vec2)
  | .base .u32 .v3 => (.uint, .vec3)
  | .base .u32 .v4 => (.uint, .vec4)
  | .base .u32 .m2 => (.uint, .mat2)
  | .base .u32 .m3 => (.uint, .mat3)
  | .base .u32 .m4 => (.uint, .mat4)
  | .base .f32 .sc => (.float, .scalar)
  | .base .f32 .v2 => (.float, .vec2)
  | .base .f32 .v3 => (.float, .vec3)
  | .base .f32 .v4 => (.float, .vec4)
  | .base .f32 .m2 => (.float, .mat2)
  | .base .f32 .m3 => (.float, .mat3)
  | .base .f32 .m4 => (.float, .mat4)

/-- First result of `binary.Type`, binary/slice.go:202-297. -/
def ETy.c (t : ETy) : ComponentType := t.ct.1

/-- Second result of `binary.Type`, binary/slice.go:202-297. -/
def ETy.t (t : ETy) : AccessorType := t.ct.2

/-- `binary.Type`, binary/slice.go:202-297. -/
def typeOf (s : Slice) : ComponentType × AccessorType × Nat := (s.ty.c, s.ty.t, s.len)

/-- Zero value of a component. -/
def Kind.zero : (k : Kind) → k.T
  | .i8 => 0
  | .u8 => 0
  | .i16 => 0
  | .u16 => 0
  | .u32 => 0
  | .f32 => ⟨0⟩

/-- Array of a shape from its components by row and column. -/
def Shape.build {α : Type} (f : Nat → Nat → α) : (s : Shape) → s.A α
  | .sc => f 0 0
  | .v2 => ⟨f 0 0, f 1 0⟩
  | .v3 => ⟨f 0 0, f 1 0, f 2 0⟩
  | .v4 => ⟨f 0 0, f 1 0, f 2 0, f 3 0⟩
  | .m2 => ⟨⟨f 0 0, f 0 1⟩, ⟨f 1 0, f 1 1⟩⟩
  | .m3 => ⟨⟨f 0 0, f 0 1, f 0 2⟩, ⟨f 1 0, f 1 1, f 1 2⟩, ⟨f 2 0, f 2 1, f 2 2⟩⟩
  | .m4 => ⟨⟨f 0 0, f 0 1, f 0 2, f 0 3⟩, ⟨f 1 0, f 1 1, f 1 2, f 1 3⟩,
            ⟨f 2 0, f 2 1, f 2 2, f 2 3⟩, ⟨f 3 0, f 3 1, f 3 2, f 3 3⟩⟩

/-- Zero value of an element. -/
def ETy.zero : (t : ETy) → t.Elem
  | .base k s => s.build fun _ _ => k.zero
  | .rgba => ⟨0, 0, 0, 0⟩
  | .rgba64 => ⟨0, 0, 0, 0⟩

end Gltf
