/-
The conversion loops of the typed readers.
-/
import Verif.Lemmas.TypedRead

namespace Gltf

open Spec

def indicesFn : Slice → List UInt32
  | ⟨.base .u8 .sc, d⟩ => d.map fun (e : UInt8) => UInt32.ofNat e.toNat
  | ⟨.base .u16 .sc, d⟩ => d.map fun (e : UInt16) => UInt32.ofNat e.toNat
  | ⟨.base .u32 .sc, d⟩ => d
  | _ => []

theorem indices_converts : Converts acceptsIndices indicesOf indicesFn where
  loop k s d buffer h hl := by
    cases k <;> cases s <;> first
      | exact fill_le hl
      | exact congrArg Res.ok (goCopy_le hl)
      | exact absurd h (by decide)
  length k s d h := by
    cases k <;> cases s <;> first
      | exact List.length_map _
      | rfl
      | exact absurd h (by decide)

def texCoordFn : Slice → List (V2 F32)
  | ⟨.base .u8 .v2, d⟩ => d.map fun (e : V2 UInt8) => ⟨denormalizeUbyte e.x0, denormalizeUbyte e.x1⟩
  | ⟨.base .u16 .v2, d⟩ => d.map fun (e : V2 UInt16) => ⟨denormalizeUshort e.x0, denormalizeUshort e.x1⟩
  | ⟨.base .f32 .v2, d⟩ => d
  | _ => []

theorem texCoord_converts : Converts acceptsTextureCoord texCoordOf texCoordFn where
  loop k s d buffer h hl := by
    cases k <;> cases s <;> first
      | exact fill_le hl
      | exact congrArg Res.ok (goCopy_le hl)
      | exact absurd h (by decide)
  length k s d h := by
    cases k <;> cases s <;> first
      | exact List.length_map _
      | rfl
      | exact absurd h (by decide)

def weightsFn : Slice → List (V4 F32)
  | ⟨.base .u8 .v4, d⟩ => d.map fun (e : V4 UInt8) =>
      ⟨denormalizeUbyte e.x0, denormalizeUbyte e.x1, denormalizeUbyte e.x2, denormalizeUbyte e.x3⟩
  | ⟨.base .u16 .v4, d⟩ => d.map fun (e : V4 UInt16) =>
      ⟨denormalizeUshort e.x0, denormalizeUshort e.x1, denormalizeUshort e.x2, denormalizeUshort e.x3⟩
  | ⟨.base .f32 .v4, d⟩ => d
  | _ => []

theorem weights_converts : Converts acceptsWeights weightsOf weightsFn where
  loop k s d buffer h hl := by
    cases k <;> cases s <;> first
      | exact fill_le hl
      | exact congrArg Res.ok (goCopy_le hl)
      | exact absurd h (by decide)
  length k s d h := by
    cases k <;> cases s <;> first
      | exact List.length_map _
      | rfl
      | exact absurd h (by decide)

def jointsFn : Slice → List (V4 UInt16)
  | ⟨.base .u8 .v4, d⟩ => d.map fun (e : V4 UInt8) => ⟨e.x0.toUInt16, e.x1.toUInt16, e.x2.toUInt16, e.x3.toUInt16⟩
  | ⟨.base .u16 .v4, d⟩ => d
  | _ => []

theorem joints_converts : Converts acceptsJoints jointsOf jointsFn where
  loop k s d buffer h hl := by
    cases k <;> cases s <;> first
      | exact fill_le hl
      | exact congrArg Res.ok (goCopy_le hl)
      | exact absurd h (by decide)
  length k s d h := by
    cases k <;> cases s <;> first
      | exact List.length_map _
      | rfl
      | exact absurd h (by decide)

def colorFn (cf : ColorFns) : Slice → List (V4 UInt8)
  | ⟨.base .u8 .v3, d⟩ => d.map fun (e : V3 UInt8) => ⟨e.x0, e.x1, e.x2, 255⟩
  | ⟨.base .u8 .v4, d⟩ => d
  | ⟨.base .u16 .v3, d⟩ => d.map fun (e : V3 UInt16) => ⟨e.x0.toUInt8, e.x1.toUInt8, e.x2.toUInt8, 255⟩
  | ⟨.base .u16 .v4, d⟩ => d.map fun (e : V4 UInt16) => ⟨e.x0.toUInt8, e.x1.toUInt8, e.x2.toUInt8, e.x3.toUInt8⟩
  | ⟨.base .f32 .v3, d⟩ => d.map fun (e : V3 F32) => ⟨(cf.rgb e).x0, (cf.rgb e).x1, (cf.rgb e).x2, 255⟩
  | ⟨.base .f32 .v4, d⟩ => d.map cf.rgba
  | _ => []

theorem color_converts (cf : ColorFns) : Converts acceptsColor (colorOf cf) (colorFn cf) where
  loop k s d buffer h hl := by
    cases k <;> cases s <;> first
      | exact fill_le hl
      | exact congrArg Res.ok (goCopy_le hl)
      | exact absurd h (by decide)
  length k s d h := by
    cases k <;> cases s <;> first
      | exact List.length_map _
      | rfl
      | exact absurd h (by decide)

def color64Fn (cf : ColorFns) : Slice → List (V4 UInt16)
  | ⟨.base .u8 .v3, d⟩ => d.map fun (e : V3 UInt8) => ⟨widen e.x0, widen e.x1, widen e.x2, 65535⟩
  | ⟨.base .u8 .v4, d⟩ => d.map fun (e : V4 UInt8) => ⟨widen e.x0, widen e.x1, widen e.x2, widen e.x3⟩
  | ⟨.base .u16 .v3, d⟩ => d.map fun (e : V3 UInt16) => ⟨e.x0, e.x1, e.x2, 65535⟩
  | ⟨.base .u16 .v4, d⟩ => d
  | ⟨.base .f32 .v3, d⟩ => d.map fun (e : V3 F32) => ⟨(cf.rgb64 e).x0, (cf.rgb64 e).x1, (cf.rgb64 e).x2, 65535⟩
  | ⟨.base .f32 .v4, d⟩ => d.map cf.rgba64
  | _ => []

theorem color64_converts (cf : ColorFns) : Converts acceptsColor (color64Of cf) (color64Fn cf) where
  loop k s d buffer h hl := by
    cases k <;> cases s <;> first
      | exact fill_le hl
      | exact congrArg Res.ok (goCopy_le hl)
      | exact absurd h (by decide)
  length k s d h := by
    cases k <;> cases s <;> first
      | exact List.length_map _
      | rfl
      | exact absurd h (by decide)

/-- The elements of a slice of a known type. -/
def exactFn (t0 : ETy) (s : Slice) : List t0.Elem := if h : s.ty = t0 then h ▸ s.data else []

theorem exact_converts (k0 : Kind) (s0 : Shape) :
    Converts (fun c t => decide (c = componentTypeOf k0) && decide (t = accessorTypeOf s0))
      (copyExact (.base k0 s0)) (exactFn (.base k0 s0)) where
  loop k s d buffer h hl := by
    simp only [Bool.and_eq_true, decide_eq_true_eq] at h
    have hk : k = k0 := by
      have := h.1
      revert this; cases k <;> cases k0 <;> decide
    have hs : s = s0 := by
      have := h.2
      revert this; cases s <;> cases s0 <;> decide
    subst hk; subst hs
    unfold copyExact exactFn
    simp only [dite_true]
    exact congrArg Res.ok (goCopy_le hl)
  length k s d h := by
    simp only [Bool.and_eq_true, decide_eq_true_eq] at h
    have hk : k = k0 := by
      have := h.1
      revert this; cases k <;> cases k0 <;> decide
    have hs : s = s0 := by
      have := h.2
      revert this; cases s <;> cases s0 <;> decide
    subst hk; subst hs
    unfold exactFn
    simp

end Gltf
