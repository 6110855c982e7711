/-
Property C26 where it is false: what `ReadColor` returns for 16 bit colours.
-/
import Verif.Props.ModelerRead

namespace Gltf

open Spec

/-- C26 for `ReadColor` of 16 bit colours, where it is false: the components are reduced modulo 256, and a colour without alpha
is opaque. -/
theorem C26_low_bytes (cf : ColorFns) (doc : Document) (acr : Accessor) (buffer r : List (V4 UInt8)) (b0 : Bytes) (p : Pools)
    (s : Slice) (vs : List (List Nat))
    (h : readColor cf doc acr buffer b0 p = .ok r) (hb : acr.count ≠ 0 ∨ buffer = [])
    (hr : readAccessor doc acr b0 p = .ok s) (hv : vectors s = some (65535, vs)) :
    r.length = vs.length ∧
    ∀ (i : Nat) v x, vs[i]? = some v → r[i]? = some x →
      [x.x0.toNat, x.x1.toNat, x.x2.toNat, x.x3.toNat] = ((v ++ [255]).take 4).map (· % 256) := by
  obtain ⟨k, sh, d, h1, h2, rfl⟩ := typedBody_inv (color_converts cf) (fun _ _ => checkReadColor_accepts.1) h hb
  rw [hr] at h1
  cases h1
  cases k <;> cases sh <;> first
    | exact absurd h2 (by decide)
    | (cases hv; done)
    | (simp only [vectors, Option.some.injEq, Prod.mk.injEq] at hv
       obtain ⟨hm, rfl⟩ := hv
       first
       | (exact absurd hm (by decide))
       | (refine ⟨by simp [colorFn], fun i v x hv hx => ?_⟩
          simp only [colorFn, List.getElem?_map, Option.map_eq_some_iff] at hv hx
          obtain ⟨e, he, rfl⟩ := hv
          obtain ⟨e', he', rfl⟩ := hx
          rw [he] at he'; cases he'
          simp))

/-- A colour whose bytes differ. -/
example : ∃ (doc : Document) (acr : Accessor), acr.count ≠ 0 ∧
    readAccessor doc acr [] ⟨[], [], []⟩ = .ok ⟨.base .u16 .v3, [⟨0x1234, 0x5678, 0x9abc⟩]⟩ ∧
    vectors ⟨.base .u16 .v3, [⟨0x1234, 0x5678, 0x9abc⟩]⟩ = some (65535, [[0x1234, 0x5678, 0x9abc]]) ∧
    readColor ⟨fun _ => ⟨0, 0, 0⟩, fun _ => ⟨0, 0, 0, 0⟩, fun _ => ⟨0, 0, 0⟩, fun _ => ⟨0, 0, 0, 0⟩⟩ doc acr [] [] ⟨[], [], []⟩ =
      .ok [⟨0x34, 0x78, 0xbc, 255⟩] :=
  ⟨{ buffers := [some { data := [0x34, 0x12, 0x78, 0x56, 0xbc, 0x9a, 0, 0] }], bufferViews := [some { buffer := 0, byteLength := 8 }] },
    { componentType := .ushort, type := .vec3, count := 1, bufferView := some 0 }, by decide +kernel, by decide +kernel, by decide +kernel,
    by decide +kernel⟩

end Gltf
