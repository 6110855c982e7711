/-
Property C23, accessors without elements: the typed readers return the recycled buffer.
-/
import Verif.Props.ModelerRead

namespace Gltf

open Spec

/-- What a typed reader returns for an accessor without elements. -/
def Spec.ReturnsBuffer {β : Type} (f : TypedReader β) : Prop :=
  ∀ doc acr buffer b0 p r, acr.count = 0 → f doc acr buffer b0 p = .ok r → r = buffer

theorem returnsBuffer_typedBody {β : Type} {check : ComponentType → AccessorType → Res Unit} {zero : β}
    {conv : List β → Slice → Res (List β)} {acc : ComponentType → AccessorType → Bool} {f : Slice → List β}
    (hc : Converts acc conv f) (hacc : ∀ c t, check c t = .ok () → acc c t = true) :
    ReturnsBuffer (typedBody check zero conv) := by
  intro doc acr buffer b0 p r h0 h
  cases hck : check acr.componentType acr.type with
  | err e => unfold typedBody at h; rw [hck] at h; cases h
  | panic w => unfold typedBody at h; rw [hck] at h; cases h
  | ok u =>
    have ha := hacc _ _ hck
    cases hr : readAccessor doc acr b0 p with
    | err e => rw [(typedBody_fail hck).1 e hr] at h; cases h
    | panic w => rw [(typedBody_fail hck).2 w hr] at h; cases h
    | ok s =>
      obtain ⟨k, sh, h1, h2, h3, h4⟩ := readAccessor_inv hr
      obtain ⟨ty, d⟩ := s
      simp only at h3
      subst h3
      rw [h1, h2] at ha
      have hd : d = [] := List.length_eq_zero_iff.1 (by
        have : (d.length : Int) = acr.count := h4
        omega)
      subst hd
      have hb : makeBufferOf zero acr.count buffer = .ok buffer := by
        unfold makeBufferOf
        rw [h0, if_neg (by omega), if_neg (by simp)]
      unfold typedBody at h
      rw [hck, Res.ok_bind, hr, Res.ok_bind, hb, Res.ok_bind, hc.loop k sh [] buffer ha (by simp)] at h
      have hl := hc.length k sh [] ha
      cases h
      rw [List.length_eq_zero_iff.1 hl]
      rfl

theorem returnsBuffer_exact (k : Kind) (s : Shape) : ReturnsBuffer (readExact (.base k s)) :=
  returnsBuffer_typedBody (check := checkExact (ETy.base k s).c (ETy.base k s).t) (exact_converts k s)
    (by intro c t h; rw [checkExact_accepts, ← (ctypes k s).1, ← (ctypes k s).2] at h; exact h)

/-- C23 where it is false: for an accessor without elements every typed reader that succeeds returns all of the recycled buffer, as
it was. -/
theorem C23_empty (cf : ColorFns) :
    ReturnsBuffer readIndices ∧ ReturnsBuffer readNormal ∧ ReturnsBuffer readTangent ∧ ReturnsBuffer readTextureCoord ∧
    ReturnsBuffer readWeights ∧ ReturnsBuffer readJoints ∧ ReturnsBuffer readPosition ∧ ReturnsBuffer (readColor cf) ∧
    ReturnsBuffer (readColor64 cf) ∧ ReturnsBuffer readInverseBindMatrices :=
  ⟨returnsBuffer_typedBody indices_converts fun _ _ => checkIndices_accepts.1,
    returnsBuffer_exact _ _, returnsBuffer_exact _ _,
    returnsBuffer_typedBody texCoord_converts fun _ _ => checkNormalized_accepts.1,
    returnsBuffer_typedBody weights_converts fun _ _ => checkNormalized_accepts.1,
    returnsBuffer_typedBody joints_converts fun _ _ => checkReadJoints_accepts.1,
    returnsBuffer_exact _ _,
    returnsBuffer_typedBody (color_converts cf) fun _ _ => checkReadColor_accepts.1,
    returnsBuffer_typedBody (color64_converts cf) fun _ _ => checkReadColor_accepts.1,
    returnsBuffer_exact _ _⟩

/-- An accessor without elements is read successfully. -/
example : readIndices {} { componentType := .ubyte, type := .scalar, count := 0 } [7, 8] [] ⟨[], [], []⟩ = .ok [7, 8] := by decide +kernel

end Gltf
