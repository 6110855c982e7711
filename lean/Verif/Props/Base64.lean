/-
Properties C35 and C58: data URIs.
-/
import Verif.Lemmas.Base64

namespace Gltf

open Spec

/-- Text without line feeds and carriage returns. -/
def Spec.withoutLineBreaks (s : Bytes) : Bytes := s.filter fun c => c ≠ 10 ∧ c ≠ 13

theorem prefix_append (p s : Bytes) : hasPrefix (p ++ s) p = true := by
  unfold hasPrefix
  rw [List.isPrefixOf_iff_prefix]
  exact List.prefix_append p s

/-! ### C35 Embedded buffers round trip -/

/-- C35, round trip: embedding changes nothing but the URI, the URI is the standard data URI of the
bytes, and decoding it gives the bytes. -/
theorem C35_roundtrip (b : Buffer) :
    b.embeddedResource.isEmbeddedResource = true ∧ b.embeddedResource.marshalData = .ok b.data ∧
    ∃ t, IsBase64 t b.data ∧
      b.embeddedResource = { b with uri := b!"data:application/octet-stream;base64," ++ t } := by
  have h1 : b.embeddedResource.isEmbeddedResource = true := by
    unfold Buffer.isEmbeddedResource Buffer.embeddedResource
    rw [List.append_assoc]
    exact prefix_append _ _
  refine ⟨h1, ?_, b64Encode b.data, (b64Groups_iff _ _).1 (b64Groups_encode b.data), rfl⟩
  unfold Buffer.marshalData
  rw [h1]
  have h2 : b.embeddedResource.uri = (mimetypeApplicationOctet ++ b!",") ++ b64Encode b.data := rfl
  have h3 : (mimetypeApplicationOctet ++ b!",").length = mimetypeApplicationOctet.length + 1 := rfl
  simp only [Bool.not_true, Bool.false_eq_true, if_false]
  rw [h2, if_neg (by rw [List.length_append, h3]; omega), ← h3, List.drop_left, b64Decode_encode]

example : ({ data := [0, 255, 16, 128] } : Buffer).embeddedResource.uri
    = b!"data:application/octet-stream;base64,AP8QgA==" := by decide +kernel

/-- C35, decoding: a data URI of octets is decoded exactly if what follows the comma, without line
breaks, is base64, to the data that the text stands for; otherwise there is an error. -/
theorem C35_decode (b : Buffer) (t : Bytes) (h : b.uri = b!"data:application/octet-stream;base64," ++ t) :
    (∀ data, b.marshalData = .ok data ↔ IsBase64 (withoutLineBreaks t) data) ∧
    ((¬ ∃ data, IsBase64 (withoutLineBreaks t) data) → ∃ e, b.marshalData = .err e) := by
  have h2 : b.uri = (mimetypeApplicationOctet ++ b!",") ++ t := h
  have h1 : b.isEmbeddedResource = true := by
    unfold Buffer.isEmbeddedResource
    rw [h2, List.append_assoc]
    exact prefix_append _ _
  have h3 : (mimetypeApplicationOctet ++ b!",").length = mimetypeApplicationOctet.length + 1 := rfl
  have h4 : b.marshalData = match (b64Groups (withoutLineBreaks t)).2 with
      | some e => .err e
      | none => .ok (b64Groups (withoutLineBreaks t)).1 := by
    unfold Buffer.marshalData
    rw [h1]
    simp only [Bool.not_true, Bool.false_eq_true, if_false]
    rw [h2, if_neg (by rw [List.length_append, h3]; omega), ← h3, List.drop_left]
    rfl
  rw [h4]
  simp only [← b64Groups_iff]
  cases hg : b64Groups (withoutLineBreaks t) with
  | mk d e =>
    cases e with
    | none =>
      refine ⟨fun data => ⟨fun h => by cases h; rfl, fun h => by cases h; rfl⟩, fun hn => ?_⟩
      exact absurd ⟨d, rfl⟩ hn
    | some e =>
      refine ⟨fun data => ⟨fun h => (by cases h), fun h => (by cases h)⟩, fun _ => ⟨e, rfl⟩⟩

/-- A line break is ignored, a wrong character is an error. -/
example : ({ uri := b!"data:application/octet-stream;base64,AP8Q\ngA==" } : Buffer).marshalData = .ok [0, 255, 16, 128] ∧
    ({ uri := b!"data:application/octet-stream;base64,AP8*gA==" } : Buffer).marshalData.isErr = true := by decide +kernel

/-- Buffers that are not data URIs of octets are not decoded, and decoding never panics. -/
theorem C35_total (b : Buffer) :
    (b.isEmbeddedResource = false → b.marshalData = .ok []) ∧ b.marshalData.isPanic = false := by
  unfold Buffer.marshalData
  constructor
  · intro h; rw [h]; rfl
  · split
    · rfl
    · simp only
      split
      · rfl
      · cases (b64Decode _).2 <;> rfl

/-! ### C58 Image data URIs -/

theorem not_png_and_jpg (t : Bytes) : hasPrefix (mimetypeImagePNG ++ t) mimetypeImageJPG = false := by
  unfold hasPrefix mimetypeImagePNG mimetypeImageJPG
  simp [List.isPrefixOf]

/-- What `Image.MarshalData` returns for the text after the prefix of a data URI. -/
def Spec.DecodesTo (t : Bytes) (r : Bytes × Option Err) : Prop :=
  (∀ data, r = (data, none) ↔ IsBase64 (withoutLineBreaks t) data) ∧
  ((¬ ∃ data, IsBase64 (withoutLineBreaks t) data) → ∃ e, r.2 = some e)

theorem b64Decode_decodesTo (t : Bytes) : DecodesTo t (b64Decode t) := by
  have h : b64Decode t = b64Groups (withoutLineBreaks t) := rfl
  rw [h]
  refine ⟨fun data => b64Groups_iff _ _, fun hn => ?_⟩
  cases hg : b64Groups (withoutLineBreaks t) with
  | mk d e =>
    cases e with
    | none => exact absurd ⟨d, (b64Groups_iff _ _).1 hg⟩ hn
    | some e => exact ⟨e, rfl⟩

/-- C58: PNG and JPEG data URIs are decoded, other images give an empty slice without error. -/
theorem C58_image_data (im : Image) :
    (∀ t, im.uri = b!"data:image/png;base64," ++ t → DecodesTo t im.marshalData) ∧
    (∀ t, im.uri = b!"data:image/jpeg;base64," ++ t → DecodesTo t im.marshalData) ∧
    ((¬ b!"data:image/png;base64" <+: im.uri) → (¬ b!"data:image/jpeg;base64" <+: im.uri) →
      im.isEmbeddedResource = false ∧ im.marshalData = ([], none)) := by
  refine ⟨?_, ?_, ?_⟩
  · intro t h
    have h2 : im.uri = (mimetypeImagePNG ++ b!",") ++ t := h
    have h3 : (mimetypeImagePNG ++ b!",").length = mimetypeImagePNG.length + 1 := rfl
    have h1 : hasPrefix im.uri mimetypeImagePNG = true := by
      rw [h2, List.append_assoc]; exact prefix_append _ _
    have h5 : hasPrefix im.uri mimetypeImageJPG = false := by
      rw [h2, List.append_assoc]; exact not_png_and_jpg _
    unfold Image.marshalData Image.isEmbeddedResource
    simp only [h1, h5, Bool.true_or, Bool.not_true, Bool.false_eq_true, if_false]
    rw [h2, if_neg (by rw [List.length_append, h3]; omega), ← h3, List.drop_left]
    exact b64Decode_decodesTo t
  · intro t h
    have h2 : im.uri = (mimetypeImageJPG ++ b!",") ++ t := h
    have h3 : (mimetypeImageJPG ++ b!",").length = mimetypeImageJPG.length + 1 := rfl
    have h1 : hasPrefix im.uri mimetypeImageJPG = true := by
      rw [h2, List.append_assoc]; exact prefix_append _ _
    unfold Image.marshalData Image.isEmbeddedResource
    simp only [h1, Bool.or_true, Bool.not_true, Bool.false_eq_true, if_false, if_true]
    rw [h2, if_neg (by rw [List.length_append, h3]; omega), ← h3, List.drop_left]
    exact b64Decode_decodesTo t
  · intro h1 h2
    have e1 : hasPrefix im.uri mimetypeImagePNG = false := by
      unfold hasPrefix; rw [Bool.eq_false_iff]; intro h; exact h1 (List.isPrefixOf_iff_prefix.1 h)
    have e2 : hasPrefix im.uri mimetypeImageJPG = false := by
      unfold hasPrefix; rw [Bool.eq_false_iff]; intro h; exact h2 (List.isPrefixOf_iff_prefix.1 h)
    have e3 : im.isEmbeddedResource = false := by unfold Image.isEmbeddedResource; rw [e1, e2]; rfl
    refine ⟨e3, ?_⟩
    unfold Image.marshalData
    rw [e3]; rfl

example : ({ uri := b!"data:image/jpeg;base64,AP8Q" } : Image).marshalData = ([0, 255, 16], none) ∧
    ({ uri := b!"data:image/png;base64,AP8QgA==" } : Image).marshalData = ([0, 255, 16, 128], none) ∧
    ({ uri := b!"texture.png" } : Image).marshalData = ([], none) := by decide +kernel

end Gltf
