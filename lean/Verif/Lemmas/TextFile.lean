/-
The JSON of a file, in terms of the grammar of RFC 8259.
-/
import Verif.Lemmas.TextPrint
import Verif.Lemmas.Decoded

namespace Gltf

open Spec

/-! ### Texts -/

theorem nestedLe_length {n : Nat} {data : Bytes} (h : (jsonPart data).length ≤ n) : NestedLe n data := by
  rintro v ⟨w, t, rest, -, ht, e⟩
  refine depthLe_mono (text_depth ht) ?_
  rw [e] at h
  simp only [List.length_append] at h
  omega

theorem digits_noSpace {s : Bytes} (h : IsDigits s) : (32 : UInt8) ∉ s := fun hm => absurd (h.2 _ hm).1 (by decide)

theorem number_noSpace {s : Bytes} (h : IsNumber s) : (32 : UInt8) ∉ s := by
  obtain ⟨sign, int, frac, exp, rfl, h1, h2, h3, h4⟩ := h
  simp only [List.mem_append, not_or]
  refine ⟨⟨⟨?_, ?_⟩, ?_⟩, ?_⟩
  · rcases h1 with rfl | rfl <;> decide
  · rcases h2 with rfl | h
    · decide
    · exact digits_noSpace h.1
  · rcases h3 with rfl | ⟨ds, h, rfl⟩
    · decide
    · simp only [List.mem_append, not_or]
      exact ⟨by decide, digits_noSpace h⟩
  · rcases h4 with rfl | ⟨e, s, ds, he, hs, h, rfl⟩
    · decide
    · simp only [List.mem_append, not_or]
      exact ⟨⟨by rcases he with rfl | rfl <;> decide, by rcases hs with rfl | rfl | rfl <;> decide⟩, digits_noSpace h⟩

/-- A value does not end with white space. -/
theorem text_last {lax : Bool} {v : JVal} {t : Bytes} (h : Text lax (.value v) t) : t ≠ [] ∧ ∀ x, t ≠ x ++ [32] := by
  have tail : ∀ {y : Bytes} {c : UInt8}, c ≠ 32 → y ++ [c] ≠ [] ∧ ∀ x, y ++ [c] ≠ x ++ [32] := by
    intro y c hc
    refine ⟨by simp, fun x e => ?_⟩
    have := (List.append_inj' e rfl).2
    simp at this
    exact hc this
  cases h with
  | null => exact tail (y := b!"nul") (c := 108) (by decide)
  | true => exact tail (y := b!"tru") (c := 101) (by decide)
  | false => exact tail (y := b!"fals") (c := 101) (by decide)
  | num h =>
    obtain ⟨c, t, rfl, -⟩ := number_head h
    refine ⟨by simp, fun x e => number_noSpace h ?_⟩
    rw [e]; simp
  | str _ => exact tail (by decide)
  | arrNil _ => exact tail (by decide)
  | arr _ => exact tail (by decide)
  | objNil _ => exact tail (by decide)
  | obj _ => exact tail (by decide)

/-! ### Streams -/

theorem valueOf_sound {s : Bytes} {fin : Err} {v : JVal} (h : valueOf s fin = .ok v) : StartsWith true v s := by
  unfold valueOf at h
  split at h
  · rename_i hp
    cases h
    obtain ⟨w, t, hw, ht, e⟩ := parseTop_sound hp
    exact ⟨w, t, _, hw, ht, e⟩
  · cases h
  · split at h
    · split at h
      · rename_i rest hp
        cases h
        obtain ⟨w, t, hw, ht, e⟩ := parseTop_sound hp
        rcases List.eq_nil_or_concat rest with rfl | ⟨x, c, rfl⟩
        · exfalso
          rw [List.append_nil] at e
          obtain ⟨h1, h2⟩ := text_last ht
          rcases List.eq_nil_or_concat t with rfl | ⟨x, c, rfl⟩
          · exact h1 rfl
          · rw [List.concat_eq_append, ← List.append_assoc] at e
            have := (List.append_inj' e rfl).2
            simp at this
            subst this
            exact h2 x (by simp)
        · rw [List.concat_eq_append, ← List.append_assoc] at e
          exact ⟨w, t, x, hw, ht, (List.append_inj' e rfl).1⟩
      · cases h
    · cases h

theorem valueOf_text {v : JVal} {s : Bytes} (h : StartsWith false v s) (hd : DepthLe 10000 v) (he : (∃ l, v = .obj l) ∨ (∃ l, v = .arr l))
    (fin : Err) : valueOf s fin = .ok v := by
  obtain ⟨w, t, rest, hw, ht, rfl⟩ := h
  unfold valueOf
  rw [parseTop_text hw ht hd rest he]

theorem startsWith_notGlb {lax : Bool} {v : JVal} {s : Bytes} (h : StartsWith lax v s) : ¬ b!"glTF" <+: s := by
  rintro ⟨x, e⟩
  obtain ⟨w, t, rest, hw, ht, rfl⟩ := h
  cases w with
  | nil =>
    have hne := (text_last ht).1
    cases t with
    | nil => exact hne rfl
    | cons c t =>
      have hc : c = 103 := by
        simp only [List.nil_append, List.cons_append] at e
        injection e with e _
        exact e.symm
      subst hc
      clear e hne
      generalize hi : Item.value v = i at ht
      generalize ht' : (103 : UInt8) :: t = t' at ht
      cases ht with
      | null => cases ht'
      | true => cases ht'
      | false => cases ht'
      | num h =>
        obtain ⟨c, t, e, h | h⟩ := number_head h
        · rw [e] at ht'; injection ht' with h1; rw [← h1] at h; exact absurd h (by decide)
        · rw [e] at ht'; injection ht' with h1; rw [← h1] at h; exact absurd h (by decide)
      | str _ => simp at ht'
      | arrNil _ => simp at ht'
      | arr _ => simp at ht'
      | objNil _ => simp at ht'
      | obj _ => simp at ht'
      | elem => cases hi
      | elems => cases hi
      | member => cases hi
      | members => cases hi
  | cons c w =>
    have hc : c = 103 := by
      simp only [List.cons_append] at e
      injection e with e _
      exact e.symm
    have := hw c (.head _)
    subst hc
    exact absurd this (by decide)

/-- What is read from a file is the JSON of the file. -/
theorem jsonOf_file {v : JVal} {s : Source} (h : FileOf v s.data) (hd : DepthLe 10000 v) (he : (∃ l, v = .obj l) ∨ (∃ l, v = .arr l)) :
    jsonOf s = .ok v := by
  unfold jsonOf
  rcases h with h | ⟨json, bin, hg, h⟩
  · rw [headerOf_text (startsWith_notGlb h)]
    exact valueOf_text h hd he _
  · obtain ⟨g, hdr, k, c2, hs, hl, hh, hj, -⟩ := headerOf_glb hg []
    rw [List.append_nil] at hs hh
    rw [hh]
    show valueOf (jsonStream s.data (some g)) _ = _
    have e : jsonStream s.data (some g) = json ++ List.replicate k 32 := by
      unfold jsonStream
      simp only
      rw [hs, List.append_assoc, List.append_assoc, ← hl, List.drop_left, ← List.append_assoc, hj,
        ← List.length_replicate (n := k) (a := (32 : UInt8)), ← List.length_append, List.length_replicate, List.take_left]
    rw [e]
    obtain ⟨w, t, rest, hw, ht, rfl⟩ := h
    exact valueOf_text ⟨w, t, rest ++ List.replicate k 32, hw, ht, by simp only [List.append_assoc]⟩ hd he _

theorem headerOf_some {s : Bytes} {g : GlbHeader} (h : headerOf s = .ok (some g)) : b!"glTF" <+: s := by
  unfold headerOf at h
  split at h
  · cases h
  · simp only at h
    split at h
    · cases h
    · rename_i hl hm
      rw [Decidable.not_not] at hm
      exact (magic_iff (by omega)).1 hm

/-- What is read follows the grammar. -/
theorem jsonOf_sound {v : JVal} {s : Source} (h : jsonOf s = .ok v) : StartsWith true v (jsonPart s.data) := by
  unfold jsonOf at h
  split at h
  · rename_i hd hh
    have h1 := valueOf_sound h
    cases hd with
    | none =>
      have h1 : StartsWith true v s.data := h1
      unfold jsonPart
      rw [if_neg (startsWith_notGlb h1)]
      exact h1
    | some g =>
      unfold jsonPart
      rw [if_pos (headerOf_some hh), ← headerOf_length hh]
      exact h1
  · cases h
  · cases h

end Gltf
