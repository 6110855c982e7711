/-
What the properties C01, C02, C04, C07 and C59 leave out: the exact results where they fail.
-/
import Verif.Props.BinaryRead

namespace Gltf

open Spec

/-- `Read` of `[]int8`. -/
theorem read_int8_ok {b : Bytes} {stride : Nat} {data d : List Int8}
    (h : read b stride (.base .i8 .sc) data = .ok d) : b.length ≤ data.length := by
  unfold read at h
  simp only at h
  generalize (if (stride : Int) = 0 then ((sizeOfElement (ETy.base .i8 .sc).c (ETy.base .i8 .sc).t : Nat) : Int) else stride) = e at h
  generalize (if e ≠ _ then _ else _ : Int) = high at h
  split at h
  · cases h
  · change readInt8 b data = .ok d at h
    unfold readInt8 at h
    split at h
    · assumption
    · cases h

theorem needed_ge (t : ETy) (stride n : Nat) : n ≤ needed t stride n := by
  unfold needed
  split
  · omega
  · have hp := elemSize_pos (kind t) (shape t)
    have he : 1 ≤ effStride t stride := by unfold effStride; split <;> omega
    have := Nat.mul_le_mul_right (n - 1) he
    omega

/-- C01, exactly: what is written is read back if and only if the slice is not `[]int8` or the buffer has no more bytes than
the slice. -/
theorem C01_iff (t : ETy) (data data0 : List t.Elem) (b : Bytes) (stride : Nat)
    (hb : GoLen b) (hs : stride < 2 ^ 63) (hst : stride = 0 ∨ elemSize (kind t) (shape t) ≤ stride)
    (hl : data0.length = data.length) (hn : needed t stride data.length ≤ b.length) :
    (∃ b', write b stride t data = .ok b' ∧ read b' stride t data0 = .ok data) ↔
      (t = .base .i8 .sc → b.length = data.length) := by
  refine ⟨?_, C01_write_read_partial t data data0 b stride hb hs hst hl hn⟩
  rintro ⟨b', hw, hr⟩ rfl
  obtain ⟨b'', hw', hlen⟩ := (C04_write_short _ data b stride hb (by unfold GoLen at hb; omega)).2 hn
  rw [hw] at hw'
  cases hw'
  have h1 := read_int8_ok hr
  have h2 := needed_ge (.base .i8 .sc) stride data.length
  omega

/-- Both sides of C01 occur. -/
example : (∃ b', write [0, 0] (0 : Nat) (.base .i8 .sc) [1, -1] = .ok b' ∧ read b' (0 : Nat) (.base .i8 .sc) [0, 0] = .ok [1, -1]) ∧
    ¬ ∃ b', write [0, 0, 0] (0 : Nat) (.base .i8 .sc) [1, -1] = .ok b' ∧ read b' (0 : Nat) (.base .i8 .sc) [0, 0] = .ok [1, -1] :=
  ⟨(C01_iff (.base .i8 .sc) [1, -1] [0, 0] [0, 0] 0 (by decide) (by decide) (by decide) rfl (by decide)).2 fun _ => rfl,
    fun h => absurd ((C01_iff (.base .i8 .sc) [1, -1] [0, 0] [0, 0, 0] 0 (by decide) (by decide) (by decide) rfl (by decide)).1 h rfl)
      (by decide)⟩

/-- What `Write` does with `[]uint8`, where C02 and C03 are false: the bytes are written one after the other, whatever the
stride. -/
theorem C02_bytes (data : List UInt8) (b b' : Bytes) (stride : Nat) (hov : needed (.base .u8 .sc) stride data.length < 2 ^ 63)
    (hw : write b stride (.base .u8 .sc) data = .ok b') : b' = data ++ b.drop data.length := by
  by_cases h0 : data.length = 0
  · have : data = [] := List.length_eq_zero_iff.1 h0
    subst this
    unfold write at hw
    cases hw
    rfl
  · have hn := needed_ge (.base .u8 .sc) stride data.length
    rw [write_eq hov, if_neg h0] at hw
    split at hw
    · cases hw
    · change Res.ok (goCopy b data) = .ok b' at hw
      cases hw
      unfold goCopy
      rw [List.take_of_length_le (by omega)]

/-- Three bytes with a stride of two. -/
example : write [0, 0, 0, 0, 9] (2 : Nat) (.base .u8 .sc) [1, 2, 3] = .ok [1, 2, 3, 0, 9] ∧
    needed (.base .u8 .sc) 2 3 < 2 ^ 63 := by decide +kernel

/-- What `Read` does with `[]uint8`, where C59 is false: the first bytes of the buffer are read, whatever the stride. -/
theorem C59_bytes (data d : List UInt8) (b : Bytes) (stride : Nat) (hb : GoLen b)
    (hov : needed (.base .u8 .sc) stride data.length < 2 ^ 63)
    (h : read b stride (.base .u8 .sc) data = .ok d) : d = b.take data.length := by
  by_cases h0 : data.length = 0
  · have : data = [] := List.length_eq_zero_iff.1 h0
    subst this
    have := read_length h
    rw [List.length_eq_zero_iff.1 this]
    rfl
  · have hn := needed_ge (.base .u8 .sc) stride data.length
    by_cases hlt : b.length < needed (.base .u8 .sc) stride data.length
    · rw [read_eq (by omega) hov, if_pos hlt] at h; cases h
    · rw [read_u8 hb (by omega) (by omega) (by omega)] at h
      cases h
      rfl

/-- Three bytes with a stride of two. -/
example : read [1, 2, 3, 4, 5] (2 : Nat) (.base .u8 .sc) [0, 0, 0] = .ok [1, 2, 3] ∧
    needed (.base .u8 .sc) 2 3 < 2 ^ 63 := by decide +kernel

theorem readSwitch_nil {b : Bytes} {e : Int} {t : ETy} :
    readSwitch b e t [] = if t = .base .i8 .sc ∧ 0 < b.length then .panic "index out of range" else .ok [] := by
  by_cases h : t = .base .i8 .sc
  · subst h
    change readInt8 b [] = _
    unfold readInt8
    cases b with
    | nil => rfl
    | cons x b => simp
  · rw [if_neg (fun k => h k.1)]
    cases t with
    | base k s =>
      cases k <;> cases s <;> first | exact absurd rfl h | rfl | (simp only [readSwitch]; split <;> simp [goCopy, readLoop])
    | rgba => rfl
    | rgba64 => rfl

/-- `Read` into an empty slice. -/
theorem read_empty {t : ETy} {b : Bytes} {stride : Nat} (hs : stride < 2 ^ 63) :
    read b (stride : Int) t [] =
      if b.length + effStride t stride < elemSize (kind t) (shape t) then .err .shortBuffer
      else if t = .base .i8 .sc ∧ 0 < b.length then .panic "index out of range" else .ok [] := by
  unfold read
  simp only [effStride_eq, List.length_nil]
  rw [sizeOfElement_eq, readSwitch_nil]
  have hsz := elemSize_le (kind t) (shape t)
  have hes : effStride t stride < 2 ^ 63 := by
    unfold effStride; split <;> omega
  generalize effStride t stride = e at *
  generalize elemSize (kind t) (shape t) = z at *
  have h1 : wrap64 (((0 : Nat) : Int) * (e : Int)) = 0 := by
    rw [Int.natCast_zero, Int.zero_mul]; unfold wrap64; omega
  have h2 : wrap64 ((e : Int) - z) = e - z := by unfold wrap64; omega
  have h3 : wrap64 (0 - ((e : Int) - z)) = z - e := by
    unfold wrap64; omega
  rw [h1, h2, h3]
  by_cases hz : (e : Int) ≠ z
  · rw [if_pos hz]
    by_cases hlt : b.length + e < z
    · rw [if_pos hlt, if_pos (by omega)]
    · rw [if_neg hlt, if_neg (by omega)]
  · have hz' : e = z := by omega
    rw [if_neg hz, if_neg (c := (b.length : Int) < 0) (by omega), if_neg (c := b.length + e < z) (by omega)]

/-- C04 for `Read`, exactly: which slices and buffers are reported as short, which panic, and which are read. -/
theorem C04_read_iff (t : ETy) (data : List t.Elem) (b : Bytes) (stride : Nat)
    (hb : GoLen b) (hs : stride < 2 ^ 63) (hov : needed t stride data.length < 2 ^ 63) :
    (read b stride t data = .err .shortBuffer ↔ b.length < needed t stride data.length ∨
      (data = [] ∧ 0 < stride ∧ b.length + stride < elemSize (kind t) (shape t))) ∧
    ((∃ w, read b stride t data = .panic w) ↔
      t = .base .i8 .sc ∧ needed t stride data.length ≤ b.length ∧ data.length < b.length) ∧
    ((∃ d, read b stride t data = .ok d) ↔ needed t stride data.length ≤ b.length ∧
      ¬ (data = [] ∧ 0 < stride ∧ b.length + stride < elemSize (kind t) (shape t)) ∧
      ¬ (t = .base .i8 .sc ∧ data.length < b.length)) := by
  by_cases h0 : data.length = 0
  · have : data = [] := List.length_eq_zero_iff.1 h0
    subst this
    rw [read_empty hs]
    have hn : needed t stride ([] : List t.Elem).length = 0 := rfl
    have hz := elemSize_pos (kind t) (shape t)
    rw [hn]
    have he : b.length + effStride t stride < elemSize (kind t) (shape t) ↔
        0 < stride ∧ b.length + stride < elemSize (kind t) (shape t) := by
      unfold effStride
      split <;> omega
    by_cases hlt : b.length + effStride t stride < elemSize (kind t) (shape t)
    · rw [if_pos hlt]
      have h8 : ¬ t = .base .i8 .sc := by
        rintro rfl
        rw [he] at hlt
        have : elemSize (kind (.base .i8 .sc)) (shape (.base .i8 .sc)) = 1 := rfl
        omega
      rw [he] at hlt
      simp [hlt, h8]
    · rw [if_neg hlt]
      rw [he] at hlt
      by_cases h8 : t = .base .i8 .sc ∧ 0 < b.length
      · rw [if_pos h8]
        simp [h8.1, h8.2]
        simpa [h8.1] using hlt
      · rw [if_neg h8]
        simp [hlt]
        simpa using h8
  · have hne : data ≠ [] := fun h => h0 (by rw [h]; rfl)
    simp only [hne, false_and, or_false, not_false_eq_true, true_and]
    by_cases hlt : b.length < needed t stride data.length
    · rw [read_eq (by omega) hov, if_pos hlt]
      simp [hlt]
      omega
    · by_cases h8 : t = .base .i8 .sc ∧ data.length < b.length
      · obtain ⟨rfl, h8⟩ := h8
        have : read b stride (.base .i8 .sc) data = .panic "index out of range" := by
          rw [read_i8 hb (by omega) (by omega)]
          unfold readInt8
          rw [if_neg (by omega)]
        rw [this]
        simp [h8, hlt]
        omega
      · obtain ⟨h1, h2⟩ := C04_read_short_partial t data b stride hb (by omega) hov
          (fun ht => Nat.le_of_not_lt fun k => h8 ⟨ht, k⟩)
        obtain ⟨d, hd, -⟩ := h2 (by omega)
        rw [hd]
        simp [hlt, h8]
        refine ⟨fun a b => ?_, by omega⟩
        exact Nat.le_of_not_lt fun k => h8 ⟨a, k⟩

/-- All three results occur. -/
example : read [1] (1 : Nat) (.base .f32 .sc) [] = .err .shortBuffer ∧
    read [1, 2] (1 : Nat) (.base .i8 .sc) [0] = .panic "index out of range" ∧
    read [1, 2] (1 : Nat) (.base .u8 .sc) [0] = .ok [1] := by decide +kernel

/-- C07, exactly: for a valid pair and a count that can be allocated, `MakeSliceBuffer` panics only for 3x3 matrices of
`uint32` with a scratch buffer. -/
theorem C07_panic_iff (c : ComponentType) (t : AccessorType) (count : Nat) (buffer : Bytes)
    (hc : c.toNat < 6) (ht : t.toNat < 7) (hm : count * (c.byteSize * t.components) ≤ maxAlloc) :
    ((∃ w, makeSliceBuffer c t count buffer = .panic w) ↔ c = .uint ∧ t = .mat3 ∧ buffer ≠ []) ∧
    ¬ (makeSliceBuffer c t count buffer).isErr := by
  by_cases hx : c = .uint ∧ t = .mat3 ∧ buffer ≠ []
  · have : makeSliceBuffer c t count buffer = .panic "gltf: unsupported component type or accessor type" := by
      obtain ⟨rfl, rfl, hb⟩ := hx
      unfold makeSliceBuffer
      have hb' : ¬ buffer.length = 0 := fun h => hb (List.eq_nil_of_length_eq_zero h)
      rw [show checkAccessorType .uint .mat3 = .ok () from rfl, Res.ok_bind, if_neg hb']
      rfl
    rw [this]
    exact ⟨⟨fun _ => hx, fun _ => ⟨_, rfl⟩⟩, by simp [Res.isErr]⟩
  · obtain ⟨s, hs, -⟩ := C07_make_slice_buffer_partial c t count buffer hc ht hm hx
    rw [hs]
    refine ⟨⟨?_, fun h => absurd h hx⟩, by simp [Res.isErr]⟩
    rintro ⟨w, hw⟩
    cases hw

/-- C07 for invalid pairs: an error, whatever the count and the scratch buffer. -/
theorem C07_invalid (c : ComponentType) (t : AccessorType) (count : Int) (buffer : Bytes)
    (h : 6 ≤ c.toNat ∨ 7 ≤ t.toNat) : (makeSliceBuffer c t count buffer).isErr = true := by
  cases c <;> cases t <;> simp [ComponentType.toNat, AccessorType.toNat] at h <;> rfl

example : (makeSliceBuffer .uint .mat3 1 [0]).isErr = false ∧ (makeSliceBuffer .uint .mat3 1 []).isErr = false ∧
    (∃ w, makeSliceBuffer .uint .mat3 1 [0] = .panic w) ∧ (makeSliceBuffer (.unknown 9) .mat3 1 [0]).isErr = true ∧
    6 ≤ (ComponentType.unknown 9).toNat := by
  refine ⟨rfl, rfl, ⟨_, rfl⟩, rfl, by decide⟩

end Gltf
