/-
Properties C01-C07: package binary.
-/
import Verif.Lemmas.ReadWrite

namespace Gltf

open Spec

/-! ### C01 Write then Read is the identity -/

/-- The full statement of C01. -/
def C01_full : Prop :=
  ∀ (t : ETy) (data data0 : List t.Elem) (b : Bytes) (stride : Nat),
    GoLen b → stride < 2 ^ 63 → (stride = 0 ∨ elemSize (kind t) (shape t) ≤ stride) →
    data0.length = data.length → needed t stride data.length ≤ b.length →
    ∃ b', write b stride t data = .ok b' ∧ read b' stride t data0 = .ok data

/-- C01 is false of the code: reading `[]int8` from a buffer that is longer than the slice panics. -/
theorem C01_full_fails : ¬ C01_full := by
  intro h
  obtain ⟨b', h1, h2⟩ := h (.base .i8 .sc) [5] [0] [1, 2] 0 (by decide) (by decide) (by decide) rfl (by decide)
  have : b' = [5, 2] := by
    have h3 : write [1, 2] ((0 : Nat) : Int) (.base .i8 .sc) [5] = .ok [5, 2] := by decide +kernel
    exact (Res.ok.inj (h3.symm.trans h1)).symm
  subst this
  have h4 : read [5, 2] ((0 : Nat) : Int) (.base .i8 .sc) [0] = .panic "index out of range" := by decide +kernel
  exact nomatch h4.symm.trans h2

/-- C01 for every slice type; for `[]int8` only when the buffer has exactly as many bytes as the
slice has elements (missing part: longer buffers and strided `[]int8`, where it is false). -/
theorem C01_write_read_partial (t : ETy) (data data0 : List t.Elem) (b : Bytes) (stride : Nat)
    (hb : GoLen b) (hs : stride < 2 ^ 63) (hst : stride = 0 ∨ elemSize (kind t) (shape t) ≤ stride)
    (hl : data0.length = data.length) (hn : needed t stride data.length ≤ b.length)
    (h8 : t = .base .i8 .sc → b.length = data.length) :
    ∃ b', write b stride t data = .ok b' ∧ read b' stride t data0 = .ok data := by
  have he : elemSize (kind t) (shape t) ≤ effStride t stride := by
    unfold effStride; split <;> omega
  by_cases h0 : data.length = 0
  · have hd : data = [] := List.length_eq_zero_iff.1 h0
    have hd0 : data0 = [] := List.length_eq_zero_iff.1 (by omega)
    subst hd hd0
    refine ⟨b, ?_, read_nil hs he ?_⟩
    · unfold write; rfl
    · intro h; exact List.length_eq_zero_iff.1 (h8 h)
  · have hnn : effStride t stride * (data.length - 1) + elemSize (kind t) (shape t) ≤ b.length := by
      unfold needed at hn; rw [if_neg h0] at hn; exact hn
    by_cases hu : t = .base .u8 .sc
    · subst hu
      have hle : data.length ≤ b.length := by
        have : 1 * (data.length - 1) ≤ effStride (.base .u8 .sc) stride * (data.length - 1) :=
          Nat.mul_le_mul_right _ (Nat.le_trans (elemSize_pos _ _) he)
        have := elemSize_pos (kind (.base .u8 .sc)) (shape (.base .u8 .sc))
        omega
      unfold GoLen at hb
      refine ⟨goCopy b data, ?_, ?_⟩
      · rw [write_eq (by omega), if_neg h0, if_neg (by omega)]; rfl
      · have hlen : (goCopy b data).length = b.length := by
          simp [goCopy]; omega
        rw [read_u8 (by unfold GoLen; omega) (by omega) (by rw [hl, hlen]; exact hn) (by omega)]
        rw [hl]
        simp only [goCopy]
        rw [List.take_of_length_le hle, List.take_left]
    · have hw := write_ok (data := data) hb hn (fun h => absurd h hu)
      have hlen : (patches b (cellsFrom t (effStride t stride) 0 data)).length = b.length :=
        patches_length (cellsFrom_fits (by right; simpa using hnn))
      have hback : ∀ (i : Nat) (hi : i < data.length),
          elemAt t (patches b (cellsFrom t (effStride t stride) 0 data)) (effStride t stride * i) = data[i] :=
        fun i hi => elemAt_patches he (.inr hnn) (List.getElem?_eq_getElem hi)
      refine ⟨_, hw, ?_⟩
      unfold GoLen at hb
      by_cases hi : t = .base .i8 .sc
      · subst hi
        rw [read_i8 (by unfold GoLen; omega) (by omega) (by rw [hl, hlen]; exact hn)]
        have hbl := h8 rfl
        unfold readInt8
        rw [if_pos (by omega), List.drop_of_length_le (by omega), List.append_nil]
        congr 1
        apply List.ext_getElem
        · simp [hlen, hbl]
        · intro i h1 h2
          have := hback i h2
          rw [List.getElem_map]
          rw [← this]
          have hstride : effStride (.base .i8 .sc) stride * i = i := by
            by_cases h1' : effStride (.base .i8 .sc) stride = 1
            · rw [h1', Nat.one_mul]
            · have hpos := elemSize_pos (kind (.base .i8 .sc)) (shape (.base .i8 .sc))
              have : 2 * (data.length - 1) ≤ effStride (.base .i8 .sc) stride * (data.length - 1) :=
                Nat.mul_le_mul_right _ (by omega)
              have : i = 0 := by omega
              subst this; rfl
          rw [hstride]
          have hwin : window (patches b (cellsFrom (.base .i8 .sc) (effStride (.base .i8 .sc) stride) 0 data)) i 1
              = [(patches b (cellsFrom (.base .i8 .sc) (effStride (.base .i8 .sc) stride) 0 data))[i]'(by rw [hlen]; omega)] := by
            unfold window
            rw [List.drop_eq_getElem_cons (by rw [hlen]; omega)]; rfl
          show _ = (UInt8.ofNat (leNat (window _ (i + (0 * _ + 0 * 1)) 1))).toInt8
          rw [Nat.zero_mul, Nat.zero_mul, Nat.add_zero, hwin]
          simp [leNat]
      · rw [read_ok (by unfold GoLen; omega) hi hu (by omega) (by rw [hl, hlen]; exact hn)]
        congr 1
        apply List.ext_getElem
        · simp [hl]
        · intro i h1 h2
          simp only [List.getElem_map, List.getElem_range]
          exact hback i h2

/-- The hypotheses of C01 are met by an interleaved write of byte matrices. -/
example : ∃ b', write (List.replicate 40 7) ((20 : Nat) : Int) (.base .u8 .m2) [⟨⟨1, 2⟩, ⟨3, 4⟩⟩, ⟨⟨5, 6⟩, ⟨7, 8⟩⟩] = .ok b' ∧
    read b' ((20 : Nat) : Int) (.base .u8 .m2) [⟨⟨0, 0⟩, ⟨0, 0⟩⟩, ⟨⟨0, 0⟩, ⟨0, 0⟩⟩]
      = .ok [⟨⟨1, 2⟩, ⟨3, 4⟩⟩, ⟨⟨5, 6⟩, ⟨7, 8⟩⟩] :=
  C01_write_read_partial (.base .u8 .m2) _ _ _ 20 (by unfold GoLen; decide) (by decide) (by decide) rfl (by decide)
    (by intro h; cases h)

/-! ### C02 Layout -/

/-- The full statement of C02. -/
def C02_full : Prop :=
  ∀ (t : ETy) (data : List t.Elem) (b b' : Bytes) (stride : Nat),
    GoLen b → (stride = 0 ∨ elemSize (kind t) (shape t) ≤ stride) → needed t stride data.length < 2 ^ 63 →
    write b stride t data = .ok b' →
    ∀ i x r c v j, data[i]? = some x → component t x r c = some v → r < rows (shape t) → c < cols (shape t) →
      j < size (kind t) →
      b'[effStride t stride * i + componentOffset (kind t) (shape t) r c + j]? = some (byteOf (kind t) v j)

/-- C02 is false of the code: a strided `[]uint8` is written without the stride. -/
theorem C02_full_fails : ¬ C02_full := by
  intro h
  have := h (.base .u8 .sc) [1, 2] [0, 0, 0, 0, 0] [1, 2, 0, 0, 0] 4 (by decide) (by decide) (by decide) (by decide +kernel)
    1 2 0 0 (2 : UInt8) 0 rfl rfl (by decide) (by decide) (by decide)
  revert this; decide

/-- C02 for everything but strided `[]uint8` (where it is false). -/
theorem C02_layout_partial (t : ETy) (data : List t.Elem) (b b' : Bytes) (stride : Nat)
    (hb : GoLen b) (hst : stride = 0 ∨ elemSize (kind t) (shape t) ≤ stride)
    (hov : needed t stride data.length < 2 ^ 63)
    (hu : t = .base .u8 .sc → stride ≤ 1 ∨ data.length ≤ 1)
    (hw : write b stride t data = .ok b')
    (i : Nat) (x : t.Elem) (r c : Nat) (v : (kind t).T) (j : Nat)
    (hi : data[i]? = some x) (hv : component t x r c = some v) (hr : r < rows (shape t)) (hc : c < cols (shape t))
    (hj : j < size (kind t)) :
    b'[effStride t stride * i + componentOffset (kind t) (shape t) r c + j]? = some (byteOf (kind t) v j) := by
  have he : elemSize (kind t) (shape t) ≤ effStride t stride := by
    unfold effStride; split <;> omega
  have hil : i < data.length := (List.getElem?_eq_some_iff.1 hi).1
  have hnb : needed t stride data.length ≤ b.length := by
    rw [write_eq hov, if_neg (by omega)] at hw
    by_cases h : b.length < needed t stride data.length
    · rw [if_pos h] at hw; exact (nomatch hw)
    · omega
  have hu' : t = .base .u8 .sc → effStride t stride = 1 ∨ data.length ≤ 1 := by
    intro h
    rcases hu h with h1 | h1
    · left; subst h; unfold effStride; split
      · rfl
      · omega
    · exact .inr h1
  rw [write_ok hb hnb hu'] at hw
  injection hw with hw; subst hw
  have hm : shiftCell (effStride t stride * (0 + i)) (componentOffset (kind t) (shape t) r c, encBytes (kind t) v)
      ∈ cellsFrom t (effStride t stride) 0 data := mem_cellsFrom.2 ⟨i, x, _, hi, mem_cells hr hc hv, rfl⟩
  have hfit : ∀ p ∈ cellsFrom t (effStride t stride) 0 data, Fits b.length p := cellsFrom_fits (by
    right; unfold needed at hnb; rw [if_neg (by omega)] at hnb; simpa using hnb)
  have := patches_hit hfit (cellsFrom_disj he) hm (j := j) (by simpa [shiftCell] using hj)
  simp only [shiftCell, Nat.zero_add] at this
  rw [this, encBytes_getElem? _ _ _ hj]

/-- The hypotheses of C02 are met by a strided matrix of shorts; the theorem locates row 2 of
column 1 of the second element. -/
example : ∀ b', write (List.replicate 60 0) ((28 : Nat) : Int) (.base .i16 .m3)
      [⟨⟨1, 2, 3⟩, ⟨4, 5, 6⟩, ⟨7, 8, 9⟩⟩, ⟨⟨1, 2, 3⟩, ⟨4, 5, 6⟩, ⟨7, -2, 9⟩⟩] = .ok b' →
    b'[28 * 1 + (1 * 8 + 2 * 2) + 0]? = some 254 :=
  fun b' h => C02_layout_partial (.base .i16 .m3) _ _ b' 28 (by unfold GoLen; decide) (by decide) (by decide)
    (by intro h; cases h) h 1 _ 2 1 (-2 : Int16) 0 rfl rfl (by decide) (by decide) (by decide)

/-! ### C03 Frame -/

/-- A byte position belongs to a component of one of the `n` elements of a strided slice. -/
def Covered (t : ETy) (stride n p : Nat) : Prop :=
  ∃ i r c j, i < n ∧ r < rows (shape t) ∧ c < cols (shape t) ∧ j < size (kind t) ∧
    p = effStride t stride * i + componentOffset (kind t) (shape t) r c + j

/-- The full statement of C03. -/
def C03_full : Prop :=
  ∀ (t : ETy) (data : List t.Elem) (b b' : Bytes) (stride : Nat),
    GoLen b → (stride = 0 ∨ elemSize (kind t) (shape t) ≤ stride) → needed t stride data.length < 2 ^ 63 →
    write b stride t data = .ok b' →
    b'.length = b.length ∧ ∀ p, ¬ Covered t stride data.length p → b'[p]? = b[p]?

/-- C03 is false of the code: a strided `[]uint8` overwrites the gaps. -/
theorem C03_full_fails : ¬ C03_full := by
  intro h
  have := (h (.base .u8 .sc) [1, 2] [0, 0, 0, 0, 0] [1, 2, 0, 0, 0] 4 (by decide) (by decide) (by decide) (by decide +kernel)).2 1
    (by
      rintro ⟨i, r, c, j, hi, hr, hc, hj, h⟩
      simp only [shape, rows, cols, kind, size, effStride, componentOffset] at hr hc hj h
      have : r = 0 := by omega
      have : c = 0 := by omega
      subst r c
      simp at h; omega)
  revert this; decide

/-- C03 for everything but strided `[]uint8` (where it is false). -/
theorem C03_frame_partial (t : ETy) (data : List t.Elem) (b b' : Bytes) (stride : Nat)
    (hb : GoLen b) (hov : needed t stride data.length < 2 ^ 63)
    (hu : t = .base .u8 .sc → stride ≤ 1 ∨ data.length ≤ 1)
    (hw : write b stride t data = .ok b') :
    b'.length = b.length ∧ ∀ p, ¬ Covered t stride data.length p → b'[p]? = b[p]? := by
  have hnb : needed t stride data.length ≤ b.length := by
    by_cases h0 : data.length = 0
    · unfold needed; rw [if_pos h0]; omega
    rw [write_eq hov, if_neg (by omega)] at hw
    by_cases h : b.length < needed t stride data.length
    · rw [if_pos h] at hw; exact (nomatch hw)
    · omega
  have hu' : t = .base .u8 .sc → effStride t stride = 1 ∨ data.length ≤ 1 := by
    intro h
    rcases hu h with h1 | h1
    · left; subst h; unfold effStride; split
      · rfl
      · omega
    · exact .inr h1
  rw [write_ok hb hnb hu'] at hw
  injection hw with hw; subst hw
  have hfit : ∀ p ∈ cellsFrom t (effStride t stride) 0 data, Fits b.length p := by
    apply cellsFrom_fits
    by_cases h0 : data.length = 0
    · exact .inl h0
    · right; unfold needed at hnb; rw [if_neg (by omega)] at hnb; simpa using hnb
  refine ⟨patches_length hfit, fun p hp => patches_frame hfit ?_⟩
  intro q hq hin
  obtain ⟨i, x, q', hi, hq', rfl⟩ := mem_cellsFrom.1 hq
  obtain ⟨r, c, v, hr, hc, hv, rfl⟩ := of_mem_cells hq'
  simp only [shiftCell, encBytes_length, Nat.zero_add] at hin
  exact hp ⟨i, r, c, p - (effStride t stride * i + componentOffset (kind t) (shape t) r c),
    (List.getElem?_eq_some_iff.1 hi).1, hr, hc, by omega, by omega⟩

/-- The hypotheses of C03 are met: byte 3 of a padded byte vector keeps its old value. -/
example : ∀ b', write [9, 9, 9, 9, 9, 9, 9, 9] ((0 : Nat) : Int) (.base .u8 .v3) [⟨1, 2, 3⟩] = .ok b' → b'[3]? = some 9 :=
  fun b' h => (C03_frame_partial (.base .u8 .v3) _ _ b' 0 (by unfold GoLen; decide) (by decide) (by intro h; cases h) h).2 3 (by
    rintro ⟨i, r, c, j, hi, hr, hc, hj, h⟩
    simp only [shape, rows, cols, kind, size, effStride, componentOffset, List.length_cons, List.length_nil] at hi hr hc hj h
    have h1 : i = 0 := by omega
    have h2 : c = 0 := by omega
    subst h1 h2
    simp at h; omega)

/-! ### C04 Short buffers -/

/-- `Write`: short buffers are reported exactly, and nothing else goes wrong. -/
theorem C04_write_short (t : ETy) (data : List t.Elem) (b : Bytes) (stride : Nat)
    (hb : GoLen b) (hov : needed t stride data.length < 2 ^ 63) :
    (write b stride t data = .err .shortBuffer ↔ b.length < needed t stride data.length) ∧
    (needed t stride data.length ≤ b.length → ∃ b', write b stride t data = .ok b' ∧ b'.length = b.length) := by
  have hok : needed t stride data.length ≤ b.length → ∃ b', write b stride t data = .ok b' ∧ b'.length = b.length := by
    intro hnb
    have hfit : ∀ p ∈ cellsFrom t (effStride t stride) 0 data, Fits b.length p := by
      apply cellsFrom_fits
      by_cases h0 : data.length = 0
      · exact .inl h0
      · right; unfold needed at hnb; rw [if_neg (by omega)] at hnb; simpa using hnb
    by_cases hu : t = .base .u8 .sc
    · subst hu
      by_cases h0 : data.length = 0
      · exact ⟨b, by rw [write_eq hov, if_pos h0], rfl⟩
      · refine ⟨goCopy b data, by rw [write_eq hov, if_neg h0, if_neg (by omega)]; rfl, ?_⟩
        simp [goCopy]; omega
    · exact ⟨_, write_ok hb hnb (fun h => absurd h hu), patches_length hfit⟩
  refine ⟨⟨fun h => ?_, fun h => ?_⟩, hok⟩
  · by_cases hlt : b.length < needed t stride data.length
    · exact hlt
    · obtain ⟨b', hb', _⟩ := hok (by omega)
      rw [hb'] at h; exact (nomatch h)
  · by_cases h0 : data.length = 0
    · unfold needed at h; rw [if_pos h0] at h; omega
    · rw [write_eq hov, if_neg h0, if_pos h]

/-- The full statement of C04 for `Read`. -/
def C04_read_full : Prop :=
  ∀ (t : ETy) (data : List t.Elem) (b : Bytes) (stride : Nat),
    GoLen b → stride < 2 ^ 63 → needed t stride data.length < 2 ^ 63 →
    (read b stride t data = .err .shortBuffer ↔ b.length < needed t stride data.length) ∧
    (needed t stride data.length ≤ b.length → ∃ d, read b stride t data = .ok d ∧ d.length = data.length)

/-- C04 is false of `Read`: `[]int8` panics on a longer buffer. -/
theorem C04_read_full_fails : ¬ C04_read_full := by
  intro h
  obtain ⟨d, hd, _⟩ := (h (.base .i8 .sc) [0] [1, 2] 0 (by decide) (by decide) (by decide)).2 (by decide)
  have h4 : read [1, 2] ((0 : Nat) : Int) (.base .i8 .sc) [0] = .panic "index out of range" := by decide +kernel
  rw [h4] at hd; exact (nomatch hd)

/-- A second way in which C04 is false of `Read`: an empty slice with a stride below the element
size is reported as a short buffer. -/
theorem C04_read_empty_fails : ∃ (t : ETy) (stride : Nat), read [] stride t [] = .err .shortBuffer ∧
    needed t stride 0 = 0 := ⟨.base .f32 .sc, 1, by decide +kernel, rfl⟩

/-- C04 for `Read` of at least one element, of any type but `[]int8` with a longer buffer. -/
theorem C04_read_short_partial (t : ETy) (data : List t.Elem) (b : Bytes) (stride : Nat)
    (hb : GoLen b) (h0 : 0 < data.length)
    (hov : needed t stride data.length < 2 ^ 63)
    (h8 : t = .base .i8 .sc → b.length ≤ data.length) :
    (read b stride t data = .err .shortBuffer ↔ b.length < needed t stride data.length) ∧
    (needed t stride data.length ≤ b.length → ∃ d, read b stride t data = .ok d ∧ d.length = data.length) := by
  have hok : needed t stride data.length ≤ b.length → ∃ d, read b stride t data = .ok d ∧ d.length = data.length := by
    intro hnb
    have hnn : effStride t stride * (data.length - 1) + elemSize (kind t) (shape t) ≤ b.length := by
      unfold needed at hnb; rw [if_neg (by omega)] at hnb; exact hnb
    by_cases hu : t = .base .u8 .sc
    · subst hu
      have hle : data.length ≤ b.length := by
        have : effStride (.base .u8 .sc) stride ≠ 0 := by
          unfold effStride; split
          · decide
          · assumption
        have : 1 * (data.length - 1) ≤ effStride (.base .u8 .sc) stride * (data.length - 1) :=
          Nat.mul_le_mul_right _ (by omega)
        have := elemSize_pos (kind (.base .u8 .sc)) (shape (.base .u8 .sc))
        omega
      exact ⟨_, read_u8 hb h0 hnb hle, by simp; omega⟩
    · by_cases hi : t = .base .i8 .sc
      · subst hi
        have hle := h8 rfl
        refine ⟨b.map UInt8.toInt8 ++ data.drop b.length, ?_, by simp; omega⟩
        rw [read_i8 hb h0 hnb]; unfold readInt8; rw [if_pos hle]
      · exact ⟨_, read_ok hb hi hu h0 hnb, by simp⟩
  refine ⟨⟨fun h => ?_, fun h => ?_⟩, hok⟩
  · by_cases hlt : b.length < needed t stride data.length
    · exact hlt
    · obtain ⟨b', hb', _⟩ := hok (by omega)
      rw [hb'] at h; exact (nomatch h)
  · rw [read_eq h0 hov, if_pos h]

/-- The hypotheses of C04 are met on both sides of the boundary. -/
example : (read (List.replicate 19 0) ((12 : Nat) : Int) (.base .u16 .v4) [⟨0, 0, 0, 0⟩, ⟨0, 0, 0, 0⟩]).isErr ∧
    (read (List.replicate 20 0) ((12 : Nat) : Int) (.base .u16 .v4) [⟨0, 0, 0, 0⟩, ⟨0, 0, 0, 0⟩]).isOk := by
  constructor
  · rw [(C04_read_short_partial (.base .u16 .v4) _ _ 12 (by unfold GoLen; decide) (by decide)
      (by decide) (by intro h; cases h)).1.2 (by decide)]; rfl
  · obtain ⟨d, hd, _⟩ := (C04_read_short_partial (.base .u16 .v4) [⟨0, 0, 0, 0⟩, ⟨0, 0, 0, 0⟩] (List.replicate 20 0) 12
      (by unfold GoLen; decide) (by decide) (by decide) (by intro h; cases h)).2 (by decide)
    rw [hd]; rfl

/-! ### C05 SizeOfElement -/

/-- `SizeOfElement` of every valid pair is the size given by the alignment rules. -/
theorem C05_size_of_element (k : Kind) (s : Shape) :
    sizeOfElement (ETy.base k s).c (ETy.base k s).t = elemSize k s := sizeOfElement_eq (.base k s)

/-- Every valid pair of enumeration values is covered by `C05_size_of_element`. -/
theorem C05_pairs (c : ComponentType) (t : AccessorType) (hc : c.toNat < 6) (ht : t.toNat < 7) :
    ∃ k s, (ETy.base k s).c = c ∧ (ETy.base k s).t = t := by
  cases c <;> cases t <;> first
    | (exfalso; simp only [ComponentType.toNat, AccessorType.toNat] at hc ht; omega)
    | exact ⟨.f32, .sc, rfl, rfl⟩ | exact ⟨.f32, .v2, rfl, rfl⟩ | exact ⟨.f32, .v3, rfl, rfl⟩ | exact ⟨.f32, .v4, rfl, rfl⟩
    | exact ⟨.f32, .m2, rfl, rfl⟩ | exact ⟨.f32, .m3, rfl, rfl⟩ | exact ⟨.f32, .m4, rfl, rfl⟩
    | exact ⟨.i8, .sc, rfl, rfl⟩ | exact ⟨.i8, .v2, rfl, rfl⟩ | exact ⟨.i8, .v3, rfl, rfl⟩ | exact ⟨.i8, .v4, rfl, rfl⟩
    | exact ⟨.i8, .m2, rfl, rfl⟩ | exact ⟨.i8, .m3, rfl, rfl⟩ | exact ⟨.i8, .m4, rfl, rfl⟩
    | exact ⟨.u8, .sc, rfl, rfl⟩ | exact ⟨.u8, .v2, rfl, rfl⟩ | exact ⟨.u8, .v3, rfl, rfl⟩ | exact ⟨.u8, .v4, rfl, rfl⟩
    | exact ⟨.u8, .m2, rfl, rfl⟩ | exact ⟨.u8, .m3, rfl, rfl⟩ | exact ⟨.u8, .m4, rfl, rfl⟩
    | exact ⟨.i16, .sc, rfl, rfl⟩ | exact ⟨.i16, .v2, rfl, rfl⟩ | exact ⟨.i16, .v3, rfl, rfl⟩ | exact ⟨.i16, .v4, rfl, rfl⟩
    | exact ⟨.i16, .m2, rfl, rfl⟩ | exact ⟨.i16, .m3, rfl, rfl⟩ | exact ⟨.i16, .m4, rfl, rfl⟩
    | exact ⟨.u16, .sc, rfl, rfl⟩ | exact ⟨.u16, .v2, rfl, rfl⟩ | exact ⟨.u16, .v3, rfl, rfl⟩ | exact ⟨.u16, .v4, rfl, rfl⟩
    | exact ⟨.u16, .m2, rfl, rfl⟩ | exact ⟨.u16, .m3, rfl, rfl⟩ | exact ⟨.u16, .m4, rfl, rfl⟩
    | exact ⟨.u32, .sc, rfl, rfl⟩ | exact ⟨.u32, .v2, rfl, rfl⟩ | exact ⟨.u32, .v3, rfl, rfl⟩ | exact ⟨.u32, .v4, rfl, rfl⟩
    | exact ⟨.u32, .m2, rfl, rfl⟩ | exact ⟨.u32, .m3, rfl, rfl⟩ | exact ⟨.u32, .m4, rfl, rfl⟩

/-- For all values, valid or not: never less than the packed size, and a multiple of four unless the
element is a scalar. -/
theorem C05_bounds (c : ComponentType) (t : AccessorType) :
    c.byteSize * t.components ≤ sizeOfElement c t ∧ (t ≠ .scalar → sizeOfElement c t % 4 = 0) := by
  cases c <;> cases t <;> simp [sizeOfElement, ComponentType.byteSize, AccessorType.components]

example : sizeOfElement .ushort .mat3 = 24 ∧ sizeOfElement (.unknown 3) .vec2 = 0 := by decide

/-! ### C06 MakeSlice and Type -/

/-- A value all of whose components have an all-zero bit pattern. -/
def IsZero (t : ETy) (x : t.Elem) : Prop := ∀ r c v, component t x r c = some v → bits (kind t) v = 0

theorem at2_const {α : Type} {a : α} {r : Nat} {v : α} (h : at2 ⟨a, a⟩ r = some v) : v = a := by
  unfold at2 at h; split at h <;> simp_all
theorem at3_const {α : Type} {a : α} {r : Nat} {v : α} (h : at3 ⟨a, a, a⟩ r = some v) : v = a := by
  unfold at3 at h; split at h <;> simp_all
theorem at4_const {α : Type} {a : α} {r : Nat} {v : α} (h : at4 ⟨a, a, a, a⟩ r = some v) : v = a := by
  unfold at4 at h; split at h <;> simp_all

theorem arrayComponent_const {α : Type} {a : α} {s : Shape} {r c : Nat} {v : α}
    (h : arrayComponent s (s.build fun _ _ => a) r c = some v) : v = a := by
  cases s <;> simp only [arrayComponent, Shape.build, Option.bind_eq_some_iff] at h
  · split at h <;> simp_all
  · split at h
    · exact at2_const h
    · simp at h
  · split at h
    · exact at3_const h
    · simp at h
  · split at h
    · exact at4_const h
    · simp at h
  · obtain ⟨w, hw, h⟩ := h; rw [at2_const hw] at h; exact at2_const h
  · obtain ⟨w, hw, h⟩ := h; rw [at3_const hw] at h; exact at3_const h
  · obtain ⟨w, hw, h⟩ := h; rw [at4_const hw] at h; exact at4_const h

theorem isZero_zero (t : ETy) : IsZero t t.zero := by
  intro r c v h
  cases t with
  | base k s =>
    have := arrayComponent_const (a := k.zero) h
    subst this
    cases k <;> rfl
  | rgba =>
    have : v = (0 : UInt8) := arrayComponent_const (s := .v4) (a := (0 : UInt8)) h
    subst this; rfl
  | rgba64 =>
    have : v = (0 : UInt16) := arrayComponent_const (s := .v4) (a := (0 : UInt16)) h
    subst this; rfl

theorem makeSlice_base (k : Kind) (s : Shape) (count : Int) :
    makeSlice (ETy.base k s).c (ETy.base k s).t count
      = (makeZeros (.base k s) count).map fun d => ⟨.base k s, d⟩ := by
  cases k <;> cases s <;> rfl

/-- MakeSlice of a valid pair and a count that can be allocated gives a zeroed slice of that type. -/
theorem C06_make_slice (c : ComponentType) (t : AccessorType) (count : Nat)
    (hc : c.toNat < 6) (ht : t.toNat < 7) (hm : count * (c.byteSize * t.components) ≤ maxAlloc) :
    ∃ s, makeSlice c t count = .ok s ∧ typeOf s = (c, t, count) ∧ ∀ x ∈ s.data, IsZero s.ty x := by
  obtain ⟨k, sh, rfl, rfl⟩ := C05_pairs c t hc ht
  refine ⟨⟨.base k sh, List.replicate count (ETy.base k sh).zero⟩, ?_, ?_, ?_⟩
  · rw [makeSlice_base]
    unfold makeZeros
    rw [if_neg (by omega), if_neg (by rw [Int.toNat_natCast]; exact Nat.not_lt.2 hm), Int.toNat_natCast]; rfl
  · simp [typeOf, Slice.len]
  · intro x hx
    rw [List.eq_of_mem_replicate hx]; exact isZero_zero _

/-- MakeSlice of an invalid pair is an error, whatever the count. -/
theorem C06_make_slice_invalid (c : ComponentType) (t : AccessorType) (count : Int)
    (h : 6 ≤ c.toNat ∨ 7 ≤ t.toNat) : (makeSlice c t count).isErr = true := by
  cases c <;> cases t <;> simp [ComponentType.toNat, AccessorType.toNat] at h <;> rfl

/-- Type then MakeSlice gives back the same element type, except that colours become arrays. -/
theorem C06_type_then_make (s : Slice) (h : s.ty ≠ .rgba) (h' : s.ty ≠ .rgba64)
    (hm : s.len * (s.ty.c.byteSize * s.ty.t.components) ≤ maxAlloc) :
    ∃ d, makeSlice (typeOf s).1 (typeOf s).2.1 (typeOf s).2.2 = .ok ⟨s.ty, d⟩ ∧ d.length = s.len := by
  obtain ⟨ty, data⟩ := s
  cases ty with
  | base k sh =>
    refine ⟨List.replicate data.length (ETy.base k sh).zero, ?_, by simp [Slice.len]⟩
    simp only [typeOf]
    rw [makeSlice_base]
    unfold makeZeros
    rw [if_neg (by omega), if_neg (by rw [Int.toNat_natCast]; exact Nat.not_lt.2 hm), Int.toNat_natCast]; rfl
  | rgba => exact absurd rfl h
  | rgba64 => exact absurd rfl h'

example : ∃ s, makeSlice .short .mat2 5 = .ok s ∧ typeOf s = (.short, .mat2, 5) := by
  obtain ⟨s, h1, h2, _⟩ := C06_make_slice .short .mat2 5 (by decide) (by decide) (by decide)
  exact ⟨s, h1, h2⟩

/-! ### C07 MakeSliceBuffer -/

/-- The full statement of C07. -/
def C07_full : Prop :=
  ∀ (c : ComponentType) (t : AccessorType) (count : Nat) (buffer : Bytes),
    c.toNat < 6 → t.toNat < 7 → count * (c.byteSize * t.components) ≤ maxAlloc →
    ∃ s, makeSliceBuffer c t count buffer = .ok s ∧ typeOf s = (c, t, count)

/-- C07 is false of the code: 3x3 matrices of unsigned ints with a non-empty buffer panic. -/
theorem C07_full_fails : ¬ C07_full := by
  intro h
  obtain ⟨s, hs, _⟩ := h .uint .mat3 1 [0] (by decide) (by decide) (by decide)
  have : makeSliceBuffer .uint .mat3 ((1 : Nat) : Int) [0] = .panic "gltf: unsupported component type or accessor type" := rfl
  rw [this] at hs; exact (nomatch hs)

theorem castType_base (k : Kind) (s : Shape) (h : ¬ (k = .u32 ∧ s = .m3)) :
    castType (ETy.base k s).c (ETy.base k s).t = some (.base k s) := by
  cases k <;> cases s <;> first | rfl | exact absurd ⟨rfl, rfl⟩ h

/-- C07 for every pair except (Uint, Mat3) with a non-empty buffer. -/
theorem C07_make_slice_buffer_partial (c : ComponentType) (t : AccessorType) (count : Nat) (buffer : Bytes)
    (hc : c.toNat < 6) (ht : t.toNat < 7) (hm : count * (c.byteSize * t.components) ≤ maxAlloc)
    (hx : ¬ (c = .uint ∧ t = .mat3 ∧ buffer ≠ [])) :
    ∃ s, makeSliceBuffer c t count buffer = .ok s ∧ typeOf s = (c, t, count) := by
  obtain ⟨k, sh, rfl, rfl⟩ := C05_pairs c t hc ht
  have hck : checkAccessorType (ETy.base k sh).c (ETy.base k sh).t = .ok () := by
    cases k <;> cases sh <;> rfl
  unfold makeSliceBuffer
  rw [hck, Res.ok_bind]
  by_cases hb : buffer.length = 0
  · rw [if_pos hb]
    obtain ⟨s, h1, h2, _⟩ := C06_make_slice _ _ count hc ht hm
    exact ⟨s, h1, h2⟩
  · rw [if_neg hb]
    have hb' : buffer ≠ [] := by intro h; simp [h] at hb
    have hct : castType (ETy.base k sh).c (ETy.base k sh).t = some (.base k sh) := by
      apply castType_base
      rintro ⟨rfl, rfl⟩; exact hx ⟨rfl, rfl, hb'⟩
    unfold castSlice
    rw [hct]
    simp only
    generalize hl : ((buffer.length / ((ETy.base k sh).c.byteSize * (ETy.base k sh).t.components) : Nat)) = l
    have hms : (ETy.base k sh).memSize = (ETy.base k sh).c.byteSize * (ETy.base k sh).t.components := rfl
    unfold reslice makeZeros
    by_cases h1 : (count : Int) < (l : Int)
    · simp only [h1, if_true]
      rw [if_neg (by omega)]
      simp [typeOf, Slice.len]
    · simp only [h1, if_false]
      rw [if_neg (by omega)]
      by_cases h2 : (count : Int) > (l : Int)
      · simp only [h2, if_true]
        have hle : ((count : Int) - l).toNat * (ETy.base k sh).memSize ≤ maxAlloc := by
          refine Nat.le_trans (Nat.mul_le_mul_right _ (m := count) (by omega)) ?_
          rw [hms]; exact hm
        rw [if_pos (by omega), if_neg (by omega), if_neg (Nat.not_lt.2 hle)]
        simp [typeOf, Slice.len]; omega
      · simp only [h2, if_false]
        simp [typeOf, Slice.len]; omega

/-- The hypotheses of C07 are met with a scratch buffer that holds two of the five elements. -/
example : ∃ s, makeSliceBuffer .float .vec3 5 (List.replicate 25 1) = .ok s ∧ typeOf s = (.float, .vec3, 5) :=
  C07_make_slice_buffer_partial .float .vec3 5 _ (by decide) (by decide) (by decide) (by decide)

end Gltf
