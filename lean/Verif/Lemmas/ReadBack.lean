/-
Reading accessors: normal forms of the dense part of ReadAccessor.
-/
import Verif.Model.Read
import Verif.Lemmas.Interleave

namespace Gltf

open Spec

theorem elemAt_i8 (b : Bytes) (o : Nat) (h : o < b.length) :
    elemAt (.base .i8 .sc) b o = (b[o]).toInt8 := by
  show (UInt8.ofNat (leNat (window b (o + (0 * _ + 0 * 1)) 1))).toInt8 = _
  have : window b o 1 = [b[o]] := by
    unfold window
    rw [List.drop_eq_getElem_cons h]; rfl
  simp [this, leNat]

/-- `Read` assembles the elements of the layout, for all types. -/
theorem read_elems {t : ETy} {data : List t.Elem} {b : Bytes} {stride : Nat} (hb : GoLen b) (h0 : 0 < data.length)
    (hn : needed t stride data.length ≤ b.length)
    (hu : t = .base .u8 .sc → effStride t stride = 1 ∨ data.length ≤ 1)
    (h8 : t = .base .i8 .sc → b.length = data.length ∧ (effStride t stride = 1 ∨ data.length ≤ 1)) :
    read b (stride : Int) t data
      = .ok ((List.range data.length).map fun j => elemAt t b (effStride t stride * j)) := by
  have hmul : ∀ {e j n : Nat}, (e = 1 ∨ n ≤ 1) → j < n → e * j = j := by
    intro e j n h hj
    rcases h with rfl | h
    · omega
    · have : j = 0 := by omega
      subst this; rfl
  by_cases h1 : t = .base .u8 .sc
  · subst h1
    have hle : data.length ≤ b.length := by
      unfold needed at hn; rw [if_neg (by omega)] at hn
      have := elemSize_pos (kind (.base .u8 .sc)) (shape (.base .u8 .sc))
      rcases hu rfl with h | h
      · rw [h] at hn; omega
      · omega
    rw [read_u8 hb h0 hn hle]
    congr 1
    apply List.ext_getElem
    · simp; omega
    · intro i h1 h2
      simp only [List.length_map, List.length_range] at h2
      simp only [List.getElem_map, List.getElem_range, List.getElem_take]
      rw [hmul (hu rfl) h2, elemAt_u8 b i (by omega)]
  · by_cases h2 : t = .base .i8 .sc
    · subst h2
      obtain ⟨hbl, hs⟩ := h8 rfl
      rw [read_i8 hb h0 hn]
      unfold readInt8
      rw [if_pos (by omega), List.drop_of_length_le (by omega), List.append_nil]
      congr 1
      apply List.ext_getElem
      · simp [hbl]
      · intro i h1 h2
        simp only [List.length_map, List.length_range] at h2
        simp only [List.getElem_map, List.getElem_range]
        rw [hmul hs h2, elemAt_i8 b i (by omega)]
    · exact read_ok hb h2 h1 h0 hn

theorem ofCells_congr {t : ETy} {f g : Nat → Nat → Bytes}
    (h : ∀ r c, r < rows (shape t) → c < cols (shape t) → f r c = g r c) : ofCells t f = ofCells t g := by
  cases t with
  | base k s =>
    cases s <;> simp only [shape, rows, cols] at h <;> simp (disch := decide) only [ofCells, Shape.build, h]
  | rgba => simp only [shape, rows, cols] at h; simp (disch := decide) only [ofCells, h]
  | rgba64 => simp only [shape, rows, cols] at h; simp (disch := decide) only [ofCells, h]

theorem elemAt_congr {t : ETy} {b b' : Bytes} {o o' : Nat}
    (h : ∀ j < elemSize (kind t) (shape t), b[o + j]? = b'[o' + j]?) : elemAt t b o = elemAt t b' o' := by
  have hw : ∀ r c, r < rows (shape t) → c < cols (shape t) →
      window b (o + componentOffset (kind t) (shape t) r c) (size (kind t))
        = window b' (o' + componentOffset (kind t) (shape t) r c) (size (kind t)) := by
    intro r c hr hc
    have hle : componentOffset (kind t) (shape t) r c + size (kind t) ≤ elemSize (kind t) (shape t) := by
      have hcol : c + 1 ≤ cols (shape t) := hc
      have hrow : (r + 1) * size (kind t) ≤ rows (shape t) * size (kind t) := Nat.mul_le_mul_right _ hr
      have hru : rows (shape t) * size (kind t) ≤ columnStride (kind t) (shape t) := by
        unfold columnStride roundUp4; omega
      have hc2 : (c + 1) * columnStride (kind t) (shape t) ≤ cols (shape t) * columnStride (kind t) (shape t) :=
        Nat.mul_le_mul_right _ hcol
      rw [Nat.add_mul] at hrow hc2
      unfold componentOffset elemSize
      cases hs : shape t <;> simp only [hs] at * <;> first | omega | skip
      simp only [rows, cols] at hr hc
      have : r = 0 := by omega
      have : c = 0 := by omega
      subst_vars; omega
    apply List.ext_getElem?
    intro j
    unfold window
    rw [List.getElem?_take, List.getElem?_take]
    split
    · rw [List.getElem?_drop, List.getElem?_drop, Nat.add_assoc, Nat.add_assoc, h _ (by omega)]
    · rfl
  exact ofCells_congr hw

theorem castType_base' (k : Kind) (s : Shape) (h : ¬ (k = .u32 ∧ s = .m3)) :
    castType (ETy.base k s).c (ETy.base k s).t = some (.base k s) := by
  cases k <;> cases s <;> first | rfl | exact absurd ⟨rfl, rfl⟩ h

theorem makeSliceBuffer_base {k : Kind} {s : Shape} {n : Nat} {buffer : Bytes}
    (hm : n * (ETy.base k s).memSize ≤ maxAlloc) (hx : ¬ (k = .u32 ∧ s = .m3 ∧ buffer ≠ [])) :
    ∃ d, makeSliceBuffer (ETy.base k s).c (ETy.base k s).t n buffer = .ok ⟨.base k s, d⟩ ∧ d.length = n := by
  have hck : checkAccessorType (ETy.base k s).c (ETy.base k s).t = .ok () := by
    cases k <;> cases s <;> rfl
  unfold makeSliceBuffer
  rw [hck, Res.ok_bind]
  by_cases hb : buffer.length = 0
  · rw [if_pos hb]
    have : makeSlice (ETy.base k s).c (ETy.base k s).t n
        = (makeZeros (.base k s) n).map fun d => ⟨.base k s, d⟩ := by
      cases k <;> cases s <;> rfl
    rw [this]
    unfold makeZeros
    rw [if_neg (by omega), if_neg (by rw [Int.toNat_natCast]; exact Nat.not_lt.2 hm), Int.toNat_natCast]
    exact ⟨_, rfl, by simp⟩
  · rw [if_neg hb]
    have hb' : buffer ≠ [] := by intro h; simp [h] at hb
    have hct : castType (ETy.base k s).c (ETy.base k s).t = some (.base k s) := by
      apply castType_base'
      rintro ⟨rfl, rfl⟩; exact hx ⟨rfl, rfl, hb'⟩
    unfold castSlice
    rw [hct]
    simp only
    generalize hl : ((buffer.length / ((ETy.base k s).c.byteSize * (ETy.base k s).t.components) : Nat)) = l
    unfold reslice makeZeros
    by_cases h1 : (n : Int) < (l : Int)
    · simp only [h1, if_true]
      rw [if_neg (by omega)]
      simp
    · simp only [h1, if_false]
      rw [if_neg (by omega)]
      by_cases h2 : (n : Int) > (l : Int)
      · simp only [h2, if_true]
        have hle : ((n : Int) - l).toNat * (ETy.base k s).memSize ≤ maxAlloc :=
          Nat.le_trans (Nat.mul_le_mul_right _ (m := n) (by omega)) hm
        rw [if_pos (by omega), if_neg (by omega), if_neg (Nat.not_lt.2 hle)]
        simp; omega
      · simp only [h2, if_false]
        simp; omega

/-- The buffer view is in range: `b` is its buffer. -/
structure InRange (doc : Document) (i : Int) (bv : BufferView) (b : Buffer) (o L : Nat) : Prop where
  index : 0 ≤ i
  view : doc.bufferViews[i.toNat]? = some (some bv)
  bufferIndex : 0 ≤ bv.buffer
  buffer : doc.buffers[bv.buffer.toNat]? = some (some b)
  offset : bv.byteOffset = o
  length : bv.byteLength = L
  inside : o + L ≤ b.data.length
  small : GoLen b.data

theorem getElem?_lt {α : Type} {l : List α} {i : Nat} {a : α} (h : l[i]? = some a) : i < l.length :=
  (List.getElem?_eq_some_iff.1 h).1

theorem InRange.readView {doc : Document} {i : Int} {bv : BufferView} {b : Buffer} {o L : Nat}
    (h : InRange doc i bv b o L) : readBufferView doc bv = .ok (window b.data o L) := by
  have h1 := getElem?_lt h.buffer
  have hb := h.bufferIndex
  unfold readBufferView
  rw [if_neg (by omega), if_neg (by omega), h.buffer]
  simp only
  have hs := h.small
  have hi := h.inside
  unfold GoLen at hs
  rw [h.offset, h.length, wrap64_id (by omega) (by omega), if_neg (by omega), if_pos (by omega)]
  congr 1
  rw [show ((o : Int) + L).toNat = o + L by omega, Int.toNat_natCast, List.drop_take]
  simp [window]

theorem InRange.readIndex {doc : Document} {i : Int} {bv : BufferView} {b : Buffer} {o L : Nat}
    (h : InRange doc i bv b o L) : readBufferViewIndex doc i = .ok (window b.data o L) ∧ bufferViewAt doc i = .ok bv := by
  have h1 := getElem?_lt h.view
  have hb := h.index
  have h2 : bufferViewAt doc i = .ok bv := by
    unfold bufferViewAt
    rw [if_neg (by omega), h.view]
  refine ⟨?_, h2⟩
  unfold readBufferViewIndex
  rw [if_neg (by omega), h2, Res.ok_bind, h.readView]

theorem window_length {b : Bytes} {o n : Nat} (h : o + n ≤ b.length) : (window b o n).length = n := by
  simp [window]; omega

theorem window_getElem? {b : Bytes} {o n j : Nat} (h : j < n) : (window b o n)[j]? = b[o + j]? := by
  simp [window, h]

/-- The dense part of `ReadAccessor` on a view that is long enough. -/
theorem readDense_eq {doc : Document} {k : Kind} {s : Shape} {n a st : Nat} {i : Int} {bv : BufferView} {b : Buffer} {o L : Nat}
    {buffer : Bytes} (hm : n * (ETy.base k s).memSize ≤ maxAlloc) (hx : ¬ (k = .u32 ∧ s = .m3 ∧ buffer ≠ []))
    (hr : InRange doc i bv b o L) (hst : bv.byteStride = st) (ha : a ≤ L)
    (hneed : needed (.base k s) st n ≤ L - a)
    (hu : k = .u8 ∧ s = .sc → effStride (.base k s) st = 1 ∨ n ≤ 1)
    (h8 : k = .i8 ∧ s = .sc → L - a = n ∧ (effStride (.base k s) st = 1 ∨ n ≤ 1))
    (hz : n = 0 → elemSize k s ≤ effStride (.base k s) st ∧ st < 2 ^ 63) :
    readDense doc (ETy.base k s).c (ETy.base k s).t n (some i) a buffer
      = .ok ⟨.base k s, (List.range n).map fun j => elemAt (.base k s) b.data (o + a + effStride (.base k s) st * j)⟩ := by
  obtain ⟨d, hd, hl⟩ := makeSliceBuffer_base (k := k) (s := s) (buffer := buffer) hm hx
  have hin := hr.inside
  have hsm := hr.small
  unfold GoLen at hsm
  unfold readDense
  rw [hd, Res.ok_bind]
  simp only
  rw [hr.readIndex.1, hr.readIndex.2, Res.ok_bind, Res.ok_bind]
  have hwl := window_length hin
  unfold sliceFrom
  rw [if_pos (by rw [hwl]; omega), Res.ok_bind, hst, Int.toNat_natCast]
  have htl : ((window b.data o L).drop a).length = L - a := by rw [List.length_drop, hwl]
  by_cases h0 : n = 0
  · subst h0
    have hd0 : d = [] := List.length_eq_zero_iff.1 hl
    subst hd0
    rw [read_nil (t := .base k s) (hz rfl).2 (hz rfl).1]
    · rfl
    · intro ht
      have := (h8 (by cases ht; exact ⟨rfl, rfl⟩)).1
      exact List.length_eq_zero_iff.1 (by rw [htl, this])
  · rw [read_elems (by unfold GoLen; omega) (by omega) (by rw [hl, htl]; exact hneed)
      (by intro ht; rw [hl]; exact hu (by cases ht; exact ⟨rfl, rfl⟩))
      (by intro ht; rw [hl, htl]; exact h8 (by cases ht; exact ⟨rfl, rfl⟩))]
    rw [Res.ok_bind, hl, Res.pure_eq]
    congr 2
    apply List.map_congr_left
    intro j hj
    rw [List.mem_range] at hj
    apply elemAt_congr
    intro m hm'
    have hpos := mul_le_of_lt (e := effStride (.base k s) st) hj
    unfold needed at hneed
    rw [if_neg h0] at hneed
    rw [List.getElem?_drop, window_getElem? (by omega)]
    congr 1; omega

end Gltf
