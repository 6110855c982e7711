/-
What Read and Write do when the buffer is long enough.
-/
import Verif.Lemmas.Binary

namespace Gltf

open Spec

theorem elemSize_pos (k : Kind) (s : Shape) : 0 < elemSize k s := by
  cases k <;> cases s <;> decide

theorem memSize_le (t : ETy) : t.memSize ≤ elemSize (kind t) (shape t) := by
  cases t with
  | base k s => cases k <;> cases s <;> decide
  | rgba => decide
  | rgba64 => decide

/-- A packed `[]uint8` write is a copy. -/
theorem patches_u8 (b : Bytes) (i : Nat) (data : List UInt8) (h : i + data.length ≤ b.length) :
    patches b (cellsFrom (.base .u8 .sc) 1 i data) = b.take i ++ data ++ b.drop (i + data.length) := by
  induction data generalizing b i with
  | nil => simp [cellsFrom, patches]
  | cons x xs ih =>
    simp only [List.length_cons] at h
    rw [cellsFrom, patches_append]
    have h1 : (cells (.base .u8 .sc) x).map (shiftCell (1 * i)) = [(i, [x])] := by
      show [(1 * i + (0 * _ + 0 * 1), [x])] = _
      simp
    rw [h1]
    have h2 : patches b [(i, [x])] = patch b i [x] := rfl
    rw [h2]
    have hl : (patch b i [x]).length = b.length := patch_length (by simp; omega)
    rw [ih _ _ (by omega)]
    have e1 : (patch b i [x]).take (i + 1) = b.take i ++ [x] := by
      unfold patch
      rw [List.take_append_of_le_length (by simp; omega)]
      exact List.take_of_length_le (by simp; omega)
    have e2 : (patch b i [x]).drop (i + 1 + xs.length) = b.drop (i + (xs.length + 1)) := by
      unfold patch
      rw [List.drop_append, List.drop_of_length_le (by simp; omega), List.nil_append, List.drop_drop]
      congr 1; simp; omega
    rw [e1, e2]; simp

theorem goCopy_u8 (b : Bytes) (data : List UInt8) (h : data.length ≤ b.length) :
    goCopy b data = patches b (cellsFrom (.base .u8 .sc) 1 0 data) := by
  rw [patches_u8 b 0 data (by omega)]
  simp only [goCopy, List.take_of_length_le h]; simp

/-- The check of `Write` in exact arithmetic. -/
theorem write_check {n e sz : Nat} (hn : 0 < n) (h : e * (n - 1) + sz < 9223372036854775808) :
    wrap64 (wrap64 ((e : Int) * ((n : Int) - 1)) + (sz : Int)) = ((e * (n - 1) + sz : Nat) : Int) := by
  have h1 : (e : Int) * ((n : Int) - 1) = ((e * (n - 1) : Nat) : Int) := by
    rw [Int.natCast_mul, Int.natCast_sub hn]; rfl
  rw [h1, wrap64_id (x := ((e * (n - 1) : Nat) : Int)) (by omega) (by omega), wrap64_id (by omega) (by omega)]
  rfl

/-- The check of `Read` in exact arithmetic. -/
theorem read_check {n e sz : Nat} (hn : 0 < n) (h : e * (n - 1) + sz < 9223372036854775808)
    (hsz : sz < 1000) :
    (if (e : Int) ≠ (sz : Int) then wrap64 (wrap64 ((n : Int) * (e : Int)) - wrap64 ((e : Int) - (sz : Int)))
      else wrap64 ((n : Int) * (e : Int))) = ((e * (n - 1) + sz : Nat) : Int) := by
  have h0 : n * e = e * (n - 1) + e := by
    obtain ⟨m, rfl⟩ : ∃ m, n = m + 1 := ⟨n - 1, by omega⟩
    simp [Nat.mul_comm, Nat.mul_add]
  have h1 : (n : Int) * (e : Int) = ((e * (n - 1) : Nat) : Int) + (e : Int) := by
    rw [← Int.natCast_mul, h0]; rfl
  rw [h1]
  generalize e * (n - 1) = a at *
  unfold wrap64
  split <;> omega

theorem elemSize_le (k : Kind) (s : Shape) : elemSize k s < 1000 := by
  cases k <;> cases s <;> decide

theorem effStride_eq (t : ETy) (stride : Nat) :
    (if (stride : Int) = 0 then ((sizeOfElement t.c t.t : Nat) : Int) else (stride : Int)) = (effStride t stride : Int) := by
  unfold effStride
  rw [sizeOfElement_eq]
  by_cases h : stride = 0
  · simp [h]
  · simp [h]

/-- Exact behaviour of `Write` without overflow. -/
theorem write_eq {t : ETy} {data : List t.Elem} {b : Bytes} {stride : Nat}
    (hn : needed t stride data.length < 2 ^ 63) :
    write b (stride : Int) t data =
      if data.length = 0 then .ok b
      else if b.length < needed t stride data.length then .err .shortBuffer
      else writeSwitch b (effStride t stride : Int) t data := by
  unfold write
  by_cases h0 : data.length = 0
  · simp [h0]
  · simp only [h0, if_false, effStride_eq]
    have hn' : effStride t stride * (data.length - 1) + elemSize (kind t) (shape t) < 9223372036854775808 := by
      unfold needed at hn; rw [if_neg h0] at hn; omega
    rw [sizeOfElement_eq, write_check (by omega) hn']
    have hN : needed t stride data.length = effStride t stride * (data.length - 1) + elemSize (kind t) (shape t) := by
      unfold needed; rw [if_neg h0]
    rw [hN]
    by_cases hb : b.length < effStride t stride * (data.length - 1) + elemSize (kind t) (shape t)
    · rw [if_pos hb, if_pos (by omega)]
    · rw [if_neg hb, if_neg (by omega)]

/-- Exact behaviour of `Read` without overflow, for at least one element. -/
theorem read_eq {t : ETy} {data : List t.Elem} {b : Bytes} {stride : Nat}
    (h0 : 0 < data.length) (hn : needed t stride data.length < 2 ^ 63) :
    read b (stride : Int) t data =
      if b.length < needed t stride data.length then .err .shortBuffer
      else readSwitch b (effStride t stride : Int) t data := by
  unfold read
  have hN : needed t stride data.length = effStride t stride * (data.length - 1) + elemSize (kind t) (shape t) := by
    unfold needed; rw [if_neg (by omega)]
  simp only [effStride_eq]
  rw [sizeOfElement_eq, read_check h0 (by omega) (elemSize_le _ _), ← hN]
  by_cases hb : b.length < needed t stride data.length
  · rw [if_pos hb, if_pos (by omega)]
  · rw [if_neg hb, if_neg (by omega)]

theorem writeSwitch_eq {t : ETy} (ht : t ≠ .base .u8 .sc) (b : Bytes) (e : Int) (data : List t.Elem) :
    writeSwitch b e t data = writeLoop (elemPut t) e 0 b data := by
  cases t with
  | base k s => cases k <;> cases s <;> first | rfl | exact absurd rfl ht
  | rgba => rfl
  | rgba64 => rfl

theorem readSwitch_eq {t : ETy} (h8 : t ≠ .base .i8 .sc) (hu : t ≠ .base .u8 .sc) (b : Bytes) (e : Int)
    (data : List t.Elem) : readSwitch b e t data = readLoop (elemGet t) b e 0 data := by
  cases t with
  | base k s => cases k <;> cases s <;> first | rfl | exact absurd rfl hu | exact absurd rfl h8
  | rgba => rfl
  | rgba64 => rfl

/-- A successful `Write` of anything but a strided `[]uint8` performs exactly the writes of the
layout. -/
theorem write_ok {t : ETy} {data : List t.Elem} {b : Bytes} {stride : Nat} (hb : GoLen b)
    (hn : needed t stride data.length ≤ b.length)
    (hu : t = .base .u8 .sc → effStride t stride = 1 ∨ data.length ≤ 1) :
    write b (stride : Int) t data = .ok (patches b (cellsFrom t (effStride t stride) 0 data)) := by
  unfold GoLen at hb
  rw [write_eq (by omega)]
  by_cases h0 : data.length = 0
  · rw [if_pos h0]
    have : data = [] := List.length_eq_zero_iff.1 h0
    subst this; rfl
  · rw [if_neg h0, if_neg (by omega)]
    have hN : effStride t stride * (0 + data.length - 1) + elemSize (kind t) (shape t) ≤ b.length := by
      unfold needed at hn; rw [if_neg h0] at hn; simpa using hn
    by_cases ht : t = .base .u8 .sc
    · subst ht
      have h1 : data.length ≤ b.length := by
        rcases hu rfl with h | h
        · rw [h] at hN; simp [elemSize, size, kind, shape] at hN; omega
        · simp [elemSize, size, kind, shape] at hN; omega
      have h2 : cellsFrom (.base .u8 .sc) (effStride (.base .u8 .sc) stride) 0 data
          = cellsFrom (.base .u8 .sc) 1 0 data := by
        rcases hu rfl with h | h
        · rw [h]
        · match data, h with
          | [], _ => rfl
          | [x], _ => simp [cellsFrom]
      rw [h2, ← goCopy_u8 b data h1]; rfl
    · rw [writeSwitch_eq ht, writeLoop_eq (by omega) (.inr hN)]

/-- `Read` of any slice type but `[]int8` and `[]uint8` assembles the elements of the layout. -/
theorem read_ok {t : ETy} {data : List t.Elem} {b : Bytes} {stride : Nat} (hb : GoLen b)
    (h8 : t ≠ .base .i8 .sc) (hu : t ≠ .base .u8 .sc) (h0 : 0 < data.length)
    (hn : needed t stride data.length ≤ b.length) :
    read b (stride : Int) t data
      = .ok ((List.range data.length).map fun j => elemAt t b (effStride t stride * j)) := by
  unfold GoLen at hb
  rw [read_eq h0 (by omega), if_neg (by omega), readSwitch_eq h8 hu, readLoop_eq (by omega)]
  · simp
  · right; unfold needed at hn; rw [if_neg (by omega)] at hn; simpa using hn

theorem elemAt_u8 (b : Bytes) (o : Nat) (h : o < b.length) :
    elemAt (.base .u8 .sc) b o = b[o] := by
  show UInt8.ofNat (leNat (window b (o + (0 * _ + 0 * 1)) 1)) = _
  have : window b o 1 = [b[o]] := by
    unfold window
    rw [List.drop_eq_getElem_cons h]; rfl
  simp [this, leNat]

/-- `Read` of a `[]uint8` always returns the first bytes of the buffer, whatever the stride. -/
theorem read_u8 {data : List UInt8} {b : Bytes} {stride : Nat} (hb : GoLen b) (h0 : 0 < data.length)
    (hn : needed (.base .u8 .sc) stride data.length ≤ b.length) (hl : data.length ≤ b.length) :
    read b (stride : Int) (.base .u8 .sc) data = .ok (b.take data.length) := by
  unfold GoLen at hb
  rw [read_eq (t := .base .u8 .sc) h0 (by omega), if_neg (by omega)]
  show (if (effStride (.base .u8 .sc) stride : Int) ≠ 1 then Res.ok (goCopy data b)
    else readLoop Ubyte.scalar b _ 0 data) = _
  by_cases he : effStride (.base .u8 .sc) stride = 1
  · rw [if_neg (by simp [he]), he]
    have := readLoop_eq (t := .base .u8 .sc) (e := 1) (i := 0) (b := b) (data := data) (by omega)
      (by right; simp [elemSize, size, kind, shape]; omega)
    rw [show elemGet (.base .u8 .sc) = Ubyte.scalar from rfl] at this
    rw [this]
    congr 1
    apply List.ext_getElem
    · simp; omega
    · intro i h1 h2
      simp only [List.getElem_map, List.getElem_range, List.getElem_take]
      simp only [Nat.zero_add, Nat.one_mul]
      exact elemAt_u8 b i (by simp at h2; omega)
  · rw [if_pos (by omega)]
    simp only [goCopy]
    rw [List.drop_of_length_le (l := data) (by omega), List.append_nil]

/-- `Read` of a `[]int8` from a buffer of exactly as many bytes. -/
theorem read_i8 {data : List Int8} {b : Bytes} {stride : Nat} (hb : GoLen b) (h0 : 0 < data.length)
    (hn : needed (.base .i8 .sc) stride data.length ≤ b.length) :
    read b (stride : Int) (.base .i8 .sc) data = readInt8 b data := by
  unfold GoLen at hb
  rw [read_eq (t := .base .i8 .sc) h0 (by omega), if_neg (by omega)]; rfl

/-- `Read` into an empty slice. -/
theorem read_nil {t : ETy} {b : Bytes} {stride : Nat} (hs : stride < 2 ^ 63)
    (he : elemSize (kind t) (shape t) ≤ effStride t stride) (h8 : t = .base .i8 .sc → b = []) :
    read b (stride : Int) t [] = .ok [] := by
  unfold read
  simp only [effStride_eq, List.length_nil]
  rw [sizeOfElement_eq]
  have hsz := elemSize_le (kind t) (shape t)
  have hes : effStride t stride < 2 ^ 63 := by
    unfold effStride; split <;> omega
  have hN : (if (effStride t stride : Int) ≠ ((elemSize (kind t) (shape t) : Nat) : Int) then
      wrap64 (wrap64 (((0 : Nat) : Int) * (effStride t stride : Int)) -
        wrap64 ((effStride t stride : Int) - ((elemSize (kind t) (shape t) : Nat) : Int)))
      else wrap64 (((0 : Nat) : Int) * (effStride t stride : Int))) ≤ 0 := by
    rw [show ((0 : Nat) : Int) * (effStride t stride : Int) = 0 by simp]
    unfold wrap64
    split <;> omega
  rw [if_neg (by omega)]
  cases t with
  | base k s =>
    cases k <;> cases s <;> first
      | rfl
      | (have := h8 rfl; subst this; rfl)
      | (show (if _ then Res.ok (goCopy [] b) else readLoop _ _ _ _ _) = _
         split
         · simp [goCopy]
         · rfl)
  | rgba => rfl
  | rgba64 => rfl

end Gltf
