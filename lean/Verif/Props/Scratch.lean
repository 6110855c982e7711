/-
Property C83: what a slice that is made from a scratch buffer contains.
-/
import Verif.Props.Binary
import Verif.Model.Read

namespace Gltf

open Spec

/-! ### C83 -/

/-- An element of a slice in memory, from a place on: the components in the order of a Go array, `v[row][col]` one row after the
other, each in little-endian order. -/
def Spec.InMemory (k : Kind) (sh : Shape) (memory : Bytes) (place : Nat) (e : (ETy.base k sh).Elem) : Prop :=
  ∀ r c, r < rows sh → c < cols sh → ∃ x, arrayComponent sh e r c = some x ∧
    ∀ j, j < size k → memory[place + (r * cols sh + c) * size k + j]? = some (byteOf k x j)

/-- All components of an element are zero. -/
def Spec.AllZero (k : Kind) (sh : Shape) (e : (ETy.base k sh).Elem) : Prop :=
  ∀ r c, r < rows sh → c < cols sh → ∃ x, arrayComponent sh e r c = some x ∧ bits k x = 0

/-- A slice of `count` elements over a memory: the elements are the bytes there, one element after the other, as many as fit;
the elements after those are zero. -/
def Spec.ShowsMemory (k : Kind) (sh : Shape) (count : Nat) (memory : Bytes) (d : List (ETy.base k sh).Elem) : Prop :=
  d.length = count ∧ ∀ i (hi : i < d.length),
    if (i + 1) * (rows sh * cols sh * size k) ≤ memory.length
    then InMemory k sh memory (i * (rows sh * cols sh * size k)) d[i]
    else AllZero k sh d[i]

theorem build_component {α : Type} (f : Nat → Nat → α) (sh : Shape) (r c : Nat) (hr : r < rows sh) (hc : c < cols sh) :
    arrayComponent sh (sh.build f) r c = some (f r c) := by
  cases sh <;> simp only [rows, cols] at hr hc
  all_goals
    rcases r with _ | _ | _ | _ | r <;> (try omega) <;> rcases c with _ | _ | _ | _ | c <;> first | omega | rfl

theorem leNat_digit : ∀ (b : Bytes) (j : Nat), j < b.length → b[j]? = some (UInt8.ofNat (leNat b / 256 ^ j % 256))
  | [], _, h => absurd h (by simp)
  | x :: b, 0, _ => by
    rw [List.getElem?_cons_zero, leNat, Nat.pow_zero, Nat.div_one]
    have := x.toNat_lt
    rw [show (x.toNat + 256 * leNat b) % 256 = x.toNat by omega, UInt8.ofNat_toNat]
  | x :: b, j + 1, h => by
    rw [List.getElem?_cons_succ, leNat_digit b j (by simpa using h), leNat, Nat.pow_succ, Nat.mul_comm (256 ^ j) 256, ← Nat.div_div_eq_div_mul]
    have := x.toNat_lt
    rw [show (x.toNat + 256 * leNat b) / 256 = leNat b by omega]

theorem leNat_lt : ∀ b : Bytes, leNat b < 256 ^ b.length
  | [] => by simp [leNat]
  | x :: b => by
    have h1 := leNat_lt b
    have h2 := x.toNat_lt
    rw [leNat, List.length_cons, Nat.pow_succ]
    omega

/-- The bit pattern of a component in memory. -/
theorem ofMem_bits (k : Kind) (b : Bytes) (h : b.length = size k) : bits k (k.ofMem b) = leNat b := by
  have hl := leNat_lt b
  rw [h] at hl
  cases k with
  | i8 => exact (i8_bits _).trans ((UInt8.toNat_ofNat').trans (Nat.mod_eq_of_lt hl))
  | i16 => exact (i16_bits _).trans ((UInt16.toNat_ofNat').trans (Nat.mod_eq_of_lt hl))
  | u8 => exact (UInt8.toNat_ofNat').trans (Nat.mod_eq_of_lt hl)
  | u16 => exact (UInt16.toNat_ofNat').trans (Nat.mod_eq_of_lt hl)
  | u32 => exact (UInt32.toNat_ofNat').trans (Nat.mod_eq_of_lt hl)
  | f32 => exact (UInt32.toNat_ofNat').trans (Nat.mod_eq_of_lt hl)

theorem goCols_cols (sh : Shape) : sh.goCols = cols sh := by cases sh <;> rfl

theorem memSize_scalar (k : Kind) : (ETy.base k .sc).memSize = size k := by cases k <;> rfl

theorem memSize_base (k : Kind) (sh : Shape) : (ETy.base k sh).memSize = rows sh * cols sh * size k := by
  cases k <;> cases sh <;> rfl

/-- The bytes of a component lie within those of its element. -/
theorem component_within (k : Kind) (sh : Shape) (r c : Nat) (hr : r < rows sh) (hc : c < cols sh) :
    (r * cols sh + c) * size k + size k ≤ rows sh * cols sh * size k := by
  rw [← Nat.succ_mul]
  apply Nat.mul_le_mul_right
  have := Nat.mul_le_mul_right (cols sh) (Nat.succ_le_of_lt hr)
  rw [Nat.succ_mul] at this
  omega

/-- An element taken from memory shows the bytes there. -/
theorem ofMem_inMemory (k : Kind) (sh : Shape) (memory : Bytes) (place : Nat)
    (h : place + rows sh * cols sh * size k ≤ memory.length) :
    InMemory k sh memory place ((ETy.base k sh).ofMem (memory.drop place)) := by
  intro r c hr hc
  have hw := component_within k sh r c hr hc
  refine ⟨k.ofMem (((memory.drop place).drop ((r * sh.goCols + c) * (ETy.base k .sc).memSize)).take (ETy.base k .sc).memSize),
    build_component (fun r c => k.ofMem (((memory.drop place).drop ((r * sh.goCols + c) * (ETy.base k .sc).memSize)).take
      (ETy.base k .sc).memSize)) sh r c hr hc, fun j hj => ?_⟩
  simp only [memSize_scalar, goCols_cols, List.drop_drop]
  generalize hb : (memory.drop (place + (r * cols sh + c) * size k)).take (size k) = b
  have hlen : b.length = size k := by
    rw [← hb, List.length_take, List.length_drop]
    omega
  rw [byteOf, ofMem_bits k b hlen, ← leNat_digit b j (by omega), ← hb, List.getElem?_take_of_lt hj, List.getElem?_drop]

theorem zero_allZero (k : Kind) (sh : Shape) : AllZero k sh (ETy.base k sh).zero := by
  intro r c hr hc
  refine ⟨k.zero, build_component (fun _ _ => k.zero) sh r c hr hc, ?_⟩
  cases k <;> rfl

/-- C83. A slice made from a scratch buffer shows the memory of the buffer: its elements are the bytes that lie there, one
element after the other, as many as fit; the elements after those are zero. -/
theorem C83_scratch (k : Kind) (sh : Shape) (count : Nat) (buffer : Bytes) (hb : buffer ≠ [])
    (hx : ¬ (k = .u32 ∧ sh = .m3)) (hm : count * (rows sh * cols sh * size k) ≤ maxAlloc) :
    ∃ d, makeSliceBuffer (ETy.base k sh).c (ETy.base k sh).t count buffer = .ok ⟨.base k sh, d⟩ ∧
      ShowsMemory k sh count buffer d := by
  unfold ShowsMemory
  have hck : checkAccessorType (ETy.base k sh).c (ETy.base k sh).t = .ok () := by cases k <;> cases sh <;> rfl
  have hct : castType (ETy.base k sh).c (ETy.base k sh).t = some (.base k sh) := castType_base k sh hx
  have hms : (ETy.base k sh).c.byteSize * (ETy.base k sh).t.components = rows sh * cols sh * size k := memSize_base k sh
  have hpos : 0 < rows sh * cols sh * size k := by cases k <;> cases sh <;> decide
  have hb' : ¬ buffer.length = 0 := fun h => hb (List.eq_nil_of_length_eq_zero h)
  unfold makeSliceBuffer
  rw [hck, Res.ok_bind, if_neg hb']
  unfold castSlice
  rw [hct]
  simp only
  rw [hms]
  generalize hn : rows sh * cols sh * size k = n at *
  generalize hl : buffer.length / n = l
  have hfit (i : Nat) : (i + 1) * n ≤ buffer.length ↔ i < l := by
    rw [← hl, ← Nat.le_div_iff_mul_le hpos]
    exact Iff.rfl
  have key (m : Nat) (hm1 : m ≤ l) (hm2 : m ≤ count) (hm3 : m = l ∨ m = count) :
      ((List.range m).map (fun i => (ETy.base k sh).ofMem (buffer.drop (i * n))) ++
        List.replicate (count - m) (ETy.base k sh).zero).length = count ∧
      ∀ i (hi : i < ((List.range m).map (fun i => (ETy.base k sh).ofMem (buffer.drop (i * n))) ++
        List.replicate (count - m) (ETy.base k sh).zero).length),
        if (i + 1) * n ≤ buffer.length
        then InMemory k sh buffer (i * n) ((List.range m).map (fun i => (ETy.base k sh).ofMem (buffer.drop (i * n))) ++
          List.replicate (count - m) (ETy.base k sh).zero)[i]
        else AllZero k sh ((List.range m).map (fun i => (ETy.base k sh).ofMem (buffer.drop (i * n))) ++
          List.replicate (count - m) (ETy.base k sh).zero)[i] := by
    refine ⟨by simp; omega, fun i hi => ?_⟩
    have hi' : i < count := by simp at hi; omega
    by_cases hil : i < l
    · rw [if_pos ((hfit i).2 hil), List.getElem_append_left (by simp; omega)]
      simp only [List.getElem_map, List.getElem_range]
      apply ofMem_inMemory
      rw [hn, ← Nat.succ_mul]
      exact (hfit i).2 hil
    · rw [if_neg (fun h => hil ((hfit i).1 h)), List.getElem_append_right (by simp; omega)]
      simp only [List.getElem_replicate]
      exact zero_allZero k sh
  unfold reslice makeZeros
  rw [memSize_base, hn]
  by_cases h1 : (count : Int) < (l : Int)
  · refine ⟨_, ?_, key count (by omega) (by omega) (.inr rfl)⟩
    simp only [h1, if_true]
    rw [if_neg (by omega)]
    simp [Res.map]
  · refine ⟨_, ?_, key l (by omega) (by omega) (.inl rfl)⟩
    simp only [h1, if_false]
    rw [if_neg (by omega)]
    by_cases h2 : (count : Int) > (l : Int)
    · have hle : ((count : Int) - l).toNat * n ≤ maxAlloc :=
        Nat.le_trans (Nat.mul_le_mul_right _ (m := count) (by omega)) hm
      simp only [h2, if_true]
      rw [if_pos (by omega), if_neg (by omega), if_neg (Nat.not_lt.2 hle)]
      simp only [Res.map, Int.toNat_natCast, show ((count : Int) - l).toNat = count - l by omega]
    · simp only [h2, if_false]
      simp [Res.map, show count - l = 0 by omega]

/-- C83 for reading: an accessor without buffer view and without sparse data is read as the memory of the scratch buffer that
the caller passes, of whatever it was used for before. (A scratch buffer without memory gives zeros, see C06.) -/
theorem C83_read_no_view (doc : Document) (acr : Accessor) (k : Kind) (sh : Shape) (count : Nat) (buffer : Bytes) (p : Pools)
    (hb : buffer ≠ []) (hx : ¬ (k = .u32 ∧ sh = .m3)) (hm : count * (rows sh * cols sh * size k) ≤ maxAlloc)
    (hc : acr.componentType = (ETy.base k sh).c) (ht : acr.type = (ETy.base k sh).t) (hn : acr.count = count)
    (hv : acr.bufferView = none) (hs : acr.sparse = none) :
    ∃ d, readAccessor doc acr buffer p = .ok ⟨.base k sh, d⟩ ∧ ShowsMemory k sh count buffer d := by
  obtain ⟨d, h1, h2⟩ := C83_scratch k sh count buffer hb hx hm
  refine ⟨d, ?_, h2⟩
  unfold readAccessor readDense
  rw [hc, ht, hn, hv, hs, h1]
  rfl

/-- Two matrices of which the memory has the first: the padding of the columns in the format is not in memory. -/
example : makeSliceBuffer .ubyte .mat2 2 [1, 2, 3, 4, 5] = .ok ⟨.base .u8 .m2, [⟨⟨1, 2⟩, ⟨3, 4⟩⟩, ⟨⟨0, 0⟩, ⟨0, 0⟩⟩]⟩ ∧
    ∃ d, makeSliceBuffer .ubyte .mat2 (2 : Nat) [1, 2, 3, 4, 5] = .ok ⟨.base .u8 .m2, d⟩ ∧
      ShowsMemory .u8 .m2 2 [1, 2, 3, 4, 5] d :=
  ⟨by decide +kernel, C83_scratch .u8 .m2 2 [1, 2, 3, 4, 5] (by decide) (by decide) (by decide)⟩

/-- An accessor without data of two numbers, read with a used scratch buffer. -/
example : ∃ d, readAccessor {} { componentType := .short, type := .scalar, count := 2 } [255, 255, 2, 0] ⟨[], [], []⟩
      = .ok ⟨.base .i16 .sc, d⟩ ∧ ShowsMemory .i16 .sc 2 [255, 255, 2, 0] d :=
  C83_read_no_view {} _ .i16 .sc 2 _ _ (by decide) (by decide) (by decide) rfl rfl rfl rfl rfl

end Gltf
