/-
Property C59: Read decodes every component at its place.
-/
import Verif.Props.Binary
import Verif.Lemmas.ReadBack
import Verif.Lemmas.ReadInv

namespace Gltf

open Spec

theorem leBytes_leNat (b : Bytes) : leBytes b.length (leNat b) = b := by
  induction b with
  | nil => rfl
  | cons x b ih =>
    have hx := x.toNat_lt
    simp only [List.length_cons, leBytes, leNat]
    rw [show (x.toNat + 256 * leNat b) / 256 = leNat b by omega, ih]
    congr 1
    apply UInt8.toNat_inj.1
    simp

theorem leNat_lt (b : Bytes) : leNat b < 256 ^ b.length := by
  induction b with
  | nil => decide
  | cons x b ih =>
    have hx := x.toNat_lt
    simp only [List.length_cons, leNat, Nat.pow_succ]
    omega

theorem encBytes_ofMem (k : Kind) (b : Bytes) (h : b.length = size k) : encBytes k (k.ofMem b) = b := by
  have h1 := leBytes_leNat b
  have h2 := leNat_lt b
  rw [h] at h1 h2
  cases k with
  | i8 =>
    match b, h with
    | [x], _ => simp [encBytes, Kind.ofMem, leNat]
  | u8 =>
    match b, h with
    | [x], _ => simp [encBytes, Kind.ofMem, leNat]
  | i16 =>
    simp only [size] at h1 h2
    simp only [encBytes, Kind.ofMem, UInt16.toUInt16_toInt16, UInt16.toNat_ofNat']
    rw [Nat.mod_eq_of_lt (by omega), h1]
  | u16 =>
    simp only [size] at h1 h2
    simp only [encBytes, Kind.ofMem, UInt16.toNat_ofNat']
    rw [Nat.mod_eq_of_lt (by omega), h1]
  | u32 =>
    simp only [size] at h1 h2
    simp only [encBytes, Kind.ofMem, UInt32.toNat_ofNat']
    rw [Nat.mod_eq_of_lt (by omega), h1]
  | f32 =>
    simp only [size] at h1 h2
    simp only [encBytes, Kind.ofMem, UInt32.toNat_ofNat']
    rw [Nat.mod_eq_of_lt (by omega), h1]

theorem component_ofCells (t : ETy) (f : Nat → Nat → Bytes) {r c : Nat} (hr : r < rows (shape t)) (hc : c < cols (shape t)) :
    component t (ofCells t f) r c = some ((kind t).ofMem (f r c)) := by
  have key : ∀ (n m : Nat), n < 5 → m < n → m = 0 ∨ m = 1 ∨ m = 2 ∨ m = 3 := by omega
  cases t with
  | base k s =>
    cases s <;> simp only [rows, cols, shape] at hr hc <;>
      rcases key _ _ (by decide) hr with rfl | rfl | rfl | rfl <;>
      rcases key _ _ (by decide) hc with rfl | rfl | rfl | rfl <;>
      first | rfl | omega
  | rgba =>
    simp only [rows, cols, shape] at hr hc
    rcases key _ _ (by decide) hr with rfl | rfl | rfl | rfl <;>
      rcases key _ _ (by decide) hc with rfl | rfl | rfl | rfl <;>
      first | rfl | omega
  | rgba64 =>
    simp only [rows, cols, shape] at hr hc
    rcases key _ _ (by decide) hr with rfl | rfl | rfl | rfl <;>
      rcases key _ _ (by decide) hc with rfl | rfl | rfl | rfl <;>
      first | rfl | omega

theorem componentOffset_le {k : Kind} {s : Shape} {r c : Nat} (hr : r < rows s) (hc : c < cols s) :
    componentOffset k s r c + size k ≤ elemSize k s := by
  have key : ∀ (n m : Nat), n < 5 → m < n → m = 0 ∨ m = 1 ∨ m = 2 ∨ m = 3 := by omega
  cases s <;> simp only [rows, cols] at hr hc <;>
    rcases key _ _ (by decide) hr with rfl | rfl | rfl | rfl <;>
    rcases key _ _ (by decide) hc with rfl | rfl | rfl | rfl <;>
    first | omega | (cases k <;> decide)

/-- The statement of C59 for one call. -/
def ReadPlaced (t : ETy) (b : Bytes) (stride : Nat) (d : List t.Elem) : Prop :=
  ∀ (i : Nat) (x : t.Elem) (r c : Nat) (v : (kind t).T) (j : Nat), d[i]? = some x → r < rows (shape t) → c < cols (shape t) →
    component t x r c = some v → j < size (kind t) →
    b[effStride t stride * i + componentOffset (kind t) (shape t) r c + j]? = some (byteOf (kind t) v j)

/-- The full statement of C59. -/
def C59_full : Prop :=
  ∀ (t : ETy) (data d : List t.Elem) (b : Bytes) (stride : Nat), GoLen b → needed t stride data.length < 2 ^ 63 →
    read b stride t data = .ok d → ReadPlaced t b stride d

/-- C59 is false of the code: the stride of `[]uint8` is ignored. -/
theorem C59_full_fails : ¬ C59_full := by
  intro h
  have := h (.base .u8 .sc) [0, 0] [1, 2] [1, 2, 3, 4, 5] 4 (by decide) (by decide) (by decide +kernel)
    1 2 0 0 (2 : UInt8) 0 rfl (by decide) (by decide) rfl (by decide)
  revert this; decide

/-- C59 for everything but strided `[]uint8` (where it is false): every component of what `Read` gives
is made of the bytes at its place. -/
theorem C59_read_layout_partial (t : ETy) (data d : List t.Elem) (b : Bytes) (stride : Nat) (hb : GoLen b)
    (hov : needed t stride data.length < 2 ^ 63) (hu : t = .base .u8 .sc → stride ≤ 1 ∨ data.length ≤ 1)
    (h : read b stride t data = .ok d) : ReadPlaced t b stride d := by
  intro i x r c v j hi hr hc hv hj
  have hlen : d.length = data.length := read_length h
  have hid : i < d.length := getElem?_lt hi
  have h0 : 0 < data.length := by omega
  have hnb : needed t stride data.length ≤ b.length := by
    rcases Nat.lt_or_ge b.length (needed t stride data.length) with hlt | hge
    · rw [read_eq h0 hov, if_pos hlt] at h; cases h
    · exact hge
  have hnn : effStride t stride * (data.length - 1) + elemSize (kind t) (shape t) ≤ b.length := by
    unfold needed at hnb; rw [if_neg (by omega)] at hnb; exact hnb
  have h8 : t = .base .i8 .sc → b.length = data.length ∧ (effStride t stride = 1 ∨ data.length ≤ 1) := by
    intro ht
    subst ht
    have hle : b.length ≤ data.length := by
      rw [read_eq h0 hov, if_neg (by omega)] at h
      change readInt8 b data = .ok d at h
      unfold readInt8 at h
      split at h
      · assumption
      · cases h
    have he : elemSize (kind (.base .i8 .sc)) (shape (.base .i8 .sc)) = 1 := rfl
    rw [he] at hnn
    have hpos : 1 ≤ effStride (.base .i8 .sc) stride := by
      unfold effStride; split
      · exact Nat.le_refl 1
      · omega
    have hm : data.length - 1 ≤ effStride (.base .i8 .sc) stride * (data.length - 1) := Nat.le_mul_of_pos_left _ hpos
    refine ⟨by omega, ?_⟩
    by_cases h1 : effStride (.base .i8 .sc) stride = 1
    · exact .inl h1
    · right
      have : 2 * (data.length - 1) ≤ effStride (.base .i8 .sc) stride * (data.length - 1) :=
        Nat.mul_le_mul_right _ (by omega)
      omega
  have hu' : t = .base .u8 .sc → effStride t stride = 1 ∨ data.length ≤ 1 := by
    intro ht
    rcases hu ht with h1 | h1
    · left
      subst ht
      unfold effStride
      split
      · rfl
      · omega
    · exact .inr h1
  rw [read_elems hb h0 hnb hu' h8] at h
  cases h
  rw [List.getElem?_map, List.getElem?_range (by omega)] at hi
  simp only [Option.map_some, Option.some.injEq] at hi
  subst hi
  rw [elemAt, component_ofCells t _ hr hc] at hv
  have hmul : effStride t stride * i ≤ effStride t stride * (data.length - 1) := Nat.mul_le_mul_left _ (by omega)
  have hco := componentOffset_le (k := kind t) hr hc
  have hw : (window b (effStride t stride * i + componentOffset (kind t) (shape t) r c) (size (kind t))).length = size (kind t) := by
    unfold window
    rw [List.length_take, List.length_drop]
    omega
  have he := encBytes_ofMem (kind t) _ hw
  have hg := encBytes_getElem? (kind t) v j hj
  cases hv
  rw [← hg, he]
  unfold window
  rw [List.getElem?_take_of_lt hj, List.getElem?_drop]

/-- A 3x3 matrix of bytes: each column starts at a multiple of four. -/
example : ∃ d, read [1, 2, 3, 99, 4, 5, 6, 99, 7, 8, 9, 99] 0 (.base .u8 .m3) [ETy.zero _] = .ok d ∧
    d = [⟨⟨1, 4, 7⟩, ⟨2, 5, 8⟩, ⟨3, 6, 9⟩⟩] ∧ GoLen [1, 2, 3, 99, 4, 5, 6, 99, 7, 8, 9, (99 : UInt8)] ∧
    needed (.base .u8 .m3) 0 1 < 2 ^ 63 := ⟨_, rfl, by decide +kernel, by decide, by decide⟩

end Gltf
