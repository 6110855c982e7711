/-
Property C03 for `[]uint8`: exactly when nothing else is changed.
-/
import Verif.Props.BinaryExact

namespace Gltf

open Spec

theorem covered_byte (stride n p : Nat) : Covered (.base .u8 .sc) stride n p ↔ ∃ i, i < n ∧ p = i * (if stride = 0 then 1 else stride) := by
  have he : effStride (.base .u8 .sc) stride = if stride = 0 then 1 else stride := rfl
  constructor
  · rintro ⟨i, r, c, j, hi, hr, hc, hj, h⟩
    have hr' : r < 1 := hr
    have hc' : c < 1 := hc
    have hj' : j < 1 := hj
    obtain rfl : r = 0 := by omega
    obtain rfl : c = 0 := by omega
    obtain rfl : j = 0 := by omega
    refine ⟨i, hi, ?_⟩
    rw [h, he]
    show _ * i + 0 + 0 = _
    rw [Nat.mul_comm]
    rfl
  · rintro ⟨i, hi, h⟩
    refine ⟨i, 0, 0, 0, hi, by decide, by decide, by decide, ?_⟩
    rw [h, he]
    show _ = _ * i + 0 + 0
    rw [Nat.mul_comm]
    rfl

/-- C03 for `[]uint8`: `Write` leaves everything else as it was exactly if the bytes of the slice that it puts into the gaps are there already. -/
theorem C03_bytes_iff (data : List UInt8) (b b' : Bytes) (stride : Nat) (hov : needed (.base .u8 .sc) stride data.length < 2 ^ 63)
    (hw : write b stride (.base .u8 .sc) data = .ok b') :
    (∀ p, ¬ Covered (.base .u8 .sc) stride data.length p → b'[p]? = b[p]?) ↔
      ∀ p, p < data.length → p % (if stride = 0 then 1 else stride) ≠ 0 → data[p]? = b[p]? := by
  have e := C02_bytes data b b' stride hov hw
  subst e
  have hs : 0 < (if stride = 0 then 1 else stride) := by split <;> omega
  generalize hst : (if stride = 0 then 1 else stride) = st at hs
  have hcov : ∀ p, p < data.length → (Covered (.base .u8 .sc) stride data.length p ↔ p % st = 0) := by
    intro p hp
    rw [covered_byte, hst]
    constructor
    · rintro ⟨i, -, rfl⟩
      exact Nat.mul_mod_left _ _
    · intro h0
      refine ⟨p / st, Nat.lt_of_le_of_lt (Nat.div_le_self _ _) hp, (Nat.div_mul_cancel (Nat.dvd_of_mod_eq_zero h0)).symm⟩
  constructor
  · intro h p hp h0
    rw [← h p (fun hc => h0 ((hcov p hp).1 hc)), List.getElem?_append_left hp]
  · intro h p hc
    by_cases hp : p < data.length
    · rw [List.getElem?_append_left hp]
      exact h p hp fun h0 => hc ((hcov p hp).2 h0)
    · rw [List.getElem?_append_right (by omega), List.getElem?_drop]
      congr 1
      omega

/-- Three bytes with stride 2: the gap between the first two is overwritten with the second byte. -/
example : write [0, 9, 0, 9, 0, 9] 2 (.base .u8 .sc) [1, 2, 3] = .ok [1, 2, 3, 9, 0, 9] ∧
    needed (.base .u8 .sc) 2 3 < 2 ^ 63 := by decide +kernel

end Gltf
