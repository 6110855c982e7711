/-
C89: numbers are read as the nearest float64, and written with the fewest digits.
-/
import Verif.Lemmas.NumberText
import Verif.Model.JsonCodec

namespace Gltf

open Spec

set_option exponentiation.threshold 6000

/-- A JSON number in the place of a `float64` is read as the nearest float64, of two that are equally near the even
one; the sign is kept, also for zero. Numbers from the limit on are refused. -/
theorem C89_read (s : Bytes) (hs : IsNumber s) (cur : F64) :
    ∃ neg q, LitValue s neg q ∧
      (q < limit → ∃ x, (JC.float goFloatIO).dec (.num s) cur = .ok x ∧ NearestEven (signedQ neg q) x ∧ x.neg = neg) ∧
      (limit ≤ q → ∀ x, (JC.float goFloatIO).dec (.num s) cur ≠ .ok x) := by
  obtain ⟨neg, q, hv⟩ := litValue_exists hs
  have h0 := litValue_nonneg hv
  refine ⟨neg, q, hv, fun hq => ?_, fun hq x => ?_⟩
  · have hm := (magOf_lt_inf h0).2 hq
    obtain ⟨m1, m2⟩ := make64 (neg := neg) hm
    have hp : parseFloat s = some (F64.make neg (magOf q)) := by rw [parseFloat_lit hv, if_pos hm]
    have hf := ((parseFloat_iff hv).1 hp).1
    refine ⟨F64.make neg (magOf q), ?_, make_nearest h0 hf m2 m1.symm, m2⟩
    show (match parseFloat s with | some x => Except.ok x | none => mismatch) = _
    rw [hp]
  · have hm : ¬ magOf q < inf64 := fun h => absurd ((magOf_lt_inf h0).1 h) (not_lt.2 hq)
    have hp : parseFloat s = none := by rw [parseFloat_lit hv, if_neg hm]
    show (match parseFloat s with | some x => Except.ok x | none => mismatch) ≠ _
    rw [hp]
    exact fun h => nomatch h

theorem float_dec_iff {s : Bytes} {cur x : F64} : (JC.float goFloatIO).dec (.num s) cur = .ok x ↔ parseFloat s = some x := by
  show (match parseFloat s with | some x => Except.ok x | none => mismatch) = _ ↔ _
  cases parseFloat s with
  | none => exact ⟨fun h => (nomatch h), fun h => (nomatch h)⟩
  | some y => exact ⟨fun h => by injection h with h; rw [h], fun h => by injection h with h; rw [h]⟩

/-- A finite number is written so that it reads back, with at most 17 digits; no number with fewer digits reads back,
and none with as many digits that reads back is nearer. -/
theorem C89_write (x : F64) (hx : x.finite = true) (cur : F64) :
    ∃ s, (JC.float goFloatIO).enc x = .ok (.num s) ∧ (JC.float goFloatIO).dec (.num s) cur = .ok x ∧
      ∃ q d, LitValue s x.neg q ∧ HasDigits d q ∧ d ≤ 17 ∧
        ∀ t neg v d', LitValue t neg v → HasDigits d' v → (JC.float goFloatIO).dec (.num t) cur = .ok x →
          d ≤ d' ∧ (d' = d → |signedQ x.neg q - x.q| ≤ |signedQ neg v - x.q|) := by
  refine ⟨goFmt x, by unfold JC.float; simp only [hx, if_true]; rfl, float_dec_iff.2 (go_laws.parse_fmt x hx), ?_⟩
  obtain ⟨q, d, h1, h2, h3, h4, h5⟩ := goFmt_shortest hx
  refine ⟨q, d, h1, h2, h3, fun t neg v d' ht hd hp => ?_⟩
  obtain ⟨_, p2, p3⟩ := (parseFloat_iff ht).1 (float_dec_iff.1 hp)
  obtain ⟨i1, i2⟩ := h5 v d' (litValue_nonneg ht) hd p3
  refine ⟨i1, fun h => ?_⟩
  rw [F64.q_eq, ← p2, signed_sub, signed_sub]
  exact i2 h

/-- NaN and the infinities are not written. -/
theorem C89_not_finite (x : F64) (hx : x.finite = false) : ∀ v, (JC.float goFloatIO).enc x ≠ .ok v := by
  intro v h
  unfold JC.float at h
  simp only [hx, Bool.false_eq_true, if_false] at h
  exact nomatch h

theorem near_1e6 : NearestEven (1 / 10 ^ 6) ⟨0x3EB0C6F7A0B5ED8D⟩ := by
  have hv : LitValue b!"1e-6" false (decimal (b!"1" ++ []) * (10 : ℚ) ^ ((-(decimal b!"6" : Int)) - (([] : Bytes).length : Int))) :=
    ⟨b!"1", [], b!"e-6", [], -(decimal b!"6" : Int), rfl, .inr ⟨⟨by decide, by decide⟩, by decide⟩, .inl ⟨rfl, rfl⟩,
      .inr ⟨b!"e", b!"6", .inl rfl, ⟨by decide, by decide⟩, .inr (.inr ⟨rfl, rfl⟩)⟩, rfl⟩
  have hp : parseFloat b!"1e-6" = some ⟨0x3EB0C6F7A0B5ED8D⟩ := by decide +kernel
  obtain ⟨p1, p2, p3⟩ := (parseFloat_iff hv).1 hp
  have := make_nearest (litValue_nonneg hv) p1 p2 p3
  have e : signedQ false (decimal (b!"1" ++ []) * (10 : ℚ) ^ ((-(decimal b!"6" : Int)) - (([] : Bytes).length : Int))) = 1 / 10 ^ 6 := by
    rw [show decimal (b!"1" ++ []) = 1 from rfl, show decimal b!"6" = 6 from rfl]
    show ((1 : Nat) : ℚ) * 10 ^ (-(6 : Int)) = 1 / 10 ^ 6
    rw [zpow_neg, show (6 : Int) = ((6 : Nat) : Int) from rfl, zpow_natCast]
    norm_num
  rwa [e] at this

/-- An exponent is written only below the float64 nearest to 10^-6 and from 10^21 on, and a fraction does not end in zero. -/
theorem C89_form (x : F64) (hx : x.finite = true) :
    ∃ s, (JC.float goFloatIO).enc x = .ok (.num s) ∧
      (∃ a : F64, NearestEven (1 / 10 ^ 6) a ∧ (101 ∈ s ↔ x.q ≠ 0 ∧ (|x.q| < a.q ∨ 10 ^ 21 ≤ |x.q|))) ∧
      (46 ∈ s → (s.takeWhile (· ≠ 101)).getLast? ≠ some 48) := by
  obtain ⟨f1, f2⟩ := goFmt_form hx
  refine ⟨goFmt x, by unfold JC.float; simp only [hx, if_true]; rfl, ⟨⟨0x3EB0C6F7A0B5ED8D⟩, near_1e6, ?_⟩, f2⟩
  rw [f1]
  have e0 : x.q ≠ 0 ↔ x.mag ≠ 0 := by
    have h := abs_q_le_iff (x := x) (y := ⟨0⟩)
    have hz : (⟨0⟩ : F64).q = 0 := by decide +kernel
    rw [hz, abs_zero, show (⟨0⟩ : F64).mag = 0 by decide, Nat.le_zero] at h
    rw [not_iff_not, ← h]
    exact ⟨fun h => by rw [h, abs_zero], fun h => abs_nonpos_iff.1 h⟩
  have e1 : |x.q| < (⟨0x3EB0C6F7A0B5ED8D⟩ : F64).q ↔ x.mag < mag1e6 := by
    have h := abs_q_le_iff (x := ⟨0x3EB0C6F7A0B5ED8D⟩) (y := x)
    have hz : 0 ≤ (⟨0x3EB0C6F7A0B5ED8D⟩ : F64).q := by
      rw [F64.q_eq, show F64.neg ⟨0x3EB0C6F7A0B5ED8D⟩ = false by decide]
      unfold signedQ
      simp only [Bool.false_eq_true, if_false]
      positivity
    rw [abs_of_nonneg hz, show (⟨0x3EB0C6F7A0B5ED8D⟩ : F64).mag = mag1e6 by decide] at h
    rw [← not_le, h, not_le]
  have e2 : 10 ^ 21 ≤ |x.q| ↔ mag1e21 ≤ x.mag := by
    have h := abs_q_le_iff (x := ⟨0x444B1AE4D6E2EF50⟩) (y := x)
    have hz : |(⟨0x444B1AE4D6E2EF50⟩ : F64).q| = 10 ^ 21 := by
      rw [F64.abs_q, show decodeMag 52 (⟨0x444B1AE4D6E2EF50⟩ : F64).mag = 10 ^ 21 * 2 ^ 1074 by decide +kernel, Nat.cast_mul, cast_two_pow,
        mul_div_assoc, div_self (by positivity)]
      norm_num
    rw [hz, show (⟨0x444B1AE4D6E2EF50⟩ : F64).mag = mag1e21 by decide] at h
    exact h
  rw [e0, e1, e2]

/-- Numbers with their texts: 0.1, the smallest number, 2^-44 (where the nearest decimal with the fewest digits does
not read back but the other one does), 10^21 and the largest number. -/
example : goFmt ⟨0x3FB999999999999A⟩ = b!"0.1" ∧ goFmt ⟨1⟩ = b!"5e-324" ∧ goFmt ⟨0x444B1AE4D6E2EF50⟩ = b!"1e+21" ∧
    goFmt ⟨0x7FEFFFFFFFFFFFFF⟩ = b!"1.7976931348623157e+308" ∧ goFmt ⟨0xBFF8000000000000⟩ = b!"-1.5" ∧
    goFmt ⟨0x3D30000000000000⟩ = b!"5.684341886080802e-14" := by
  refine ⟨?_, ?_, ?_, ?_, ?_, ?_⟩ <;> decide +kernel

/-- A tie is read as the even one, and the limit is refused. -/
example : parseFloat b!"9007199254740993" = some ⟨0x4340000000000000⟩ ∧ parseFloat b!"9007199254740995" = some ⟨0x4340000000000002⟩ ∧
    parseFloat b!"1e400" = none ∧ parseFloat b!"-0.0" = some ⟨0x8000000000000000⟩ := by
  refine ⟨?_, ?_, ?_, ?_⟩ <;> decide +kernel

end Gltf
