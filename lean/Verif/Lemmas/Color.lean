/-
Rounding errors of the colour functions, as rational numbers.
-/
import Verif.Spec.Color
import Verif.Lemmas.Normalize
import Mathlib.Tactic.Linarith
import Mathlib.Tactic.NormNum
import Mathlib.Tactic.Positivity
import Mathlib.Tactic.FieldSimp
import Mathlib.Tactic.Ring
import Mathlib.Algebra.Order.Field.Rat
import Mathlib.Algebra.Order.Field.Basic

namespace Gltf

set_option exponentiation.threshold 3000

/-- `2 ^ roundExp` is small compared with the number, unless it is one. -/
theorem pow_roundExp {w n d : Nat} (hd : 0 < d) (h : d * 2 ^ w ≤ n) : 2 ^ w * (d * 2 ^ roundExp w n d) ≤ n := by
  have h1 : 2 ^ w ≤ n / d := (Nat.le_div_iff_mul_le hd).2 (by rw [Nat.mul_comm]; exact h)
  have h0 : n / d ≠ 0 := by have := Nat.two_pow_pos w; omega
  have h2 : w ≤ (n / d).log2 := (Nat.le_log2 h0).2 h1
  have h3 : 2 ^ (n / d).log2 ≤ n / d := (Nat.le_log2 h0).1 (Nat.le_refl _)
  have h4 : 2 ^ w * 2 ^ roundExp w n d = 2 ^ (n / d).log2 := by
    rw [← Nat.pow_add]; unfold roundExp; congr 1; omega
  calc 2 ^ w * (d * 2 ^ roundExp w n d) = d * (2 ^ w * 2 ^ roundExp w n d) := by ac_rfl
    _ = d * 2 ^ (n / d).log2 := by rw [h4]
    _ ≤ d * (n / d) := Nat.mul_le_mul_left _ h3
    _ ≤ n := Nat.mul_div_le _ _

/-- The relative error of rounding. -/
theorem round_rel {w n d : Nat} (hd : 0 < d) (h : d * 2 ^ w ≤ n) :
    |(decodeMag w (roundMag w n d) : ℚ) - n / d| ≤ n / d / 2 ^ (w + 1) := by
  obtain ⟨h1, h2⟩ := decode_round_err (w := w) (n := n) hd
  have h3 := pow_roundExp hd h
  have hd' : (0 : ℚ) < d := by exact_mod_cast hd
  have hw : (0 : ℚ) < 2 ^ w := by positivity
  have e1 : (2 * ((decodeMag w (roundMag w n d) : ℚ) * d) ≤ 2 * n + d * 2 ^ roundExp w n d) := by exact_mod_cast h1
  have e2 : (2 * (n : ℚ) ≤ 2 * ((decodeMag w (roundMag w n d) : ℚ) * d) + d * 2 ^ roundExp w n d) := by exact_mod_cast h2
  have e3 : (2 : ℚ) ^ w * (d * 2 ^ roundExp w n d) ≤ n := by exact_mod_cast h3
  have e4 : (d : ℚ) * 2 ^ roundExp w n d ≤ n / 2 ^ w := by rw [le_div_iff₀ hw]; linarith
  have e5 : (n : ℚ) / d / 2 ^ (w + 1) = n / 2 ^ w / (2 * d) := by rw [pow_succ]; field_simp
  rw [e5, abs_le]
  have e6 : (n : ℚ) / d = (2 * n) / (2 * d) := by field_simp
  constructor
  · rw [e6, ← sub_nonneg]
    have : (decodeMag w (roundMag w n d) : ℚ) - 2 * n / (2 * d) - -(n / 2 ^ w / (2 * d)) =
        (2 * (decodeMag w (roundMag w n d) * d) - 2 * n + n / 2 ^ w) / (2 * d) := by field_simp; ring
    rw [this]; apply div_nonneg <;> linarith
  · rw [e6, ← sub_nonneg]
    have : (n : ℚ) / 2 ^ w / (2 * d) - (decodeMag w (roundMag w n d) - 2 * n / (2 * d)) =
        (n / 2 ^ w - 2 * (decodeMag w (roundMag w n d) * d) + 2 * n) / (2 * d) := by field_simp; ring
    rw [this]; apply div_nonneg <;> linarith

/-- A positive `float32` next to `t`. -/
structure Near32 (x : F32) (t : ℚ) : Prop where
  fin : x.finite = true
  neg : x.neg = false
  lo : t - t / 2 ^ 24 ≤ x.q
  hi : x.q ≤ t + t / 2 ^ 24

/-- A positive `float64` next to `t`. -/
structure Near64 (x : F64) (t : ℚ) : Prop where
  fin : x.finite = true
  neg : x.neg = false
  lo : t - t / 2 ^ 53 ≤ x.q
  hi : x.q ≤ t + t / 2 ^ 53

theorem near32_make {n d : Nat} {t : ℚ} (hd : 0 < d) (ht : (n : ℚ) / d = t * 2 ^ 149) (h1 : 1 / 2 ^ 126 ≤ t) (h2 : t ≤ 2 ^ 100) :
    Near32 (F32.make false (roundMag 23 n d)) t := by
  have hd' : (0 : ℚ) < d := by exact_mod_cast hd
  have hn : d * 2 ^ 23 ≤ n := by
    have : (d : ℚ) * 2 ^ 23 ≤ n := by
      rw [mul_comm, ← le_div_iff₀ hd', ht]
      calc (2 : ℚ) ^ 23 = 1 / 2 ^ 126 * 2 ^ 149 := by norm_num
        _ ≤ t * 2 ^ 149 := by apply mul_le_mul_of_nonneg_right h1; positivity
    exact_mod_cast this
  have hr := round_rel hd hn
  rw [ht, abs_le] at hr
  have hb : rnd32 n d < 2 ^ 23 * 2 ^ 254 := by
    have : (rnd32 n d : ℚ) < 2 ^ 23 * 2 ^ 254 := by
      have : (rnd32 n d : ℚ) ≤ t * 2 ^ 149 + t * 2 ^ 149 / 2 ^ (23 + 1) := by unfold rnd32; linarith [hr.2]
      calc (rnd32 n d : ℚ) ≤ t * 2 ^ 149 + t * 2 ^ 149 / 2 ^ (23 + 1) := this
        _ ≤ 2 ^ 100 * 2 ^ 149 + 2 ^ 100 * 2 ^ 149 / 2 ^ (23 + 1) := by gcongr
        _ < 2 ^ 23 * 2 ^ 254 := by norm_num
    exact_mod_cast this
  have hm : roundMag 23 n d < inf32 := by rw [inf32_eq]; exact bits_lt hb
  obtain ⟨h3, h4⟩ := make32_val (neg := false) hb
  have hq : (F32.make false (roundMag 23 n d)).q = (rnd32 n d : ℚ) / 2 ^ 149 := by
    unfold F32.q; rw [h3]; unfold signed; simp
  have hp : (0 : ℚ) < 2 ^ 149 := by positivity
  refine ⟨h4, (make32 hm).2, ?_, ?_⟩
  · rw [hq, le_div_iff₀ hp]
    have := hr.1
    unfold rnd32
    have e : (t - t / 2 ^ 24) * 2 ^ 149 = t * 2 ^ 149 - t * 2 ^ 149 / 2 ^ (23 + 1) := by ring
    rw [e]; linarith
  · rw [hq, div_le_iff₀ hp]
    have := hr.2
    unfold rnd32
    have e : (t + t / 2 ^ 24) * 2 ^ 149 = t * 2 ^ 149 + t * 2 ^ 149 / 2 ^ (23 + 1) := by ring
    rw [e]; linarith

theorem near64_make {n d : Nat} {t : ℚ} (hd : 0 < d) (ht : (n : ℚ) / d = t * 2 ^ 1074) (h1 : 1 / 2 ^ 126 ≤ t) (h2 : t ≤ 2 ^ 100) :
    Near64 (F64.make false (roundMag 52 n d)) t := by
  have hd' : (0 : ℚ) < d := by exact_mod_cast hd
  have hn : d * 2 ^ 52 ≤ n := by
    have : (d : ℚ) * 2 ^ 52 ≤ n := by
      rw [mul_comm, ← le_div_iff₀ hd', ht]
      calc (2 : ℚ) ^ 52 ≤ 1 / 2 ^ 126 * 2 ^ 1074 := by norm_num
        _ ≤ t * 2 ^ 1074 := by apply mul_le_mul_of_nonneg_right h1; positivity
    exact_mod_cast this
  have hr := round_rel hd hn
  rw [ht, abs_le] at hr
  have hb : rnd64 n d < 2 ^ 52 * 2 ^ 2046 := by
    have : (rnd64 n d : ℚ) < 2 ^ 52 * 2 ^ 2046 := by
      have : (rnd64 n d : ℚ) ≤ t * 2 ^ 1074 + t * 2 ^ 1074 / 2 ^ (52 + 1) := by unfold rnd64; linarith [hr.2]
      calc (rnd64 n d : ℚ) ≤ t * 2 ^ 1074 + t * 2 ^ 1074 / 2 ^ (52 + 1) := this
        _ ≤ 2 ^ 100 * 2 ^ 1074 + 2 ^ 100 * 2 ^ 1074 / 2 ^ (52 + 1) := by gcongr
        _ < 2 ^ 52 * 2 ^ 2046 := by norm_num
    exact_mod_cast this
  have hm : roundMag 52 n d < inf64 := by rw [inf64_eq]; exact bits_lt hb
  obtain ⟨h3, h4⟩ := make64_val (neg := false) hb
  have hq : (F64.make false (roundMag 52 n d)).q = (rnd64 n d : ℚ) / 2 ^ 1074 := by
    unfold F64.q; rw [h3]; unfold signed; simp
  have hp : (0 : ℚ) < 2 ^ 1074 := by positivity
  refine ⟨h4, (make64 hm).2, ?_, ?_⟩
  · rw [hq, le_div_iff₀ hp]
    have := hr.1
    unfold rnd64
    have e : (t - t / 2 ^ 53) * 2 ^ 1074 = t * 2 ^ 1074 - t * 2 ^ 1074 / 2 ^ (52 + 1) := by ring
    rw [e]; linarith
  · rw [hq, div_le_iff₀ hp]
    have := hr.2
    unfold rnd64
    have e : (t + t / 2 ^ 53) * 2 ^ 1074 = t * 2 ^ 1074 + t * 2 ^ 1074 / 2 ^ (52 + 1) := by ring
    rw [e]; linarith

theorem F32.q_pos {x : F32} (h : x.neg = false) : (decodeMag 23 x.mag : ℚ) = x.q * 2 ^ 149 := by
  unfold F32.q
  rw [F32.val_eq, h]
  unfold signed
  rw [div_mul_cancel₀ _ (by positivity)]
  simp

theorem F64.q_pos {x : F64} (h : x.neg = false) : (decodeMag 52 x.mag : ℚ) = x.q * 2 ^ 1074 := by
  unfold F64.q
  rw [F64.val_eq, h]
  unfold signed
  rw [div_mul_cancel₀ _ (by positivity)]
  simp

theorem near32_ofRat {n d : Nat} (hd : 0 < d) (h1 : 1 / 2 ^ 126 ≤ (n : ℚ) / d) (h2 : (n : ℚ) / d ≤ 2 ^ 100) :
    Near32 (F32.ofRat n d) (n / d) := by
  apply near32_make hd _ h1 h2
  push_cast
  ring

theorem near64_ofRat {n d : Nat} (hd : 0 < d) (h1 : 1 / 2 ^ 126 ≤ (n : ℚ) / d) (h2 : (n : ℚ) / d ≤ 2 ^ 100) :
    Near64 (F64.ofRat n d) (n / d) := by
  apply near64_make hd _ h1 h2
  rw [Nat.cast_mul, Nat.cast_pow, Nat.cast_ofNat]
  ring

theorem near32_mul {x y : F32} (hx : x.finite = true) (hy : y.finite = true) (nx : x.neg = false) (ny : y.neg = false)
    (h1 : 1 / 2 ^ 126 ≤ x.q * y.q) (h2 : x.q * y.q ≤ 2 ^ 100) : Near32 (x.mul y) (x.q * y.q) := by
  unfold F32.mul
  rw [hx, hy, nx, ny]
  apply near32_make (Nat.two_pow_pos _) _ h1 h2
  rw [Nat.cast_mul, Nat.cast_pow, Nat.cast_ofNat, F32.q_pos nx, F32.q_pos ny]
  field_simp

theorem near64_mul {x y : F64} (hx : x.finite = true) (hy : y.finite = true) (nx : x.neg = false) (ny : y.neg = false)
    (h1 : 1 / 2 ^ 126 ≤ x.q * y.q) (h2 : x.q * y.q ≤ 2 ^ 100) : Near64 (x.mul y) (x.q * y.q) := by
  unfold F64.mul
  rw [hx, hy, nx, ny]
  apply near64_make (Nat.two_pow_pos _) _ h1 h2
  rw [Nat.cast_mul, Nat.cast_pow, Nat.cast_ofNat, F64.q_pos nx, F64.q_pos ny]
  generalize (2 : ℚ) ^ 1074 = W
  by_cases h : W = 0
  · simp [h]
  · field_simp

theorem near32_div {x y : F32} (hx : x.finite = true) (hy : y.finite = true) (nx : x.neg = false) (ny : y.neg = false)
    (h0 : 0 < y.q) (h1 : 1 / 2 ^ 126 ≤ x.q / y.q) (h2 : x.q / y.q ≤ 2 ^ 100) : Near32 (x.div y) (x.q / y.q) := by
  have hd : 0 < decodeMag 23 y.mag := by
    have : (0 : ℚ) < decodeMag 23 y.mag := by rw [F32.q_pos ny]; positivity
    exact_mod_cast this
  have hm : (y.mag != 0) = true := by
    rw [bne_iff_ne]
    intro h
    rw [h] at hd
    exact absurd hd (by decide)
  unfold F32.div
  rw [hx, hy, nx, ny, hm]
  apply near32_make hd _ h1 h2
  rw [Nat.cast_mul, Nat.cast_pow, Nat.cast_ofNat, F32.q_pos nx, F32.q_pos ny]
  field_simp

theorem near64_div {x y : F64} (hx : x.finite = true) (hy : y.finite = true) (nx : x.neg = false) (ny : y.neg = false)
    (h0 : 0 < y.q) (h1 : 1 / 2 ^ 126 ≤ x.q / y.q) (h2 : x.q / y.q ≤ 2 ^ 100) : Near64 (x.div y) (x.q / y.q) := by
  have hp : (0 : ℚ) < 2 ^ 1074 := by positivity
  have hd : 0 < decodeMag 52 y.mag := by
    have : (0 : ℚ) < decodeMag 52 y.mag := by rw [F64.q_pos ny]; exact mul_pos h0 hp
    exact_mod_cast this
  have hm : (y.mag != 0) = true := by
    rw [bne_iff_ne]
    intro h
    rw [h] at hd
    exact absurd hd (by decide)
  unfold F64.div
  rw [hx, hy, nx, ny, hm]
  apply near64_make hd _ h1 h2
  rw [Nat.cast_mul, Nat.cast_pow, Nat.cast_ofNat, F64.q_pos nx, F64.q_pos ny]
  generalize (2 : ℚ) ^ 1074 = W at hp
  field_simp

theorem near32_add {x y : F32} (hx : x.finite = true) (hy : y.finite = true)
    (h1 : 1 / 2 ^ 126 ≤ x.q + y.q) (h2 : x.q + y.q ≤ 2 ^ 100) : Near32 (x.add y) (x.q + y.q) := by
  have hp : (0 : ℚ) < 2 ^ 149 := by positivity
  have e : ((x.val + y.val : Int) : ℚ) = (x.q + y.q) * 2 ^ 149 := by
    unfold F32.q; push_cast; field_simp
  have hs : 0 < x.val + y.val := by
    have : (0 : ℚ) < ((x.val + y.val : Int) : ℚ) := by
      rw [e]; apply mul_pos _ hp; apply lt_of_lt_of_le _ h1; positivity
    exact_mod_cast this
  unfold F32.add
  rw [hx, hy]
  simp only [Bool.and_self, if_true]
  rw [if_neg (by omega), decide_eq_false (by omega)]
  apply near32_make (by decide) _ h1 h2
  rw [Nat.cast_natAbs, abs_of_pos hs, e]; simp

theorem near64_sub {x y : F64} (hx : x.finite = true) (hy : y.finite = true)
    (h1 : 1 / 2 ^ 126 ≤ x.q - y.q) (h2 : x.q - y.q ≤ 2 ^ 100) : Near64 (x.sub y) (x.q - y.q) := by
  have hp : (0 : ℚ) < 2 ^ 1074 := by positivity
  have e : ((x.val - y.val : Int) : ℚ) = (x.q - y.q) * 2 ^ 1074 := by
    unfold F64.q; rw [Int.cast_sub]
    generalize (2 : ℚ) ^ 1074 = W at hp
    field_simp
  have hs : 0 < x.val - y.val := by
    have : (0 : ℚ) < ((x.val - y.val : Int) : ℚ) := by
      rw [e]; apply mul_pos _ hp; apply lt_of_lt_of_le _ h1; positivity
    exact_mod_cast this
  unfold F64.sub
  rw [hx, hy]
  simp only [Bool.and_self, if_true]
  rw [if_neg (by omega), decide_eq_false (by omega)]
  apply near64_make (by decide) _ h1 h2
  rw [Nat.cast_natAbs, abs_of_pos hs, e]; simp

theorem F32.toF64_q {x : F32} (hx : x.finite = true) (nx : x.neg = false) :
    x.toF64.q = x.q ∧ x.toF64.finite = true ∧ x.toF64.neg = false := by
  obtain ⟨h1, h2⟩ := F32.toF64_val hx
  refine ⟨?_, h2, ?_⟩
  · unfold F64.q F32.q
    rw [h1, Int.cast_mul, Int.cast_pow]
    rw [show (2 : ℚ) ^ 1074 = 2 ^ 149 * 2 ^ 925 by rw [← pow_add]]
    have hp : (0 : ℚ) < 2 ^ 149 := by positivity
    have hp' : (0 : ℚ) < 2 ^ 925 := by positivity
    rw [Int.cast_ofNat]
    generalize (2 : ℚ) ^ 149 = W at *
    generalize (2 : ℚ) ^ 925 = V at *
    field_simp
  · obtain ⟨h3, h4⟩ := F32.finite_nan hx
    unfold F32.toF64
    rw [h3, if_neg (by decide), if_neg h4, nx]
    have hb : roundMag 52 (decodeMag 23 x.mag * 2 ^ 925) 1 < inf64 := by
      unfold F64.finite F32.toF64 at h2
      rw [h3, if_neg (by decide), if_neg h4, decide_eq_true_iff, nx] at h2
      rcases Nat.lt_or_ge (roundMag 52 (decodeMag 23 x.mag * 2 ^ 925) 1) inf64 with h | h
      · exact h
      · exfalso
        rw [F64.make, Nat.min_eq_right h] at h2
        exact absurd h2 (by decide)
    exact (make64 hb).2

theorem near32_toF32 {x : F64} (hx : x.finite = true) (nx : x.neg = false) (h1 : 1 / 2 ^ 126 ≤ x.q) (h2 : x.q ≤ 2 ^ 100) :
    Near32 x.toF32 x.q := by
  obtain ⟨h3, h4⟩ := F64.finite_nan hx
  unfold F64.toF32
  rw [h3, if_neg (by decide), if_neg h4, nx]
  apply near32_make (Nat.two_pow_pos _) _ h1 h2
  rw [F64.q_pos nx, Nat.cast_pow, Nat.cast_ofNat, show (2 : ℚ) ^ 1074 = 2 ^ 149 * 2 ^ 925 by rw [← pow_add]]
  have hp' : (0 : ℚ) < 2 ^ 925 := by positivity
  generalize (2 : ℚ) ^ 925 = V at *
  field_simp

end Gltf
