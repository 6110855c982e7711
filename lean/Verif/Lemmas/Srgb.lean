/-
Bounds of the colour functions on real numbers.
-/
import Verif.Spec.Srgb
import Verif.Lemmas.ColorWhite

namespace Gltf

open Spec

set_option exponentiation.threshold 3000

/-- Rounding does not pass a number of the type. -/
theorem make_le {n d : Nat} {c : F32} (hd : 0 < d) (hc : c.finite = true) (h : n ≤ d * decodeMag 23 c.mag) :
    (F32.make false (roundMag 23 n d)).finite = true ∧ (F32.make false (roundMag 23 n d)).neg = false ∧
    decodeMag 23 (F32.make false (roundMag 23 n d)).mag ≤ decodeMag 23 c.mag := by
  obtain ⟨M, e, h1, h2⟩ := decode_form 23 c.mag
  have hle : decodeMag 23 (roundMag 23 n d) ≤ decodeMag 23 c.mag := by
    have := decode_round_mono (w := 23) hd h
    rw [h1, decode_round_exact hd h2] at this
    rw [h1]
    exact this
  have hm : roundMag 23 n d < inf32 := by
    rw [inf32_eq]
    refine bits_lt (Nat.lt_of_le_of_lt hle ?_)
    have hf : c.mag ≤ inf32 - 1 := by
      have := of_decide_eq_true hc
      omega
    exact Nat.lt_of_le_of_lt (decode_mono hf) (by decide +kernel)
  obtain ⟨g1, g2⟩ := make32 (neg := false) hm
  refine ⟨?_, g2, by rw [g1]; exact hle⟩
  unfold F32.finite
  rw [g1]
  exact decide_eq_true hm

theorem mul_le {x y c : F32} (hx : x.finite = true) (hy : y.finite = true) (nx : x.neg = false) (ny : y.neg = false)
    (hc : c.finite = true) (nc : c.neg = false) (h : x.q * y.q ≤ c.q) :
    (x.mul y).finite = true ∧ (x.mul y).neg = false ∧ (x.mul y).q ≤ c.q := by
  unfold F32.mul
  rw [hx, hy, nx, ny]
  have hh : decodeMag 23 x.mag * decodeMag 23 y.mag ≤ 2 ^ 149 * decodeMag 23 c.mag := by
    have : ((decodeMag 23 x.mag * decodeMag 23 y.mag : Nat) : ℚ) ≤ ((2 ^ 149 * decodeMag 23 c.mag : Nat) : ℚ) := by
      rw [Nat.cast_mul, Nat.cast_mul, Nat.cast_pow, Nat.cast_ofNat, F32.q_pos nx, F32.q_pos ny, F32.q_pos nc]
      have : x.q * y.q * (2 ^ 149 * 2 ^ 149) ≤ c.q * (2 ^ 149 * 2 ^ 149) := mul_le_mul_of_nonneg_right h (by positivity)
      linarith
    exact_mod_cast this
  obtain ⟨g1, g2, g3⟩ := make_le (Nat.two_pow_pos 149) hc hh
  refine ⟨g1, g2, ?_⟩
  have : ((decodeMag 23 (F32.make false (roundMag 23 (decodeMag 23 x.mag * decodeMag 23 y.mag) (2 ^ 149))).mag : Nat) : ℚ) ≤
    ((decodeMag 23 c.mag : Nat) : ℚ) := by exact_mod_cast g3
  rw [F32.q_pos g2, F32.q_pos nc] at this
  exact le_of_mul_le_mul_right this (by positivity)

theorem F32.zero_cases {x : F32} (h : x.q = 0) : x = ⟨0⟩ ∨ x = ⟨0x80000000⟩ := by
  have hv : x.val = 0 := by
    unfold F32.q at h
    rw [div_eq_zero_iff] at h
    rcases h with h | h
    · exact_mod_cast h
    · exact absurd h (by positivity)
  have hd : decodeMag 23 x.mag = 0 := by rw [← F32.natAbs_val, hv]; rfl
  have hm : x.mag = 0 := by
    by_contra hne
    have := decode_mono (w := 23) (show 1 ≤ x.mag by omega)
    rw [hd] at this
    exact absurd this (by decide)
  unfold F32.mag at hm
  have hb := x.bits.toNat_lt
  obtain ⟨b⟩ := x
  have : b.toNat = 0 ∨ b.toNat = 2 ^ 31 := by simp only at hm hb; omega
  rcases this with e | e
  · left; congr; exact UInt32.toNat_inj.1 e
  · right; congr; exact UInt32.toNat_inj.1 e

theorem F32.pos_neg {x : F32} (h : 0 < x.q) : x.neg = false := by
  by_contra hn
  have hn : x.neg = true := by simpa using hn
  unfold F32.q at h
  rw [F32.val_eq, hn] at h
  have : (signed true (decodeMag 23 x.mag) : Int) ≤ 0 := by simp [signed]
  have h2 : ((signed true (decodeMag 23 x.mag) : Int) : ℚ) ≤ 0 := by exact_mod_cast this
  have : ((signed true (decodeMag 23 x.mag) : Int) : ℚ) / 2 ^ 149 ≤ 0 := div_nonpos_of_nonpos_of_nonneg h2 (by positivity)
  linarith

theorem F32.q_nonneg {x : F32} (h : x.neg = false) : 0 ≤ x.q := by
  have h1 := F32.q_pos h
  have h2 : (0 : ℚ) ≤ (decodeMag 23 x.mag : ℚ) := Nat.cast_nonneg _
  rw [h1] at h2
  exact nonneg_of_mul_nonneg_left h2 (by positivity)

theorem small_q : (⟨0x00800000⟩ : F32).q = 1 / 2 ^ 126 := by
  unfold F32.q
  rw [show (⟨0x00800000⟩ : F32).val = 2 ^ 23 by decide +kernel]
  norm_num

/-- Scaling a number of the unit interval. -/
theorem scale_q {w : F32} {K : Nat} (hK : 1 ≤ K) (hK2 : K < 2 ^ 16) (fw : w.finite = true) (nw : w.neg = false) (h1 : w.q ≤ 1) :
    (w.mul (F32.ofNat K)).finite = true ∧ (w.mul (F32.ofNat K)).neg = false ∧ (w.mul (F32.ofNat K)).q ≤ K ∧
    |(w.mul (F32.ofNat K)).q - w.q * K| ≤ K / 2 ^ 24 := by
  obtain ⟨k1, k2, k3⟩ := F32.ofNat_q (n := K) (by omega)
  have hq : (1 : ℚ) ≤ K := by exact_mod_cast hK
  have hq2 : (K : ℚ) ≤ 2 ^ 16 := by exact_mod_cast hK2.le
  have hw := F32.q_nonneg nw
  have hle : w.q * (F32.ofNat K).q ≤ (F32.ofNat K).q := by rw [k1]; nlinarith
  obtain ⟨g1, g2, g3⟩ := mul_le fw k2 nw k3 k2 k3 hle
  rw [k1] at hle g3
  refine ⟨g1, g2, g3, ?_⟩
  have hz := F32.q_nonneg g2
  by_cases hs : 1 / 2 ^ 126 ≤ w.q * K
  · obtain ⟨-, -, a1, a2⟩ := near32_mul fw k2 nw k3 (by rw [k1]; exact hs) (by rw [k1]; linarith [show (2 : ℚ) ^ 16 ≤ 2 ^ 100 by norm_num])
    rw [k1] at a1 a2
    have : w.q * K / 2 ^ 24 ≤ K / 2 ^ 24 := by gcongr
    rw [abs_le]
    constructor <;> linarith
  · obtain ⟨-, -, a1⟩ := mul_le (c := ⟨0x00800000⟩) fw k2 nw k3 (by decide +kernel) (by decide +kernel)
      (by rw [k1, small_q]; exact le_of_not_ge hs)
    rw [small_q] at a1
    have h0 : (0 : ℚ) ≤ w.q * K := by positivity
    have hs := not_le.1 hs
    have : (1 : ℚ) / 2 ^ 126 ≤ K / 2 ^ 24 := by
      rw [div_le_div_iff₀ (by positivity) (by positivity)]
      have : (2 : ℚ) ^ 24 ≤ 2 ^ 126 := by norm_num
      nlinarith
    rw [abs_le]
    constructor <;> linarith

theorem floor_arith {n z w K t : ℝ} (hK : 1 ≤ K) (r1 : n ≤ z) (r2 : z < n + 1) (r3 : -(K / 2 ^ 24) ≤ z - w * K)
    (r4 : z - w * K ≤ K / 2 ^ 24) (ht : |w - t| ≤ 1 / 2 ^ 22) : n ≤ K * (t + 1 / 2 ^ 21) ∧ K * (t - 1 / 2 ^ 21) < n + 1 := by
  rw [abs_le] at ht
  obtain ⟨t1, t2⟩ := ht
  have m1 : K * (w - t) ≤ K * (1 / 2 ^ 22) := mul_le_mul_of_nonneg_left t2 (by linarith)
  have m2 : K * (-(1 / 2 ^ 22)) ≤ K * (w - t) := mul_le_mul_of_nonneg_left t1 (by linarith)
  norm_num at *
  constructor <;> linarith

theorem floor_q {w : F32} {K : Nat} {t : ℝ} (hK : 1 ≤ K) (hK2 : K < 2 ^ 16) (fw : w.finite = true) (nw : w.neg = false)
    (h1 : w.q ≤ 1) (ht : |(w.q : ℝ) - t| ≤ 1 / 2 ^ 22) :
    ∃ n, (w.mul (F32.ofNat K)).truncTo K = some n ∧ Floor K t n := by
  obtain ⟨g1, g2, g3, g4⟩ := scale_q hK hK2 fw nw h1
  generalize w.mul (F32.ofNat K) = z at *
  have hz := F32.q_nonneg g2
  have f1 := Nat.floor_le hz
  have f2 := Nat.lt_floor_add_one z.q
  have hn : ⌊z.q⌋₊ ≤ K := by
    have : (⌊z.q⌋₊ : ℚ) ≤ K := le_trans f1 g3
    exact_mod_cast this
  refine ⟨⌊z.q⌋₊, F32.truncTo_q g1 g2 f1 f2 hn, hn, ?_⟩
  have r1 : ((⌊z.q⌋₊ : ℕ) : ℝ) ≤ (z.q : ℝ) := by exact_mod_cast f1
  have r2 : (z.q : ℝ) < ((⌊z.q⌋₊ : ℕ) : ℝ) + 1 := by exact_mod_cast f2
  rw [abs_le] at g4
  obtain ⟨g4, g5⟩ := g4
  have r3 : -((K : ℝ) / 2 ^ 24) ≤ (z.q : ℝ) - w.q * K := by
    have : ((-(K / 2 ^ 24) : ℚ) : ℝ) ≤ ((z.q - w.q * K : ℚ) : ℝ) := by exact_mod_cast g4
    push_cast at this
    exact this
  have r4 : (z.q : ℝ) - w.q * K ≤ (K : ℝ) / 2 ^ 24 := by
    have : ((z.q - w.q * K : ℚ) : ℝ) ≤ ((K / 2 ^ 24 : ℚ) : ℝ) := by exact_mod_cast g5
    push_cast at this
    exact this
  have hK' : (1 : ℝ) ≤ K := by exact_mod_cast hK
  exact floor_arith hK' r1 r2 r3 r4 ht

theorem root12 {x : ℝ} (h : 0 ≤ x) : (x ^ ((1 : ℝ) / 2.4)) ^ 12 = x ^ 5 := by
  rw [← Real.rpow_natCast, ← Real.rpow_mul h, ← Real.rpow_natCast]
  norm_num

theorem root_close {h r d : ℝ} (hh : 0 ≤ h) (hr : 0 ≤ r) (hd : 0 ≤ d) (hd1 : d ≤ 1) (h1 : h ^ 12 ≤ r ^ 12 * (1 + d))
    (h2 : r ^ 12 * (1 - d) ≤ h ^ 12) : |h - r| ≤ r * d := by
  have hp : 0 ≤ r ^ 12 := by positivity
  have a1 : h ≤ r * (1 + d) := by
    refine le_of_pow_le_pow_left₀ (n := 12) (by decide) (by positivity) (le_trans h1 ?_)
    rw [mul_pow]
    exact mul_le_mul_of_nonneg_left (le_self_pow₀ (by linarith) (by decide)) hp
  have a2 : r * (1 - d) ≤ h := by
    refine le_of_pow_le_pow_left₀ (n := 12) (by decide) hh (le_trans ?_ h2)
    rw [mul_pow]
    exact mul_le_mul_of_nonneg_left (pow_le_of_le_one (by linarith) (by linarith) (by decide)) hp
  rw [abs_le]
  constructor <;> linarith

/-- The result of `deliniarize` is not above one. -/
theorem deliniarize_le_one {pow : Pow} (hp : Spec.PowAccurate pow) {e : F32} (fe : e.finite = true) (ne : e.neg = false)
    (hge : (F32.ofRat 31308 10000000).q ≤ e.q) (h1 : e.q ≤ 1) : (deliniarize pow e).q ≤ 1 := by
  have hl1 := kDelin.lo
  unfold deliniarize
  rw [F32.lt_q fe kDelin.fin, decide_eq_false (not_lt.2 hge), if_neg (by decide)]
  obtain ⟨c1, c2, c3⟩ := F32.toF64_q fe ne
  have he0 : 0.003 ≤ e.q := by norm_num at hl1 ⊢; linarith
  obtain ⟨e1, e2, e3⟩ := hp.down e.toF64 c2 (by rw [c1]; norm_num at he0 ⊢; linarith) (by rw [c1]; linarith)
  rw [c1] at e3
  generalize pow e.toF64 (F64.ofRat 10 24) = r at *
  rw [abs_le] at e3
  have hrn := F64.q_nonneg e2
  have hx1 : e.q ^ 5 ≤ 1 := pow_le_one₀ (by linarith) h1
  have hx2 : (0.003 : ℚ) ^ 5 ≤ e.q ^ 5 := pow_le_pow_left₀ (by norm_num) he0 5
  generalize e.q ^ 5 = X at *
  have hr1 : 0.08 ≤ r.q := by
    by_contra hlt
    have : r.q ^ 12 ≤ (0.08 : ℚ) ^ 12 := pow_le_pow_left₀ hrn (le_of_lt (not_le.1 hlt)) 12
    norm_num at this e3 hx2
    linarith
  have hr2 : r.q ≤ 1 + 1 / 2 ^ 40 := by
    by_contra hlt
    have : (1 + 1 / 2 ^ 40 : ℚ) ^ 12 ≤ r.q ^ 12 := pow_le_pow_left₀ (by norm_num) (le_of_lt (not_le.1 hlt)) 12
    norm_num at this e3
    linarith
  have hk1 := kScale.lo
  have hk2 := kScale.hi
  have hm1 : 0.08 ≤ (F64.ofRat 1055 1000).q * r.q := by nlinarith
  have hm2 : (F64.ofRat 1055 1000).q * r.q ≤ 1.055 + 2 / 2 ^ 40 := by
    have : (F64.ofRat 1055 1000).q * r.q ≤ (1055 / 1000 + 1055 / 1000 / 2 ^ 53) * (1 + 1 / 2 ^ 40) :=
      mul_le_mul hk2 hr2 hrn (by norm_num)
    norm_num at this ⊢
    linarith
  have hi := near64_mul kScale.fin e1 kScale.neg e2 (by norm_num at hm1 ⊢; linarith) (by norm_num at hm2 ⊢; linarith)
  generalize (F64.ofRat 1055 1000) = k at *
  generalize k.q * r.q = kr at *
  generalize k.mul r = i at *
  obtain ⟨i1, i2, i3, i4⟩ := hi
  have hs1 := kShift64.lo
  have hs2 := kShift64.hi
  have hj := near64_sub i1 kShift64.fin (by norm_num at *; linarith) (by norm_num at *; linarith)
  generalize (F64.ofRat 55 1000) = s at *
  generalize i.sub s = j at *
  obtain ⟨j1, j2, j3, j4⟩ := hj
  have hj : j.q ≤ 1 + 1 / 2 ^ 38 := by norm_num at *; linarith
  have := toF32_le j1 j2 (n := 2 ^ 50 + 2 ^ 12) (m := 2 ^ 50) (by norm_num at hj ⊢; linarith) (by decide) (by decide +kernel)
  norm_num at this ⊢
  linarith

theorem delin_const_q : (F32.ofRat 31308 10000000).q = 13446684 / 2 ^ 32 := by
  unfold F32.q
  rw [show (F32.ofRat 31308 10000000).val = 13446684 * 2 ^ 117 by decide +kernel]
  norm_num

/-- There is no number of the type between the bound of the code and the bound of sRGB. -/
theorem below_const {x : F32} (nx : x.neg = false) (h : x.q < (F32.ofRat 31308 10000000).q) :
    x.q ≤ 31308 / 10000000 := by
  have hc : (F32.ofRat 31308 10000000).neg = false := kDelin.neg
  have hlt : x.mag < (F32.ofRat 31308 10000000).mag := by
    by_contra hge
    have := decode_mono (w := 23) (not_lt.1 hge)
    have h2 : ((decodeMag 23 (F32.ofRat 31308 10000000).mag : Nat) : ℚ) ≤ ((decodeMag 23 x.mag : Nat) : ℚ) := by exact_mod_cast this
    rw [F32.q_pos nx, F32.q_pos hc] at h2
    have := le_of_mul_le_mul_right h2 (by positivity)
    linarith
  have hle : x.mag ≤ (F32.ofRat 31308 10000000).mag - 1 := by omega
  have h1 := decode_mono (w := 23) hle
  rw [show decodeMag 23 ((F32.ofRat 31308 10000000).mag - 1) = 13446683 * 2 ^ 117 by decide +kernel] at h1
  have h2 : ((decodeMag 23 x.mag : Nat) : ℚ) ≤ ((13446683 * 2 ^ 117 : Nat) : ℚ) := by exact_mod_cast h1
  rw [F32.q_pos nx] at h2
  rw [← mul_le_mul_iff_of_pos_right (show (0 : ℚ) < 2 ^ 149 by positivity)]
  refine le_trans h2 ?_
  norm_num

/-- The result of `deliniarize` is the sRGB value. -/
theorem deliniarize_srgb {pow : Pow} (hp : Spec.PowAccurate pow) {x : F32} (fx : x.finite = true) (nx : x.neg = false) (h1 : x.q ≤ 1) :
    (deliniarize pow x).finite = true ∧ (deliniarize pow x).neg = false ∧ (deliniarize pow x).q ≤ 1 ∧
    |((deliniarize pow x).q : ℝ) - srgb x.q| ≤ 1 / 2 ^ 22 := by
  by_cases hl : x.q < (F32.ofRat 31308 10000000).q
  · have hb := below_const nx hl
    have hbr : (x.q : ℝ) ≤ 0.0031308 := by
      have : (x.q : ℝ) ≤ ((31308 / 10000000 : ℚ) : ℝ) := by exact_mod_cast hb
      push_cast at this
      norm_num at this ⊢
      linarith
    unfold srgb
    rw [if_pos hbr]
    have h0 := F32.q_nonneg nx
    by_cases hs : 1 / 2 ^ 26 ≤ x.q
    · obtain ⟨a1, a2, a3, a4⟩ := deliniarize_low (pow := pow) fx nx hs hl
      refine ⟨a1, a2, by norm_num at *; linarith, ?_⟩
      have b3 : ((deliniarize pow x).q : ℝ) ≤ ((12.92 * x.q * (1 + 1 / 2 ^ 22) : ℚ) : ℝ) := by exact_mod_cast a3
      have b4 : ((12.92 * x.q * (1 - 1 / 2 ^ 22) : ℚ) : ℝ) ≤ ((deliniarize pow x).q : ℝ) := by exact_mod_cast a4
      push_cast at b3 b4
      rw [abs_le]
      norm_num at *
      constructor <;> linarith
    · have hs := not_le.1 hs
      have hk2 := kSlope.hi
      have hd : deliniarize pow x = x.mul (F32.ofRat 1292 100) := by
        unfold deliniarize
        rw [F32.lt_q fx kDelin.fin, decide_eq_true hl, if_pos rfl]
      rw [hd]
      have hsm : (⟨0x34800000⟩ : F32).q = 1 / 2 ^ 22 := by
        unfold F32.q
        rw [show (⟨0x34800000⟩ : F32).val = 2 ^ 127 by decide +kernel]
        norm_num
      obtain ⟨a1, a2, a3⟩ := mul_le (c := ⟨0x34800000⟩) fx kSlope.fin nx kSlope.neg (by decide +kernel) (by decide +kernel) (by
        rw [hsm]
        have : x.q * (F32.ofRat 1292 100).q ≤ 1 / 2 ^ 26 * (1292 / 100 + 1292 / 100 / 2 ^ 24) :=
          mul_le_mul hs.le hk2 (F32.q_nonneg kSlope.neg) (by positivity)
        norm_num at this ⊢
        linarith)
      rw [hsm] at a3
      have a0 := F32.q_nonneg a2
      refine ⟨a1, a2, by norm_num at *; linarith, ?_⟩
      have b0 : (0 : ℝ) ≤ ((x.mul (F32.ofRat 1292 100)).q : ℝ) := by exact_mod_cast a0
      have b3 : ((x.mul (F32.ofRat 1292 100)).q : ℝ) ≤ ((1 / 2 ^ 22 : ℚ) : ℝ) := by exact_mod_cast a3
      have c0 : (0 : ℝ) ≤ (x.q : ℝ) := by exact_mod_cast h0
      have c3 : (x.q : ℝ) ≤ ((1 / 2 ^ 26 : ℚ) : ℝ) := by exact_mod_cast hs.le
      push_cast at b3 c3
      rw [abs_le]
      norm_num at b3 c3 ⊢
      constructor <;> linarith
  · have hge := not_lt.1 hl
    have hone := deliniarize_le_one hp fx nx hge h1
    obtain ⟨a1, a2, h, a3, a4, a5, a6⟩ := deliniarize_high hp fx nx hge (by norm_num; linarith)
    refine ⟨a1, a2, hone, ?_⟩
    have hgt : (0.0031308 : ℚ) < x.q := by
      refine lt_of_lt_of_le ?_ hge
      rw [delin_const_q]
      norm_num
    have hgr : ¬ (x.q : ℝ) ≤ 0.0031308 := by
      rw [not_le]
      have : ((0.0031308 : ℚ) : ℝ) < (x.q : ℝ) := by exact_mod_cast hgt
      push_cast at this
      norm_num at this ⊢
      linarith
    unfold srgb
    rw [if_neg hgr]
    have hx0 : (0 : ℝ) ≤ (x.q : ℝ) := by
      rw [not_le] at hgr
      norm_num at hgr
      linarith
    have hx1 : (x.q : ℝ) ≤ 1 := by exact_mod_cast h1
    have hr := root12 hx0
    have hr0 : 0 ≤ (x.q : ℝ) ^ ((1 : ℝ) / 2.4) := Real.rpow_nonneg hx0 _
    have hr1 : (x.q : ℝ) ^ ((1 : ℝ) / 2.4) ≤ 1 := Real.rpow_le_one hx0 hx1 (by norm_num)
    generalize (x.q : ℝ) ^ ((1 : ℝ) / 2.4) = r at *
    have b3 : (0 : ℝ) ≤ (h : ℝ) := by exact_mod_cast a3
    have b5 : (h : ℝ) ^ 12 ≤ r ^ 12 * (1 + 1 / 2 ^ 40) := by
      rw [hr]
      have : ((h ^ 12 : ℚ) : ℝ) ≤ ((x.q ^ 5 * (1 + 1 / 2 ^ 40) : ℚ) : ℝ) := by exact_mod_cast a5
      push_cast at this
      exact this
    have b6 : r ^ 12 * (1 - 1 / 2 ^ 40) ≤ (h : ℝ) ^ 12 := by
      rw [hr]
      have : ((x.q ^ 5 * (1 - 1 / 2 ^ 40) : ℚ) : ℝ) ≤ ((h ^ 12 : ℚ) : ℝ) := by exact_mod_cast a6
      push_cast at this
      exact this
    have hc := root_close b3 hr0 (by norm_num) (by norm_num) b5 b6
    rw [abs_le] at a4
    obtain ⟨a4, a4'⟩ := a4
    have b4 : ((-(1 / 2 ^ 23) : ℚ) : ℝ) ≤ (((deliniarize pow x).q - (1.055 * h - 0.055) : ℚ) : ℝ) := by exact_mod_cast a4
    have b4' : (((deliniarize pow x).q - (1.055 * h - 0.055) : ℚ) : ℝ) ≤ ((1 / 2 ^ 23 : ℚ) : ℝ) := by exact_mod_cast a4'
    push_cast at b4 b4'
    have hc : |(h : ℝ) - r| ≤ 1 / 2 ^ 40 := le_trans hc (mul_le_of_le_one_left (by norm_num) hr1)
    clear b5 b6 hr a5 a6
    rw [abs_le] at hc ⊢
    norm_num at b4 b4' hc ⊢
    constructor <;> linarith

/-- The channels. -/
theorem encodeChannel_srgb {pow : Pow} (hp : Spec.PowAccurate pow) {K : Nat} (hK : K = 255 ∨ K = 65535) {x : F32}
    (fx : x.finite = true) (h0 : 0 ≤ x.q) (h1 : x.q ≤ 1) : ∃ n, encodeChannel pow K x = some n ∧ Floor K (srgb x.q) n := by
  have hz : Floor K (srgb ((0 : ℚ) : ℝ)) 0 := by
    unfold srgb Floor
    rw [if_pos (by norm_num)]
    rcases hK with rfl | rfl <;> norm_num
  rcases eq_or_lt_of_le h0 with h | h
  · refine ⟨0, ?_, by rw [← h]; exact hz⟩
    rcases F32.zero_cases h.symm with rfl | rfl
    · exact encodeChannel_zero pow hK
    · unfold encodeChannel deliniarize
      rw [show (⟨0x80000000⟩ : F32).lt (F32.ofRat 31308 10000000) = true by decide +kernel, if_pos rfl]
      rcases hK with rfl | rfl <;> decide +kernel
  · obtain ⟨a1, a2, a3, a4⟩ := deliniarize_srgb hp fx (F32.pos_neg h) h1
    exact floor_q (by rcases hK with rfl | rfl <;> decide) (by rcases hK with rfl | rfl <;> decide) a1 a2 a3 a4

theorem encodeAlpha_floor {K : Nat} (hK : K = 255 ∨ K = 65535) {x : F32}
    (fx : x.finite = true) (h0 : 0 ≤ x.q) (h1 : x.q ≤ 1) : ∃ n, encodeAlpha K x = some n ∧ Floor K x.q n := by
  rcases eq_or_lt_of_le h0 with h | h
  · refine ⟨0, ?_, ?_⟩
    · rcases F32.zero_cases h.symm with rfl | rfl <;> rcases hK with rfl | rfl <;> decide +kernel
    · rw [← h]
      rcases hK with rfl | rfl <;> norm_num [Floor]
  · exact floor_q (by rcases hK with rfl | rfl <;> decide) (by rcases hK with rfl | rfl <;> decide) fx (F32.pos_neg h) h1 (by
      rw [sub_self, abs_zero]; positivity)

theorem power5 {s : ℝ} (h : 0 ≤ s) : (s ^ (2.4 : ℝ)) ^ 5 = s ^ 12 := by
  rw [← Real.rpow_natCast, ← Real.rpow_mul h, ← Real.rpow_natCast]
  norm_num

theorem lin_close {l y s c : ℝ} (hl : 0 ≤ l) (hy : 0 ≤ y) (hs : 0.09 ≤ s) (hys : y ≤ s) (hs1 : s ≤ 1)
    (h5 : y ^ 5 = s ^ 12) (hc : |c - s| ≤ 1.2 / 2 ^ 22) (h1 : l ^ 5 ≤ c ^ 12 * (1 + 1 / 2 ^ 20))
    (h2 : c ^ 12 * (1 - 1 / 2 ^ 20) ≤ l ^ 5) : |l - y| ≤ 1 / 2 ^ 20 := by
  have hs0 : 0 < s := by linarith
  obtain ⟨u, hu⟩ : ∃ u, u = 1.2 / 2 ^ 22 / s := ⟨_, rfl⟩
  have hus : s * u = 1.2 / 2 ^ 22 := by rw [hu]; field_simp
  have hu0 : 0 ≤ u := by rw [hu]; positivity
  have hu1 : u ≤ 1 / 2 ^ 18 := by
    rw [hu, div_le_iff₀ hs0]
    norm_num at *
    linarith
  rw [abs_le] at hc
  have c1 : c ≤ s * (1 + u) := by rw [mul_add, hus]; linarith
  have c2 : s * (1 - u) ≤ c := by rw [mul_sub, hus]; linarith
  have hc0 : 0 ≤ c := le_trans (by apply mul_nonneg hs0.le; norm_num at hu1; linarith) c2
  have p1 : c ^ 12 ≤ s ^ 12 * (1 + u) ^ 12 := by rw [← mul_pow]; exact pow_le_pow_left₀ hc0 c1 12
  have p2 : s ^ 12 * (1 - u) ^ 12 ≤ c ^ 12 := by
    rw [← mul_pow]; exact pow_le_pow_left₀ (by apply mul_nonneg hs0.le; norm_num at hu1; linarith) c2 12
  have hS : 0 ≤ s ^ 12 := by positivity
  have hy5 : 0 ≤ y ^ 5 := by positivity
  obtain ⟨ρ, hρ⟩ : ∃ ρ, ρ = 2.5 * u + 1 / 2 ^ 22 := ⟨_, rfl⟩
  have hρ0 : 0 ≤ ρ := by rw [hρ]; positivity
  have hρ1 : ρ ≤ 1 / 2 ^ 16 := by rw [hρ]; norm_num at *; linarith
  have q1 : (1 + u) ^ 12 ≤ 1 + 12.02 * u := by
    have e : (1 + u) ^ 12 = 1 + 12 * u + u * (u * (66 + 220 * u + 495 * u ^ 2 + 792 * u ^ 3 + 924 * u ^ 4 + 792 * u ^ 5 + 495 * u ^ 6
      + 220 * u ^ 7 + 66 * u ^ 8 + 12 * u ^ 9 + u ^ 10)) := by ring
    have hu' : u ≤ 1 := le_trans hu1 (by norm_num)
    have : 66 + 220 * u + 495 * u ^ 2 + 792 * u ^ 3 + 924 * u ^ 4 + 792 * u ^ 5 + 495 * u ^ 6
      + 220 * u ^ 7 + 66 * u ^ 8 + 12 * u ^ 9 + u ^ 10 ≤ 4096 - 13 := by
      have k (n : Nat) : u ^ n ≤ 1 := pow_le_one₀ hu0 hu'
      linarith [k 2, k 3, k 4, k 5, k 6, k 7, k 8, k 9, k 10]
    rw [e]
    have : u * (66 + 220 * u + 495 * u ^ 2 + 792 * u ^ 3 + 924 * u ^ 4 + 792 * u ^ 5 + 495 * u ^ 6
      + 220 * u ^ 7 + 66 * u ^ 8 + 12 * u ^ 9 + u ^ 10) ≤ 1 / 2 ^ 18 * (4096 - 13) := mul_le_mul hu1 this (by positivity) (by positivity)
    have := mul_le_mul_of_nonneg_left this hu0
    norm_num at this ⊢
    linarith
  have q2 : 1 - 12 * u ≤ (1 - u) ^ 12 := by
    have := one_add_mul_le_pow (a := -u) (by norm_num at hu1; linarith) 12
    rw [← sub_eq_add_neg] at this
    push_cast at this
    linarith
  have q3 : 1 + 5 * ρ ≤ (1 + ρ) ^ 5 := by
    have := one_add_mul_le_pow (a := ρ) (by linarith) 5
    push_cast at this
    linarith
  have q4 : (1 - ρ) ^ 5 ≤ 1 - 5 * ρ + 10 * ρ ^ 2 := by
    have e : (1 - ρ) ^ 5 = 1 - 5 * ρ + 10 * ρ ^ 2 - ρ ^ 3 * (10 - 5 * ρ + ρ ^ 2) := by ring
    rw [e]
    have : 0 ≤ ρ ^ 3 * (10 - 5 * ρ + ρ ^ 2) := by
      apply mul_nonneg (by positivity)
      have : 0 ≤ ρ ^ 2 := by positivity
      norm_num at hρ1
      linarith
    linarith
  have r1 : (1 + u) ^ 12 * (1 + 1 / 2 ^ 20) ≤ (1 + ρ) ^ 5 := by
    refine le_trans (mul_le_mul_of_nonneg_right q1 (by norm_num)) (le_trans ?_ q3)
    rw [hρ]
    norm_num at *
    linarith
  have r2 : (1 - ρ) ^ 5 ≤ (1 - u) ^ 12 * (1 - 1 / 2 ^ 20) := by
    refine le_trans q4 (le_trans ?_ (mul_le_mul_of_nonneg_right q2 (by norm_num)))
    have : ρ ^ 2 ≤ ρ * (1 / 2 ^ 16) := by rw [pow_two]; exact mul_le_mul_of_nonneg_left hρ1 hρ0
    rw [hρ] at *
    norm_num at *
    linarith
  have a1 : l ≤ y * (1 + ρ) := by
    refine le_of_pow_le_pow_left₀ (n := 5) (by decide) (by positivity) (le_trans h1 ?_)
    rw [mul_pow, h5]
    calc c ^ 12 * (1 + 1 / 2 ^ 20) ≤ s ^ 12 * (1 + u) ^ 12 * (1 + 1 / 2 ^ 20) := mul_le_mul_of_nonneg_right p1 (by norm_num)
      _ = s ^ 12 * ((1 + u) ^ 12 * (1 + 1 / 2 ^ 20)) := mul_assoc _ _ _
      _ ≤ _ := mul_le_mul_of_nonneg_left r1 hS
  have a2 : y * (1 - ρ) ≤ l := by
    refine le_of_pow_le_pow_left₀ (n := 5) (by decide) hl (le_trans ?_ h2)
    rw [mul_pow, h5]
    calc s ^ 12 * (1 - ρ) ^ 5 ≤ s ^ 12 * ((1 - u) ^ 12 * (1 - 1 / 2 ^ 20)) := mul_le_mul_of_nonneg_left r2 hS
      _ = s ^ 12 * (1 - u) ^ 12 * (1 - 1 / 2 ^ 20) := (mul_assoc _ _ _).symm
      _ ≤ _ := mul_le_mul_of_nonneg_right p2 (by norm_num)
  have b : y * ρ ≤ 4 / 2 ^ 22 := by
    have e1 : y * u ≤ s * u := mul_le_mul_of_nonneg_right hys hu0
    have e2 : y * (1 / 2 ^ 22) ≤ 1 * (1 / 2 ^ 22) := mul_le_mul_of_nonneg_right (le_trans hys hs1) (by positivity)
    rw [hρ]
    rw [hus] at e1
    norm_num at *
    linarith
  rw [abs_le]
  norm_num at b ⊢
  constructor <;> linarith

theorem lin_const_q : (F32.ofRat 4045 100000).q = 10858214 / 2 ^ 28 := by
  unfold F32.q
  rw [show (F32.ofRat 4045 100000).val = 10858214 * 2 ^ 121 by decide +kernel]
  norm_num

/-- The numbers of a channel are decoded to linear light. -/
theorem decodeChannel_linear {pow : Pow} (hp : Spec.PowAccurate pow) {K v : Nat} (hK : K = 255 ∨ K = 65535) (hv : v ≤ K) :
    (decodeChannel pow K v).finite = true ∧ |((decodeChannel pow K v).q : ℝ) - linear (v / K)| ≤ 1 / 2 ^ 20 := by
  rcases Nat.eq_zero_or_pos v with rfl | hv0
  · rw [decodeChannel_zero pow hK]
    refine ⟨by decide +kernel, ?_⟩
    rw [show (⟨0⟩ : F32).q = 0 by unfold F32.q; rw [show (⟨0⟩ : F32).val = 0 by decide +kernel]; norm_num]
    unfold linear
    norm_num
  · have hK2 : K < 2 ^ 16 := by rcases hK with rfl | rfl <;> decide
    have ha := decodeAlpha_near hK2 hv0 hv
    have hch := chan_decodeAlpha hK2 hv0 hv
    change (linearize pow (decodeAlpha K v)).finite = true ∧ |((linearize pow (decodeAlpha K v)).q : ℝ) - linear (v / K)| ≤ 1 / 2 ^ 20
    generalize decodeAlpha K v = a at *
    have hKr : (0 : ℝ) < K := by rcases hK with rfl | rfl <;> norm_num
    have hKq : (0 : ℚ) < K := by rcases hK with rfl | rfl <;> norm_num
    obtain ⟨t, ht⟩ : ∃ t : ℚ, t = (v : ℚ) / K := ⟨_, rfl⟩
    have htr : ((v : ℝ) / K) = (t : ℝ) := by rw [ht]; push_cast; rfl
    rw [htr]
    have ht0 : 0 < t := by rw [ht]; positivity
    have ht1 : t ≤ 1 := by rw [ht, div_le_one hKq]; exact_mod_cast hv
    -- there is no channel next to the bound
    have hgap : t ≤ 0.04044 ∨ 0.04045 + 1 / 10 ^ 6 ≤ t := by
      rcases hK with rfl | rfl
      · rcases Nat.lt_or_ge v 11 with h | h
        · left
          have : (v : ℚ) ≤ 10 := by exact_mod_cast (by omega : v ≤ 10)
          rw [ht, div_le_iff₀ hKq]
          norm_num
          linarith
        · right
          have : (11 : ℚ) ≤ v := by exact_mod_cast h
          rw [ht, le_div_iff₀ hKq]
          norm_num
          linarith
      · rcases Nat.lt_or_ge v 2651 with h | h
        · left
          have : (v : ℚ) ≤ 2650 := by exact_mod_cast (by omega : v ≤ 2650)
          rw [ht, div_le_iff₀ hKq]
          norm_num
          linarith
        · right
          have : (2651 : ℚ) ≤ v := by exact_mod_cast h
          rw [ht, le_div_iff₀ hKq]
          norm_num
          linarith
    rw [← ht] at ha
    obtain ⟨-, -, a1, a2⟩ := ha
    clear ht htr hv hv0 hK hK2
    have hk := lin_const_q
    unfold linear
    rcases hgap with hg | hg
    · obtain ⟨b1, b2, b3, b4⟩ := linearize_low (pow := pow) hch (by rw [hk]; norm_num at *; linarith)
      refine ⟨b1, ?_⟩
      generalize (linearize pow a).q = l at *
      have hle : l ≤ t / 12.92 + 1 / 2 ^ 20 := by norm_num at *; linarith
      have hge : t / 12.92 - 1 / 2 ^ 20 ≤ l := by norm_num at *; linarith
      have c0 : (t : ℝ) ≤ ((0.04044 : ℚ) : ℝ) := by exact_mod_cast hg
      have c1 : (l : ℝ) ≤ ((t / 12.92 + 1 / 2 ^ 20 : ℚ) : ℝ) := by exact_mod_cast hle
      have c2 : ((t / 12.92 - 1 / 2 ^ 20 : ℚ) : ℝ) ≤ (l : ℝ) := by exact_mod_cast hge
      push_cast at c0 c1 c2
      rw [if_pos (by norm_num at c0 ⊢; linarith), abs_le]
      constructor <;> linarith
    · obtain ⟨b1, b2, b3, c, b4, b5, b6⟩ := linearize_high hp hch (by rw [hk]; norm_num at *; linarith)
      refine ⟨b1, ?_⟩
      generalize (linearize pow a).q = l at *
      rw [abs_le] at b4
      have hle : c - (t + 0.055) / 1.055 ≤ 1.2 / 2 ^ 22 := by norm_num at *; linarith
      have hge : -(1.2 / 2 ^ 22) ≤ c - (t + 0.055) / 1.055 := by norm_num at *; linarith
      have c0 : ((0.04045 + 1 / 10 ^ 6 : ℚ) : ℝ) ≤ (t : ℝ) := by exact_mod_cast hg
      have c1 : (t : ℝ) ≤ 1 := by exact_mod_cast ht1
      have c2 : ((c - (t + 0.055) / 1.055 : ℚ) : ℝ) ≤ ((1.2 / 2 ^ 22 : ℚ) : ℝ) := by exact_mod_cast hle
      have c3 : ((-(1.2 / 2 ^ 22) : ℚ) : ℝ) ≤ ((c - (t + 0.055) / 1.055 : ℚ) : ℝ) := by exact_mod_cast hge
      have c4 : ((l ^ 5 : ℚ) : ℝ) ≤ ((c ^ 12 * (1 + 1 / 2 ^ 20) : ℚ) : ℝ) := by exact_mod_cast b5
      have c5 : ((c ^ 12 * (1 - 1 / 2 ^ 20) : ℚ) : ℝ) ≤ ((l ^ 5 : ℚ) : ℝ) := by exact_mod_cast b6
      have c6 : (0 : ℝ) ≤ (l : ℝ) := by exact_mod_cast b3
      push_cast at c0 c2 c3 c4 c5
      rw [if_neg (by norm_num at c0 ⊢; linarith)]
      have s0 : 0.09 ≤ ((t : ℝ) + 0.055) / 1.055 := by norm_num at c0 ⊢; linarith
      have s1 : ((t : ℝ) + 0.055) / 1.055 ≤ 1 := by norm_num at c1 ⊢; linarith
      generalize ((t : ℝ) + 0.055) / 1.055 = s at *
      have s2 : 0 ≤ s := le_trans (by norm_num) s0
      refine lin_close c6 (Real.rpow_nonneg s2 _) s0 ?_ s1 (power5 s2) (abs_le.2 ⟨c3, c2⟩) c4 c5
      have := Real.rpow_le_rpow_of_exponent_ge (lt_of_lt_of_le (by norm_num) s0) s1 (show (1 : ℝ) ≤ 2.4 by norm_num)
      rwa [Real.rpow_one] at this

end Gltf
