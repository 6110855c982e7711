/-
White, black and the order of colours.
-/
import Verif.Lemmas.ColorAlpha

namespace Gltf

set_option exponentiation.threshold 3000

theorem toF32_mag {x : F64} (hx : x.finite = true) (nx : x.neg = false) (h2 : x.q ≤ 2 ^ 100) :
    decodeMag 23 x.toF32.mag = rnd32 (decodeMag 52 x.mag) (2 ^ 925) ∧ x.toF32.neg = false ∧ x.toF32.finite = true := by
  obtain ⟨h3, h4⟩ := F64.finite_nan hx
  have hle : decodeMag 52 x.mag ≤ 2 ^ 1174 := by
    have : (decodeMag 52 x.mag : ℚ) ≤ 2 ^ 1174 := by
      rw [F64.q_pos nx, show (2 : ℚ) ^ 1174 = 2 ^ 100 * 2 ^ 1074 by rw [← pow_add]]
      exact mul_le_mul_of_nonneg_right h2 (by positivity)
    exact_mod_cast this
  have hlt : rnd32 (decodeMag 52 x.mag) (2 ^ 925) < 2 ^ 23 * 2 ^ 254 := by
    have : rnd32 (decodeMag 52 x.mag) (2 ^ 925) ≤ 2 ^ 249 := by
      apply round_le_pow (Nat.two_pow_pos _)
      rw [← Nat.pow_add]
      exact hle
    refine Nat.lt_of_le_of_lt this ?_
    rw [← Nat.pow_add]
    exact Nat.pow_lt_pow_right (by decide) (by decide)
  have hm : roundMag 23 (decodeMag 52 x.mag) (2 ^ 925) < inf32 := by rw [inf32_eq]; exact bits_lt hlt
  obtain ⟨m1, m2⟩ := make32 (neg := false) hm
  have e : x.toF32 = F32.make false (roundMag 23 (decodeMag 52 x.mag) (2 ^ 925)) := by
    unfold F64.toF32
    rw [h3, if_neg (by decide), if_neg h4, nx]
  rw [e, m1, m2]
  exact ⟨rfl, rfl, (make32_val hlt).2⟩

/-- Rounding is monotone, with the bounds given in units of 2^-50. -/
theorem toF32_le {x : F64} (hx : x.finite = true) (nx : x.neg = false) {n m : Nat} (h : x.q ≤ n / 2 ^ 50) (hn : n ≤ 2 ^ 60)
    (hm : rnd32 (n * 2 ^ 1024) (2 ^ 925) ≤ m * 2 ^ 99) : x.toF32.q ≤ m / 2 ^ 50 := by
  have hn' : (n : ℚ) ≤ 2 ^ 60 := by exact_mod_cast hn
  obtain ⟨h1, h2, -⟩ := toF32_mag hx nx (by
    have : (n : ℚ) / 2 ^ 50 ≤ 2 ^ 10 := by rw [div_le_iff₀ (by positivity)]; linarith
    linarith)
  have hle : decodeMag 52 x.mag ≤ n * 2 ^ 1024 := by
    have : (decodeMag 52 x.mag : ℚ) ≤ n * 2 ^ 1024 := by
      rw [F64.q_pos nx, show (2 : ℚ) ^ 1074 = 2 ^ 50 * 2 ^ 1024 by rw [← pow_add], ← mul_assoc]
      apply mul_le_mul_of_nonneg_right _ (by positivity)
      rwa [le_div_iff₀ (by positivity)] at h
    exact_mod_cast this
  have := Nat.le_trans (decode_round_mono (w := 23) (d := 2 ^ 925) (Nat.two_pow_pos _) hle) hm
  change rnd32 _ _ ≤ _ at this
  rw [← h1] at this
  have h3 : (decodeMag 23 x.toF32.mag : ℚ) ≤ m * 2 ^ 99 := by exact_mod_cast this
  rw [F32.q_pos h2, show (2 : ℚ) ^ 149 = 2 ^ 50 * 2 ^ 99 by rw [← pow_add], ← mul_assoc] at h3
  rw [le_div_iff₀ (by positivity)]
  exact le_of_mul_le_mul_right h3 (by positivity)

theorem toF32_ge {x : F64} (hx : x.finite = true) (nx : x.neg = false) {n m : Nat} (h : n / 2 ^ 50 ≤ x.q) (hb : x.q ≤ 2 ^ 100)
    (hm : m * 2 ^ 99 ≤ rnd32 (n * 2 ^ 1024) (2 ^ 925)) : m / 2 ^ 50 ≤ x.toF32.q := by
  obtain ⟨h1, h2, -⟩ := toF32_mag hx nx hb
  have hle : n * 2 ^ 1024 ≤ decodeMag 52 x.mag := by
    have : (n * 2 ^ 1024 : ℚ) ≤ decodeMag 52 x.mag := by
      rw [F64.q_pos nx, show (2 : ℚ) ^ 1074 = 2 ^ 50 * 2 ^ 1024 by rw [← pow_add], ← mul_assoc]
      apply mul_le_mul_of_nonneg_right _ (by positivity)
      rwa [div_le_iff₀ (by positivity)] at h
    exact_mod_cast this
  have := Nat.le_trans hm (decode_round_mono (w := 23) (d := 2 ^ 925) (Nat.two_pow_pos _) hle)
  change _ ≤ rnd32 _ _ at this
  rw [← h1] at this
  have h3 : (m * 2 ^ 99 : ℚ) ≤ decodeMag 23 x.toF32.mag := by exact_mod_cast this
  rw [F32.q_pos h2, show (2 : ℚ) ^ 149 = 2 ^ 50 * 2 ^ 99 by rw [← pow_add], ← mul_assoc] at h3
  rw [div_le_iff₀ (by positivity)]
  exact le_of_mul_le_mul_right h3 (by positivity)

/-- The base of the power for white. -/
def whiteBase : F64 := ((F32.ofNat 1).add (F32.ofRat 55 1000)).toF64.div (F64.ofRat 1055 1000)

theorem whiteBase_q : whiteBase.finite = true ∧ 1 - 49.8 / 10 ^ 9 ≤ whiteBase.q ∧ whiteBase.q ≤ 1 - 49.7 / 10 ^ 9 := by
  have h1 : (2 ^ 1074 - 2 ^ 1074 * 498 / 10 ^ 10 : Int) ≤ whiteBase.val := by decide +kernel
  have h2 : whiteBase.val ≤ (2 ^ 1074 - 2 ^ 1074 * 497 / 10 ^ 10 - 1 : Int) := by decide +kernel
  have hp : (0 : ℚ) < 2 ^ 1074 := by positivity
  have a1 : ((2 ^ 1074 * 498 / 10 ^ 10 : Int) : ℚ) ≤ 2 ^ 1074 * 498 / 10 ^ 10 := by
    have : (2 ^ 1074 * 498 / 10 ^ 10 : Int) * 10 ^ 10 ≤ 2 ^ 1074 * 498 := Int.ediv_mul_le _ (by decide)
    rw [le_div_iff₀ (by positivity)]
    exact_mod_cast this
  have a2 : (2 ^ 1074 * 497 / 10 ^ 10 : ℚ) ≤ ((2 ^ 1074 * 497 / 10 ^ 10 : Int) : ℚ) + 1 := by
    have : (2 ^ 1074 * 497 : Int) ≤ (2 ^ 1074 * 497 / 10 ^ 10 + 1) * 10 ^ 10 :=
      Int.le_of_lt (Int.lt_ediv_add_one_mul_self _ (by decide))
    rw [div_le_iff₀ (by positivity)]
    exact_mod_cast this
  refine ⟨by decide +kernel, ?_, ?_⟩
  · unfold F64.q
    have h3 : (((2 ^ 1074 : Int) : ℚ) - ((2 ^ 1074 * 498 / 10 ^ 10 : Int) : ℚ)) ≤ (whiteBase.val : ℚ) := by
      rw [← Int.cast_sub, Int.cast_le]; exact h1
    rw [Int.cast_pow, Int.cast_ofNat] at h3
    rw [le_div_iff₀ hp]
    generalize ((2 ^ 1074 * 498 / 10 ^ 10 : Int) : ℚ) = z at *
    generalize (2 : ℚ) ^ 1074 = W at *
    linarith
  · unfold F64.q
    have h3 : (whiteBase.val : ℚ) ≤ (((2 ^ 1074 : Int) : ℚ) - ((2 ^ 1074 * 497 / 10 ^ 10 : Int) : ℚ) - 1) := by
      rw [← Int.cast_sub, ← Int.cast_one, ← Int.cast_sub, Int.cast_le]; exact h2
    rw [Int.cast_pow, Int.cast_ofNat] at h3
    rw [div_le_iff₀ hp]
    generalize ((2 ^ 1074 * 497 / 10 ^ 10 : Int) : ℚ) = z at *
    generalize (2 : ℚ) ^ 1074 = W at *
    linarith

/-- White becomes the number 2^-23 below one. -/
theorem linearize_one {pow : Pow} (hp : Spec.PowAccurate pow) :
    (linearize pow (F32.ofNat 1)).q = 1 - 1 / 2 ^ 23 ∧ (linearize pow (F32.ofNat 1)).finite = true ∧
    (linearize pow (F32.ofNat 1)).neg = false := by
  have hl : (F32.ofNat 1).le (F32.ofRat 4045 100000) = false := by decide +kernel
  unfold linearize
  rw [hl, if_neg (by decide)]
  obtain ⟨b0, b1, b2⟩ := whiteBase_q
  change (pow whiteBase _).toF32.q = _ ∧ (pow whiteBase _).toF32.finite = true ∧ (pow whiteBase _).toF32.neg = false
  obtain ⟨e1, e2, e3⟩ := hp.up whiteBase b0 (by norm_num at b1 ⊢; linarith) (by norm_num at b2 ⊢; linarith)
  generalize pow whiteBase (F64.ofRat 24 10) = d at *
  generalize whiteBase.q = b at *
  have hd0 := F64.q_nonneg e2
  rw [abs_le] at e3
  have c1 : (1 - 49.8 / 10 ^ 9 : ℚ) ^ 12 ≤ b ^ 12 := pow_le_pow_left₀ (by norm_num) b1 12
  have c2 : b ^ 12 ≤ (1 - 49.7 / 10 ^ 9 : ℚ) ^ 12 := pow_le_pow_left₀ (by norm_num at b1; linarith) b2 12
  have d1 : d.q ≤ 1 - 1.19 / 10 ^ 7 := by
    by_contra hlt
    have h1 : (1 - 1.19 / 10 ^ 7 : ℚ) ^ 5 ≤ d.q ^ 5 := pow_le_pow_left₀ (by norm_num) (le_of_lt (not_le.1 hlt)) 5
    norm_num at h1 c1 c2 e3
    linarith
  have d2 : 1 - 1.2 / 10 ^ 7 ≤ d.q := by
    by_contra hlt
    have h1 : d.q ^ 5 ≤ (1 - 1.2 / 10 ^ 7 : ℚ) ^ 5 := pow_le_pow_left₀ hd0 (le_of_lt (not_le.1 hlt)) 5
    norm_num at h1 c1 c2 e3
    linarith
  obtain ⟨-, f2, f3⟩ := toF32_mag e1 e2 (by norm_num at d1 ⊢; linarith)
  have g1 := toF32_le e1 e2 (n := 2 ^ 50 - 133982088) (m := 2 ^ 50 - 2 ^ 27) (by norm_num at d1 ⊢; linarith) (by decide) (by decide +kernel)
  have g2 := toF32_ge e1 e2 (n := 2 ^ 50 - 135107990) (m := 2 ^ 50 - 2 ^ 27) (by norm_num at d2 ⊢; linarith)
    (by norm_num at d1 ⊢; linarith) (by decide +kernel)
  refine ⟨?_, f3, f2⟩
  norm_num at g1 g2 ⊢
  linarith

/-- White comes back a little darker. -/
theorem deliniarize_white {pow : Pow} (hp : Spec.PowAccurate pow) {e : F32} (fe : e.finite = true) (ne : e.neg = false)
    (he : e.q = 1 - 1 / 2 ^ 23) : (deliniarize pow e).finite = true ∧ (deliniarize pow e).neg = false ∧
    (deliniarize pow e).q ≤ 1 - 1 / 2 ^ 24 := by
  have hl1 := kDelin.lo
  have hl2 := kDelin.hi
  have hge : (F32.ofRat 31308 10000000).q ≤ e.q := by rw [he]; norm_num at hl2 ⊢; linarith
  obtain ⟨r1, r2, -⟩ := deliniarize_high hp fe ne hge (by rw [he]; norm_num)
  refine ⟨r1, r2, ?_⟩
  clear r1 r2
  unfold deliniarize
  rw [F32.lt_q fe kDelin.fin, decide_eq_false (not_lt.2 hge), if_neg (by decide)]
  obtain ⟨c1, c2, c3⟩ := F32.toF64_q fe ne
  obtain ⟨e1, e2, e3⟩ := hp.down e.toF64 c2 (by rw [c1, he]; norm_num) (by rw [c1, he]; norm_num)
  rw [c1, he] at e3
  generalize pow e.toF64 (F64.ofRat 10 24) = r at *
  rw [abs_le] at e3
  have hrn := F64.q_nonneg e2
  have hr1 : 0.9 ≤ r.q := by
    by_contra hlt
    have : r.q ^ 12 ≤ (0.9 : ℚ) ^ 12 := pow_le_pow_left₀ hrn (le_of_lt (not_le.1 hlt)) 12
    norm_num at this e3
    linarith
  have hr2 : r.q ≤ 1 - 4.9 / 10 ^ 8 := by
    by_contra hlt
    have : (1 - 4.9 / 10 ^ 8 : ℚ) ^ 12 ≤ r.q ^ 12 := pow_le_pow_left₀ (by norm_num) (le_of_lt (not_le.1 hlt)) 12
    norm_num at this e3
    linarith
  have hk1 := kScale.lo
  have hk2 := kScale.hi
  have hm1 : 0.9 ≤ (F64.ofRat 1055 1000).q * r.q := by nlinarith
  have hm2 : (F64.ofRat 1055 1000).q * r.q ≤ 1.055 - 5.1 / 10 ^ 8 := by
    have : (F64.ofRat 1055 1000).q * r.q ≤ (1055 / 1000 + 1055 / 1000 / 2 ^ 53) * (1 - 4.9 / 10 ^ 8) :=
      mul_le_mul hk2 hr2 hrn (by norm_num)
    norm_num at this ⊢
    linarith
  have hi := near64_mul kScale.fin e1 kScale.neg e2 (by norm_num at hm1 ⊢; linarith) (by norm_num at hm2 ⊢; linarith)
  generalize (F64.ofRat 1055 1000) = k at *
  generalize k.q * r.q = kr at *
  generalize k.mul r = i at *
  obtain ⟨i1, i2, i3, i4⟩ := hi
  have hs1 := kShift64.lo
  have hs2 := kShift64.hi
  have hj := near64_sub i1 kShift64.fin (by norm_num at *; linarith) (by norm_num at *; linarith)
  generalize (F64.ofRat 55 1000) = s at *
  generalize i.sub s = j at *
  obtain ⟨j1, j2, j3, j4⟩ := hj
  have hj : j.q ≤ 1 - 5 / 10 ^ 8 := by norm_num at *; linarith
  have := toF32_le j1 j2 (n := 2 ^ 50 - 56294995) (m := 2 ^ 50 - 2 ^ 26) (by norm_num at hj ⊢; linarith) (by decide) (by decide +kernel)
  norm_num at this ⊢
  linarith

theorem decodeAlpha_max {K : Nat} (hK : K = 255 ∨ K = 65535) : decodeAlpha K K = F32.ofNat 1 := by
  rcases hK with rfl | rfl <;> decide +kernel

/-- White does not come back. -/
theorem encode_decode_white {pow : Pow} (hp : Spec.PowAccurate pow) {K : Nat} (hK : K = 255 ∨ K = 65535) :
    encodeChannel pow K (decodeChannel pow K K) = some (K - 1) := by
  have hK2 : K < 2 ^ 16 := by rcases hK with rfl | rfl <;> decide
  have hK1 : 1 ≤ K := by rcases hK with rfl | rfl <;> decide
  rw [encode_decode_channel hp hK2 hK1 (Nat.le_refl K), if_neg]
  rw [not_le]
  have e : decodeChannel pow K K = linearize pow (F32.ofNat 1) := by
    change linearize pow (decodeAlpha K K) = _
    rw [decodeAlpha_max hK]
  obtain ⟨l1, l2, l3⟩ := linearize_one hp
  obtain ⟨g1, g2, g3⟩ := deliniarize_white hp l2 l3 l1
  rw [e]
  generalize deliniarize pow (linearize pow (F32.ofNat 1)) = g at *
  have hle : decodeMag 23 g.mag ≤ 2 ^ 149 - 2 ^ 125 := by
    have : (decodeMag 23 g.mag : ℚ) ≤ ((2 ^ 149 - 2 ^ 125 : Nat) : ℚ) := by
      rw [F32.q_pos g2]
      have : g.q * 2 ^ 149 ≤ (1 - 1 / 2 ^ 24) * 2 ^ 149 := mul_le_mul_of_nonneg_right g3 (by positivity)
      norm_num at this ⊢
      linarith
    exact_mod_cast this
  obtain ⟨b1, b2, b3⟩ := F32.ofNat_val (n := K) (by omega)
  have m2 : decodeMag 23 (F32.ofNat K).mag = K * 2 ^ 149 := by
    rw [← F32.natAbs_val, b1, Int.natAbs_natCast]
  have hr := decode_round_mono (w := 23) (d := 2 ^ 149) (Nat.two_pow_pos _) (Nat.mul_le_mul_right (K * 2 ^ 149) hle)
  have hlt : decodeMag 23 (roundMag 23 ((2 ^ 149 - 2 ^ 125) * (K * 2 ^ 149)) (2 ^ 149)) < K * 2 ^ 149 := by
    rcases hK with rfl | rfl <;> decide +kernel
  have hlt2 := Nat.lt_of_le_of_lt hr hlt
  have hfin : rnd32 (decodeMag 23 g.mag * (K * 2 ^ 149)) (2 ^ 149) < 2 ^ 23 * 2 ^ 254 := by
    refine Nat.lt_trans hlt2 ?_
    rcases hK with rfl | rfl <;> decide +kernel
  unfold F32.mul
  rw [g1, b2, g2, b3, if_pos (by decide), bne_self_eq_false, m2]
  obtain ⟨w1, -⟩ := make32_val (neg := false) hfin
  unfold F32.q
  rw [w1, div_lt_iff₀ (by positivity)]
  have : (rnd32 (decodeMag 23 g.mag * (K * 2 ^ 149)) (2 ^ 149) : ℚ) < K * 2 ^ 149 := by exact_mod_cast hlt2
  unfold signed
  simpa using this

/-- `linearize` is increasing where the arguments are far enough apart. -/
theorem linearize_lt {pow : Pow} (hp : Spec.PowAccurate pow) {a b : F32} (ha : Chan a) (hb : Chan b)
    (hab : a.q + 1.5 / 10 ^ 5 ≤ b.q) : (linearize pow a).q < (linearize pow b).q := by
  have hκ1 := kLin.lo
  have hκ2 := kLin.hi
  have ha1 := ha.lo
  have ha2 := ha.hi
  have hb2 := hb.hi
  rcases le_or_gt a.q (F32.ofRat 4045 100000).q with h | h
  · obtain ⟨e1, e2, e3, e4⟩ := linearize_low (pow := pow) ha h
    rcases le_or_gt b.q (F32.ofRat 4045 100000).q with h' | h'
    · obtain ⟨f1, f2, f3, f4⟩ := linearize_low (pow := pow) hb h'
      generalize linearize pow a = e at *
      generalize linearize pow b = f at *
      norm_num at *
      linarith
    · obtain ⟨f1, f2, f0, c, f3, f4, f5⟩ := linearize_high hp hb h'
      generalize linearize pow a = e at *
      generalize linearize pow b = f at *
      rw [abs_le] at f3
      by_contra hle
      have h5 : f.q ^ 5 ≤ e.q ^ 5 := pow_le_pow_left₀ f0 (not_lt.1 hle) 5
      have e0 : 0 ≤ e.q := le_trans f0 (not_lt.1 hle)
      rcases le_or_gt a.q 0.040438 with h6 | h6
      · have h7 : e.q ^ 5 ≤ (0.003129878 : ℚ) ^ 5 := pow_le_pow_left₀ e0 (by norm_num at *; linarith) 5
        have h8 : (0.0904736 : ℚ) ^ 12 ≤ c ^ 12 := pow_le_pow_left₀ (by norm_num) (by norm_num at *; linarith) 12
        norm_num at h7 h8 f5
        linarith
      · have h7 : e.q ^ 5 ≤ (0.00313081 : ℚ) ^ 5 := pow_le_pow_left₀ e0 (by norm_num at *; linarith) 5
        have h8 : (0.0904764 : ℚ) ^ 12 ≤ c ^ 12 := pow_le_pow_left₀ (by norm_num) (by norm_num at *; linarith) 12
        norm_num at h7 h8 f5
        linarith
  · have h' : (F32.ofRat 4045 100000).q < b.q := by norm_num at *; linarith
    obtain ⟨e1, e2, e0, c, e3, e4, e5⟩ := linearize_high hp ha h
    obtain ⟨f1, f2, f0, d, f3, f4, f5⟩ := linearize_high hp hb h'
    generalize linearize pow a = e at *
    generalize linearize pow b = f at *
    rw [abs_le] at e3 f3
    have c1 : 0.09 ≤ c := by norm_num at *; linarith
    have c2 : c ≤ 1.002 := by norm_num at *; linarith
    have cd : c * (1 + 1.3 / 10 ^ 5) ≤ d := by norm_num at *; linarith
    by_contra hle
    have h5 : f.q ^ 5 ≤ e.q ^ 5 := pow_le_pow_left₀ f0 (not_lt.1 hle) 5
    have h6 : (c * (1 + 1.3 / 10 ^ 5)) ^ 12 ≤ d ^ 12 := pow_le_pow_left₀ (by norm_num at *; linarith) cd 12
    rw [mul_pow] at h6
    have h7 : (0 : ℚ) < c ^ 12 := by
      have : (0 : ℚ) < c := by norm_num at *; linarith
      positivity
    have h8 : c ^ 12 * (1 + 1 / 10 ^ 5) ≤ c ^ 12 * (1 + 1.3 / 10 ^ 5) ^ 12 := by
      apply mul_le_mul_of_nonneg_left _ (le_of_lt h7)
      norm_num
    have h9 := le_trans h8 h6
    clear h6 h8
    norm_num at *
    linarith

theorem decodeAlpha_gap {K v w : Nat} (hK : K < 2 ^ 16) (hv : 1 ≤ v) (hvw : v < w) (hw : w ≤ K) :
    (decodeAlpha K v).q + 1.5 / 10 ^ 5 ≤ (decodeAlpha K w).q := by
  have h1 := (decodeAlpha_near hK hv (by omega)).hi
  have h2 := (decodeAlpha_near hK (by omega) hw).lo
  have hK1 : (0 : ℚ) < K := by exact_mod_cast (by omega : 0 < K)
  have hK2 : (K : ℚ) ≤ 65535 := by exact_mod_cast (by omega : K ≤ 65535)
  have hw' : (w : ℚ) ≤ K := by exact_mod_cast hw
  have hvw' : (v : ℚ) + 1 ≤ w := by exact_mod_cast hvw
  have h3 : (v : ℚ) / K + 1 / K ≤ w / K := by rw [← add_div]; gcongr
  have h4 : (w : ℚ) / K ≤ 1 := by rw [div_le_one hK1]; exact hw'
  have h5 : (1 : ℚ) / 65535 ≤ 1 / K := one_div_le_one_div_of_le hK1 hK2
  norm_num at *
  linarith

/-- `linearize` gives positive numbers. -/
theorem linearize_pos {pow : Pow} (hp : Spec.PowAccurate pow) {a : F32} (ha : Chan a) :
    (linearize pow a).finite = true ∧ (linearize pow a).neg = false ∧ 0 < (linearize pow a).q := by
  have hκ1 := kLin.lo
  have ha1 := ha.lo
  rcases le_or_gt a.q (F32.ofRat 4045 100000).q with h | h
  · obtain ⟨e1, e2, e3, e4⟩ := linearize_low (pow := pow) ha h
    refine ⟨e1, e2, ?_⟩
    norm_num at *
    linarith
  · obtain ⟨e1, e2, e0, c, e3, e4, e5⟩ := linearize_high hp ha h
    refine ⟨e1, e2, ?_⟩
    rw [abs_le] at e3
    have c1 : 0.08 ≤ c := by norm_num at *; linarith
    have h1 : (0.08 : ℚ) ^ 12 ≤ c ^ 12 := pow_le_pow_left₀ (by norm_num) c1 12
    rcases eq_or_lt_of_le e0 with h2 | h2
    · rw [← h2] at e5
      norm_num at e5 h1
      linarith
    · exact h2

theorem decodeChannel_zero (pow : Pow) {K : Nat} (hK : K = 255 ∨ K = 65535) : decodeChannel pow K 0 = (⟨0⟩ : F32) := by
  have h : decodeAlpha K 0 = (⟨0⟩ : F32) := by rcases hK with rfl | rfl <;> decide +kernel
  change linearize pow (decodeAlpha K 0) = _
  rw [h]
  unfold linearize
  rw [show (⟨0⟩ : F32).le (F32.ofRat 4045 100000) = true by decide +kernel, if_pos rfl]
  decide +kernel

theorem encodeChannel_zero (pow : Pow) {K : Nat} (hK : K = 255 ∨ K = 65535) : encodeChannel pow K (⟨0⟩ : F32) = some 0 := by
  unfold encodeChannel deliniarize
  rw [show (⟨0⟩ : F32).lt (F32.ofRat 31308 10000000) = true by decide +kernel, if_pos rfl]
  rcases hK with rfl | rfl <;> decide +kernel

/-- Channels are mapped to increasing numbers. -/
theorem decodeChannel_lt {pow : Pow} (hp : Spec.PowAccurate pow) {K v w : Nat} (hK : K = 255 ∨ K = 65535) (hvw : v < w) (hw : w ≤ K) :
    (decodeChannel pow K v).q < (decodeChannel pow K w).q := by
  have hK2 : K < 2 ^ 16 := by rcases hK with rfl | rfl <;> decide
  have hcw := chan_decodeAlpha hK2 (by omega) hw
  by_cases hv : v = 0
  · subst hv
    rw [decodeChannel_zero pow hK]
    have : (⟨0⟩ : F32).q = 0 := by
      unfold F32.q
      rw [show (⟨0⟩ : F32).val = 0 by decide +kernel, Int.cast_zero, zero_div]
    rw [this]
    exact (linearize_pos hp hcw).2.2
  · exact linearize_lt hp (chan_decodeAlpha hK2 (by omega) (by omega)) hcw (decodeAlpha_gap hK2 (by omega) hvw hw)

/-- The range of a channel. -/
theorem decodeChannel_range {pow : Pow} (hp : Spec.PowAccurate pow) {K v : Nat} (hK : K = 255 ∨ K = 65535) (hv : v ≤ K) :
    (decodeChannel pow K v).finite = true ∧ (decodeChannel pow K v).neg = false ∧ 0 ≤ (decodeChannel pow K v).q ∧
    (decodeChannel pow K v).q ≤ 1 - 1 / 2 ^ 23 := by
  have hK2 : K < 2 ^ 16 := by rcases hK with rfl | rfl <;> decide
  have hmax : (decodeChannel pow K K).q = 1 - 1 / 2 ^ 23 := by
    change (linearize pow (decodeAlpha K K)).q = _
    rw [decodeAlpha_max hK]
    exact (linearize_one hp).1
  have hle : (decodeChannel pow K v).q ≤ 1 - 1 / 2 ^ 23 := by
    rcases Nat.eq_or_lt_of_le hv with h | h
    · rw [h, hmax]
    · rw [← hmax]; exact le_of_lt (decodeChannel_lt hp hK h (Nat.le_refl _))
  by_cases h0 : v = 0
  · subst h0
    rw [decodeChannel_zero pow hK] at hle ⊢
    refine ⟨by decide, by decide, ?_, hle⟩
    unfold F32.q
    rw [show (⟨0⟩ : F32).val = 0 by decide +kernel, Int.cast_zero, zero_div]
  · obtain ⟨h1, h2, h3⟩ := linearize_pos hp (chan_decodeAlpha hK2 (by omega) hv)
    exact ⟨h1, h2, le_of_lt h3, hle⟩

end Gltf
