/-
Colours there and back.
-/
import Verif.Lemmas.ColorCurve
import Verif.Props.Math

namespace Gltf

set_option exponentiation.threshold 3000

/-- The curve and its inverse cancel up to a small error. -/
theorem curve_back {pow : Pow} (hp : Spec.PowAccurate pow) {a : F32} (ha : Chan a) :
    (deliniarize pow (linearize pow a)).finite = true ∧ (deliniarize pow (linearize pow a)).neg = false ∧
    |(deliniarize pow (linearize pow a)).q - a.q| ≤ 1 / 2 ^ 19 := by
  have hκ1 := kLin.lo
  have hκ2 := kLin.hi
  have hl1 := kDelin.lo
  have hl2 := kDelin.hi
  have ha1 := ha.lo
  have ha2 := ha.hi
  rcases le_or_gt a.q (F32.ofRat 4045 100000).q with h | h
  · obtain ⟨e1, e2, e3, e4⟩ := linearize_low (pow := pow) ha h
    generalize linearize pow a = e at *
    rcases lt_or_ge e.q (F32.ofRat 31308 10000000).q with h' | h'
    · obtain ⟨g1, g2, g3, g4⟩ := deliniarize_low (pow := pow) e1 e2 (by linarith) h'
      refine ⟨g1, g2, ?_⟩
      rw [abs_le]
      constructor <;> nlinarith
    · obtain ⟨g1, g2, x, x0, g3, g4, g5⟩ := deliniarize_high hp e1 e2 h' (by linarith)
      refine ⟨g1, g2, ?_⟩
      have hx1 : 0.0904737 ≤ x := by
        by_contra hlt
        have h1 : x ^ 12 ≤ (0.0904737 : ℚ) ^ 12 := pow_le_pow_left₀ x0 (le_of_lt (not_le.1 hlt)) 12
        have h2 : (0.00313079 : ℚ) ^ 5 ≤ e.q ^ 5 := pow_le_pow_left₀ (by norm_num) (by linarith) 5
        norm_num at h1 h2 g5
        linarith
      have hx2 : x ≤ 0.0904743 := by
        by_contra hlt
        have h1 : (0.0904743 : ℚ) ^ 12 ≤ x ^ 12 := pow_le_pow_left₀ (by norm_num) (le_of_lt (not_le.1 hlt)) 12
        have h2 : e.q ^ 5 ≤ (0.00313081 : ℚ) ^ 5 := pow_le_pow_left₀ (by linarith) (by linarith) 5
        norm_num at h1 h2 g4
        linarith
      rw [abs_le] at g3 ⊢
      constructor <;> linarith [g3.1, g3.2]
  · obtain ⟨e1, e2, e0, c, e3, e4, e5⟩ := linearize_high hp ha h
    generalize linearize pow a = e at *
    rw [abs_le] at e3
    have c0 : 0 ≤ c := by linarith [e3.1]
    rcases lt_or_ge e.q (F32.ofRat 31308 10000000).q with h' | h'
    · have hc1 : 0.0904736 ≤ c := by linarith [e3.1]
      have hc2 : c ≤ 0.0904744 := by
        by_contra hlt
        have h1 : (0.0904744 : ℚ) ^ 12 ≤ c ^ 12 := pow_le_pow_left₀ (by norm_num) (le_of_lt (not_le.1 hlt)) 12
        have h2 : e.q ^ 5 ≤ (0.00313081 : ℚ) ^ 5 := pow_le_pow_left₀ e0 (by linarith) 5
        norm_num at h1 h2 e5
        linarith
      have he1 : 0.00313075 ≤ e.q := by
        by_contra hlt
        have h1 : e.q ^ 5 ≤ (0.00313075 : ℚ) ^ 5 := pow_le_pow_left₀ e0 (le_of_lt (not_le.1 hlt)) 5
        have h2 : (0.0904736 : ℚ) ^ 12 ≤ c ^ 12 := pow_le_pow_left₀ (by norm_num) hc1 12
        norm_num at h1 h2 e5
        linarith
      obtain ⟨g1, g2, g3, g4⟩ := deliniarize_low (pow := pow) e1 e2 (by linarith) h'
      refine ⟨g1, g2, ?_⟩
      rw [abs_le]
      constructor <;> nlinarith [e3.1, e3.2]
    · have he : e.q ≤ 1.01 := by
        by_contra hlt
        have h1 : (1.01 : ℚ) ^ 5 ≤ e.q ^ 5 := pow_le_pow_left₀ (by norm_num) (le_of_lt (not_le.1 hlt)) 5
        have h2 : c ^ 12 ≤ (1.002 : ℚ) ^ 12 := pow_le_pow_left₀ c0 (by linarith [e3.2]) 12
        norm_num at h1 h2 e4
        linarith
      obtain ⟨g1, g2, x, x0, g3, g4, g5⟩ := deliniarize_high hp e1 e2 h' he
      refine ⟨g1, g2, ?_⟩
      have hx2 : x ≤ c * (1 + 1 / 2 ^ 22) := by
        refine le_of_pow_le_pow_left₀ (n := 12) (by norm_num) (by positivity) ?_
        rw [mul_pow]
        calc x ^ 12 ≤ e.q ^ 5 * (1 + 1 / 2 ^ 40) := g4
          _ ≤ c ^ 12 * (1 + 1 / 2 ^ 20) * (1 + 1 / 2 ^ 40) := by gcongr
          _ = c ^ 12 * ((1 + 1 / 2 ^ 20) * (1 + 1 / 2 ^ 40)) := by ring
          _ ≤ c ^ 12 * (1 + 1 / 2 ^ 22) ^ 12 := by gcongr; norm_num
      have hx1 : c * (1 - 1 / 2 ^ 22) ≤ x := by
        refine le_of_pow_le_pow_left₀ (n := 12) (by norm_num) x0 ?_
        rw [mul_pow]
        calc c ^ 12 * (1 - 1 / 2 ^ 22) ^ 12 ≤ c ^ 12 * ((1 - 1 / 2 ^ 20) * (1 - 1 / 2 ^ 40)) := by gcongr; norm_num
          _ = c ^ 12 * (1 - 1 / 2 ^ 20) * (1 - 1 / 2 ^ 40) := by ring
          _ ≤ e.q ^ 5 * (1 - 1 / 2 ^ 40) := by gcongr
          _ ≤ x ^ 12 := g5
      have hc : c ≤ 1.002 := by linarith [e3.2]
      have hxc1 : c - 1.002 / 2 ^ 22 ≤ x := by linarith
      have hxc2 : x ≤ c + 1.002 / 2 ^ 22 := by linarith
      rw [abs_le] at g3 ⊢
      constructor <;> linarith [g3.1, g3.2, e3.1, e3.2]

theorem F32.ofNat_q {n : Nat} (h : n < 2 ^ 24) : (F32.ofNat n).q = n ∧ (F32.ofNat n).finite = true ∧ (F32.ofNat n).neg = false := by
  obtain ⟨h1, h2, h3⟩ := F32.ofNat_val h
  refine ⟨?_, h2, h3⟩
  unfold F32.q
  rw [h1]
  push_cast
  field_simp
  norm_num

/-- Dropping the fraction. -/
theorem F32.truncTo_q {x : F32} {hi n : Nat} (hx : x.finite = true) (nx : x.neg = false) (h1 : n ≤ x.q) (h2 : x.q < n + 1)
    (hn : n ≤ hi) : x.truncTo hi = some n := by
  have e := F32.q_pos nx
  have hv : x.val.natAbs = decodeMag 23 x.mag := by rw [F32.val_eq, nx]; rfl
  have a1 : n * 2 ^ 149 ≤ decodeMag 23 x.mag := by
    have : (n : ℚ) * 2 ^ 149 ≤ decodeMag 23 x.mag := by rw [e]; gcongr
    exact_mod_cast this
  have a2 : decodeMag 23 x.mag < (n + 1) * 2 ^ 149 := by
    have : (decodeMag 23 x.mag : ℚ) < (n + 1) * 2 ^ 149 := by rw [e]; gcongr
    exact_mod_cast this
  have hd : x.val.natAbs / 2 ^ 149 = n := by
    rw [hv]
    exact Nat.div_eq_of_lt_le a1 a2
  unfold F32.truncTo
  simp only [hd]
  rw [if_pos ⟨hx, hn, .inl nx⟩]

/-- `float32(v) / K` is in the range of the colour functions. -/
theorem decodeAlpha_near {K v : Nat} (hK : K < 2 ^ 16) (hv : 1 ≤ v) (hv2 : v ≤ K) : Near32 (decodeAlpha K v) ((v : ℚ) / K) := by
  obtain ⟨a1, a2, a3⟩ := F32.ofNat_q (n := v) (by omega)
  obtain ⟨b1, b2, b3⟩ := F32.ofNat_q (n := K) (by omega)
  have hK1 : (0 : ℚ) < K := by exact_mod_cast (by omega : 0 < K)
  have hK2 : (K : ℚ) ≤ 2 ^ 16 := by exact_mod_cast (by omega : K ≤ 2 ^ 16)
  have hv1 : (1 : ℚ) ≤ v := by exact_mod_cast hv
  have hv3 : (v : ℚ) ≤ K := by exact_mod_cast hv2
  have := near32_div a2 b2 a3 b3 (by rw [b1]; exact hK1)
    (by rw [a1, b1, le_div_iff₀ hK1]; linarith)
    (by rw [a1, b1, div_le_iff₀ hK1]; linarith)
  rw [a1, b1] at this
  exact this

theorem chan_decodeAlpha {K v : Nat} (hK : K < 2 ^ 16) (hv : 1 ≤ v) (hv2 : v ≤ K) : Chan (decodeAlpha K v) := by
  have hn := decodeAlpha_near hK hv hv2
  have hK1 : (0 : ℚ) < K := by exact_mod_cast (by omega : 0 < K)
  have hK2 : (K : ℚ) ≤ 2 ^ 16 := by exact_mod_cast (by omega : K ≤ 2 ^ 16)
  have hv1 : (1 : ℚ) ≤ v := by exact_mod_cast hv
  have hv3 : (v : ℚ) ≤ K := by exact_mod_cast hv2
  have h1 : 1 / 2 ^ 16 ≤ (v : ℚ) / K := by rw [le_div_iff₀ hK1]; linarith
  have h2 : (v : ℚ) / K ≤ 1 := by rw [div_le_one hK1]; exact hv3
  refine ⟨hn.fin, hn.neg, ?_, ?_⟩
  · linarith [hn.lo]
  · linarith [hn.hi]

/-- The number converted to an integer is close to the original integer. -/
theorem channel_back {pow : Pow} (hp : Spec.PowAccurate pow) {K v : Nat} (hK : K < 2 ^ 16) (hv : 1 ≤ v) (hv2 : v ≤ K) :
    ((deliniarize pow (decodeChannel pow K v)).mul (F32.ofNat K)).finite = true ∧
    ((deliniarize pow (decodeChannel pow K v)).mul (F32.ofNat K)).neg = false ∧
    |((deliniarize pow (decodeChannel pow K v)).mul (F32.ofNat K)).q - v| < 1 / 2 := by
  have hn := decodeAlpha_near hK hv hv2
  have hc := chan_decodeAlpha hK hv hv2
  have hK1 : (0 : ℚ) < K := by exact_mod_cast (by omega : 0 < K)
  have hK2 : (K : ℚ) ≤ 2 ^ 16 := by exact_mod_cast (by omega : K ≤ 2 ^ 16)
  have hv1 : (1 : ℚ) ≤ v := by exact_mod_cast hv
  have hv3 : (v : ℚ) ≤ K := by exact_mod_cast hv2
  obtain ⟨g1, g2, g3⟩ := curve_back hp hc
  obtain ⟨b1, b2, b3⟩ := F32.ofNat_q (n := K) (by omega)
  have hx : v / K * (K : ℚ) = v := by field_simp
  have hlo := hn.lo
  have hhi := hn.hi
  have e1 : (decodeAlpha K v).q * K ≤ v + 1 / 2 ^ 8 := by
    calc (decodeAlpha K v).q * K ≤ ((v : ℚ) / K + v / K / 2 ^ 24) * K := by gcongr
      _ = v + v / 2 ^ 24 := by field_simp
      _ ≤ _ := by linarith
  have e2 : v - 1 / 2 ^ 8 ≤ (decodeAlpha K v).q * K := by
    calc v - 1 / 2 ^ 8 ≤ v - v / (2 : ℚ) ^ 24 := by linarith
      _ = ((v : ℚ) / K - v / K / 2 ^ 24) * K := by field_simp
      _ ≤ (decodeAlpha K v).q * K := by gcongr
  change _ ∧ _ ∧ |(F32.mul (deliniarize pow (linearize pow (decodeAlpha K v))) (F32.ofNat K)).q - v| < 1 / 2
  change (F32.mul (deliniarize pow (linearize pow (decodeAlpha K v))) (F32.ofNat K)).finite = true ∧ (F32.mul (deliniarize pow (linearize pow (decodeAlpha K v))) (F32.ofNat K)).neg = false ∧ _
  generalize deliniarize pow (linearize pow (decodeAlpha K v)) = g at *
  rw [abs_le] at g3
  have f1 : g.q * K ≤ v + 1 / 2 ^ 8 + 1 / 2 ^ 3 := by
    have : g.q * K ≤ ((decodeAlpha K v).q + 1 / 2 ^ 19) * K := by gcongr; linarith [g3.2]
    linarith
  have f2 : v - 1 / 2 ^ 8 - 1 / 2 ^ 3 ≤ g.q * K := by
    have : ((decodeAlpha K v).q - 1 / 2 ^ 19) * K ≤ g.q * K := by gcongr; linarith [g3.1]
    linarith
  have hm := near32_mul g1 b2 g2 b3 (by rw [b1]; linarith) (by rw [b1]; linarith)
  rw [b1] at hm
  have m1 := hm.lo
  have m2 := hm.hi
  refine ⟨hm.fin, hm.neg, ?_⟩
  rw [abs_lt]
  constructor <;> linarith

/-- A channel comes back as it was or one less. -/
theorem encode_decode_channel {pow : Pow} (hp : Spec.PowAccurate pow) {K v : Nat} (hK : K < 2 ^ 16) (hv : 1 ≤ v) (hv2 : v ≤ K) :
    encodeChannel pow K (decodeChannel pow K v) =
      if (v : ℚ) ≤ ((deliniarize pow (decodeChannel pow K v)).mul (F32.ofNat K)).q then some v else some (v - 1) := by
  obtain ⟨h1, h2, h3⟩ := channel_back hp hK hv hv2
  unfold encodeChannel
  generalize (deliniarize pow (decodeChannel pow K v)).mul (F32.ofNat K) = k at *
  rw [abs_lt] at h3
  split
  · exact F32.truncTo_q h1 h2 (by assumption) (by linarith) hv2
  · have : ((v - 1 : Nat) : ℚ) = v - 1 := by rw [Nat.cast_sub hv]; norm_num
    exact F32.truncTo_q h1 h2 (by rw [this]; linarith) (by rw [this]; linarith) (by omega)

end Gltf
