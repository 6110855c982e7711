/-
The two halves of the sRGB curve, with errors.
-/
import Verif.Lemmas.Color

namespace Gltf

set_option exponentiation.threshold 3000

theorem F32.q_le {x y : F32} : x.val ≤ y.val ↔ x.q ≤ y.q := by
  unfold F32.q
  rw [div_le_div_iff_of_pos_right (by positivity)]
  exact_mod_cast Iff.rfl

theorem F32.le_q {x y : F32} (hx : x.finite = true) (hy : y.finite = true) : x.le y = decide (x.q ≤ y.q) := by
  unfold F32.le
  rw [(F32.finite_nan hx).1, (F32.finite_nan hy).1]
  simp [F32.q_le]

theorem F32.lt_q {x y : F32} (hx : x.finite = true) (hy : y.finite = true) : x.lt y = decide (x.q < y.q) := by
  unfold F32.lt
  rw [(F32.finite_nan hx).1, (F32.finite_nan hy).1]
  simp only [Bool.not_false, Bool.true_and, decide_eq_decide]
  rw [← not_le, F32.q_le, not_le]

theorem kLin : Near32 (F32.ofRat 4045 100000) (4045 / 100000) := by
  have := near32_ofRat (n := 4045) (d := 100000) (by decide) (by norm_num) (by norm_num)
  exact_mod_cast this
theorem kSlope : Near32 (F32.ofRat 1292 100) (1292 / 100) := by
  have := near32_ofRat (n := 1292) (d := 100) (by decide) (by norm_num) (by norm_num)
  exact_mod_cast this
theorem kShift : Near32 (F32.ofRat 55 1000) (55 / 1000) := by
  have := near32_ofRat (n := 55) (d := 1000) (by decide) (by norm_num) (by norm_num)
  exact_mod_cast this
theorem kDelin : Near32 (F32.ofRat 31308 10000000) (31308 / 10000000) := by
  have := near32_ofRat (n := 31308) (d := 10000000) (by decide) (by norm_num) (by norm_num)
  exact_mod_cast this
theorem kScale : Near64 (F64.ofRat 1055 1000) (1055 / 1000) := by
  have := near64_ofRat (n := 1055) (d := 1000) (by decide) (by norm_num) (by norm_num)
  exact_mod_cast this
theorem kShift64 : Near64 (F64.ofRat 55 1000) (55 / 1000) := by
  have := near64_ofRat (n := 55) (d := 1000) (by decide) (by norm_num) (by norm_num)
  exact_mod_cast this

/-- A number in the range of the colour functions. -/
structure Chan (x : F32) : Prop where
  fin : x.finite = true
  neg : x.neg = false
  lo : 1 / 2 ^ 21 ≤ x.q
  hi : x.q ≤ 1 + 1 / 2 ^ 10

/-- `linearize` on dark values. -/
theorem linearize_low {pow : Pow} {a : F32} (ha : Chan a) (h : a.q ≤ (F32.ofRat 4045 100000).q) :
    (linearize pow a).finite = true ∧ (linearize pow a).neg = false ∧
    12.92 * (linearize pow a).q ≤ a.q * (1 + 1 / 2 ^ 22) ∧ a.q * (1 - 1 / 2 ^ 22) ≤ 12.92 * (linearize pow a).q := by
  unfold linearize
  rw [F32.le_q ha.fin kLin.fin, decide_eq_true h, if_pos rfl]
  have k := kSlope
  have hk1 := k.lo
  have hk2 := k.hi
  have ha1 := ha.lo
  have ha2 := ha.hi
  have hpos : 0 < (F32.ofRat 1292 100).q := by linarith
  have hr := near32_div ha.fin k.fin ha.neg k.neg hpos
    (by rw [le_div_iff₀ hpos]; linarith) (by rw [div_le_iff₀ hpos]; linarith)
  generalize (F32.ofRat 1292 100) = s at *
  generalize a.div s = e at *
  generalize s.q = σ at *
  generalize a.q = α at *
  obtain ⟨r1, r2, r3, r4⟩ := hr
  refine ⟨r1, r2, ?_, ?_⟩
  all_goals
    have h1 : α / σ * σ = α := div_mul_cancel₀ _ (ne_of_gt hpos)
    have hq : 0 ≤ α / σ := by positivity
    generalize α / σ = ρ at *
    nlinarith

/-- `linearize` on the other values. -/
theorem linearize_high {pow : Pow} (hp : Spec.PowAccurate pow) {a : F32} (ha : Chan a) (h : (F32.ofRat 4045 100000).q < a.q) :
    (linearize pow a).finite = true ∧ (linearize pow a).neg = false ∧ 0 ≤ (linearize pow a).q ∧
    ∃ c : ℚ, |1.055 * c - (a.q + 0.055)| ≤ 1 / 2 ^ 22 ∧
      (linearize pow a).q ^ 5 ≤ c ^ 12 * (1 + 1 / 2 ^ 20) ∧ c ^ 12 * (1 - 1 / 2 ^ 20) ≤ (linearize pow a).q ^ 5 := by
  unfold linearize
  rw [F32.le_q ha.fin kLin.fin, decide_eq_false (not_le.2 h), if_neg (by decide)]
  have hκ := kLin.lo
  have ha1 := ha.lo
  have ha2 := ha.hi
  have hs1 := kShift.lo
  have hs2 := kShift.hi
  have hb := near32_add ha.fin kShift.fin (by linarith) (by linarith)
  generalize (F32.ofRat 55 1000) = s at *
  generalize a.add s = b at *
  obtain ⟨b1, b2, b3, b4⟩ := hb
  obtain ⟨c1, c2, c3⟩ := F32.toF64_q b1 b2
  have hk1 := kScale.lo
  have hk2 := kScale.hi
  have hpos : 0 < (F64.ofRat 1055 1000).q := by linarith
  have hc := near64_div c2 kScale.fin c3 kScale.neg hpos
    (by rw [le_div_iff₀ hpos]; linarith) (by rw [div_le_iff₀ hpos]; linarith)
  rw [c1] at hc
  generalize (F64.ofRat 1055 1000) = k at *
  generalize b.toF64.div k = c at *
  obtain ⟨d1, d2, d3, d4⟩ := hc
  have hbk : b.q / k.q * k.q = b.q := div_mul_cancel₀ _ (ne_of_gt hpos)
  have hcpos : 0.08 ≤ c.q := by
    have : 0.085 ≤ b.q / k.q := by rw [le_div_iff₀ hpos]; linarith
    linarith
  have hcle : c.q ≤ 1.1 := by
    have : b.q / k.q ≤ 1.05 := by rw [div_le_iff₀ hpos]; linarith
    linarith
  obtain ⟨e1, e2, e3⟩ := hp.up c d1 (by linarith) (by linarith)
  generalize pow c (F64.ofRat 24 10) = d at *
  rw [abs_le] at e3
  have hdn : 0 ≤ d.q := by
    have := F64.q_pos e2
    have hp' : (0 : ℚ) < 2 ^ 1074 := by positivity
    by_contra hneg
    have : d.q * 2 ^ 1074 < 0 := mul_neg_of_neg_of_pos (not_le.1 hneg) hp'
    have h0 : (0 : ℚ) ≤ decodeMag 52 d.mag := Nat.cast_nonneg _
    linarith
  have hc12 : (0.08 : ℚ) ^ 12 ≤ c.q ^ 12 := pow_le_pow_left₀ (by norm_num) hcpos 12
  have hc12' : c.q ^ 12 ≤ (1.1 : ℚ) ^ 12 := pow_le_pow_left₀ (by linarith) hcle 12
  have hd1 : 0.001 ≤ d.q := by
    by_contra hlt
    have : d.q ^ 5 ≤ (0.001 : ℚ) ^ 5 := pow_le_pow_left₀ hdn (le_of_lt (not_le.1 hlt)) 5
    norm_num at this hc12 e3
    linarith
  have hd2 : d.q ≤ 4 := by
    by_contra hlt
    have : (4 : ℚ) ^ 5 ≤ d.q ^ 5 := pow_le_pow_left₀ (by norm_num) (le_of_lt (not_le.1 hlt)) 5
    norm_num at this hc12' e3
    linarith
  obtain ⟨f1, f2, f3, f4⟩ := near32_toF32 e1 e2 (by linarith) (by linarith)
  generalize d.toF32 = e at *
  refine ⟨f1, f2, by linarith, c.q, ?_, ?_, ?_⟩
  · rw [abs_le]
    generalize b.q / k.q = ρ at *
    constructor <;> nlinarith
  · have h5 : e.q ^ 5 ≤ (d.q * (1 + 1 / 2 ^ 24)) ^ 5 := pow_le_pow_left₀ (by linarith) (by linarith) 5
    rw [mul_pow] at h5
    have : (1 + 1 / 2 ^ 24 : ℚ) ^ 5 ≤ 1 + 1 / 2 ^ 21 := by norm_num
    have h6 : d.q ^ 5 ≤ c.q ^ 12 * (1 + 1 / 2 ^ 40) := by linarith [e3.2]
    calc e.q ^ 5 ≤ d.q ^ 5 * (1 + 1 / 2 ^ 24) ^ 5 := h5
      _ ≤ (c.q ^ 12 * (1 + 1 / 2 ^ 40)) * (1 + 1 / 2 ^ 21) := by gcongr
      _ = c.q ^ 12 * ((1 + 1 / 2 ^ 40) * (1 + 1 / 2 ^ 21)) := by ring
      _ ≤ c.q ^ 12 * (1 + 1 / 2 ^ 20) := by gcongr; norm_num
  · have h5 : (d.q * (1 - 1 / 2 ^ 24)) ^ 5 ≤ e.q ^ 5 :=
      pow_le_pow_left₀ (by apply mul_nonneg hdn; norm_num) (by linarith) 5
    rw [mul_pow] at h5
    have : (1 - 1 / 2 ^ 21 : ℚ) ≤ (1 - 1 / 2 ^ 24) ^ 5 := by norm_num
    have h6 : c.q ^ 12 * (1 - 1 / 2 ^ 40) ≤ d.q ^ 5 := by linarith [e3.1]
    calc c.q ^ 12 * (1 - 1 / 2 ^ 20) ≤ c.q ^ 12 * ((1 - 1 / 2 ^ 40) * (1 - 1 / 2 ^ 21)) := by gcongr; norm_num
      _ = (c.q ^ 12 * (1 - 1 / 2 ^ 40)) * (1 - 1 / 2 ^ 21) := by ring
      _ ≤ d.q ^ 5 * (1 - 1 / 2 ^ 24) ^ 5 := by
          apply mul_le_mul h6 this (by norm_num) (by positivity)
      _ ≤ e.q ^ 5 := h5

theorem F64.q_nonneg {x : F64} (h : x.neg = false) : 0 ≤ x.q := by
  have := F64.q_pos h
  have hp' : (0 : ℚ) < 2 ^ 1074 := by positivity
  by_contra hneg
  have : x.q * 2 ^ 1074 < 0 := mul_neg_of_neg_of_pos (not_le.1 hneg) hp'
  have h0 : (0 : ℚ) ≤ decodeMag 52 x.mag := Nat.cast_nonneg _
  linarith

/-- `deliniarize` on dark values. -/
theorem deliniarize_low {pow : Pow} {e : F32} (fe : e.finite = true) (ne : e.neg = false) (h1 : 1 / 2 ^ 26 ≤ e.q)
    (h : e.q < (F32.ofRat 31308 10000000).q) :
    (deliniarize pow e).finite = true ∧ (deliniarize pow e).neg = false ∧
    (deliniarize pow e).q ≤ 12.92 * e.q * (1 + 1 / 2 ^ 22) ∧ 12.92 * e.q * (1 - 1 / 2 ^ 22) ≤ (deliniarize pow e).q := by
  unfold deliniarize
  rw [F32.lt_q fe kDelin.fin, decide_eq_true h, if_pos rfl]
  have k := kSlope
  have hk1 := k.lo
  have hk2 := k.hi
  have hl := kDelin.hi
  have hr := near32_mul fe k.fin ne k.neg (by nlinarith) (by nlinarith)
  generalize (F32.ofRat 1292 100) = s at *
  generalize e.mul s = g at *
  obtain ⟨r1, r2, r3, r4⟩ := hr
  refine ⟨r1, r2, ?_, ?_⟩ <;> nlinarith

/-- `deliniarize` on the other values. -/
theorem deliniarize_high {pow : Pow} (hp : Spec.PowAccurate pow) {e : F32} (fe : e.finite = true) (ne : e.neg = false)
    (h : (F32.ofRat 31308 10000000).q ≤ e.q) (h2 : e.q ≤ 1.01) :
    (deliniarize pow e).finite = true ∧ (deliniarize pow e).neg = false ∧
    ∃ h : ℚ, 0 ≤ h ∧ |(deliniarize pow e).q - (1.055 * h - 0.055)| ≤ 1 / 2 ^ 23 ∧
      h ^ 12 ≤ e.q ^ 5 * (1 + 1 / 2 ^ 40) ∧ e.q ^ 5 * (1 - 1 / 2 ^ 40) ≤ h ^ 12 := by
  unfold deliniarize
  rw [F32.lt_q fe kDelin.fin, decide_eq_false (not_lt.2 h), if_neg (by decide)]
  have hl := kDelin.lo
  obtain ⟨c1, c2, c3⟩ := F32.toF64_q fe ne
  obtain ⟨e1, e2, e3⟩ := hp.down e.toF64 c2 (by rw [c1]; linarith) (by rw [c1]; linarith)
  rw [c1] at e3
  generalize pow e.toF64 (F64.ofRat 10 24) = r at *
  rw [abs_le] at e3
  have hrn := F64.q_nonneg e2
  have h5 : (0.0031 : ℚ) ^ 5 ≤ e.q ^ 5 := pow_le_pow_left₀ (by norm_num) (by linarith) 5
  have h5' : e.q ^ 5 ≤ (1.01 : ℚ) ^ 5 := pow_le_pow_left₀ (by linarith) h2 5
  have hr1 : 0.08 ≤ r.q := by
    by_contra hlt
    have : r.q ^ 12 ≤ (0.08 : ℚ) ^ 12 := pow_le_pow_left₀ hrn (le_of_lt (not_le.1 hlt)) 12
    norm_num at this h5 e3
    linarith
  have hr2 : r.q ≤ 1.005 := by
    by_contra hlt
    have : (1.005 : ℚ) ^ 12 ≤ r.q ^ 12 := pow_le_pow_left₀ (by norm_num) (le_of_lt (not_le.1 hlt)) 12
    norm_num at this h5' e3
    linarith
  have hk1 := kScale.lo
  have hk2 := kScale.hi
  have hi := near64_mul kScale.fin e1 kScale.neg e2 (by nlinarith) (by nlinarith)
  generalize (F64.ofRat 1055 1000) = k at *
  generalize k.mul r = i at *
  obtain ⟨i1, i2, i3, i4⟩ := hi
  have hs1 := kShift64.lo
  have hs2 := kShift64.hi
  have hj := near64_sub i1 kShift64.fin (by nlinarith) (by nlinarith)
  generalize (F64.ofRat 55 1000) = s at *
  generalize i.sub s = j at *
  obtain ⟨j1, j2, j3, j4⟩ := hj
  have hkr1 : 1055 / 1000 * r.q - 1 / 2 ^ 50 ≤ k.q * r.q := by nlinarith
  have hkr2 : k.q * r.q ≤ 1055 / 1000 * r.q + 1 / 2 ^ 50 := by nlinarith
  obtain ⟨f1, f2, f3, f4⟩ := near32_toF32 j1 j2 (by linarith) (by linarith)
  refine ⟨f1, f2, r.q, hrn, ?_, by linarith [e3.2], by linarith [e3.1]⟩
  generalize j.toF32 = g at *
  rw [abs_le]
  constructor <;> linarith

end Gltf
