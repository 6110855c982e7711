/-
The normalisation functions of math.go in exact arithmetic.
-/
import Verif.Lemmas.Float

namespace Gltf

theorem signed_unique {b b' : Bool} {n : Nat} (h : n ≠ 0) (e : signed b n = signed b' n) : b = b' := by
  unfold signed at e
  cases b <;> cases b' <;> simp at e <;> first | rfl | omega

theorem signed_map {b b' : Bool} {n m : Nat} (f : Nat → Nat) (h0 : f 0 = 0) (e : signed b n = signed b' m) :
    signed b (f n) = signed b' (f m) := by
  have h1 : n = m := by
    have := congrArg Int.natAbs e
    rwa [natAbs_signed, natAbs_signed] at this
  subst h1
  by_cases hn : n = 0
  · subst hn; rw [h0]; unfold signed; cases b <;> cases b' <;> rfl
  · rw [signed_unique hn e]

theorem rnd32_zero {d : Nat} : rnd32 0 d = 0 := by
  unfold rnd32 roundMag roundHalfEven decodeMag
  simp

theorem rnd64_zero {d : Nat} : rnd64 0 d = 0 := by
  unfold rnd64 roundMag roundHalfEven decodeMag
  simp

theorem log2_le_of_lt {n k : Nat} (h : n < 2 ^ (k + 1)) : n.log2 ≤ k := by
  by_cases h0 : n = 0
  · rw [h0]; simp
  · have := (Nat.log2_lt h0).2 h; omega

theorem roundExp_le {w n d e : Nat} (hd : 0 < d) (h : n < d * 2 ^ (w + e + 1)) : roundExp w n d ≤ e := by
  unfold roundExp
  have : n / d < 2 ^ (w + e + 1) := by
    rw [Nat.div_lt_iff_lt_mul hd, Nat.mul_comm]; exact h
  have := log2_le_of_lt this
  omega

/-- Error of a rounded quotient that is at most `2 ^ (w + e)`. -/
theorem round_close {w n d e : Nat} (hd : 0 < d) (h : n < d * 2 ^ (w + e + 1)) :
    2 * (decodeMag w (roundMag w n d) * d) ≤ 2 * n + d * 2 ^ e ∧
    2 * n ≤ 2 * (decodeMag w (roundMag w n d) * d) + d * 2 ^ e := by
  have h1 := decode_round_err (w := w) (n := n) hd
  have h2 : d * 2 ^ roundExp w n d ≤ d * 2 ^ e :=
    Nat.mul_le_mul_left _ (Nat.pow_le_pow_right (by decide) (roundExp_le hd h))
  omega

/-- Quotients of at most a power of two are rounded to at most this power. -/
theorem round_le_pow {w n d e : Nat} (hd : 0 < d) (h : n ≤ d * 2 ^ e) : decodeMag w (roundMag w n d) ≤ 2 ^ e := by
  have h1 := decode_round_mono (w := w) hd h
  have h2 := decode_round_exact (w := w) (M := 1) (e := e) hd (Nat.one_lt_two_pow (by omega))
  rw [Nat.one_mul] at h2
  omega

theorem pow_le_round {w n d e : Nat} (hd : 0 < d) (h : d * 2 ^ e ≤ n) : 2 ^ e ≤ decodeMag w (roundMag w n d) := by
  have h1 := decode_round_mono (w := w) hd h
  have h2 := decode_round_exact (w := w) (M := 1) (e := e) hd (Nat.one_lt_two_pow (by omega))
  rw [Nat.one_mul] at h2
  omega

/-- The magnitude of an unsigned integer divided by `K` as a `float32`. -/
def denU (K v : Nat) : Nat := rnd32 (v * 2 ^ 149 * 2 ^ 149) (K * 2 ^ 149)

/-- The magnitude of an integer divided by `K` as a `float64`, converted to `float32`. -/
def denS (K a : Nat) : Nat := rnd32 (rnd64 (a * 2 ^ 1074 * 2 ^ 1074) (K * 2 ^ 1074)) (2 ^ 925)

theorem denU_mono {K v v' : Nat} (hK : 0 < K) (h : v ≤ v') : denU K v ≤ denU K v' :=
  decode_round_mono (Nat.mul_pos hK (Nat.two_pow_pos _)) (Nat.mul_le_mul_right _ (Nat.mul_le_mul_right _ h))

theorem denU_le {K v : Nat} (hK : 0 < K) (h : v ≤ K) : denU K v ≤ 2 ^ 149 :=
  round_le_pow (Nat.mul_pos hK (Nat.two_pow_pos _)) (Nat.mul_le_mul_right _ (Nat.mul_le_mul_right _ h))

theorem denU_close {K v : Nat} (hK : 0 < K) (h : v ≤ K) :
    2 * (denU K v * K) ≤ 2 * (v * 2 ^ 149) + K * 2 ^ 126 ∧ 2 * (v * 2 ^ 149) ≤ 2 * (denU K v * K) + K * 2 ^ 126 := by
  have h1 := round_close (w := 23) (n := v * 2 ^ 149 * 2 ^ 149) (d := K * 2 ^ 149) (e := 126)
    (Nat.mul_pos hK (Nat.two_pow_pos _)) (by
      have : v * 2 ^ 149 * 2 ^ 149 ≤ K * 2 ^ 149 * 2 ^ 149 := Nat.mul_le_mul_right _ (Nat.mul_le_mul_right _ h)
      refine Nat.lt_of_le_of_lt this ?_
      exact Nat.mul_lt_mul_of_pos_left (Nat.pow_lt_pow_right (by decide) (by decide)) (Nat.mul_pos hK (Nat.two_pow_pos _)))
  unfold denU rnd32
  generalize decodeMag 23 (roundMag 23 (v * 2 ^ 149 * 2 ^ 149) (K * 2 ^ 149)) = r at *
  have hp : 0 < 2 ^ 149 := Nat.two_pow_pos _
  generalize 2 ^ 149 = U at *
  generalize 2 ^ 126 = S at *
  rw [show 2 * (r * (K * U)) = 2 * (r * K) * U by ac_rfl, show 2 * (v * U * U) = 2 * (v * U) * U by ac_rfl,
    show K * U * S = K * S * U by ac_rfl, ← Nat.add_mul, ← Nat.add_mul] at h1
  exact ⟨Nat.le_of_mul_le_mul_right h1.1 hp, Nat.le_of_mul_le_mul_right h1.2 hp⟩

theorem den64_le {K a : Nat} (hK : 0 < K) (h : a ≤ K) : rnd64 (a * 2 ^ 1074 * 2 ^ 1074) (K * 2 ^ 1074) ≤ 2 ^ 1074 :=
  round_le_pow (Nat.mul_pos hK (Nat.two_pow_pos _)) (Nat.mul_le_mul_right _ (Nat.mul_le_mul_right _ h))

theorem den64_ge {K a : Nat} (hK : 0 < K) (h : K ≤ a) : 2 ^ 1074 ≤ rnd64 (a * 2 ^ 1074 * 2 ^ 1074) (K * 2 ^ 1074) :=
  pow_le_round (Nat.mul_pos hK (Nat.two_pow_pos _)) (Nat.mul_le_mul_right _ (Nat.mul_le_mul_right _ h))

theorem rnd32_one : rnd32 (2 ^ 1074) (2 ^ 925) = 2 ^ 149 := by
  have := decode_round_exact (w := 23) (M := 1) (e := 149) (d := 2 ^ 925) (Nat.two_pow_pos _) (by decide)
  rwa [Nat.one_mul, ← Nat.pow_add] at this

theorem denS_mono {K a a' : Nat} (hK : 0 < K) (h : a ≤ a') : denS K a ≤ denS K a' :=
  decode_round_mono (Nat.two_pow_pos _) (decode_round_mono (Nat.mul_pos hK (Nat.two_pow_pos _))
    (Nat.mul_le_mul_right _ (Nat.mul_le_mul_right _ h)))

theorem denS_le {K a : Nat} (hK : 0 < K) (h : a ≤ K) : denS K a ≤ 2 ^ 149 := by
  apply round_le_pow (Nat.two_pow_pos _)
  rw [← Nat.pow_add]
  exact den64_le hK h

theorem denS_close {K a : Nat} (hK : 0 < K) (h : a ≤ K) :
    2 * (denS K a * K) ≤ 2 * (a * 2 ^ 149) + K * 2 ^ 127 ∧ 2 * (a * 2 ^ 149) ≤ 2 * (denS K a * K) + K * 2 ^ 127 := by
  have h1 := round_close (w := 52) (n := a * 2 ^ 1074 * 2 ^ 1074) (d := K * 2 ^ 1074) (e := 1022)
    (Nat.mul_pos hK (Nat.two_pow_pos _)) (by
      have : a * 2 ^ 1074 * 2 ^ 1074 ≤ K * 2 ^ 1074 * 2 ^ 1074 := Nat.mul_le_mul_right _ (Nat.mul_le_mul_right _ h)
      refine Nat.lt_of_le_of_lt this ?_
      exact Nat.mul_lt_mul_of_pos_left (Nat.pow_lt_pow_right (by decide) (by decide)) (Nat.mul_pos hK (Nat.two_pow_pos _)))
  have hle := den64_le hK h
  unfold denS
  unfold rnd64 at hle ⊢
  generalize hp : decodeMag 52 (roundMag 52 (a * 2 ^ 1074 * 2 ^ 1074) (K * 2 ^ 1074)) = p at *
  have h2 := round_close (w := 23) (n := p) (d := 2 ^ 925) (e := 126) (Nat.two_pow_pos _) (by
    rw [← Nat.pow_add]
    exact Nat.lt_of_le_of_lt hle (Nat.pow_lt_pow_right (by decide) (by decide)))
  unfold rnd32
  generalize decodeMag 23 (roundMag 23 p (2 ^ 925)) = r at *
  have e1 : 2 ^ 1074 = 2 ^ 149 * 2 ^ 925 := (Nat.pow_add 2 149 925)
  have e2 : 2 ^ 1022 ≤ 2 ^ 126 * 2 ^ 925 := by
    rw [← Nat.pow_add]; exact Nat.pow_le_pow_right (by decide) (by decide)
  have e3 : 2 ^ 127 = 2 ^ 126 + 2 ^ 126 := by decide
  rw [e3]
  have hq : 0 < 2 ^ 1074 := Nat.two_pow_pos _
  have hV : 0 < 2 ^ 925 := Nat.two_pow_pos _
  generalize hW : 2 ^ 1074 = W at *
  generalize hW2 : 2 ^ 1022 = W2 at *
  generalize hVV : 2 ^ 925 = V at *
  generalize hU : 2 ^ 149 = U at *
  generalize hS : 2 ^ 126 = S at *
  rw [show 2 * (p * (K * W)) = 2 * (p * K) * W by ac_rfl, show 2 * (a * W * W) = 2 * (a * W) * W by ac_rfl,
    show K * W * W2 = K * W2 * W by ac_rfl, ← Nat.add_mul, ← Nat.add_mul] at h1
  have h3 := Nat.le_of_mul_le_mul_right h1.1 hq
  have h4 := Nat.le_of_mul_le_mul_right h1.2 hq
  have h5 : K * W2 ≤ K * (S * V) := Nat.mul_le_mul_left _ e2
  have h6 := Nat.mul_le_mul_left K h2.1
  have h7 := Nat.mul_le_mul_left K h2.2
  rw [Nat.mul_add] at h6 h7
  have e4 : K * (2 * (r * V)) = 2 * (r * K) * V := by ac_rfl
  have e5 : K * (2 * p) = 2 * (p * K) := by ac_rfl
  have e6 : K * (V * S) = K * S * V := by ac_rfl
  have e7 : 2 * (a * W) = 2 * (a * U) * V := by rw [e1]; ac_rfl
  have e8 : K * (S * V) = K * S * V := by ac_rfl
  rw [e4, e5, e6] at h6
  rw [e4, e5, e6] at h7
  rw [e7] at h3 h4
  rw [e8] at h5
  constructor
  · apply Nat.le_of_mul_le_mul_right _ hV
    rw [Nat.add_mul, Nat.mul_add, Nat.add_mul]
    omega
  · apply Nat.le_of_mul_le_mul_right _ hV
    rw [Nat.add_mul, Nat.mul_add, Nat.add_mul]
    omega

/-- Rounding of `F64.round`. -/
def rndInt (n : Nat) : Nat := (2 * n + 2 ^ 1074) / (2 * 2 ^ 1074)

theorem rndInt_zero : rndInt 0 = 0 := by
  unfold rndInt
  have := Nat.two_pow_pos 1074
  apply Nat.div_eq_of_lt
  omega

theorem F64.round_eq (x : F64) : x.round = signed x.neg (rndInt x.val.natAbs) := by
  rw [F64.natAbs_val]; rfl

/-- `math.Round(float64(y) * K)` for numbers of magnitude at most one. -/
theorem normalize_round {y : F32} {K r : Nat} {b : Bool} (hy : y.finite = true) (hK : K < 2 ^ 16)
    (hv : y.val = signed b r) (hr : r ≤ 2 ^ 149) :
    (y.toF64.mul (F64.ofInt K)).round = signed b (rndInt (r * K * 2 ^ 925)) ∧
    (y.toF64.mul (F64.ofInt K)).finite = true := by
  obtain ⟨h1, h2⟩ := F32.toF64_val hy
  have hKs : (K : Int).natAbs < 2 ^ 53 := by omega
  obtain ⟨h3, h4, h5⟩ := F64.ofInt_val hKs
  have hn1 : y.toF64.val = signed b (r * 2 ^ 925) := by
    rw [h1, hv]
    unfold signed
    split
    · rw [Int.natCast_mul, Int.natCast_pow, Int.neg_mul]; rfl
    · rw [Int.natCast_mul, Int.natCast_pow]; rfl
  have hn2 : (F64.ofInt K).val.natAbs = K * 2 ^ 1074 := by
    rw [h3, Int.natAbs_mul]; congr 1
  have hn1' : y.toF64.val.natAbs = r * 2 ^ 925 := by rw [hn1, natAbs_signed]
  have hex : rnd64 (y.toF64.val.natAbs * (F64.ofInt K).val.natAbs) (2 ^ 1074) = r * K * 2 ^ 925 := by
    rw [hn1', hn2]
    have hr2 : r = decodeMag 23 y.mag := by rw [← F32.natAbs_val, hv, natAbs_signed]
    obtain ⟨M, e, hM, hlt⟩ := decode_form 23 y.mag
    rw [← hr2] at hM
    have hMK : M * K < 2 ^ (52 + 1) := by
      calc M * K ≤ 2 ^ 24 * 2 ^ 16 := Nat.mul_le_mul (Nat.le_of_lt hlt) (Nat.le_of_lt hK)
        _ < _ := by decide
    have := decode_round_exact (w := 52) (M := M * K) (e := e + 925) (d := 2 ^ 1074) (Nat.two_pow_pos _) hMK
    rw [Nat.pow_add] at this
    unfold rnd64
    rw [hM]
    generalize 2 ^ 1074 = W at *
    generalize 2 ^ 925 = V at *
    generalize 2 ^ e = E at *
    rw [show M * E * V * (K * W) = W * (M * K * (E * V)) by ac_rfl, this]
    ac_rfl
  have hb : rnd64 (y.toF64.val.natAbs * (F64.ofInt K).val.natAbs) (2 ^ 1074) < 2 ^ 52 * 2 ^ 2046 := by
    rw [hex]
    calc r * K * 2 ^ 925 ≤ 2 ^ 149 * 2 ^ 16 * 2 ^ 925 :=
          Nat.mul_le_mul_right _ (Nat.mul_le_mul hr (Nat.le_of_lt hK))
      _ < _ := by
        rw [← Nat.pow_add, ← Nat.pow_add, ← Nat.pow_add]
        exact Nat.pow_lt_pow_right (by decide) (by decide)
  obtain ⟨h6, h7⟩ := F64.mul_val h2 h4 hb
  refine ⟨?_, h7⟩
  have hz : (F64.ofInt K).neg = false := by rw [h5]; simp
  rw [hz, hex, Bool.bne_false] at h6
  rw [F64.round_eq]
  apply signed_map rndInt rndInt_zero
  rw [F64.natAbs_val, ← F64.val_eq, h6]
  rw [F64.val_eq, ← F64.natAbs_val, hn1'] at hn1
  have := signed_map (fun x => x * K) (Nat.zero_mul K) hn1
  rw [show r * K * 2 ^ 925 = r * 2 ^ 925 * K by rw [Nat.mul_assoc, Nat.mul_comm K, Nat.mul_assoc]]
  exact this

theorem rndInt_close {K a r e : Nat} (hK : K < 2 ^ 16) (he : e ≤ 127)
    (h1 : 2 * (r * K) ≤ 2 * (a * 2 ^ 149) + K * 2 ^ e) (h2 : 2 * (a * 2 ^ 149) ≤ 2 * (r * K) + K * 2 ^ e) :
    rndInt (r * K * 2 ^ 925) = a := by
  have h3 : K * 2 ^ e < 2 ^ 149 := by
    calc K * 2 ^ e < 2 ^ 16 * 2 ^ e := Nat.mul_lt_mul_of_pos_right hK (Nat.two_pow_pos _)
      _ ≤ 2 ^ 149 := by rw [← Nat.pow_add]; exact Nat.pow_le_pow_right (by decide) (by omega)
  unfold rndInt
  rw [show 2 ^ 1074 = 2 ^ 149 * 2 ^ 925 from Nat.pow_add 2 149 925]
  have hV : 0 < 2 ^ 925 := Nat.two_pow_pos _
  generalize 2 ^ 925 = V at *
  generalize 2 ^ 149 = U at *
  rw [show 2 * (r * K * V) + U * V = (2 * (r * K) + U) * V by rw [Nat.add_mul]; ac_rfl,
    show 2 * (U * V) = (2 * U) * V by ac_rfl, Nat.mul_div_mul_right _ _ hV]
  apply Nat.div_eq_of_lt_le
  · rw [show a * (2 * U) = 2 * (a * U) by ac_rfl]; omega
  · rw [show (a + 1) * (2 * U) = 2 * (a * U) + 2 * U by rw [Nat.add_mul, Nat.one_mul]; congr 1; ac_rfl]; omega

end Gltf
