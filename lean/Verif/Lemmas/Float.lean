/-
Rounding of the float model: exactness, error bound and monotonicity.
-/
import Verif.Model.Math

namespace Gltf

theorem roundHalfEven_bounds (n d : Nat) : n / d ≤ roundHalfEven n d ∧ roundHalfEven n d ≤ n / d + 1 := by
  unfold roundHalfEven
  simp only
  split
  · omega
  · split <;> omega

theorem roundHalfEven_exact {d q : Nat} (hd : 0 < d) : roundHalfEven (d * q) d = q := by
  unfold roundHalfEven
  simp only [Nat.mul_div_cancel_left q hd, Nat.mul_mod_right]
  rw [if_pos (by omega)]

theorem roundHalfEven_err {n d : Nat} (_ : 0 < d) :
    2 * (roundHalfEven n d * d) ≤ 2 * n + d ∧ 2 * n ≤ 2 * (roundHalfEven n d * d) + d := by
  have h1 := Nat.div_add_mod n d
  rw [Nat.mul_comm] at h1
  have h2 := Nat.mod_lt n ‹0 < d›
  unfold roundHalfEven
  simp only
  split
  · omega
  · split
    · rw [Nat.add_mul]; omega
    · have : n / d % 2 = 0 ∨ n / d % 2 = 1 := by omega
      rcases this with h | h <;> rw [h, Nat.add_mul] <;> omega

theorem roundHalfEven_mono {n n' d : Nat} (_ : 0 < d) (h : n ≤ n') : roundHalfEven n d ≤ roundHalfEven n' d := by
  have hq : n / d ≤ n' / d := Nat.div_le_div_right h
  by_cases he : n / d = n' / d
  · have h1 := Nat.div_add_mod n d
    have h2 := Nat.div_add_mod n' d
    rw [he] at h1
    unfold roundHalfEven
    simp only [he]
    have : n % d ≤ n' % d := by omega
    split
    · split
      · omega
      · split <;> omega
    · split
      · rw [if_neg (by omega)]
        split <;> omega
      · rw [if_neg (by omega)]
        split <;> omega
  · have h1 := roundHalfEven_bounds n d
    have h2 := roundHalfEven_bounds n' d
    omega

theorem decode_scaled {w s q : Nat} (h1 : q ≤ 2 ^ (w + 1)) (h2 : 0 < s → 2 ^ w ≤ q) :
    decodeMag w (s * 2 ^ w + q) = q * 2 ^ s := by
  have hw : 0 < 2 ^ w := Nat.two_pow_pos w
  rw [Nat.pow_succ] at h1
  unfold decodeMag
  have hdiv : (s * 2 ^ w + q) / 2 ^ w = s + q / 2 ^ w := by
    rw [Nat.add_comm, Nat.add_mul_div_right _ _ hw, Nat.add_comm]
  have hmod : (s * 2 ^ w + q) % 2 ^ w = q % 2 ^ w := by
    rw [Nat.add_comm, Nat.add_mul_mod_self_right]
  rw [hdiv, hmod]
  by_cases hlt : q < 2 ^ w
  · have hs : s = 0 := by
      rcases Nat.eq_zero_or_pos s with h | h
      · exact h
      · have := h2 h; omega
    subst hs
    rw [Nat.div_eq_of_lt hlt]
    simp
  · by_cases hlt2 : q < 2 * 2 ^ w
    · have hq : q / 2 ^ w = 1 := Nat.div_eq_of_lt_le (by omega) (by omega)
      rw [hq, if_neg (by omega)]
      have hm : q % 2 ^ w + 2 ^ w = q := by
        have := Nat.div_add_mod q (2 ^ w)
        rw [hq] at this; omega
      rw [hm]; rfl
    · have hq : q = 2 * 2 ^ w := by omega
      subst hq
      rw [Nat.mul_div_cancel _ hw, Nat.mul_mod_left, if_neg (by omega), Nat.zero_add,
        show s + 2 - 1 = s + 1 by omega, Nat.pow_succ]
      ac_rfl

/-- Exponent used by `roundMag`. -/
def roundExp (w n d : Nat) : Nat := (n / d).log2 - w

theorem quot_bounds (w n d : Nat) :
    roundHalfEven n (d * 2 ^ roundExp w n d) ≤ 2 ^ (w + 1) ∧
    (0 < roundExp w n d → 2 ^ w ≤ roundHalfEven n (d * 2 ^ roundExp w n d)) := by
  have hb := roundHalfEven_bounds n (d * 2 ^ roundExp w n d)
  rw [← Nat.div_div_eq_div_mul] at hb
  by_cases h0 : n / d = 0
  · have : roundExp w n d = 0 := by unfold roundExp; rw [h0]; simp
    rw [this] at hb ⊢
    rw [h0, Nat.zero_div] at hb
    have : 0 < 2 ^ (w + 1) := Nat.two_pow_pos _
    constructor
    · omega
    · omega
  · have hl1 := Nat.log2_self_le h0
    have hl2 := @Nat.lt_log2_self (n / d)
    generalize hL : (n / d).log2 = L at *
    have hs : roundExp w n d = L - w := by unfold roundExp; rw [hL]
    rw [hs] at hb ⊢
    have hup : (n / d) / 2 ^ (L - w) < 2 ^ (w + 1) := by
      rw [Nat.div_lt_iff_lt_mul (Nat.two_pow_pos _), ← Nat.pow_add]
      exact Nat.lt_of_lt_of_le hl2 (Nat.pow_le_pow_right (by omega) (by omega))
    refine ⟨by omega, fun hpos => ?_⟩
    have : 2 ^ w ≤ (n / d) / 2 ^ (L - w) := by
      rw [Nat.le_div_iff_mul_le (Nat.two_pow_pos _), ← Nat.pow_add, show w + (L - w) = L by omega]
      exact hl1
    omega

theorem decode_round (w n d : Nat) :
    decodeMag w (roundMag w n d) = roundHalfEven n (d * 2 ^ roundExp w n d) * 2 ^ roundExp w n d := by
  have := quot_bounds w n d
  exact decode_scaled this.1 this.2

/-- Representable numbers are not changed. -/
theorem decode_round_exact {w M e d : Nat} (hd : 0 < d) (hM : M < 2 ^ (w + 1)) :
    decodeMag w (roundMag w (d * (M * 2 ^ e)) d) = M * 2 ^ e := by
  rw [decode_round]
  have hq : d * (M * 2 ^ e) / d = M * 2 ^ e := Nat.mul_div_cancel_left _ hd
  have hs : roundExp w (d * (M * 2 ^ e)) d ≤ e := by
    unfold roundExp
    rw [hq]
    by_cases h0 : M * 2 ^ e = 0
    · rw [h0]; simp
    · have : (M * 2 ^ e).log2 < w + 1 + e := by
        rw [Nat.log2_lt h0, Nat.pow_add]
        exact Nat.mul_lt_mul_of_pos_right hM (Nat.two_pow_pos _)
      omega
  generalize roundExp w (d * (M * 2 ^ e)) d = s at hs
  obtain ⟨k, rfl⟩ := Nat.exists_eq_add_of_le hs
  have : d * (M * 2 ^ (s + k)) = d * 2 ^ s * (M * 2 ^ k) := by
    rw [Nat.pow_add]; ac_rfl
  rw [this, roundHalfEven_exact (Nat.mul_pos hd (Nat.two_pow_pos _)), Nat.pow_add]
  ac_rfl

/-- The result is within half a unit in the last place. -/
theorem decode_round_err {w n d : Nat} (hd : 0 < d) :
    2 * (decodeMag w (roundMag w n d) * d) ≤ 2 * n + d * 2 ^ roundExp w n d ∧
    2 * n ≤ 2 * (decodeMag w (roundMag w n d) * d) + d * 2 ^ roundExp w n d := by
  rw [decode_round]
  have := roundHalfEven_err (n := n) (d := d * 2 ^ roundExp w n d) (Nat.mul_pos hd (Nat.two_pow_pos _))
  generalize roundHalfEven n (d * 2 ^ roundExp w n d) = q at *
  generalize 2 ^ roundExp w n d = S at *
  have e : q * S * d = q * (d * S) := by ac_rfl
  rw [e]
  exact this

theorem roundExp_mono {w n n' d : Nat} (h : n ≤ n') : roundExp w n d ≤ roundExp w n' d := by
  unfold roundExp
  have hq : n / d ≤ n' / d := Nat.div_le_div_right h
  have : (n / d).log2 ≤ (n' / d).log2 := by
    by_cases h0 : n / d = 0
    · rw [h0]; simp
    · exact (Nat.le_log2 (Nat.ne_of_gt (Nat.lt_of_lt_of_le (Nat.pos_of_ne_zero h0) hq))).2 (Nat.le_trans (Nat.log2_self_le h0) hq)
  omega

theorem decode_round_mono {w n n' d : Nat} (hd : 0 < d) (h : n ≤ n') :
    decodeMag w (roundMag w n d) ≤ decodeMag w (roundMag w n' d) := by
  rw [decode_round, decode_round]
  have hs := roundExp_mono (w := w) (d := d) h
  rcases Nat.lt_or_eq_of_le hs with hlt | heq
  · have h1 := (quot_bounds w n d).1
    have h2 := (quot_bounds w n' d).2 (by omega)
    generalize roundHalfEven n (d * 2 ^ roundExp w n d) = q at *
    generalize roundHalfEven n' (d * 2 ^ roundExp w n' d) = q' at *
    generalize roundExp w n d = s at *
    generalize roundExp w n' d = s' at *
    obtain ⟨k, rfl⟩ := Nat.exists_eq_add_of_le (show s + 1 ≤ s' by omega)
    calc q * 2 ^ s ≤ 2 ^ (w + 1) * 2 ^ s := Nat.mul_le_mul_right _ h1
      _ = 2 ^ w * 2 ^ (s + 1) := by rw [← Nat.pow_add, ← Nat.pow_add]; congr 1; omega
      _ ≤ 2 ^ w * 2 ^ (s + 1 + k) := Nat.mul_le_mul_left _ (Nat.pow_le_pow_right (by omega) (by omega))
      _ ≤ q' * 2 ^ (s + 1 + k) := Nat.mul_le_mul_right _ h2
  · rw [heq]
    exact Nat.mul_le_mul_right _ (roundHalfEven_mono (Nat.mul_pos hd (Nat.two_pow_pos _)) h)

theorem decode_form (w m : Nat) : ∃ M e, decodeMag w m = M * 2 ^ e ∧ M < 2 ^ (w + 1) := by
  unfold decodeMag
  have hw : 0 < 2 ^ w := Nat.two_pow_pos w
  split
  · next h =>
    refine ⟨m, 0, by simp, ?_⟩
    rw [Nat.div_eq_zero_iff_lt hw] at h
    rw [Nat.pow_succ]; omega
  · refine ⟨_, _, rfl, ?_⟩
    have := Nat.mod_lt m hw
    rw [Nat.pow_succ]; omega

theorem decode_le_of_div {w m : Nat} : decodeMag w m < 2 ^ w * 2 ^ (m / 2 ^ w) ∧
    (0 < m / 2 ^ w → 2 ^ w * 2 ^ (m / 2 ^ w - 1) ≤ decodeMag w m) := by
  have hw : 0 < 2 ^ w := Nat.two_pow_pos w
  unfold decodeMag
  split
  · next h =>
    rw [h]
    rw [Nat.div_eq_zero_iff_lt hw] at h
    exact ⟨by simpa using h, fun h => absurd h (by omega)⟩
  · next h =>
    have hm := Nat.mod_lt m hw
    generalize he : m / 2 ^ w = e at *
    obtain ⟨k, rfl⟩ := Nat.exists_eq_add_of_le (show 1 ≤ e by omega)
    rw [show 1 + k - 1 = k by omega, show 1 + k = k + 1 by omega]
    constructor
    · calc _ < (2 ^ w + 2 ^ w) * 2 ^ k := Nat.mul_lt_mul_of_pos_right (by omega) (Nat.two_pow_pos _)
        _ = _ := by rw [Nat.pow_succ, ← Nat.two_mul]; ac_rfl
    · intro _
      exact Nat.mul_le_mul_right _ (by omega)

theorem decode_mono {w m m' : Nat} (h : m ≤ m') : decodeMag w m ≤ decodeMag w m' := by
  have hq : m / 2 ^ w ≤ m' / 2 ^ w := Nat.div_le_div_right h
  rcases Nat.lt_or_eq_of_le hq with hlt | heq
  · have h1 := (decode_le_of_div (w := w) (m := m)).1
    have h2 := (decode_le_of_div (w := w) (m := m')).2 (Nat.lt_of_le_of_lt (Nat.zero_le _) hlt)
    refine Nat.le_trans (Nat.le_of_lt h1) (Nat.le_trans ?_ h2)
    exact Nat.mul_le_mul_left _ (Nat.pow_le_pow_right (by omega) (by omega))
  · have h1 := Nat.div_add_mod m (2 ^ w)
    have h2 := Nat.div_add_mod m' (2 ^ w)
    rw [heq] at h1
    unfold decodeMag
    rw [heq]
    split
    · exact h
    · exact Nat.mul_le_mul_right _ (by omega)

/-- A value below the first power of two that is too large has finite bits. -/
theorem bits_lt {w m e : Nat} (h : decodeMag w m < 2 ^ w * 2 ^ e) : m < (e + 1) * 2 ^ w := by
  have hw : 0 < 2 ^ w := Nat.two_pow_pos w
  rcases Nat.lt_or_ge m ((e + 1) * 2 ^ w) with h1 | h1
  · exact h1
  · exfalso
    have h2 : e + 1 ≤ m / 2 ^ w := by rw [Nat.le_div_iff_mul_le hw]; exact h1
    have h3 := (decode_le_of_div (w := w) (m := m)).2 (by omega)
    have h4 : 2 ^ e ≤ 2 ^ (m / 2 ^ w - 1) := Nat.pow_le_pow_right (by omega) (by omega)
    have := Nat.mul_le_mul_left (2 ^ w) h4
    omega

/-! ### Values -/

/-- Rounded quotient in units of the smallest `float32`. -/
def rnd32 (n d : Nat) : Nat := decodeMag 23 (roundMag 23 n d)
/-- Rounded quotient in units of the smallest `float64`. -/
def rnd64 (n d : Nat) : Nat := decodeMag 52 (roundMag 52 n d)

theorem make64 {neg : Bool} {m : Nat} (h : m < inf64) :
    (F64.make neg m).mag = m ∧ (F64.make neg m).neg = neg := by
  unfold inf64 at h
  have e : min m inf64 = m := by unfold inf64; omega
  unfold F64.make F64.mag F64.neg
  rw [e]
  cases neg
  · simp only [Bool.false_eq_true, if_false, UInt64.toNat_ofNat']
    constructor
    · omega
    · rw [decide_eq_false_iff_not]; omega
  · simp only [if_true, UInt64.toNat_ofNat']
    constructor
    · omega
    · rw [decide_eq_true_iff]; omega

theorem make32 {neg : Bool} {m : Nat} (h : m < inf32) :
    (F32.make neg m).mag = m ∧ (F32.make neg m).neg = neg := by
  unfold inf32 at h
  have e : min m inf32 = m := by unfold inf32; omega
  unfold F32.make F32.mag F32.neg
  rw [e]
  cases neg
  · simp only [Bool.false_eq_true, if_false, UInt32.toNat_ofNat']
    constructor
    · omega
    · rw [decide_eq_false_iff_not]; omega
  · simp only [if_true, UInt32.toNat_ofNat']
    constructor
    · omega
    · rw [decide_eq_true_iff]; omega

/-- Signed number. -/
def signed (neg : Bool) (n : Nat) : Int := if neg then -(n : Int) else n

theorem natAbs_signed (neg : Bool) (n : Nat) : (signed neg n).natAbs = n := by
  unfold signed; cases neg <;> simp

theorem F64.val_eq (x : F64) : x.val = signed x.neg (decodeMag 52 x.mag) := rfl
theorem F32.val_eq (x : F32) : x.val = signed x.neg (decodeMag 23 x.mag) := rfl
theorem F64.natAbs_val (x : F64) : x.val.natAbs = decodeMag 52 x.mag := natAbs_signed _ _
theorem F32.natAbs_val (x : F32) : x.val.natAbs = decodeMag 23 x.mag := natAbs_signed _ _

/-- Smallest power of two that is too large for a `float64`, in its units. -/
theorem inf64_eq : inf64 = (2046 + 1) * 2 ^ 52 := by decide
theorem inf32_eq : inf32 = (254 + 1) * 2 ^ 23 := by decide

/-- A `float64` that is not too large. -/
theorem make64_val {neg : Bool} {n d : Nat} (h : rnd64 n d < 2 ^ 52 * 2 ^ 2046) :
    (F64.make neg (roundMag 52 n d)).val = signed neg (rnd64 n d) ∧ (F64.make neg (roundMag 52 n d)).finite = true := by
  have hm : roundMag 52 n d < inf64 := by rw [inf64_eq]; exact bits_lt h
  obtain ⟨h1, h2⟩ := make64 (neg := neg) hm
  unfold F64.finite
  rw [F64.val_eq, h1, h2]
  exact ⟨rfl, by simpa using hm⟩

theorem make32_val {neg : Bool} {n d : Nat} (h : rnd32 n d < 2 ^ 23 * 2 ^ 254) :
    (F32.make neg (roundMag 23 n d)).val = signed neg (rnd32 n d) ∧ (F32.make neg (roundMag 23 n d)).finite = true := by
  have hm : roundMag 23 n d < inf32 := by rw [inf32_eq]; exact bits_lt h
  obtain ⟨h1, h2⟩ := make32 (neg := neg) hm
  unfold F32.finite
  rw [F32.val_eq, h1, h2]
  exact ⟨rfl, by simpa using hm⟩

theorem F64.finite_nan {x : F64} (h : x.finite = true) : x.isNaN = false ∧ x.mag ≠ inf64 := by
  unfold F64.finite at h
  unfold F64.isNaN
  rw [decide_eq_true_iff] at h
  exact ⟨by rw [decide_eq_false_iff_not]; omega, by omega⟩

theorem F32.finite_nan {x : F32} (h : x.finite = true) : x.isNaN = false ∧ x.mag ≠ inf32 := by
  unfold F32.finite at h
  unfold F32.isNaN
  rw [decide_eq_true_iff] at h
  exact ⟨by rw [decide_eq_false_iff_not]; omega, by omega⟩

theorem F32.finite_lt {x : F32} (h : x.finite = true) : decodeMag 23 x.mag < 2 ^ 23 * 2 ^ 254 := by
  unfold F32.finite at h
  rw [decide_eq_true_iff, inf32_eq] at h
  have h1 := (decode_le_of_div (w := 23) (m := x.mag)).1
  have h2 : x.mag / 2 ^ 23 < 255 := by rw [Nat.div_lt_iff_lt_mul (by decide)]; exact h
  refine Nat.lt_of_lt_of_le h1 (Nat.mul_le_mul_left _ (Nat.pow_le_pow_right (by omega) (by omega)))

/-- `float64(x)` is exact. -/
theorem F32.toF64_val {x : F32} (h : x.finite = true) :
    x.toF64.val = x.val * 2 ^ 925 ∧ x.toF64.finite = true := by
  obtain ⟨h1, h2⟩ := F32.finite_nan h
  unfold F32.toF64
  rw [h1, if_neg (by decide), if_neg h2]
  obtain ⟨M, e, hM, hlt⟩ := decode_form 23 x.mag
  have hex : rnd64 (decodeMag 23 x.mag * 2 ^ 925) 1 = decodeMag 23 x.mag * 2 ^ 925 := by
    unfold rnd64
    rw [hM, Nat.mul_assoc, ← Nat.pow_add]
    have := decode_round_exact (w := 52) (M := M) (e := e + 925) (d := 1) (by decide)
      (Nat.lt_trans hlt (Nat.pow_lt_pow_right (by decide) (by decide)))
    rwa [Nat.one_mul] at this
  have hb : rnd64 (decodeMag 23 x.mag * 2 ^ 925) 1 < 2 ^ 52 * 2 ^ 2046 := by
    rw [hex]
    have := F32.finite_lt h
    calc _ < 2 ^ 23 * 2 ^ 254 * 2 ^ 925 := Nat.mul_lt_mul_of_pos_right this (Nat.two_pow_pos _)
      _ ≤ _ := by
        rw [← Nat.pow_add, ← Nat.pow_add, ← Nat.pow_add]
        exact Nat.pow_le_pow_right (by decide) (by decide)
  obtain ⟨h3, h4⟩ := make64_val (neg := x.neg) hb
  refine ⟨?_, h4⟩
  rw [h3, hex, F32.val_eq]
  unfold signed
  split
  · rw [Int.natCast_mul, Int.natCast_pow, Int.neg_mul]; rfl
  · rw [Int.natCast_mul, Int.natCast_pow]; rfl

/-- `float32(x)` rounds. -/
theorem F64.toF32_val {x : F64} (h : x.finite = true) (hb : rnd32 x.val.natAbs (2 ^ 925) < 2 ^ 23 * 2 ^ 254) :
    x.toF32.val = signed x.neg (rnd32 x.val.natAbs (2 ^ 925)) ∧ x.toF32.finite = true := by
  obtain ⟨h1, h2⟩ := F64.finite_nan h
  unfold F64.toF32
  rw [h1, if_neg (by decide), if_neg h2]
  rw [F64.natAbs_val] at *
  exact make32_val hb

theorem F64.div_val {x y : F64} (hx : x.finite = true) (hy : y.finite = true) (h0 : y.val ≠ 0)
    (hb : rnd64 (x.val.natAbs * 2 ^ 1074) y.val.natAbs < 2 ^ 52 * 2 ^ 2046) :
    (x.div y).val = signed (x.neg != y.neg) (rnd64 (x.val.natAbs * 2 ^ 1074) y.val.natAbs) ∧ (x.div y).finite = true := by
  have hm : (y.mag != 0) = true := by
    rw [bne_iff_ne]
    intro hm
    apply h0
    rw [F64.val_eq, hm]
    unfold decodeMag signed
    simp
  unfold F64.div
  rw [hx, hy, hm, Bool.and_self, Bool.and_self, if_pos rfl]
  rw [F64.natAbs_val, F64.natAbs_val] at *
  exact make64_val hb

theorem F32.div_val {x y : F32} (hx : x.finite = true) (hy : y.finite = true) (h0 : y.val ≠ 0)
    (hb : rnd32 (x.val.natAbs * 2 ^ 149) y.val.natAbs < 2 ^ 23 * 2 ^ 254) :
    (x.div y).val = signed (x.neg != y.neg) (rnd32 (x.val.natAbs * 2 ^ 149) y.val.natAbs) ∧ (x.div y).finite = true := by
  have hm : (y.mag != 0) = true := by
    rw [bne_iff_ne]
    intro hm
    apply h0
    rw [F32.val_eq, hm]
    unfold decodeMag signed
    simp
  unfold F32.div
  rw [hx, hy, hm, Bool.and_self, Bool.and_self, if_pos rfl]
  rw [F32.natAbs_val, F32.natAbs_val] at *
  exact make32_val hb

theorem F64.mul_val {x y : F64} (hx : x.finite = true) (hy : y.finite = true)
    (hb : rnd64 (x.val.natAbs * y.val.natAbs) (2 ^ 1074) < 2 ^ 52 * 2 ^ 2046) :
    (x.mul y).val = signed (x.neg != y.neg) (rnd64 (x.val.natAbs * y.val.natAbs) (2 ^ 1074)) ∧
      (x.mul y).finite = true := by
  unfold F64.mul
  rw [hx, hy, Bool.and_self, if_pos rfl]
  rw [F64.natAbs_val, F64.natAbs_val] at *
  exact make64_val hb

/-- Small integers are exact. -/
theorem F64.ofInt_val {i : Int} (h : i.natAbs < 2 ^ 53) :
    (F64.ofInt i).val = i * 2 ^ 1074 ∧ (F64.ofInt i).finite = true ∧ (F64.ofInt i).neg = decide (i < 0) := by
  have hex : rnd64 (i.natAbs * 2 ^ 1074) 1 = i.natAbs * 2 ^ 1074 := by
    have := decode_round_exact (w := 52) (M := i.natAbs) (e := 1074) (d := 1) (by decide) h
    rwa [Nat.one_mul] at this
  have hb : rnd64 (i.natAbs * 2 ^ 1074) 1 < 2 ^ 52 * 2 ^ 2046 := by
    rw [hex]
    calc _ < 2 ^ 53 * 2 ^ 1074 := Nat.mul_lt_mul_of_pos_right h (Nat.two_pow_pos _)
      _ ≤ _ := by
        rw [← Nat.pow_add, ← Nat.pow_add]
        exact Nat.pow_le_pow_right (by decide) (by decide)
  have h3 := make64_val (neg := decide (i < 0)) hb
  have h4 := make64 (neg := decide (i < 0)) (m := roundMag 52 (i.natAbs * 2 ^ 1074) 1)
    (by rw [inf64_eq]; exact bits_lt hb)
  refine ⟨?_, h3.2, h4.2⟩
  unfold F64.ofInt
  rw [h3.1, hex]
  unfold signed
  by_cases hn : i < 0
  · rw [if_pos (by simpa using hn), Int.natCast_mul, ← Int.neg_mul, Int.natCast_pow]
    congr 1; omega
  · rw [if_neg (by simpa using hn), Int.natCast_mul, Int.natCast_pow]
    congr 1; omega

theorem F32.ofNat_val {n : Nat} (h : n < 2 ^ 24) :
    (F32.ofNat n).val = (n * 2 ^ 149 : Nat) ∧ (F32.ofNat n).finite = true ∧ (F32.ofNat n).neg = false := by
  have hex : rnd32 (n * 2 ^ 149) 1 = n * 2 ^ 149 := by
    have := decode_round_exact (w := 23) (M := n) (e := 149) (d := 1) (by decide) h
    rwa [Nat.one_mul] at this
  have hb : rnd32 (n * 2 ^ 149) 1 < 2 ^ 23 * 2 ^ 254 := by
    rw [hex]
    calc _ < 2 ^ 24 * 2 ^ 149 := Nat.mul_lt_mul_of_pos_right h (Nat.two_pow_pos _)
      _ ≤ _ := by
        rw [← Nat.pow_add, ← Nat.pow_add]
        exact Nat.pow_le_pow_right (by decide) (by decide)
  have h3 := make32_val (neg := false) hb
  have h4 := make32 (neg := false) (m := roundMag 23 (n * 2 ^ 149) 1)
    (by rw [inf32_eq]; exact bits_lt hb)
  refine ⟨?_, h3.2, h4.2⟩
  unfold F32.ofNat
  rw [h3.1, hex]
  rfl

theorem F64.mag_lt (x : F64) : x.bits.toNat = x.mag + (if x.neg then 2 ^ 63 else 0) := by
  have := x.bits.toNat_lt
  unfold F64.mag F64.neg
  split
  · next h => rw [decide_eq_true_iff] at h; omega
  · next h => simp only [decide_eq_true_eq] at h; omega

theorem F64.finite_ne_inf {x : F64} (h : x.finite = true) :
    x ≠ ⟨0xFFF0000000000000⟩ ∧ x ≠ ⟨0x7FF0000000000000⟩ := by
  constructor <;>
  · rintro rfl
    revert h
    decide

/-- `math.Min` of finite numbers. -/
theorem F64.min_val {x y : F64} (hx : x.finite = true) (hy : y.finite = true) :
    (x.min y = x ∨ x.min y = y) ∧ (x.min y).val ≤ x.val ∧ (x.min y).val ≤ y.val := by
  unfold F64.min
  rw [if_neg (by simp [(F64.finite_ne_inf hx).1, (F64.finite_ne_inf hy).1]),
    (F64.finite_nan hx).1, (F64.finite_nan hy).1, if_neg (by decide)]
  unfold F64.lt
  rw [(F64.finite_nan hx).1, (F64.finite_nan hy).1]
  split
  · split
    · exact ⟨.inl rfl, by omega, by omega⟩
    · exact ⟨.inr rfl, by omega, by omega⟩
  · split
    · next h =>
      simp only [Bool.not_false, Bool.and_self, Bool.true_and, decide_eq_true_eq] at h
      exact ⟨.inl rfl, by omega, by omega⟩
    · next h =>
      simp only [Bool.not_false, Bool.and_self, Bool.true_and, decide_eq_true_eq] at h
      exact ⟨.inr rfl, by omega, by omega⟩

/-- `math.Max` of finite numbers. -/
theorem F64.max_val {x y : F64} (hx : x.finite = true) (hy : y.finite = true) :
    (x.max y = x ∨ x.max y = y) ∧ x.val ≤ (x.max y).val ∧ y.val ≤ (x.max y).val := by
  unfold F64.max
  rw [if_neg (by simp [(F64.finite_ne_inf hx).2, (F64.finite_ne_inf hy).2]),
    (F64.finite_nan hx).1, (F64.finite_nan hy).1, if_neg (by decide)]
  unfold F64.lt
  rw [(F64.finite_nan hx).1, (F64.finite_nan hy).1]
  split
  · split
    · exact ⟨.inr rfl, by omega, by omega⟩
    · exact ⟨.inl rfl, by omega, by omega⟩
  · split
    · next h =>
      simp only [Bool.not_false, Bool.and_self, Bool.true_and, decide_eq_true_eq] at h
      exact ⟨.inl rfl, by omega, by omega⟩
    · next h =>
      simp only [Bool.not_false, Bool.and_self, Bool.true_and, decide_eq_true_eq] at h
      exact ⟨.inr rfl, by omega, by omega⟩

end Gltf
