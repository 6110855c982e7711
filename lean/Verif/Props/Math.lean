/-
Properties C28 and C29: normalised integers.
-/
import Verif.Lemmas.Normalize

namespace Gltf

/-- The number one in units of the smallest `float32` (2^-149). -/
def Spec.one32 : Int := 2 ^ 149

theorem signed_false (n : Nat) : signed false n = n := rfl

/-- `float32(v) / K`. -/
theorem denU_val {K v : Nat} (hK : 0 < K) (hK2 : K < 2 ^ 16) (h : v ≤ K) :
    ((F32.ofNat v).div (F32.ofNat K)).val = denU K v ∧ ((F32.ofNat v).div (F32.ofNat K)).finite = true := by
  obtain ⟨a1, a2, a3⟩ := F32.ofNat_val (n := v) (by omega)
  obtain ⟨b1, b2, b3⟩ := F32.ofNat_val (n := K) (by omega)
  have hne : (F32.ofNat K).val ≠ 0 := by
    rw [b1]
    have := Nat.mul_pos hK (Nat.two_pow_pos 149)
    omega
  have e1 : (F32.ofNat v).val.natAbs = v * 2 ^ 149 := by rw [a1]; rfl
  have e2 : (F32.ofNat K).val.natAbs = K * 2 ^ 149 := by rw [b1]; rfl
  have hb : rnd32 ((F32.ofNat v).val.natAbs * 2 ^ 149) (F32.ofNat K).val.natAbs < 2 ^ 23 * 2 ^ 254 := by
    rw [e1, e2]
    refine Nat.lt_of_le_of_lt (denU_le hK h) ?_
    rw [← Nat.pow_add]
    exact Nat.pow_lt_pow_right (by decide) (by decide)
  obtain ⟨c1, c2⟩ := F32.div_val a2 b2 hne hb
  refine ⟨?_, c2⟩
  rw [c1, a3, b3, e1, e2]
  rfl

theorem signed_bottom {b : Bool} {p W : Nat} (h : p ≤ W) (h2 : signed b p ≤ -(W : Int)) : -(W : Int) = signed b p := by
  unfold signed at *
  split at h2 <;> split <;> first | omega | contradiction

/-- `float32(math.Max(float64(v) / K, -1))`. -/
theorem denS_val {K : Nat} {i : Int} (hK : 0 < K) (hK2 : K < 2 ^ 16) (h : i ≤ K) (h' : -(K : Int) - 1 ≤ i) :
    (((F64.ofInt i).div (F64.ofInt K)).max (F64.ofInt (-1))).toF32.val = signed (decide (i < 0)) (denS K (min i.natAbs K)) ∧
    (((F64.ofInt i).div (F64.ofInt K)).max (F64.ofInt (-1))).toF32.finite = true := by
  obtain ⟨a1, a2, a3⟩ := F64.ofInt_val (i := i) (by omega)
  obtain ⟨b1, b2, b3⟩ := F64.ofInt_val (i := (K : Int)) (by omega)
  obtain ⟨m1, m2, m3⟩ := F64.ofInt_val (i := (-1 : Int)) (by decide)
  have e1 : (F64.ofInt i).val.natAbs = i.natAbs * 2 ^ 1074 := by rw [a1, Int.natAbs_mul]; congr 1
  have e2 : (F64.ofInt (K : Int)).val.natAbs = K * 2 ^ 1074 := by rw [b1, Int.natAbs_mul]; congr 1
  have hpos : 0 < 2 ^ 1074 := Nat.two_pow_pos _
  have hne : (F64.ofInt (K : Int)).val ≠ 0 := by
    intro h0
    rw [h0] at e2
    have := Nat.mul_pos hK hpos
    rw [← e2] at this
    exact absurd this (by decide)
  have hbig : ∀ n, n ≤ 2 * 2 ^ 1074 → n < 2 ^ 52 * 2 ^ 2046 := by
    intro n hn
    refine Nat.lt_of_le_of_lt hn ?_
    rw [← Nat.pow_succ', ← Nat.pow_add]
    exact Nat.pow_lt_pow_right (by decide) (by decide)
  have hp2 : rnd64 (i.natAbs * 2 ^ 1074 * 2 ^ 1074) (K * 2 ^ 1074) ≤ 2 * 2 ^ 1074 := by
    have h2 : 2 ^ 1075 = 2 * 2 ^ 1074 := Nat.pow_succ' (n := 1074)
    rw [← h2]
    apply round_le_pow (Nat.mul_pos hK hpos)
    rw [h2]
    have : ∀ W : Nat, i.natAbs * W * W ≤ K * W * (2 * W) := by
      intro W
      have : i.natAbs * W * W ≤ 2 * K * W * W := Nat.mul_le_mul_right _ (Nat.mul_le_mul_right _ (by omega))
      rw [show K * W * (2 * W) = 2 * K * W * W by ac_rfl]
      exact this
    exact this _
  have hb : rnd64 ((F64.ofInt i).val.natAbs * 2 ^ 1074) (F64.ofInt (K : Int)).val.natAbs < 2 ^ 52 * 2 ^ 2046 := by
    rw [e1, e2]; exact hbig _ hp2
  obtain ⟨c1, c2⟩ := F64.div_val a2 b2 hne hb
  have hneg : ((F64.ofInt i).neg != (F64.ofInt (K : Int)).neg) = decide (i < 0) := by
    rw [a3, b3, decide_eq_false (show ¬ (K : Int) < 0 by omega), Bool.bne_false]
  rw [hneg, e1, e2] at c1
  obtain ⟨d1, d2, d3⟩ := F64.max_val c2 m2
  generalize hx : (F64.ofInt i).div (F64.ofInt (K : Int)) = x at *
  generalize hz : x.max (F64.ofInt (-1)) = z at *
  -- the value of the maximum
  have hzfin : z.finite = true := by
    rcases d1 with h | h
    · rw [h]; exact c2
    · rw [h]; exact m2
  have m1' : (F64.ofInt (-1)).val = -(2 ^ 1074 : Nat) := by
    rw [m1, Int.neg_mul, Int.one_mul, Int.natCast_pow]; rfl
  have hzval : z.val = signed (decide (i < 0)) (rnd64 (min i.natAbs K * 2 ^ 1074 * 2 ^ 1074) (K * 2 ^ 1074)) := by
    by_cases hle : i.natAbs ≤ K
    · rw [Nat.min_eq_left hle, ← c1]
      rcases d1 with rfl | rfl
      · rfl
      · have := den64_le hK hle
        rw [m1', c1] at d2
        rw [m1', c1]
        exact signed_bottom this d2
    · have hi : i < 0 := by omega
      rw [Nat.min_eq_right (by omega)]
      have h1 := den64_le (K := K) (a := K) hK (Nat.le_refl _)
      have h2 := den64_ge (K := K) (a := K) hK (Nat.le_refl _)
      have h3 := den64_ge (K := K) (a := i.natAbs) hK (by omega)
      rw [decide_eq_true hi] at c1 ⊢
      rw [m1'] at d3
      have hm1 := m1'
      unfold signed at c1 ⊢
      rw [if_pos rfl] at c1 ⊢
      revert hm1 d3
      generalize rnd64 (i.natAbs * 2 ^ 1074 * 2 ^ 1074) (K * 2 ^ 1074) = p at *
      generalize rnd64 (K * 2 ^ 1074 * 2 ^ 1074) (K * 2 ^ 1074) = p' at *
      generalize 2 ^ 1074 = W at *
      intro d3 hm1
      rcases d1 with rfl | rfl <;> omega
  have hmin : min i.natAbs K ≤ K := Nat.min_le_right _ _
  have hza : z.val.natAbs = rnd64 (min i.natAbs K * 2 ^ 1074 * 2 ^ 1074) (K * 2 ^ 1074) := by
    rw [hzval, natAbs_signed]
  have hb32 : rnd32 z.val.natAbs (2 ^ 925) < 2 ^ 23 * 2 ^ 254 := by
    rw [hza]
    refine Nat.lt_of_le_of_lt (denS_le hK hmin) ?_
    rw [← Nat.pow_add]
    exact Nat.pow_lt_pow_right (by decide) (by decide)
  obtain ⟨f1, f2⟩ := F64.toF32_val hzfin hb32
  refine ⟨?_, f2⟩
  rw [f1]
  unfold denS
  rw [← hza]
  apply signed_map (fun n => rnd32 n (2 ^ 925)) rnd32_zero
  rw [hza, ← hzval, F64.val_eq, ← F64.natAbs_val, hza]

/-! ### C28 -/

theorem normalizeU {K v : Nat} (hK : 0 < K) (hK2 : K < 2 ^ 16) (h : v ≤ K) :
    (((F32.ofNat v).div (F32.ofNat K)).toF64.mul (F64.ofInt K)).roundTo 0 K = some (v : Int) := by
  obtain ⟨h1, h2⟩ := denU_val hK hK2 h
  rw [← signed_false] at h1
  obtain ⟨h3, h4⟩ := normalize_round h2 hK2 h1 (denU_le hK h)
  have hc := denU_close hK h
  rw [rndInt_close hK2 (by decide) hc.1 hc.2, signed_false] at h3
  unfold F64.roundTo
  rw [h3, h4, if_pos ⟨rfl, by omega, by omega⟩]

theorem normalizeS {K : Nat} {i : Int} (hK : 0 < K) (hK2 : K < 2 ^ 16) (h : i ≤ K) (h' : -(K : Int) - 1 ≤ i) :
    ((((F64.ofInt i).div (F64.ofInt K)).max (F64.ofInt (-1))).toF32.toF64.mul (F64.ofInt K)).roundTo (-(K : Int) - 1) K =
      some (if i < -(K : Int) then -(K : Int) else i) := by
  obtain ⟨h1, h2⟩ := denS_val hK hK2 h h'
  have hmin : min i.natAbs K ≤ K := Nat.min_le_right _ _
  obtain ⟨h3, h4⟩ := normalize_round h2 hK2 h1 (denS_le hK hmin)
  have hc := denS_close hK hmin
  rw [rndInt_close hK2 (by decide) hc.1 hc.2] at h3
  have h5 : signed (decide (i < 0)) (min i.natAbs K) = if i < -(K : Int) then -(K : Int) else i := by
    unfold signed
    by_cases hi : i < 0
    · rw [if_pos (by simpa using hi)]; split <;> omega
    · rw [if_neg (by simpa using hi)]; split <;> omega
  rw [h5] at h3
  unfold F64.roundTo
  rw [h3, h4, if_pos ⟨rfl, by split <;> omega, by split <;> omega⟩]

/-- C28 for `uint8` and `uint16`: normalising a denormalised integer gives it back. -/
theorem C28_unsigned : (∀ v : UInt8, normalizeUbyte (denormalizeUbyte v) = some v) ∧
    (∀ v : UInt16, normalizeUshort (denormalizeUshort v) = some v) := by
  constructor
  · intro v
    have := v.toNat_lt
    unfold normalizeUbyte denormalizeUbyte
    rw [show (F64.ofInt 255) = F64.ofInt ((255 : Nat) : Int) from rfl, show (255 : Int) = ((255 : Nat) : Int) from rfl,
      normalizeU (by decide) (by decide) (by omega)]
    simp
  · intro v
    have := v.toNat_lt
    unfold normalizeUshort denormalizeUshort
    rw [show (F64.ofInt 65535) = F64.ofInt ((65535 : Nat) : Int) from rfl,
      show (65535 : Int) = ((65535 : Nat) : Int) from rfl, normalizeU (by decide) (by decide) (by omega)]
    simp

/-- C28 for `int8` and `int16`: the same, but the smallest integer gives the next one. -/
theorem C28_signed : (∀ v : Int8, normalizeByte (denormalizeByte v) = some (if v = -128 then -127 else v)) ∧
    (∀ v : Int16, normalizeShort (denormalizeShort v) = some (if v = -32768 then -32767 else v)) := by
  constructor
  · intro v
    have h1 := v.toInt_lt
    have h2 := v.le_toInt
    unfold normalizeByte denormalizeByte
    have := normalizeS (K := 127) (i := v.toInt) (by decide) (by decide) (by omega) (by omega)
    rw [show -((127 : Nat) : Int) - 1 = -128 by decide] at this
    rw [show (F64.ofInt 127) = F64.ofInt ((127 : Nat) : Int) from rfl, show (127 : Int) = ((127 : Nat) : Int) from rfl, this]
    by_cases hv : v = -128
    · subst hv; decide
    · have : v.toInt ≠ -128 := fun h => hv (by rw [← Int8.toInt_inj, h]; decide)
      rw [if_neg (by omega), if_neg hv]
      simp
  · intro v
    have h1 := v.toInt_lt
    have h2 := v.le_toInt
    unfold normalizeShort denormalizeShort
    have := normalizeS (K := 32767) (i := v.toInt) (by decide) (by decide) (by omega) (by omega)
    rw [show -((32767 : Nat) : Int) - 1 = -32768 by decide] at this
    rw [show (F64.ofInt 32767) = F64.ofInt ((32767 : Nat) : Int) from rfl,
      show (32767 : Int) = ((32767 : Nat) : Int) from rfl, this]
    by_cases hv : v = -32768
    · subst hv; decide
    · have : v.toInt ≠ -32768 := fun h => hv (by rw [← Int16.toInt_inj, h]; decide)
      rw [if_neg (by omega), if_neg hv]
      simp

/-- Evaluated at a value in the middle. -/
example : denormalizeUbyte 100 = ⟨0x3EC8C8C9⟩ ∧ denormalizeByte (-64) = ⟨0xBF010204⟩ ∧
    normalizeUbyte ⟨0x3EC8C8C9⟩ = some 100 := by decide +kernel

/-! ### C29 -/

/-- C29, unsigned: finite, in [0, 1], monotone, and the ends are 0 and 1. -/
theorem C29_unsigned :
    (∀ v : UInt8, (denormalizeUbyte v).finite = true ∧ 0 ≤ (denormalizeUbyte v).val ∧
      (denormalizeUbyte v).val ≤ Spec.one32) ∧
    (∀ v : UInt16, (denormalizeUshort v).finite = true ∧ 0 ≤ (denormalizeUshort v).val ∧
      (denormalizeUshort v).val ≤ Spec.one32) ∧
    (∀ v v' : UInt8, v ≤ v' → (denormalizeUbyte v).val ≤ (denormalizeUbyte v').val) ∧
    (∀ v v' : UInt16, v ≤ v' → (denormalizeUshort v).val ≤ (denormalizeUshort v').val) ∧
    (denormalizeUbyte 0).val = 0 ∧ (denormalizeUbyte 255).val = Spec.one32 ∧
    (denormalizeUshort 0).val = 0 ∧ (denormalizeUshort 65535).val = Spec.one32 := by
  have hone : Spec.one32 = ((2 ^ 149 : Nat) : Int) := by decide +kernel
  have h8 : ∀ v : UInt8, v.toNat ≤ 255 := fun v => by have := v.toNat_lt; omega
  have h16 : ∀ v : UInt16, v.toNat ≤ 65535 := fun v => by have := v.toNat_lt; omega
  refine ⟨fun v => ?_, fun v => ?_, fun v v' h => ?_, fun v v' h => ?_, by decide +kernel, by decide +kernel,
    by decide +kernel, by decide +kernel⟩
  · obtain ⟨h1, h2⟩ := denU_val (K := 255) (by decide) (by decide) (h8 v)
    have := denU_le (K := 255) (by decide) (h8 v)
    unfold denormalizeUbyte
    rw [h1, h2, hone]
    exact ⟨rfl, Int.natCast_nonneg _, Int.ofNat_le.2 this⟩
  · obtain ⟨h1, h2⟩ := denU_val (K := 65535) (by decide) (by decide) (h16 v)
    have := denU_le (K := 65535) (by decide) (h16 v)
    unfold denormalizeUshort
    rw [h1, h2, hone]
    exact ⟨rfl, Int.natCast_nonneg _, Int.ofNat_le.2 this⟩
  · unfold denormalizeUbyte
    rw [(denU_val (K := 255) (by decide) (by decide) (h8 v)).1, (denU_val (K := 255) (by decide) (by decide) (h8 v')).1]
    exact Int.ofNat_le.2 (denU_mono (by decide) (UInt8.le_iff_toNat_le.1 h))
  · unfold denormalizeUshort
    rw [(denU_val (K := 65535) (by decide) (by decide) (h16 v)).1, (denU_val (K := 65535) (by decide) (by decide) (h16 v')).1]
    exact Int.ofNat_le.2 (denU_mono (by decide) (UInt16.le_iff_toNat_le.1 h))

theorem signed_denS_mono {K : Nat} {i i' : Int} (hK : 0 < K) (h : i ≤ i') :
    signed (decide (i < 0)) (denS K (min i.natAbs K)) ≤ signed (decide (i' < 0)) (denS K (min i'.natAbs K)) := by
  unfold signed
  by_cases h1 : i < 0
  · rw [if_pos (by simpa using h1)]
    by_cases h2 : i' < 0
    · rw [if_pos (by simpa using h2)]
      have := denS_mono (K := K) (a := min i'.natAbs K) (a' := min i.natAbs K) hK (by omega)
      omega
    · rw [if_neg (by simpa using h2)]; omega
  · rw [if_neg (by simpa using h1), if_neg (by simp; omega)]
    have := denS_mono (K := K) (a := min i.natAbs K) (a' := min i'.natAbs K) hK (by omega)
    omega

theorem signed_denS_range {K : Nat} {i : Int} (hK : 0 < K) :
    -((2 ^ 149 : Nat) : Int) ≤ signed (decide (i < 0)) (denS K (min i.natAbs K)) ∧
      signed (decide (i < 0)) (denS K (min i.natAbs K)) ≤ ((2 ^ 149 : Nat) : Int) := by
  have := denS_le (K := K) (a := min i.natAbs K) hK (Nat.min_le_right _ _)
  generalize 2 ^ 149 = W at *
  unfold signed
  split <;> omega

/-- C29, signed: finite, in [-1, 1], monotone, and the ends are -1 and 1. -/
theorem C29_signed :
    (∀ v : Int8, (denormalizeByte v).finite = true ∧ -Spec.one32 ≤ (denormalizeByte v).val ∧
      (denormalizeByte v).val ≤ Spec.one32) ∧
    (∀ v : Int16, (denormalizeShort v).finite = true ∧ -Spec.one32 ≤ (denormalizeShort v).val ∧
      (denormalizeShort v).val ≤ Spec.one32) ∧
    (∀ v v' : Int8, v ≤ v' → (denormalizeByte v).val ≤ (denormalizeByte v').val) ∧
    (∀ v v' : Int16, v ≤ v' → (denormalizeShort v).val ≤ (denormalizeShort v').val) ∧
    (denormalizeByte (-128)).val = -Spec.one32 ∧ (denormalizeByte (-127)).val = -Spec.one32 ∧
    (denormalizeByte 0).val = 0 ∧ (denormalizeByte 127).val = Spec.one32 ∧
    (denormalizeShort (-32768)).val = -Spec.one32 ∧ (denormalizeShort (-32767)).val = -Spec.one32 ∧
    (denormalizeShort 0).val = 0 ∧ (denormalizeShort 32767).val = Spec.one32 := by
  have hone : Spec.one32 = ((2 ^ 149 : Nat) : Int) := by decide +kernel
  have h8 : ∀ v : Int8, (denormalizeByte v).val = signed (decide (v.toInt < 0)) (denS 127 (min v.toInt.natAbs 127)) ∧
      (denormalizeByte v).finite = true := fun v => by
    have h1 := v.toInt_lt
    have h2 := v.le_toInt
    exact denS_val (K := 127) (i := v.toInt) (by decide) (by decide) (by omega) (by omega)
  have h16 : ∀ v : Int16, (denormalizeShort v).val = signed (decide (v.toInt < 0)) (denS 32767 (min v.toInt.natAbs 32767)) ∧
      (denormalizeShort v).finite = true := fun v => by
    have h1 := v.toInt_lt
    have h2 := v.le_toInt
    exact denS_val (K := 32767) (i := v.toInt) (by decide) (by decide) (by omega) (by omega)
  refine ⟨fun v => ?_, fun v => ?_, fun v v' h => ?_, fun v v' h => ?_, by decide +kernel, by decide +kernel,
    by decide +kernel, by decide +kernel, by decide +kernel, by decide +kernel, by decide +kernel, by decide +kernel⟩
  · rw [(h8 v).1, (h8 v).2, hone]
    exact ⟨rfl, signed_denS_range (by decide)⟩
  · rw [(h16 v).1, (h16 v).2, hone]
    exact ⟨rfl, signed_denS_range (by decide)⟩
  · rw [(h8 v).1, (h8 v').1]
    exact signed_denS_mono (by decide) (Int8.le_iff_toInt_le.1 h)
  · rw [(h16 v).1, (h16 v').1]
    exact signed_denS_mono (by decide) (Int16.le_iff_toInt_le.1 h)

end Gltf
