/-
The exact text form of numbers satisfies what the proofs assume of numbers.
-/
import Verif.Model.JsonFloat
import Verif.Lemmas.Float
import Verif.Lemmas.JsonCodec

namespace Gltf

open Spec

/-- Rounding gives back the bits of a representable number. -/
theorem roundMag_decode {w m d : Nat} (hd : 0 < d) : roundMag w (d * decodeMag w m) d = m := by
  unfold roundMag
  simp only [Nat.mul_div_cancel_left _ hd]
  unfold decodeMag
  split
  · next h =>
    have hm : m < 2 ^ w := by
      rw [Nat.div_eq_zero_iff] at h
      have := Nat.two_pow_pos w
      omega
    have : m.log2 - w = 0 := by
      by_cases h0 : m = 0
      · subst h0; simp
      · have := (Nat.log2_lt h0).2 hm; omega
    rw [this]
    simp only [Nat.zero_mul, Nat.pow_zero, Nat.mul_one, Nat.zero_add]
    exact roundHalfEven_exact hd
  · next h =>
    have hr : m % 2 ^ w < 2 ^ w := Nat.mod_lt _ (Nat.two_pow_pos w)
    have hl : ((m % 2 ^ w + 2 ^ w) * 2 ^ (m / 2 ^ w - 1)).log2 = w + (m / 2 ^ w - 1) := by
      rw [Nat.log2_eq_iff (by have := Nat.two_pow_pos w; have := Nat.two_pow_pos (m / 2 ^ w - 1); exact Nat.ne_of_gt (Nat.mul_pos (by omega) this))]
      constructor
      · rw [Nat.pow_add]; exact Nat.mul_le_mul_right _ (by omega)
      · rw [show w + (m / 2 ^ w - 1) + 1 = (w + 1) + (m / 2 ^ w - 1) by omega, Nat.pow_add]
        exact Nat.mul_lt_mul_of_pos_right (by rw [Nat.pow_succ]; omega) (Nat.two_pow_pos _)
    rw [hl, show w + (m / 2 ^ w - 1) - w = m / 2 ^ w - 1 by omega]
    have : d * ((m % 2 ^ w + 2 ^ w) * 2 ^ (m / 2 ^ w - 1)) = d * 2 ^ (m / 2 ^ w - 1) * (m % 2 ^ w + 2 ^ w) := by ac_rfl
    rw [this, roundHalfEven_exact (Nat.mul_pos hd (Nat.two_pow_pos _))]
    have h1 := Nat.div_add_mod m (2 ^ w)
    obtain ⟨k, hk⟩ : ∃ k, m / 2 ^ w = k + 1 := Nat.exists_eq_add_one_of_ne_zero h
    rw [hk] at h1 ⊢
    rw [Nat.mul_add] at h1
    rw [Nat.add_sub_cancel, Nat.mul_comm k]
    omega

theorem make_bits {x : F64} (h : x.finite = true) : F64.make x.neg x.mag = x := by
  have hx := F64.mag_lt x
  have hm : x.mag < inf64 := by simpa [F64.finite] using h
  unfold F64.make
  rw [Nat.min_eq_left (Nat.le_of_lt hm), ← hx, UInt64.ofNat_toNat]

theorem nearest_exact {x : F64} (h : x.finite = true) (k : Nat) (hk : floatPlaces = k + 1) :
    nearest x.neg (decodeMag 52 x.mag * 5 ^ floatPlaces) (-((k + 1 : Nat) : Int)) = some x := by
  have hm : x.mag < inf64 := by simpa [F64.finite] using h
  have he : -((k + 1 : Nat) : Int) = .negSucc k := rfl
  unfold nearest
  rw [he]
  simp only
  have : decodeMag 52 x.mag * 5 ^ floatPlaces * 2 ^ floatPlaces = 10 ^ (k + 1) * decodeMag 52 x.mag := by
    rw [Nat.mul_assoc, ← Nat.mul_pow, hk]
    exact Nat.mul_comm _ _
  rw [this, roundMag_decode (Nat.pow_pos (by decide)), if_pos hm, make_bits h]

theorem takeWhile_digits {ds rest : Bytes} (h : ∀ c ∈ ds, 48 ≤ c ∧ c ≤ 57) (hr : ∀ c ∈ rest.head?, isDigit c = false) :
    (ds ++ rest).takeWhile isDigit = ds ∧ (ds ++ rest).dropWhile isDigit = rest := by
  induction ds with
  | nil =>
    cases rest with
    | nil => exact ⟨rfl, rfl⟩
    | cons c rest =>
      have := hr c rfl
      simp [this]
  | cons c ds ih =>
    have hc : isDigit c = true := by
      have := h c (by simp)
      simp [isDigit, this.1, this.2]
    obtain ⟨i1, i2⟩ := ih fun d hd => h d (by simp [hd])
    simp [hc, i1, i2]

theorem digitsValue_printNat (n : Nat) : digitsValue (printNat n) = n := (printNat_spec (n + 1) n (by omega)).2.2.1

theorem literalParts_exact (n k : Nat) : literalParts (printNat n ++ (101 :: 45 :: printNat k)) = (n, -(k : Int)) := by
  obtain ⟨h1, h2⟩ := takeWhile_digits (rest := 101 :: 45 :: printNat k) (printNat_digits n).2 (by intro c hc; cases hc; decide)
  unfold literalParts
  simp only [h1, h2]
  split
  · next h => injection h with h _; exact absurd h (by decide)
  · simp only [literalExp, digitsValue_printNat]

theorem parseFloat_exact (neg : Bool) (n k : Nat) :
    parseFloat ((if neg then b!"-" else []) ++ (printNat n ++ (101 :: 45 :: printNat k))) = nearest neg n (-(k : Int)) := by
  have hlit := literalParts_exact n k
  have hd := printNat_digits n
  generalize printNat n = s at hd hlit
  cases neg with
  | true =>
    show nearest true (literalParts (s ++ (101 :: 45 :: printNat k))).1 (literalParts (s ++ (101 :: 45 :: printNat k))).2 = _
    rw [hlit]
  | false =>
    show parseFloat ([] ++ _) = _
    rw [List.nil_append]
    match s, hd with
    | [], hd => exact absurd rfl hd.1
    | c :: s, hd =>
      have hc : c ≠ 45 := by rintro rfl; exact absurd (hd.2 45 (by simp)).1 (by decide)
      rw [List.cons_append] at hlit ⊢
      unfold parseFloat
      split
      · next h => injection h with h1 _; exact absurd h1 hc
      · rw [hlit]

theorem exactFmt_eq (x : F64) : exactFmt x = (if x.neg then b!"-" else []) ++
    (printNat (decodeMag 52 x.mag * 5 ^ floatPlaces) ++ (101 :: 45 :: printNat floatPlaces)) := by
  simp [exactFmt]

theorem exact_laws : FloatLaws exactFloatIO where
  number x _ := by
    refine ⟨if x.neg then b!"-" else [], printNat (decodeMag 52 x.mag * 5 ^ floatPlaces), [], 101 :: 45 :: printNat floatPlaces, ?_, ?_,
      printNat_int _, .inl rfl, .inr ⟨b!"e", b!"-", printNat floatPlaces, .inl rfl, .inr (.inr rfl), printNat_digits _, rfl⟩⟩
    · show exactFmt x = _
      rw [exactFmt_eq]; simp
    · cases x.neg
      · exact .inl rfl
      · exact .inr rfl
  parse_fmt x h := by
    show parseFloat (exactFmt x) = some x
    rw [exactFmt_eq, parseFloat_exact]
    exact nearest_exact h 1073 rfl

end Gltf
