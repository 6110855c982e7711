/-
Writing numbers: the fewest digits that read back.
-/
import Verif.Lemmas.Number
import Verif.Lemmas.GoFloat

namespace Gltf

open Spec

set_option exponentiation.threshold 6000

/-! ### The value of the text -/

theorem decimal_append (a b : Bytes) : decimal (a ++ b) = decimal a * 10 ^ b.length + decimal b := by
  induction a with
  | nil => simp [decimal]
  | cons c a ih =>
    simp only [List.cons_append, decimal, ih, List.length_append, Nat.pow_add]
    ring

theorem decimal_zeros (n : Nat) : decimal (List.replicate n (48 : UInt8)) = 0 := by
  induction n with
  | zero => rfl
  | succ n ih =>
    rw [List.replicate_succ, decimal, ih]
    simp

theorem decimal_printNat (n : Nat) : decimal (printNat n) = n := by
  rw [← digitsValue_eq, digitsValue_printNat]

/-- The value of a number without sign. -/
def LitAbs (s : Bytes) (q : ℚ) : Prop :=
  ∃ (int frac exp ds : Bytes) (e : Int), s = int ++ frac ++ exp ∧
    (int = b!"0" ∨ (IsDigits int ∧ int.head? ≠ some 48)) ∧
    ((frac = [] ∧ ds = []) ∨ (IsDigits ds ∧ frac = b!"." ++ ds)) ∧
    ((exp = [] ∧ e = 0) ∨ ∃ c k, (c = b!"e" ∨ c = b!"E") ∧ IsDigits k ∧
      ((exp = c ++ k ∧ e = decimal k) ∨ (exp = c ++ b!"+" ++ k ∧ e = decimal k) ∨ (exp = c ++ b!"-" ++ k ∧ e = -(decimal k : Int)))) ∧
    q = decimal (int ++ ds) * (10 : ℚ) ^ (e - ds.length)

theorem litAbs_value {s : Bytes} {q : ℚ} (h : LitAbs s q) (neg : Bool) : LitValue ((if neg then b!"-" else []) ++ s) neg q := by
  obtain ⟨int, frac, exp, ds, e, rfl, h1, h2, h3, h4⟩ := h
  exact ⟨int, frac, exp, ds, e, by simp only [List.append_assoc], h1, h2, h3, h4⟩

theorem ten_ne : (10 : ℚ) ≠ 0 := by norm_num

theorem fmtF_value (m : Nat) (e : Int) : LitAbs (fmtF m e) (m * (10 : ℚ) ^ e) := by
  have hd := printNat_digits m
  unfold fmtF
  simp only
  split
  · rename_i he
    refine ⟨_, [], [], [], 0, by rw [List.append_nil, List.append_nil], ?_, .inl ⟨rfl, rfl⟩, .inl ⟨rfl, rfl⟩, ?_⟩
    · split
      · rw [List.append_nil]; exact printNat_int m
      · rename_i hm
        refine .inr ⟨⟨by simp [hd.1], ?_⟩, ?_⟩
        · intro c hc
          rcases List.mem_append.1 hc with h | h
          · exact hd.2 c h
          · exact zeros_digits _ c h
        · have := printNat_pos hm
          generalize printNat m = ds at hd this
          cases ds with
          | nil => exact absurd rfl hd.1
          | cons c ds => exact this
    · rw [List.append_nil]
      split
      · rename_i hm
        rw [List.append_nil, decimal_printNat, hm]; simp
      · rw [decimal_append, decimal_printNat, decimal_zeros, List.length_replicate]
        obtain ⟨k, rfl⟩ := Int.eq_ofNat_of_zero_le he
        simp
  · rename_i he
    split
    · rename_i hk
      have hk1 : 1 ≤ (-e).toNat := by omega
      refine ⟨_, _, [], (printNat m).drop ((printNat m).length - (-e).toNat), 0, (by rw [List.append_nil, List.append_assoc]), ?_, .inr ⟨⟨?_, ?_⟩, rfl⟩, .inl ⟨rfl, rfl⟩, ?_⟩
      · have h2 : 2 ≤ (printNat m).length := by omega
        rcases printNat_int m with h0 | h0
        · rw [h0] at h2; exact absurd h2 (by decide)
        · refine .inr ⟨⟨?_, fun c hc => hd.2 c (List.mem_of_mem_take hc)⟩, ?_⟩
          · intro hc
            have := congrArg List.length hc
            rw [List.length_take] at this
            simp at this
            omega
          · rw [List.head?_take, if_neg (by omega)]
            exact h0.2
      · intro hc
        have := congrArg List.length hc
        rw [List.length_drop] at this
        simp at this
        omega
      · exact fun c hc => hd.2 c (List.mem_of_mem_drop hc)
      · rw [List.take_append_drop, decimal_printNat, List.length_drop]
        congr 2
        omega
    · refine ⟨b!"0", b!"." ++ (List.replicate ((-e).toNat - (printNat m).length) 48 ++ printNat m), [],
        List.replicate ((-e).toNat - (printNat m).length) 48 ++ printNat m, 0, ?_, .inl rfl, .inr ⟨⟨?_, ?_⟩, rfl⟩, .inl ⟨rfl, rfl⟩, ?_⟩
      · simp
      · simp [hd.1]
      · intro c hc
        rcases List.mem_append.1 hc with h | h
        · exact zeros_digits _ c h
        · exact hd.2 c h
      · rw [decimal_append, decimal_append, decimal_zeros, decimal_printNat, show decimal b!"0" = 0 from rfl, Nat.zero_mul, Nat.zero_mul,
          Nat.zero_add, Nat.zero_add, List.length_append, List.length_replicate]
        congr 2
        omega

theorem fmtE_value (m : Nat) (e : Int) : LitAbs (fmtE m e) (m * (10 : ℚ) ^ e) := by
  have hd := printNat_digits m
  have hv := decimal_printNat m
  unfold fmtE
  simp only
  generalize printNat m = ds at hd hv
  match ds, hd, hv with
  | [], hd, _ => exact absurd rfl hd.1
  | c :: ds, hd, hv =>
    refine ⟨[c], if (c :: ds).length = 1 then [] else b!"." ++ ds,
      b!"e" ++ (if e + ((c :: ds).length : Int) - 1 < 0 then b!"-" else b!"+") ++ printNat (e + ((c :: ds).length : Int) - 1).natAbs, ds,
      e + ((c :: ds).length : Int) - 1, ?_, ?_, ?_, ?_, ?_⟩
    · simp only [List.take_succ_cons, List.take_zero, List.drop_succ_cons, List.drop_zero, List.append_assoc]
    · by_cases hc : c = 48
      · left; rw [hc]
      · right
        refine ⟨⟨by simp, ?_⟩, by simpa using hc⟩
        intro x hx
        rw [List.mem_singleton.1 hx]
        exact hd.2 c (by simp)
    · split
      · rename_i hl
        refine .inl ⟨rfl, ?_⟩
        simpa using hl
      · rename_i hl
        refine .inr ⟨⟨?_, fun x hx => hd.2 x (List.mem_cons_of_mem _ hx)⟩, rfl⟩
        rintro rfl
        exact hl rfl
    · refine .inr ⟨b!"e", printNat (e + ((c :: ds).length : Int) - 1).natAbs, .inl rfl, printNat_digits _, .inr ?_⟩
      split
      · exact .inr ⟨rfl, by rw [decimal_printNat]; omega⟩
      · exact .inl ⟨rfl, by rw [decimal_printNat]; omega⟩
    · rw [show [c] ++ ds = c :: ds from rfl, hv, List.length_cons]
      congr 2
      push_cast
      ring

theorem stripZeros_value : ∀ f m (e : Int), ((stripZeros f m e).1 : ℚ) * 10 ^ (stripZeros f m e).2 = m * (10 : ℚ) ^ e
  | 0, _, _ => rfl
  | f + 1, m, e => by
    unfold stripZeros
    split
    · rename_i h
      rw [stripZeros_value f]
      obtain ⟨k, rfl⟩ : ∃ k, m = k * 10 := ⟨m / 10, by omega⟩
      rw [Nat.mul_div_cancel _ (by decide), zpow_add₀ ten_ne]
      push_cast
      ring
    · rfl

theorem floatText_value (neg sci : Bool) (m : Nat) (e : Int) : LitValue (floatText neg sci m e) neg (m * (10 : ℚ) ^ e) := by
  unfold floatText
  simp only
  rw [← stripZeros_value 17 m e]
  refine litAbs_value ?_ neg
  cases sci
  · exact fmtF_value _ _
  · exact fmtE_value _ _

/-! ### The number of digits -/

theorem digitCount_spec {n : Nat} : ∀ f g, n < 10 ^ g → 10 ^ (g - 1 - f) ≤ n →
    10 ^ (digitCount f n g - 1) ≤ n ∧ n < 10 ^ digitCount f n g
  | 0, _, h1, h2 => ⟨h2, h1⟩
  | f + 1, g, h1, h2 => by
    unfold digitCount
    split
    · rename_i h
      exact digitCount_spec f (g - 1) h (by rwa [show g - 1 - 1 - f = g - 1 - (f + 1) by omega])
    · rename_i h
      exact ⟨by omega, h1⟩

theorem guess_spec {n : Nat} (h0 : n ≠ 0) (hL : n.log2 < 5000) :
    n < 10 ^ (n.log2 * 1233 / 4096 + 3) ∧ 10 ^ (n.log2 * 1233 / 4096 + 3 - 1 - 4) ≤ n := by
  have h1 := Nat.log2_self_le h0
  have h2 := Nat.lt_log2_self (n := n)
  generalize n.log2 = L at *
  constructor
  · refine Nat.lt_of_lt_of_le h2 ?_
    rw [← Nat.pow_le_pow_iff_left (n := 93) (by decide), ← Nat.pow_mul, ← Nat.pow_mul]
    have e1 : 2 ^ ((L + 1) * 93) ≤ 10 ^ ((L + 1) * 28) := by
      rw [Nat.mul_comm, Nat.mul_comm (L + 1), Nat.pow_mul, Nat.pow_mul]
      exact Nat.pow_le_pow_left (by decide +kernel) _
    exact Nat.le_trans e1 (Nat.pow_le_pow_right (by decide) (by omega))
  · refine Nat.le_trans ?_ h1
    rw [← Nat.pow_le_pow_iff_left (n := 196) (by decide), ← Nat.pow_mul, ← Nat.pow_mul]
    have e1 : 10 ^ (L * 59) ≤ 2 ^ (L * 196) := by
      rw [Nat.mul_comm, Nat.mul_comm L, Nat.pow_mul, Nat.pow_mul]
      exact Nat.pow_le_pow_left (by decide +kernel) _
    refine Nat.le_trans (Nat.pow_le_pow_right (by decide) ?_) e1
    omega

/-! ### Seventeen digits suffice -/

/-- The gap below a number. -/
theorem decode_gap_succ (m : Nat) : decodeMag 52 (m + 1) ≤ (decodeMag 52 (m + 1) - decodeMag 52 m) * 2 ^ 53 := by
  have hP : (0 : Nat) < 2 ^ 52 := Nat.two_pow_pos _
  have e53 : (2 : Nat) ^ 53 = 2 * 2 ^ 52 := by rw [Nat.pow_succ]; omega
  unfold decodeMag
  rw [e53]
  generalize (2 : Nat) ^ 52 = P at *
  have h1 := Nat.div_add_mod m P
  have h2 := Nat.mod_lt m hP
  generalize hk : m / P = k at *
  generalize hr : m % P = r at *
  by_cases hlast : r + 1 = P
  · have hd : (m + 1) / P = k + 1 := by
      rw [show m + 1 = P * (k + 1) by rw [Nat.mul_add]; omega, Nat.mul_div_cancel_left _ hP]
    have hm : (m + 1) % P = 0 := by
      rw [show m + 1 = P * (k + 1) by rw [Nat.mul_add]; omega, Nat.mul_mod_right]
    rw [hd, hm, if_neg (by omega), Nat.zero_add, Nat.add_sub_cancel]
    cases k with
    | zero =>
      rw [if_pos rfl, Nat.pow_zero, Nat.mul_one]
      have : P - m = 1 := by omega
      rw [this]; omega
    | succ k =>
      rw [if_neg (by omega), Nat.add_sub_cancel, Nat.pow_succ]
      have : P * (2 ^ k * 2) - (r + P) * 2 ^ k = 2 ^ k := by
        rw [show r + P = 2 * P - 1 by omega, Nat.sub_mul]
        have : P * (2 ^ k * 2) = 2 * P * 2 ^ k := by ac_rfl
        have h3 : 2 ^ k ≤ 2 * P * 2 ^ k := Nat.le_mul_of_pos_left _ (by omega)
        omega
      rw [this]
      exact Nat.le_of_eq (by ac_rfl)
  · have hd : (m + 1) / P = k := by
      rw [← h1, show P * k + r + 1 = r + 1 + P * k by omega, Nat.add_mul_div_left _ _ hP, Nat.div_eq_of_lt (by omega)]; omega
    have hm : (m + 1) % P = r + 1 := by
      rw [← h1, show P * k + r + 1 = r + 1 + P * k by omega, Nat.add_mul_mod_self_left, Nat.mod_eq_of_lt (by omega)]
    rw [hd, hm]
    split
    · rename_i h0
      rw [h0] at h1
      have : m + 1 - m = 1 := by omega
      rw [this]; omega
    · have : (r + 1 + P) * 2 ^ (k - 1) - (r + P) * 2 ^ (k - 1) = 2 ^ (k - 1) := by
        rw [← Nat.sub_mul, show r + 1 + P - (r + P) = 1 by omega, Nat.one_mul]
      rw [this, Nat.mul_comm]
      exact Nat.mul_le_mul_left _ (by omega)

theorem decode_gap {m m' : Nat} (h : m < m') : decodeMag 52 m' ≤ (decodeMag 52 m' - decodeMag 52 m) * 2 ^ 53 := by
  obtain ⟨k, rfl⟩ : ∃ k, m' = k + 1 := ⟨m' - 1, by omega⟩
  have h1 := decode_gap_succ k
  have h2 : decodeMag 52 m ≤ decodeMag 52 k := decode_mono (by omega)
  exact Nat.le_trans h1 (Nat.mul_le_mul_right _ (by omega))

theorem close_mag {mag : Nat} {v : ℚ} (hv : 0 ≤ v) (h : |v - (decodeMag 52 mag : ℚ) / 2 ^ 1074| * (2 * 10 ^ 16) ≤ (decodeMag 52 mag : ℚ) / 2 ^ 1074)
    (hpos : 0 < decodeMag 52 mag) : magOf v = mag := by
  by_contra hne
  have h1 := magOf_nearest hv mag
  have hX : (0 : ℚ) < (decodeMag 52 mag : ℚ) := by exact_mod_cast hpos
  have hdiff : |(decodeMag 52 (magOf v) : ℚ) - decodeMag 52 mag| * 10 ^ 16 ≤ decodeMag 52 mag := by
    have h2 : |(decodeMag 52 (magOf v) : ℚ) / 2 ^ 1074 - (decodeMag 52 mag : ℚ) / 2 ^ 1074| * 10 ^ 16 ≤ (decodeMag 52 mag : ℚ) / 2 ^ 1074 := by
      have h3 := abs_sub_le ((decodeMag 52 (magOf v) : ℚ) / 2 ^ 1074) v ((decodeMag 52 mag : ℚ) / 2 ^ 1074)
      rw [abs_sub_comm ((decodeMag 52 mag : ℚ) / 2 ^ 1074) v] at h1
      generalize |v - (decodeMag 52 mag : ℚ) / 2 ^ 1074| = E at *
      linarith
    rw [← sub_div, abs_div, abs_of_pos (show (0 : ℚ) < 2 ^ 1074 by positivity), div_mul_eq_mul_div] at h2
    exact (div_le_div_iff_of_pos_right (by positivity)).1 h2
  generalize hM : magOf v = M at *
  rcases Nat.lt_or_gt_of_ne hne with hlt | hgt
  · have hg := decode_gap hlt
    have hm : decodeMag 52 M ≤ decodeMag 52 mag := decode_mono (Nat.le_of_lt hlt)
    generalize decodeMag 52 M = Y at *
    generalize decodeMag 52 mag = X at *
    obtain ⟨g, rfl⟩ := Nat.exists_eq_add_of_le hm
    rw [Nat.add_sub_cancel_left] at hg
    push_cast at hdiff
    rw [show (Y : ℚ) - (Y + g) = -g by ring, abs_neg, abs_of_nonneg (Nat.cast_nonneg _)] at hdiff
    have hdiff : g * 10 ^ 16 ≤ Y + g := by exact_mod_cast hdiff
    omega
  · have hg := decode_gap hgt
    have hm : decodeMag 52 mag ≤ decodeMag 52 M := decode_mono (Nat.le_of_lt hgt)
    generalize decodeMag 52 M = Y at *
    generalize decodeMag 52 mag = X at *
    obtain ⟨g, rfl⟩ := Nat.exists_eq_add_of_le hm
    rw [Nat.add_sub_cancel_left] at hg
    push_cast at hdiff
    rw [show (X : ℚ) + g - X = g by ring, abs_of_nonneg (Nat.cast_nonneg _)] at hdiff
    have hdiff : g * 10 ^ 16 ≤ X := by exact_mod_cast hdiff
    omega

/-! ### Neighbours with a number of digits -/

/-- A multiple of the power of ten. -/
def cand (count d c : Nat) : ℚ := c * (10 : ℚ) ^ ((count : Int) - d - floatPlaces)

theorem cand_eq {count d : Nat} (h : d ≤ count) (c : Nat) : cand count d c = ((c * 10 ^ (count - d) : Nat) : ℚ) / 10 ^ floatPlaces := by
  unfold cand
  rw [zpow_sub₀ ten_ne, zpow_natCast, show ((count : Int) - d) = ((count - d : Nat) : Int) by omega, zpow_natCast]
  push_cast
  ring

theorem cand_nonneg (count d c : Nat) : 0 ≤ cand count d c :=
  mul_nonneg (Nat.cast_nonneg _) (zpow_nonneg (by norm_num) _)

/-- The number itself. -/
theorem value_eq (X : Nat) : (X : ℚ) / 2 ^ 1074 = ((X * 5 ^ floatPlaces : Nat) : ℚ) / 10 ^ floatPlaces := by
  unfold floatPlaces
  generalize 1074 = k
  rw [show (10 : ℚ) ^ k = 2 ^ k * 5 ^ k by rw [← mul_pow]; norm_num]
  push_cast
  field_simp

theorem pow_pos' (k : Nat) : (0 : ℚ) < 10 ^ k := by positivity

theorem down_le {n count d : Nat} (h : d ≤ count) : cand count d (n / 10 ^ (count - d)) ≤ (n : ℚ) / 10 ^ floatPlaces := by
  rw [cand_eq h, div_le_div_iff_of_pos_right (pow_pos' _)]
  exact_mod_cast Nat.div_mul_le_self _ _

theorem lt_up {n count d : Nat} (h : d ≤ count) : (n : ℚ) / 10 ^ floatPlaces ≤ cand count d (n / 10 ^ (count - d) + 1) := by
  rw [cand_eq h, div_le_div_iff_of_pos_right (pow_pos' _)]
  have := Nat.lt_div_mul_add (a := n) (b := 10 ^ (count - d)) (Nat.pow_pos (by decide))
  have e : (n / 10 ^ (count - d) + 1) * 10 ^ (count - d) = n / 10 ^ (count - d) * 10 ^ (count - d) + 10 ^ (count - d) := Nat.succ_mul _ _
  rw [e]
  exact_mod_cast Nat.le_of_lt this

/-- A number with at most `d` digits is not between the two neighbours. -/
theorem outside {n count d : Nat} (hd : 1 ≤ d) (h : d ≤ count) (hn : 10 ^ (count - 1) ≤ n) {v : ℚ} (hv : HasDigits d v) :
    v ≤ cand count d (n / 10 ^ (count - d)) ∨ cand count d (n / 10 ^ (count - d) + 1) ≤ v := by
  obtain ⟨m, e, hm, rfl⟩ := hv
  rcases lt_or_ge e ((count : Int) - d - floatPlaces) with hlt | hge
  · left
    have h1 : 10 ^ (d - 1) ≤ n / 10 ^ (count - d) := by
      rw [Nat.le_div_iff_mul_le (Nat.pow_pos (by decide)), ← Nat.pow_add, show d - 1 + (count - d) = count - 1 by omega]
      exact hn
    have h2 : (m : ℚ) ≤ 10 ^ d := by exact_mod_cast Nat.le_of_lt hm
    have h3 : (10 : ℚ) ^ (d - 1) ≤ (n / 10 ^ (count - d) : Nat) := by exact_mod_cast h1
    have h4 : (10 : ℚ) ^ e ≤ 10 ^ ((count : Int) - d - floatPlaces - 1) := zpow_le_zpow_right₀ (by norm_num) (by omega)
    have h5 : (10 : ℚ) ^ d = 10 ^ (d - 1) * 10 := by rw [← pow_succ]; congr 1; omega
    unfold cand
    calc (m : ℚ) * 10 ^ e ≤ 10 ^ d * 10 ^ ((count : Int) - d - floatPlaces - 1) :=
          mul_le_mul h2 h4 (zpow_nonneg (by norm_num) _) (by positivity)
      _ = 10 ^ (d - 1) * 10 ^ ((count : Int) - d - floatPlaces) := by
          rw [h5, zpow_sub₀ ten_ne _ 1, zpow_one]; field_simp
      _ ≤ _ := mul_le_mul_of_nonneg_right h3 (zpow_nonneg (by norm_num) _)
  · obtain ⟨k, hk⟩ := Int.eq_ofNat_of_zero_le (sub_nonneg.2 hge)
    have he : (m : ℚ) * 10 ^ e = cand count d (m * 10 ^ k) := by
      unfold cand
      rw [show e = k + ((count : Int) - d - floatPlaces) by omega, zpow_add₀ ten_ne, zpow_natCast]
      push_cast
      ring
    rw [he]
    unfold cand
    rcases Nat.lt_or_ge (n / 10 ^ (count - d)) (m * 10 ^ k) with h1 | h1
    · right
      exact mul_le_mul_of_nonneg_right (by exact_mod_cast h1) (zpow_nonneg (by norm_num) _)
    · left
      exact mul_le_mul_of_nonneg_right (by exact_mod_cast h1) (zpow_nonneg (by norm_num) _)

theorem cand_digits {n count d : Nat} (hd : 1 ≤ d) (h : d ≤ count) (hn : n < 10 ^ count) {c : Nat} (hc : c = n / 10 ^ (count - d) ∨ c = n / 10 ^ (count - d) + 1) :
    HasDigits d (cand count d c) := by
  have h1 : n / 10 ^ (count - d) < 10 ^ d := by
    rw [Nat.div_lt_iff_lt_mul (Nat.pow_pos (by decide)), ← Nat.pow_add, show d + (count - d) = count by omega]
    exact hn
  by_cases hlt : c < 10 ^ d
  · exact ⟨c, _, hlt, rfl⟩
  · have : c = 10 ^ d := by omega
    refine ⟨1, (count : Int) - d - floatPlaces + d, Nat.one_lt_pow (by omega) (by decide), ?_⟩
    unfold cand
    rw [this, zpow_add₀ ten_ne _ (d : Int), zpow_natCast]
    push_cast
    ring

/-! ### The search -/

/-- One of the two neighbours reads back. -/
def Hit (mag n count d : Nat) : Prop :=
  magOf (cand count d (n / 10 ^ (count - d))) = mag ∨ magOf (cand count d (n / 10 ^ (count - d) + 1)) = mag

theorem near_far (n D : Nat) :
    (roundHalfEven n D = n / D ∧ (if roundHalfEven n D = n / D then n / D + 1 else n / D) = n / D + 1) ∨
    (roundHalfEven n D = n / D + 1 ∧ (if roundHalfEven n D = n / D then n / D + 1 else n / D) = n / D) := by
  have := roundHalfEven_bounds n D
  by_cases h : roundHalfEven n D = n / D
  · exact .inl ⟨h, if_pos h⟩
  · exact .inr ⟨by omega, if_neg h⟩

theorem floatText_reads {x : F64} (hf : x.finite = true) (sci : Bool) (count d c : Nat) :
    parseFloat (floatText x.neg sci c ((count : Int) - d - floatPlaces)) = some x ↔ magOf (cand count d c) = x.mag := by
  rw [parseFloat_iff (floatText_value _ _ _ _)]
  exact ⟨fun h => h.2.2, fun h => ⟨hf, rfl, h⟩⟩

/-- The search stops at the first number of digits, with the nearer neighbour if that one reads back. -/
theorem shortest_search {x : F64} (hf : x.finite = true) (n count : Nat) (sci : Bool) : ∀ f d, (∃ D, d ≤ D ∧ D < d + f ∧ Hit x.mag n count D) →
    ∃ D c, d ≤ D ∧ D < d + f ∧ (∀ D', d ≤ D' → D' < D → ¬ Hit x.mag n count D') ∧ magOf (cand count D c) = x.mag ∧
      (c = n / 10 ^ (count - D) ∨ c = n / 10 ^ (count - D) + 1) ∧
      (c = roundHalfEven n (10 ^ (count - D)) ∨ magOf (cand count D (roundHalfEven n (10 ^ (count - D)))) ≠ x.mag) ∧
      shortest x n count sci f d = floatText x.neg sci c ((count : Int) - D - floatPlaces)
  | 0, d, ⟨D, h1, h2, _⟩ => by omega
  | f + 1, d, ⟨D, h1, h2, h3⟩ => by
    have hnf := near_far n (10 ^ (count - d))
    unfold shortest
    simp only
    generalize hfar : (if roundHalfEven n (10 ^ (count - d)) = n / 10 ^ (count - d) then n / 10 ^ (count - d) + 1 else n / 10 ^ (count - d)) = far at *
    generalize hnear : roundHalfEven n (10 ^ (count - d)) = near at *
    by_cases hn : magOf (cand count d near) = x.mag
    · rw [if_pos ((floatText_reads hf _ _ _ _).2 hn)]
      exact ⟨d, near, Nat.le_refl _, by omega, fun D' h4 h5 => by omega, hn, by omega, .inl hnear.symm, rfl⟩
    · rw [if_neg fun h => hn ((floatText_reads hf _ _ _ _).1 h)]
      by_cases hr : magOf (cand count d far) = x.mag
      · rw [if_pos ((floatText_reads hf _ _ _ _).2 hr)]
        exact ⟨d, far, Nat.le_refl _, by omega, fun D' h4 h5 => by omega, hr, by omega, .inr (by rw [hnear]; exact hn), rfl⟩
      · rw [if_neg fun h => hr ((floatText_reads hf _ _ _ _).1 h)]
        have hno : ¬ Hit x.mag n count d := by
          unfold Hit
          rcases hnf with ⟨e1, e2⟩ | ⟨e1, e2⟩ <;> rw [e1] at hn <;> rw [e2] at hr
          · exact fun h => h.elim hn hr
          · exact fun h => h.elim hr hn
        have hD : D ≠ d := by rintro rfl; exact hno h3
        obtain ⟨D1, c, i1, i2, i3, i4⟩ := shortest_search hf n count sci f (d + 1) ⟨D, by omega, by omega, h3⟩
        refine ⟨D1, c, by omega, by omega, fun D' h4 h5 => ?_, i4⟩
        rcases Nat.eq_or_lt_of_le h4 with rfl | h6
        · exact hno
        · exact i3 D' h6 h5

theorem magOf_zero : magOf 0 = 0 := by
  have h2 := magOf_decode 0
  rw [show decodeMag 52 0 = 0 from rfl] at h2
  simpa only [Nat.cast_zero, zero_div] using h2

/-- If any number with so many digits reads back then a neighbour does. -/
theorem hit_of_digits {mag count d n : Nat} (h0 : mag ≠ 0) (hd : d ≤ count) (hn : 10 ^ (count - 1) ≤ n)
    (he : (decodeMag 52 mag : ℚ) / 2 ^ 1074 = (n : ℚ) / 10 ^ floatPlaces)
    {v : ℚ} (hv : HasDigits d v) (hv0 : 0 ≤ v) (hm : magOf v = mag) : 1 ≤ d ∧ Hit mag n count d := by
  have h1 : 1 ≤ d := by
    by_contra hz
    have : d = 0 := by omega
    subst this
    obtain ⟨m, e, hlt, rfl⟩ := hv
    have : m = 0 := by simpa using hlt
    subst this
    rw [Nat.cast_zero, zero_mul, magOf_zero] at hm
    exact h0 hm.symm
  refine ⟨h1, ?_⟩
  have hx := magOf_decode mag
  have lo := down_le (n := n) hd
  have up := lt_up (n := n) hd
  rw [← he] at lo up
  rcases outside h1 hd hn hv with h2 | h2
  · left
    have a1 := magOf_mono hv0 h2
    have a2 := magOf_mono (hv0.trans h2) lo
    omega
  · right
    have a1 := magOf_mono (cand_nonneg _ _ _) h2
    have a2 := magOf_mono (by positivity) up
    omega

theorem decode_pos {mag : Nat} (h : mag ≠ 0) : 0 < decodeMag 52 mag := by
  have := decode_le_iff (w := 52) (m := mag) (m' := 0)
  rw [show decodeMag 52 0 = 0 from rfl] at this
  omega

/-- The error of rounding to seventeen digits. -/
theorem near_close {n count : Nat} {T : ℚ} (hT : 0 < T) (hc : 17 ≤ count) (hn : 10 ^ (count - 1) ≤ n) :
    |((roundHalfEven n (10 ^ (count - 17)) * 10 ^ (count - 17) : Nat) : ℚ) / T - (n : ℚ) / T| * (2 * 10 ^ 16) ≤ (n : ℚ) / T := by
  have he := roundHalfEven_err (n := n) (d := 10 ^ (count - 17)) (Nat.pow_pos (by decide))
  have h16 : 10 ^ (count - 17) * 10 ^ 16 ≤ n := by
    rw [← Nat.pow_add, show count - 17 + 16 = count - 1 by omega]; exact hn
  generalize roundHalfEven n (10 ^ (count - 17)) * 10 ^ (count - 17) = C at *
  generalize 10 ^ (count - 17) = P at *
  rw [← sub_div, abs_div, abs_of_pos hT, div_mul_eq_mul_div, div_le_div_iff_of_pos_right hT]
  have hint : |(C : Int) - n| * (2 * 10 ^ 16) ≤ n := by
    rw [Int.abs_eq_natAbs]
    omega
  exact_mod_cast hint

/-- With seventeen digits, the nearer neighbour reads back. -/
theorem hit_seventeen {mag count n : Nat} (h0 : mag ≠ 0) (hc : 17 ≤ count) (hn : 10 ^ (count - 1) ≤ n)
    (hv : (decodeMag 52 mag : ℚ) / 2 ^ 1074 = (n : ℚ) / 10 ^ floatPlaces) : Hit mag n count 17 := by
  have key : magOf (cand count 17 (roundHalfEven n (10 ^ (count - 17)))) = mag := by
    have h1 := near_close (pow_pos' floatPlaces) hc hn
    rw [← hv, ← cand_eq hc] at h1
    exact close_mag (cand_nonneg _ _ _) h1 (decode_pos h0)
  unfold Hit
  rcases near_far n (10 ^ (count - 17)) with ⟨e1, _⟩ | ⟨e1, _⟩ <;> rw [e1] at key
  · exact .inl key
  · exact .inr key

/-- The digits of a number of some size. -/
theorem count_big {n count : Nat} (h1 : 10 ^ 17 ≤ n) (hL : n.log2 < 5000) (hc : count = digitCount 4 n (n.log2 * 1233 / 4096 + 3)) :
    10 ^ (count - 1) ≤ n ∧ n < 10 ^ count ∧ 18 ≤ count := by
  have hne : n ≠ 0 := by omega
  obtain ⟨g1, g2⟩ := guess_spec hne hL
  obtain ⟨c1, c2⟩ := digitCount_spec 4 _ g1 g2
  rw [← hc] at c1 c2
  refine ⟨c1, c2, ?_⟩
  by_contra hlt
  have h3 : 10 ^ count ≤ 10 ^ 17 := Nat.pow_le_pow_right (by decide) (by omega)
  omega

theorem scaled_bounds {X p : Nat} (h0 : 0 < X) (hX : X ≤ 2 ^ 2098) (hp : p = 5 ^ floatPlaces) : 10 ^ 17 ≤ X * p ∧ (X * p).log2 < 5000 := by
  have h1 : 10 ^ 17 ≤ p := by rw [hp]; decide +kernel
  have h2 : 2 ^ 2098 * p < 2 ^ 5000 := by rw [hp]; decide +kernel
  have h3 : p ≤ X * p := Nat.le_mul_of_pos_left _ h0
  refine ⟨Nat.le_trans h1 h3, ?_⟩
  rw [Nat.log2_lt (by omega)]
  exact Nat.lt_of_le_of_lt (Nat.mul_le_mul_right _ hX) h2

/-- The digits of a finite number that is not zero. -/
theorem count_spec {x : F64} (hf : x.finite = true) (h0 : x.mag ≠ 0) {n count : Nat} (hn : n = decodeMag 52 x.mag * 5 ^ floatPlaces)
    (hc : count = digitCount 4 n (n.log2 * 1233 / 4096 + 3)) : 10 ^ (count - 1) ≤ n ∧ n < 10 ^ count ∧ 18 ≤ count := by
  have hX := decode_pos h0
  have hm : x.mag < inf64 := by simpa [F64.finite] using hf
  have hmax : decodeMag 52 x.mag ≤ 2 ^ 2098 := by
    have h1 : decodeMag 52 x.mag ≤ decodeMag 52 inf64 := decode_mono (Nat.le_of_lt hm)
    rwa [show decodeMag 52 inf64 = 2 ^ 2098 by decide +kernel] at h1
  obtain ⟨b1, b2⟩ := scaled_bounds hX hmax rfl
  rw [← hn] at b1 b2
  exact count_big b1 b2 hc

/-- Among two numbers on the same side, the one between is nearer. -/
theorem nearer_side {lo v t : ℚ} (h : (v ≤ lo ∧ lo ≤ t) ∨ (t ≤ lo ∧ lo ≤ v)) : |lo - t| ≤ |v - t| := by
  rcases h with ⟨h1, h2⟩ | ⟨h1, h2⟩
  · rw [abs_of_nonpos (by linarith), abs_of_nonpos (by linarith)]; linarith
  · rw [abs_of_nonneg (by linarith), abs_of_nonneg (by linarith)]; linarith

theorem near_dist {n count d : Nat} (h : d ≤ count) (c : Nat) :
    |cand count d (roundHalfEven n (10 ^ (count - d))) - (n : ℚ) / 10 ^ floatPlaces| ≤ |cand count d c - (n : ℚ) / 10 ^ floatPlaces| := by
  have h1 := roundHalfEven_nearest (n := n) (D := 10 ^ (count - d)) (q' := c) (Nat.pow_pos (by decide))
  rw [cand_eq h, cand_eq h, ← sub_div, ← sub_div, abs_div, abs_div]
  refine div_le_div_of_nonneg_right ?_ (abs_nonneg _)
  generalize roundHalfEven n (10 ^ (count - d)) * 10 ^ (count - d) = A at *
  generalize c * 10 ^ (count - d) = B at *
  have h2 : |(A : Int) - n| ≤ |(B : Int) - n| := by
    rw [Int.abs_eq_natAbs, Int.abs_eq_natAbs]; exact_mod_cast h1
  exact_mod_cast h2

/-- The result of the search has the fewest digits of all that read back, and of those with the fewest it is the nearest. -/
theorem search_best {x : F64} (hf : x.finite = true) (h0 : x.mag ≠ 0) {n count : Nat} (sci : Bool)
    (he : (decodeMag 52 x.mag : ℚ) / 2 ^ 1074 = (n : ℚ) / 10 ^ floatPlaces) (c1 : 10 ^ (count - 1) ≤ n) (c2 : n < 10 ^ count) (c3 : 18 ≤ count) :
    ∃ q d, LitValue (shortest x n count sci 17 1) x.neg q ∧ HasDigits d q ∧ d ≤ 17 ∧ magOf q = x.mag ∧
      ∀ v d', 0 ≤ v → HasDigits d' v → magOf v = x.mag →
        d ≤ d' ∧ (d' = d → |q - (decodeMag 52 x.mag : ℚ) / 2 ^ 1074| ≤ |v - (decodeMag 52 x.mag : ℚ) / 2 ^ 1074|) := by
  have hit := hit_seventeen h0 (by omega) c1 he
  obtain ⟨D, c, d1, d2, d3, d4, d5, d6, d7⟩ := shortest_search hf n count sci 17 1 ⟨17, by omega, by omega, hit⟩
  rw [d7]
  refine ⟨cand count D c, D, floatText_value _ _ _ _, cand_digits d1 (by omega) c2 d5, by omega, d4, fun v d' hv hd hm => ⟨?_, ?_⟩⟩
  · by_contra hlt
    obtain ⟨g1, g2⟩ := hit_of_digits (d := d') h0 (by omega) c1 he hd hv hm
    exact d3 d' g1 (by omega) g2
  · rintro rfl
    have lo := down_le (n := n) (count := count) (d := d') (by omega)
    have up := lt_up (n := n) (count := count) (d := d') (by omega)
    have hside := outside d1 (by omega : d' ≤ count) c1 hd
    have hx := magOf_decode x.mag
    have hnear := fun c => near_dist (n := n) (count := count) (d := d') (by omega) c
    have hnf := near_far n (10 ^ (count - d'))
    rw [he] at hx ⊢
    generalize (n : ℚ) / 10 ^ floatPlaces = t at *
    generalize roundHalfEven n (10 ^ (count - d')) = near at *
    generalize n / 10 ^ (count - d') = down at *
    rcases d6 with rfl | d6
    · -- the nearer neighbour
      rcases hside with h2 | h2
      · exact le_trans (hnear _) (nearer_side (.inl ⟨h2, lo⟩))
      · exact le_trans (hnear _) (nearer_side (.inr ⟨up, h2⟩))
    · -- the other one: numbers on the other side do not read back
      rcases hside with h2 | h2
      · have a1 := magOf_mono hv h2
        have a2 := magOf_mono (hv.trans h2) lo
        have hl : magOf (cand count d' down) = x.mag := by omega
        have hc : c = down := by
          rcases hnf with ⟨e1, _⟩ | ⟨e1, _⟩
          · rw [e1] at d6; exact absurd hl d6
          · rw [e1] at d6
            rcases d5 with h | h
            · exact h
            · rw [h] at d4; exact absurd d4 d6
        rw [hc]
        exact nearer_side (.inl ⟨h2, lo⟩)
      · have a1 := magOf_mono (cand_nonneg _ _ _) h2
        have a2 := magOf_mono ((cand_nonneg _ _ _).trans lo) up
        have hl : magOf (cand count d' (down + 1)) = x.mag := by omega
        have hc : c = down + 1 := by
          rcases hnf with ⟨e1, _⟩ | ⟨e1, _⟩
          · rw [e1] at d6
            rcases d5 with h | h
            · rw [h] at d4; exact absurd d4 d6
            · exact h
          · rw [e1] at d6; exact absurd hl d6
        rw [hc]
        exact nearer_side (.inr ⟨up, h2⟩)

theorem goFmt_search {x : F64} (h0 : x.mag ≠ 0) {n count : Nat} (hn : n = decodeMag 52 x.mag * 5 ^ floatPlaces)
    (hc : count = digitCount 4 n (n.log2 * 1233 / 4096 + 3)) : ∃ sci, goFmt x = shortest x n count sci 17 1 := by
  refine ⟨decide (x.mag < mag1e6 ∨ mag1e21 ≤ x.mag), ?_⟩
  rw [hc, hn]
  unfold goFmt
  rw [if_neg h0]

/-- The text has the fewest digits of all that read back, and of those with the fewest it is the nearest. -/
theorem goFmt_shortest {x : F64} (hf : x.finite = true) : ∃ q d, LitValue (goFmt x) x.neg q ∧ HasDigits d q ∧ d ≤ 17 ∧ magOf q = x.mag ∧
    ∀ v d', 0 ≤ v → HasDigits d' v → magOf v = x.mag →
      d ≤ d' ∧ (d' = d → |q - (decodeMag 52 x.mag : ℚ) / 2 ^ 1074| ≤ |v - (decodeMag 52 x.mag : ℚ) / 2 ^ 1074|) := by
  by_cases h0 : x.mag = 0
  · refine ⟨0, 0, ?_, ⟨0, 0, by decide, by simp⟩, by decide, by rw [magOf_zero, h0], fun v d' hv hd hm => ⟨Nat.zero_le _, ?_⟩⟩
    · unfold goFmt
      rw [if_pos h0]
      have : LitAbs b!"0" 0 := ⟨b!"0", [], [], [], 0, rfl, .inl rfl, .inl ⟨rfl, rfl⟩, .inl ⟨rfl, rfl⟩, by
        rw [show decimal (b!"0" ++ []) = 0 from rfl]; simp⟩
      have := litAbs_value this x.neg
      cases hn : x.neg <;> rw [hn] at this <;> exact this
    · rw [h0, show decodeMag 52 0 = 0 from rfl, Nat.cast_zero, zero_div, sub_zero, abs_zero]
      exact fun _ => abs_nonneg _
  · have e := value_eq (decodeMag 52 x.mag)
    generalize hn : decodeMag 52 x.mag * 5 ^ floatPlaces = n at e
    obtain ⟨c1, c2, c3⟩ := count_spec hf h0 hn.symm rfl
    obtain ⟨sci, hs⟩ := goFmt_search h0 hn.symm rfl
    rw [hs]
    exact search_best hf h0 sci e c1 c2 c3

end Gltf
