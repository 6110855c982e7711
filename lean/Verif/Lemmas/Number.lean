/-
Reading numbers: the nearest float64.
-/
import Verif.Lemmas.JsonFloat
import Verif.Lemmas.Nearest
import Verif.Spec.Number

namespace Gltf

open Spec

set_option exponentiation.threshold 3000

/-! ### Rounding depends only on the fraction -/

theorem roundHalfEven_scale (n d : Nat) {k : Nat} (hk : 0 < k) : roundHalfEven (n * k) (d * k) = roundHalfEven n d := by
  unfold roundHalfEven
  simp only [Nat.mul_div_mul_right _ _ hk, Nat.mul_mod_mul_right]
  have e1 : (2 * (n % d * k) < d * k) ↔ 2 * (n % d) < d := by
    rw [← Nat.mul_assoc]; exact Nat.mul_lt_mul_right hk
  have e2 : (d * k < 2 * (n % d * k)) ↔ d < 2 * (n % d) := by
    rw [← Nat.mul_assoc]; exact Nat.mul_lt_mul_right hk
  simp only [e1, e2]

theorem roundMag_scale (w n d : Nat) {k : Nat} (hk : 0 < k) : roundMag w (n * k) (d * k) = roundMag w n d := by
  unfold roundMag
  simp only [Nat.mul_div_mul_right _ _ hk]
  rw [show d * k * 2 ^ ((n / d).log2 - w) = d * 2 ^ ((n / d).log2 - w) * k by ac_rfl, roundHalfEven_scale _ _ hk]

theorem roundMag_eq {w n d n' d' : Nat} (hd : 0 < d) (hd' : 0 < d') (h : n * d' = n' * d) : roundMag w n d = roundMag w n' d' := by
  rw [← roundMag_scale w n d hd', ← roundMag_scale w n' d' hd, h, Nat.mul_comm d d']

theorem decode_inj {w m m' : Nat} (h : decodeMag w m = decodeMag w m') : m = m' := by
  have h1 := roundMag_decode (w := w) (m := m) (d := 1) (by decide)
  have h2 := roundMag_decode (w := w) (m := m') (d := 1) (by decide)
  rw [← h1, ← h2, h]

theorem decode_le_iff {w m m' : Nat} : decodeMag w m ≤ decodeMag w m' ↔ m ≤ m' := by
  constructor
  · intro h
    rcases Nat.lt_or_ge m' m with hlt | hge
    · have := decode_mono (w := w) (Nat.le_of_lt hlt)
      exact Nat.le_of_eq (decode_inj (Nat.le_antisymm h this))
    · exact hge
  · exact decode_mono

theorem roundMag_mono {w n d n' d' : Nat} (hd : 0 < d) (hd' : 0 < d') (h : n * d' ≤ n' * d) : roundMag w n d ≤ roundMag w n' d' := by
  rw [← roundMag_scale w n d hd', ← roundMag_scale w n' d' hd, Nat.mul_comm d' d, ← decode_le_iff (w := w)]
  exact decode_round_mono (Nat.mul_pos hd hd') h

/-! ### Magnitude bits of the nearest number -/

/-- Magnitude bits of the float64 nearest to a number that is not negative, ignoring overflow. -/
def magOf (q : ℚ) : Nat := roundMag 52 (q * 2 ^ 1074).num.natAbs (q * 2 ^ 1074).den

theorem magOf_frac {q : ℚ} {N d : Nat} (hd : 0 < d) (h : (N : ℚ) / d = q * 2 ^ 1074) : magOf q = roundMag 52 N d := by
  unfold magOf
  rw [← h]
  refine roundMag_eq (Rat.den_pos _) hd ?_
  have hdq : (d : ℚ) ≠ 0 := by exact_mod_cast (by omega : d ≠ 0)
  have h0 : 0 ≤ (N : ℚ) / d := by positivity
  generalize hr : (N : ℚ) / d = r at *
  have e1 : ((r.num.natAbs : Nat) : ℚ) = r.num := by
    have : 0 ≤ r.num := Rat.num_nonneg.2 h0
    rw [Nat.cast_natAbs, abs_of_nonneg this]
  have e2 : (N : ℚ) = r * d := by rw [← hr]; field_simp
  have e3 : r * r.den = r.num := Rat.mul_den_eq_num r
  have : ((r.num.natAbs * d : Nat) : ℚ) = (N * r.den : Nat) := by
    push_cast
    rw [e1, ← e3, e2]; ring
  exact_mod_cast this

theorem frac_exists {q : ℚ} (hq : 0 ≤ q) : ∃ N d : Nat, 0 < d ∧ (N : ℚ) / d = q * 2 ^ 1074 := by
  refine ⟨(q * 2 ^ 1074).num.natAbs, (q * 2 ^ 1074).den, Rat.den_pos _, ?_⟩
  have h0 : 0 ≤ (q * 2 ^ 1074).num := Rat.num_nonneg.2 (by positivity)
  rw [Nat.cast_natAbs, abs_of_nonneg h0, Rat.num_div_den]

theorem magOf_mono {q q' : ℚ} (h0 : 0 ≤ q) (h : q ≤ q') : magOf q ≤ magOf q' := by
  obtain ⟨N, d, hd, e⟩ := frac_exists h0
  obtain ⟨N', d', hd', e'⟩ := frac_exists (h0.trans h)
  rw [magOf_frac hd e, magOf_frac hd' e']
  refine roundMag_mono hd hd' ?_
  have h1 : (N : ℚ) / d ≤ N' / d' := by rw [e, e']; gcongr
  rw [div_le_div_iff₀ (by exact_mod_cast hd) (by exact_mod_cast hd')] at h1
  exact_mod_cast h1

theorem magOf_decode (m : Nat) : magOf ((decodeMag 52 m : ℚ) / 2 ^ 1074) = m := by
  rw [magOf_frac (N := 1 * decodeMag 52 m) (d := 1) (by decide), roundMag_decode (by decide)]
  push_cast
  field_simp

/-- Nothing is nearer. -/
theorem magOf_nearest {q : ℚ} (hq : 0 ≤ q) (m : Nat) :
    |(decodeMag 52 (magOf q) : ℚ) / 2 ^ 1074 - q| ≤ |(decodeMag 52 m : ℚ) / 2 ^ 1074 - q| := by
  obtain ⟨N, d, hd, e⟩ := frac_exists hq
  rw [magOf_frac hd e]
  have h := decode_round_nearest (w := 52) (n := N) (m := m) hd
  have hdq : (0 : ℚ) < d := by exact_mod_cast hd
  have key : ∀ M : Nat, |(M : ℚ) / 2 ^ 1074 - q| = (((M * d : Nat) - (N : Int)).natAbs : ℚ) / (d * 2 ^ 1074) := by
    intro M
    have e1 : q = N / d / 2 ^ 1074 := by rw [e]; field_simp
    have e2 : (M : ℚ) / 2 ^ 1074 - q = (((M * d : Nat) - (N : Int) : Int) : ℚ) / (d * 2 ^ 1074) := by
      rw [e1]; push_cast; field_simp
    rw [e2, abs_div, abs_of_pos (show (0 : ℚ) < d * 2 ^ 1074 by positivity), Nat.cast_natAbs, Int.cast_abs]
  rw [key, key]
  have : (((decodeMag 52 (roundMag 52 N d) * d : Nat) - (N : Int)).natAbs : ℚ) ≤ (((decodeMag 52 m * d : Nat) - (N : Int)).natAbs : ℚ) := by
    exact_mod_cast h
  gcongr

/-! ### Ties -/

theorem roundHalfEven_tie {n D k : Nat} (hk : k ≠ roundHalfEven n D)
    (h : ((k * D : Nat) - (n : Int)).natAbs = ((roundHalfEven n D * D : Nat) - (n : Int)).natAbs) (hD : 0 < D) : roundHalfEven n D % 2 = 0 := by
  have he := roundHalfEven_err (n := n) hD
  have ht : 2 * (n % D) = D := by
    have hdm := Nat.div_add_mod n D
    have hml := Nat.mod_lt n hD
    rw [Nat.mul_comm] at hdm
    have hb := roundHalfEven_bounds n D
    have hr : roundHalfEven n D = n / D ∨ roundHalfEven n D = n / D + 1 := by omega
    have hs := Nat.succ_mul (n / D) D
    simp only [Nat.succ_eq_add_one] at hs
    rcases hr with hr | hr <;> rw [hr] at hk h he
    · rcases Nat.lt_or_gt_of_ne hk with hlt | hgt
      · have : k * D + D ≤ n / D * D := by rw [← Nat.succ_mul]; exact Nat.mul_le_mul_right _ hlt
        omega
      · have : n / D * D + D ≤ k * D := by rw [← Nat.succ_mul]; exact Nat.mul_le_mul_right _ hgt
        omega
    · rw [hs] at he h
      rcases Nat.lt_or_gt_of_ne hk with hlt | hgt
      · have : k * D ≤ n / D * D := Nat.mul_le_mul_right _ (by omega)
        omega
      · have : n / D * D + D + D ≤ k * D := by rw [← hs, ← Nat.succ_mul]; exact Nat.mul_le_mul_right _ hgt
        omega
  unfold roundHalfEven
  simp only
  rw [if_neg (by omega), if_neg (by omega)]
  omega

theorem roundMag_tie {w n d m : Nat} (hw : 0 < w) (hd : 0 < d) (hm : decodeMag w m ≠ decodeMag w (roundMag w n d))
    (h : ((decodeMag w m * d : Nat) - (n : Int)).natAbs = ((decodeMag w (roundMag w n d) * d : Nat) - (n : Int)).natAbs) :
    roundMag w n d % 2 = 0 := by
  have hnear := fun m => decode_round_nearest (w := w) (n := n) (m := m) hd
  have hpar : roundMag w n d % 2 = roundHalfEven n (d * 2 ^ roundExp w n d) % 2 := by
    show (roundExp w n d * 2 ^ w + roundHalfEven n (d * 2 ^ roundExp w n d)) % 2 = _
    obtain ⟨v, rfl⟩ : ∃ v, w = v + 1 := ⟨w - 1, by omega⟩
    rw [Nat.pow_succ, ← Nat.mul_assoc]
    omega
  rw [hpar]
  rw [decode_round] at hm h
  have hD : 0 < d * 2 ^ roundExp w n d := Nat.mul_pos hd (Nat.two_pow_pos _)
  have e1 : ∀ q, q * 2 ^ roundExp w n d * d = q * (d * 2 ^ roundExp w n d) := fun q => by ac_rfl
  rw [e1] at h
  by_cases hy : 2 ^ (w + roundExp w n d) ≤ decodeMag w m ∨ roundExp w n d = 0
  · have hdv : 2 ^ roundExp w n d ∣ decodeMag w m := by
      rcases hy with h | h
      · exact decode_dvd h
      · rw [h]; simp
    obtain ⟨k, hk⟩ := hdv
    rw [hk, Nat.mul_comm (2 ^ _) k] at h hm
    rw [e1] at h
    refine roundHalfEven_tie (k := k) ?_ h hD
    rintro rfl
    exact hm rfl
  · exfalso
    have h1 : decodeMag w m < 2 ^ (w + roundExp w n d) := by omega
    have h2 : 0 < roundExp w n d := by omega
    have h3 := roundHalfEven_nearest (n := n) (q' := 2 ^ w) hD
    have h4 : 2 ^ (w + roundExp w n d) * d ≤ n := by
      have : roundExp w n d = (n / d).log2 - w := rfl
      rw [show w + roundExp w n d = (n / d).log2 by omega]
      have h0 : n / d ≠ 0 := by
        intro h0
        rw [h0] at this
        simp at this
        omega
      exact (Nat.le_div_iff_mul_le hd).1 (Nat.log2_self_le h0)
    have h5 : 2 ^ w * (d * 2 ^ roundExp w n d) = 2 ^ (w + roundExp w n d) * d := by
      rw [Nat.pow_add]; ac_rfl
    rw [h5] at h3
    have h6 := Nat.mul_lt_mul_of_pos_right h1 hd
    omega

theorem frac_dist {q : ℚ} {N d : Nat} (hd : 0 < d) (e : (N : ℚ) / d = q * 2 ^ 1074) (M : Nat) :
    |(M : ℚ) / 2 ^ 1074 - q| = (((M * d : Nat) - (N : Int)).natAbs : ℚ) / (d * 2 ^ 1074) := by
  have hdq : (0 : ℚ) < d := by exact_mod_cast hd
  have e1 : q = N / d / 2 ^ 1074 := by rw [e]; field_simp
  have e2 : (M : ℚ) / 2 ^ 1074 - q = (((M * d : Nat) - (N : Int) : Int) : ℚ) / (d * 2 ^ 1074) := by
    rw [e1]; push_cast; field_simp
  rw [e2, abs_div, abs_of_pos (show (0 : ℚ) < d * 2 ^ 1074 by positivity), Nat.cast_natAbs, Int.cast_abs]

theorem magOf_tie {q : ℚ} (hq : 0 ≤ q) {m : Nat} (hm : decodeMag 52 m ≠ decodeMag 52 (magOf q))
    (h : |(decodeMag 52 m : ℚ) / 2 ^ 1074 - q| = |(decodeMag 52 (magOf q) : ℚ) / 2 ^ 1074 - q|) : magOf q % 2 = 0 := by
  obtain ⟨N, d, hd, e⟩ := frac_exists hq
  rw [frac_dist hd e, frac_dist hd e] at h
  rw [magOf_frac hd e] at *
  have hdq : (0 : ℚ) < d := by exact_mod_cast hd
  refine roundMag_tie (by decide) hd hm ?_
  have := (div_left_inj' (show (d : ℚ) * 2 ^ 1074 ≠ 0 by positivity)).1 h
  exact_mod_cast this

/-! ### Overflow -/

theorem cast_two_pow (k : Nat) : ((2 ^ k : Nat) : ℚ) = 2 ^ k := by push_cast; rfl
theorem two_pow_div {j k : Nat} (h : k ≤ j) : (2 : ℚ) ^ j / 2 ^ k = 2 ^ (j - k) := by
  rw [pow_sub₀ _ (by norm_num) h]; rfl

theorem limit_scaled : limit * 2 ^ 1074 = 2 ^ 2098 - 2 ^ 2044 := by
  unfold limit
  rw [sub_mul, ← pow_add, ← pow_add]

theorem magOf_limit : magOf limit = inf64 := by
  rw [magOf_frac (N := 2 ^ 2098 - 2 ^ 2044) (d := 1) (by decide)]
  · decide +kernel
  · rw [limit_scaled, Nat.cast_sub (Nat.pow_le_pow_right (by decide) (by decide)), cast_two_pow, cast_two_pow, Nat.cast_one, div_one]

theorem magOf_lt_inf {q : ℚ} (hq : 0 ≤ q) : magOf q < inf64 ↔ q < limit := by
  constructor
  · intro h
    by_contra hl
    have := magOf_mono (q := limit) (q' := q) (by unfold limit; norm_num) (not_lt.1 hl)
    rw [magOf_limit] at this
    omega
  · intro h
    by_contra hl
    have hl := not_lt.1 hl
    have hmax : ((decodeMag 52 (inf64 - 1) : Nat) : ℚ) / 2 ^ 1074 = 2 ^ 1024 - 2 ^ 971 := by
      rw [show decodeMag 52 (inf64 - 1) = 2 ^ 2098 - 2 ^ 2045 by decide +kernel, Nat.cast_sub (Nat.pow_le_pow_right (by decide) (by decide)), cast_two_pow, cast_two_pow,
        sub_div, two_pow_div (by decide), two_pow_div (by decide)]
    have hinf : ((decodeMag 52 inf64 : Nat) : ℚ) / 2 ^ 1074 = 2 ^ 1024 := by
      rw [show decodeMag 52 inf64 = 2 ^ 2098 by decide +kernel, cast_two_pow, two_pow_div (by decide)]
    have h1 := magOf_nearest hq (inf64 - 1)
    have h2 : ((decodeMag 52 inf64 : Nat) : ℚ) / 2 ^ 1074 ≤ (decodeMag 52 (magOf q) : Nat) / 2 ^ 1074 := by
      have : decodeMag 52 inf64 ≤ decodeMag 52 (magOf q) := decode_mono hl
      have : ((decodeMag 52 inf64 : Nat) : ℚ) ≤ (decodeMag 52 (magOf q) : Nat) := by exact_mod_cast this
      gcongr
    rw [hinf] at h2
    rcases le_or_gt q (2 ^ 1024 - 2 ^ 971) with hle | hgt
    · rw [← hmax] at hle
      have := magOf_mono hq hle
      rw [magOf_decode] at this
      have : (0 : Nat) < inf64 := by decide
      omega
    · rw [hmax] at h1
      unfold limit at h
      have e : (2 : ℚ) ^ 971 = 2 ^ 970 + 2 ^ 970 := by rw [← two_mul, ← pow_succ']
      have h3 : (0 : ℚ) < 2 ^ 970 := by positivity
      generalize (2 : ℚ) ^ 1024 = A at *
      generalize (2 : ℚ) ^ 971 = B at *
      generalize (2 : ℚ) ^ 970 = D at *
      rw [abs_of_nonneg (by linarith), abs_of_neg (by linarith)] at h1
      linarith

/-! ### The value of a literal -/

theorem nearest_magOf (neg : Bool) (m : Nat) (e : Int) :
    nearest neg m e = if magOf (m * (10 : ℚ) ^ e) < inf64 then some (F64.make neg (magOf (m * (10 : ℚ) ^ e))) else none := by
  unfold nearest
  cases e with
  | ofNat k =>
    rw [magOf_frac (N := m * 10 ^ k * 2 ^ floatPlaces) (d := 1) (by decide)]
    simp only [Int.ofNat_eq_natCast, zpow_natCast]
    push_cast
    rw [div_one]; rfl
  | negSucc k =>
    rw [magOf_frac (N := m * 2 ^ floatPlaces) (d := 10 ^ (k + 1)) (by positivity)]
    rw [zpow_negSucc]
    push_cast
    show (m : ℚ) * 2 ^ 1074 / _ = _
    ring

theorem digitsValue_cons (c : UInt8) (ds : Bytes) (a : Nat) :
    (c :: ds).foldl (fun n c => n * 10 + (c.toNat - 48)) a = a * 10 ^ (ds.length + 1) + ((c.toNat - 48) * 10 ^ ds.length + decimal ds) := by
  induction ds generalizing a c with
  | nil => simp [decimal]
  | cons b ds ih =>
    rw [List.foldl_cons, ih]
    simp only [decimal, List.length_cons, Nat.pow_succ]
    ring

theorem digitsValue_eq (s : Bytes) : digitsValue s = decimal s := by
  cases s with
  | nil => rfl
  | cons c ds =>
    unfold digitsValue
    rw [digitsValue_cons]
    simp [decimal]

theorem Spec.IsDigits.head_ne {s : Bytes} (h : IsDigits s) {c : UInt8} (hc : c < 48 ∨ 57 < c) (t : Bytes) : (s ++ t).head? ≠ some c := by
  cases s with
  | nil => exact absurd rfl h.1
  | cons d s =>
    have := h.2 d (by simp)
    intro he
    injection he with he
    subst he
    rcases hc with hc | hc
    · exact absurd this.1 (UInt8.not_le.2 hc)
    · exact absurd this.2 (UInt8.not_le.2 hc)

theorem literalExp_eq {exp : Bytes} {e : Int} (h : (exp = [] ∧ e = 0) ∨ ∃ c k, (c = b!"e" ∨ c = b!"E") ∧ IsDigits k ∧
      ((exp = c ++ k ∧ e = decimal k) ∨ (exp = c ++ b!"+" ++ k ∧ e = decimal k) ∨ (exp = c ++ b!"-" ++ k ∧ e = -(decimal k : Int)))) :
    literalExp exp = e ∧ ∀ c ∈ exp.head?, isDigit c = false ∧ c ≠ 46 := by
  rcases h with ⟨rfl, rfl⟩ | ⟨c, k, hc, hk, h⟩
  · exact ⟨rfl, by simp⟩
  · obtain ⟨x, rfl, hx⟩ : ∃ x : UInt8, c = [x] ∧ (isDigit x = false ∧ x ≠ 46) := by
      rcases hc with rfl | rfl
      · exact ⟨101, rfl, by decide⟩
      · exact ⟨69, rfl, by decide⟩
    rcases h with ⟨rfl, rfl⟩ | ⟨rfl, rfl⟩ | ⟨rfl, rfl⟩
    · refine ⟨?_, by simpa using hx⟩
      rw [← digitsValue_eq]
      have h1 := hk.head_ne (c := 45) (.inl (by decide)) []
      have h2 := hk.head_ne (c := 43) (.inl (by decide)) []
      rw [List.append_nil] at h1 h2
      match k, h1, h2 with
      | [], _, _ => rfl
      | d :: k, h1, h2 =>
        simp only [List.head?_cons, ne_eq, Option.some.injEq] at h1 h2
        show literalExp (x :: d :: k) = _
        unfold literalExp
        split
        · rename_i h; exact absurd h (by simp)
        · rename_i h; injection h with _ h; injection h with h; exact absurd h h1
        · rename_i h; injection h with _ h; injection h with h; exact absurd h h2
        · rename_i h; injection h with _ h; rw [h]
    · exact ⟨by rw [← digitsValue_eq]; rfl, by simpa using hx⟩
    · exact ⟨by rw [← digitsValue_eq]; rfl, by simpa using hx⟩

theorem int_digits {int : Bytes} (h : int = b!"0" ∨ (IsDigits int ∧ int.head? ≠ some 48)) : IsDigits int := by
  rcases h with rfl | h
  · exact ⟨by decide, by decide⟩
  · exact h.1

theorem literalParts_eq {int frac exp ds : Bytes} {e : Int} (hi : IsDigits int)
    (hf : (frac = [] ∧ ds = []) ∨ (IsDigits ds ∧ frac = b!"." ++ ds))
    (he : literalExp exp = e ∧ ∀ c ∈ exp.head?, isDigit c = false ∧ c ≠ 46) :
    literalParts (int ++ frac ++ exp) = (decimal (int ++ ds), e - ds.length) := by
  unfold literalParts
  rcases hf with ⟨rfl, rfl⟩ | ⟨hd, rfl⟩
  · simp only [List.append_nil]
    obtain ⟨h1, h2⟩ := takeWhile_digits (rest := exp) hi.2 (fun c hc => (he.2 c hc).1)
    simp only [h1, h2]
    split
    · exact absurd rfl (he.2 46 rfl).2
    · rw [digitsValue_eq, he.1]; simp
  · rw [List.append_assoc, show (b!"." ++ ds) ++ exp = 46 :: (ds ++ exp) from rfl]
    obtain ⟨h1, h2⟩ := takeWhile_digits (rest := 46 :: (ds ++ exp)) hi.2 (by intro c hc; cases hc; decide)
    obtain ⟨h3, h4⟩ := takeWhile_digits (rest := exp) hd.2 (fun c hc => (he.2 c hc).1)
    simp only [h1, h2, h3, h4, digitsValue_eq, he.1]

theorem litValue_nonneg {s : Bytes} {neg : Bool} {q : ℚ} (h : LitValue s neg q) : 0 ≤ q := by
  obtain ⟨_, _, _, _, _, _, _, _, _, rfl⟩ := h
  exact mul_nonneg (Nat.cast_nonneg _) (zpow_nonneg (by norm_num) _)

/-- The reader finds the sign and the value. -/
theorem parseFloat_lit {s : Bytes} {neg : Bool} {q : ℚ} (h : LitValue s neg q) :
    parseFloat s = if magOf q < inf64 then some (F64.make neg (magOf q)) else none := by
  obtain ⟨int, frac, exp, ds, e, rfl, hi, hf, he, rfl⟩ := h
  have hi := int_digits hi
  have hlit := literalParts_eq hi hf (literalExp_eq he)
  rw [← nearest_magOf]
  cases neg with
  | true =>
    show nearest true (literalParts (int ++ frac ++ exp)).1 (literalParts (int ++ frac ++ exp)).2 = _
    rw [hlit]
  | false =>
    show parseFloat ([] ++ int ++ frac ++ exp) = _
    rw [List.nil_append]
    have hh := hi.head_ne (c := 45) (.inl (by decide)) (frac ++ exp)
    rw [← List.append_assoc] at hh
    unfold parseFloat
    split
    · rename_i h; rw [h] at hh; exact absurd rfl hh
    · rw [hlit]

/-- Every JSON number has a value. -/
theorem litValue_exists {s : Bytes} (h : IsNumber s) : ∃ neg q, LitValue s neg q := by
  obtain ⟨sign, int, frac, exp, rfl, hs, hi, hf, he⟩ := h
  obtain ⟨neg, rfl⟩ : ∃ neg : Bool, sign = if neg then b!"-" else [] := by
    rcases hs with rfl | rfl
    · exact ⟨false, rfl⟩
    · exact ⟨true, rfl⟩
  obtain ⟨ds, hf⟩ : ∃ ds, (frac = [] ∧ ds = []) ∨ (IsDigits ds ∧ frac = b!"." ++ ds) := by
    rcases hf with rfl | ⟨ds, h⟩
    · exact ⟨[], .inl ⟨rfl, rfl⟩⟩
    · exact ⟨ds, .inr h⟩
  rcases he with rfl | ⟨c, sg, k, hc, hsg, hk, rfl⟩
  · exact ⟨neg, _, int, frac, [], ds, 0, rfl, hi, hf, .inl ⟨rfl, rfl⟩, rfl⟩
  · rcases hsg with rfl | rfl | rfl
    · exact ⟨neg, _, int, frac, _, ds, decimal k, rfl, hi, hf, .inr ⟨c, k, hc, hk, .inl ⟨by rw [List.append_nil], rfl⟩⟩, rfl⟩
    · exact ⟨neg, _, int, frac, _, ds, decimal k, rfl, hi, hf, .inr ⟨c, k, hc, hk, .inr (.inl ⟨rfl, rfl⟩)⟩, rfl⟩
    · exact ⟨neg, _, int, frac, _, ds, -(decimal k : Int), rfl, hi, hf, .inr ⟨c, k, hc, hk, .inr (.inr ⟨rfl, rfl⟩)⟩, rfl⟩

theorem parseFloat_iff {s : Bytes} {neg : Bool} {q : ℚ} (h : LitValue s neg q) {x : F64} :
    parseFloat s = some x ↔ x.finite = true ∧ x.neg = neg ∧ magOf q = x.mag := by
  rw [parseFloat_lit h]
  constructor
  · intro hx
    split at hx
    · rename_i hm
      injection hx with hx
      obtain ⟨h1, h2⟩ := make64 (neg := neg) hm
      rw [← hx]
      exact ⟨by simpa [F64.finite, h1] using hm, h2, h1.symm⟩
    · exact absurd hx (by simp)
  · rintro ⟨h1, h2, h3⟩
    have hm : x.mag < inf64 := by simpa [F64.finite] using h1
    rw [h3, if_pos hm, ← h2, make_bits h1]

/-! ### The nearest number, with its sign -/

theorem F64.q_eq (x : F64) : x.q = signedQ x.neg ((decodeMag 52 x.mag : ℚ) / 2 ^ 1074) := by
  unfold F64.q signedQ
  rw [F64.val_eq]
  unfold signed
  cases x.neg <;> simp [neg_div]

theorem abs_signed (b : Bool) (q : ℚ) : |signedQ b q| = |q| := by
  unfold signedQ
  cases b <;> simp

theorem signed_sub (b : Bool) (p q : ℚ) : |signedQ b p - signedQ b q| = |p - q| := by
  unfold signedQ
  cases b
  · rfl
  · simp only [if_true]
    rw [← abs_neg (p - q)]; congr 1; ring

theorem signed_diff (b c : Bool) {p q : ℚ} (hp : 0 ≤ p) (hq : 0 ≤ q) : |p - q| ≤ |signedQ b p - signedQ c q| := by
  have := abs_abs_sub_abs_le (signedQ b p) (signedQ c q)
  rwa [abs_signed, abs_signed, abs_of_nonneg hp, abs_of_nonneg hq] at this

theorem make_nearest {neg : Bool} {q : ℚ} (hq : 0 ≤ q) {x : F64} (hf : x.finite = true) (hn : x.neg = neg) (hm : magOf q = x.mag) :
    NearestEven (signedQ neg q) x := by
  have hnear := fun m => magOf_nearest hq m
  rw [hm] at hnear
  have hxq : |x.q - signedQ neg q| = |(decodeMag 52 x.mag : ℚ) / 2 ^ 1074 - q| := by
    rw [F64.q_eq, hn, signed_sub]
  refine ⟨hf, fun y _ => ?_, fun y _ hne htie => ?_⟩
  · rw [hxq, F64.q_eq]
    exact (hnear y.mag).trans (signed_diff _ _ (by positivity) hq)
  · have hbits : x.bits.toNat % 2 = x.mag % 2 := by
      unfold F64.mag; omega
    rw [hbits, ← hm]
    rw [hxq, F64.q_eq y] at htie
    have h1 := hnear y.mag
    have h2 := signed_diff y.neg neg (p := (decodeMag 52 y.mag : ℚ) / 2 ^ 1074) (by positivity) hq
    by_cases hd : decodeMag 52 y.mag = decodeMag 52 x.mag
    · -- opposite signs: both are at the same distance only from zero
      rw [F64.q_eq, F64.q_eq, hn, hd] at hne
      rw [hd] at htie
      have hz : q = 0 := by
        have hs : y.neg ≠ neg := fun h => hne (by rw [h])
        have hv : (decodeMag 52 x.mag : ℚ) / 2 ^ 1074 ≠ 0 := by
          intro h0; rw [h0] at hne; apply hne
          unfold signedQ; cases y.neg <;> cases neg <;> simp
        have hv0 : 0 ≤ (decodeMag 52 x.mag : ℚ) / 2 ^ 1074 := by positivity
        generalize (decodeMag 52 x.mag : ℚ) / 2 ^ 1074 = v at *
        have hpos : 0 < v := lt_of_le_of_ne hv0 (Ne.symm hv)
        have h3 : |signedQ y.neg v - signedQ neg q| = v + q := by
          unfold signedQ
          cases hy : y.neg <;> cases hg : neg
          · exact absurd (hy.trans hg.symm) hs
          · simp only [if_true, Bool.false_eq_true, if_false, sub_neg_eq_add]; rw [abs_of_nonneg (by linarith)]
          · simp only [if_true, Bool.false_eq_true, if_false]; rw [abs_of_nonpos (by linarith)]; ring
          · exact absurd (hy.trans hg.symm) hs
        rw [h3] at htie
        rcases abs_cases (v - q) with ⟨h4, _⟩ | ⟨h4, _⟩ <;> rw [h4] at htie <;> linarith
      rw [hz]
      have := magOf_decode 0
      rw [show decodeMag 52 0 = 0 from rfl] at this
      simp only [Nat.cast_zero, zero_div] at this
      rw [this]
    · refine magOf_tie hq (m := y.mag) (by rwa [hm]) ?_
      rw [hm]
      exact le_antisymm (h2.trans htie.le) h1

end Gltf
