/-
There are accurate power functions.
-/
import Verif.Lemmas.Color
import Mathlib.Algebra.Order.Archimedean.Basic
import Mathlib.Data.Rat.Floor

namespace Gltf

set_option exponentiation.threshold 3000

theorem exists_root {m : Nat} {t : ℚ} (hm : m ≠ 0) (h1 : (1 + 1 / 2 ^ 53 : ℚ) ^ m ≤ 1 + 1 / 2 ^ 40)
    (h2 : 1 - 1 / 2 ^ 40 ≤ ((1 - 1 / 2 ^ 53) * (1 - 1 / 2 ^ 51) : ℚ) ^ m)
    (h3 : ((2 ^ 51 : ℚ)) ^ m ≤ t * (2 ^ 80) ^ m) (h4 : t * (2 ^ 80) ^ m ≤ (2 ^ 93 : ℚ) ^ m) :
    ∃ r : F64, r.finite = true ∧ r.neg = false ∧ |r.q ^ m - t| ≤ t / 2 ^ 40 := by
  classical
  have hex : ∃ k : Nat, t * (2 ^ 80) ^ m < (k : ℚ) ^ m := by
    refine ⟨2 ^ 94, lt_of_le_of_lt h4 ?_⟩
    push_cast
    exact pow_lt_pow_left₀ (by norm_num) (by positivity) hm
  obtain ⟨k, hk, hmin⟩ : ∃ k : Nat, t * (2 ^ 80) ^ m < (k : ℚ) ^ m ∧ ∀ j, j < k → ¬ t * (2 ^ 80) ^ m < (j : ℚ) ^ m :=
    ⟨Nat.find hex, Nat.find_spec hex, fun j hj => Nat.find_min hex hj⟩
  have hk51 : (2 ^ 51 : ℚ) < k := lt_of_pow_lt_pow_left₀ m (by positivity) (lt_of_le_of_lt h3 hk)
  have hkn : 2 ^ 51 < k := by exact_mod_cast hk51
  obtain ⟨n, rfl⟩ : ∃ n, k = n + 1 := ⟨k - 1, by omega⟩
  have hn := not_lt.1 (hmin n (by omega))
  have hn51 : (2 ^ 51 : ℚ) ≤ n := by exact_mod_cast (by omega : 2 ^ 51 ≤ n)
  have hn93 : (n : ℚ) ≤ 2 ^ 93 := le_of_pow_le_pow_left₀ hm (by positivity) (le_trans hn h4)
  have ht : 0 < t := by
    have : (0 : ℚ) < t * (2 ^ 80) ^ m := lt_of_lt_of_le (by positivity) h3
    exact pos_of_mul_pos_left this (by positivity)
  have hr := near64_ofRat (n := n) (d := 2 ^ 80) (by decide)
    (by push_cast; rw [le_div_iff₀ (by positivity)]; norm_num at *; linarith)
    (by push_cast; rw [div_le_iff₀ (by positivity)]; norm_num at *; linarith)
  generalize F64.ofRat n (2 ^ 80) = r at *
  obtain ⟨r1, r2, r3, r4⟩ := hr
  rw [Nat.cast_pow, Nat.cast_ofNat] at r3 r4
  have hup : (n : ℚ) / 2 ^ 80 + n / 2 ^ 80 / 2 ^ 53 = n / 2 ^ 80 * (1 + 1 / 2 ^ 53) := by ring
  have hlo : (n : ℚ) / 2 ^ 80 - n / 2 ^ 80 / 2 ^ 53 = n / 2 ^ 80 * (1 - 1 / 2 ^ 53) := by ring
  rw [hup] at r4
  rw [hlo] at r3
  have hr0 : 0 ≤ r.q := le_trans (mul_nonneg (by positivity) (by norm_num)) r3
  have u1 : r.q ^ m ≤ t * (1 + 1 / 2 ^ 40) := by
    calc r.q ^ m ≤ (n / 2 ^ 80 * (1 + 1 / 2 ^ 53)) ^ m := pow_le_pow_left₀ hr0 r4 m
      _ = n ^ m / (2 ^ 80) ^ m * (1 + 1 / 2 ^ 53) ^ m := by rw [mul_pow, div_pow]
      _ ≤ t * (1 + 1 / 2 ^ 40) := by
        apply mul_le_mul _ h1 (by positivity) (le_of_lt ht)
        rw [div_le_iff₀ (by positivity)]
        exact hn
  have hnk : ((n + 1 : Nat) : ℚ) * (1 - 1 / 2 ^ 51) ≤ n := by
    push_cast at hk51 ⊢
    norm_num at *
    linarith
  have u2 : t * (1 - 1 / 2 ^ 40) ≤ r.q ^ m := by
    calc t * (1 - 1 / 2 ^ 40) ≤ t * ((1 - 1 / 2 ^ 53) * (1 - 1 / 2 ^ 51)) ^ m := mul_le_mul_of_nonneg_left h2 (le_of_lt ht)
      _ ≤ ((n + 1 : Nat) : ℚ) ^ m / (2 ^ 80) ^ m * ((1 - 1 / 2 ^ 53) * (1 - 1 / 2 ^ 51)) ^ m := by
        apply mul_le_mul_of_nonneg_right _ (pow_nonneg (by norm_num) m)
        rw [le_div_iff₀ (by positivity)]
        exact le_of_lt hk
      _ = (((n + 1 : Nat) : ℚ) * (1 - 1 / 2 ^ 51) / 2 ^ 80 * (1 - 1 / 2 ^ 53)) ^ m := by
        rw [← div_pow, ← mul_pow]; congr 1; ring
      _ ≤ (n / 2 ^ 80 * (1 - 1 / 2 ^ 53)) ^ m := by
        apply pow_le_pow_left₀
        · exact mul_nonneg (div_nonneg (mul_nonneg (Nat.cast_nonneg _) (by norm_num)) (by positivity)) (by norm_num)
        · apply mul_le_mul_of_nonneg_right _ (by norm_num)
          exact div_le_div_of_nonneg_right hnk (by positivity)
      _ ≤ r.q ^ m := pow_le_pow_left₀ (mul_nonneg (by positivity) (by norm_num)) r3 m
  refine ⟨r, r1, r2, ?_⟩
  rw [abs_le]
  constructor <;> linarith

/-- The assumption on `math.Pow` can be met. -/
theorem exists_powAccurate : ∃ pow : Pow, Spec.PowAccurate pow := by
  classical
  have up : ∀ x : F64, ∃ r, 1 / 1024 ≤ x.q → x.q ≤ 2 → Spec.CloseRoot 5 12 x.q r := by
    intro x
    by_cases h : 1 / 1024 ≤ x.q ∧ x.q ≤ 2
    · have a1 : (1 / 1024 : ℚ) ^ 12 ≤ x.q ^ 12 := pow_le_pow_left₀ (by norm_num) h.1 12
      have a2 : x.q ^ 12 ≤ (2 : ℚ) ^ 12 := pow_le_pow_left₀ (by have := h.1; norm_num at *; linarith) h.2 12
      obtain ⟨r, hr⟩ := exists_root (m := 5) (t := x.q ^ 12) (by decide) (by norm_num) (by norm_num)
        (by norm_num at *; linarith) (by norm_num at *; linarith)
      exact ⟨r, fun _ _ => hr⟩
    · exact ⟨F64.nan, fun h1 h2 => absurd ⟨h1, h2⟩ h⟩
  have down : ∀ x : F64, ∃ r, 1 / 1024 ≤ x.q → x.q ≤ 2 → Spec.CloseRoot 12 5 x.q r := by
    intro x
    by_cases h : 1 / 1024 ≤ x.q ∧ x.q ≤ 2
    · have a1 : (1 / 1024 : ℚ) ^ 5 ≤ x.q ^ 5 := pow_le_pow_left₀ (by norm_num) h.1 5
      have a2 : x.q ^ 5 ≤ (2 : ℚ) ^ 5 := pow_le_pow_left₀ (by have := h.1; norm_num at *; linarith) h.2 5
      obtain ⟨r, hr⟩ := exists_root (m := 12) (t := x.q ^ 5) (by decide) (by norm_num) (by norm_num)
        (by norm_num at *; linarith) (by norm_num at *; linarith)
      exact ⟨r, fun _ _ => hr⟩
    · exact ⟨F64.nan, fun h1 h2 => absurd ⟨h1, h2⟩ h⟩
  choose f hf using up
  choose g hg using down
  refine ⟨fun x y => if y = F64.ofRat 24 10 then f x else g x, ?_, ?_⟩
  · intro x _ h1 h2
    rw [if_pos rfl]
    exact hf x h1 h2
  · intro x _ h1 h2
    rw [if_neg (by decide +kernel)]
    exact hg x h1 h2

end Gltf
