/-
Rounding gives the nearest number that can be represented.
-/
import Verif.Lemmas.ColorAlpha
import Verif.Spec.Nearest
import Mathlib.Tactic.Ring
import Mathlib.Tactic.Linarith
import Mathlib.Tactic.FieldSimp
import Mathlib.Tactic.NormNum
import Mathlib.Tactic.Positivity
import Mathlib.Tactic.GCongr
import Mathlib.Algebra.Order.Archimedean.Basic
import Mathlib.Algebra.Ring.Parity
import Mathlib.Data.Nat.Prime.Basic

namespace Gltf

set_option exponentiation.threshold 3000

theorem roundHalfEven_nearest {n D q' : Nat} (hD : 0 < D) :
    ((roundHalfEven n D * D : Nat) - (n : Int)).natAbs ≤ ((q' * D : Nat) - (n : Int)).natAbs := by
  have h := roundHalfEven_err (n := n) hD
  generalize roundHalfEven n D = q at *
  rcases Nat.lt_trichotomy q q' with hlt | heq | hgt
  · have : q * D + D ≤ q' * D := by rw [← Nat.succ_mul]; exact Nat.mul_le_mul_right _ hlt
    omega
  · subst heq; omega
  · have : q' * D + D ≤ q * D := by rw [← Nat.succ_mul]; exact Nat.mul_le_mul_right _ hgt
    omega

theorem decode_round_nearest {w n d m : Nat} (hd : 0 < d) :
    ((decodeMag w (roundMag w n d) * d : Nat) - (n : Int)).natAbs ≤ ((decodeMag w m * d : Nat) - (n : Int)).natAbs := by
  rw [decode_round]
  have hD : 0 < d * 2 ^ roundExp w n d := Nat.mul_pos hd (Nat.two_pow_pos _)
  have e1 : ∀ q, q * 2 ^ roundExp w n d * d = q * (d * 2 ^ roundExp w n d) := fun q => by ac_rfl
  rw [e1]
  by_cases hy : 2 ^ (w + roundExp w n d) ≤ decodeMag w m ∨ roundExp w n d = 0
  · have hdv : 2 ^ roundExp w n d ∣ decodeMag w m := by
      rcases hy with h | h
      · exact decode_dvd h
      · rw [h]; simp
    obtain ⟨k, hk⟩ := hdv
    rw [hk, Nat.mul_comm (2 ^ _) k, e1]
    exact roundHalfEven_nearest hD
  · have h1 : decodeMag w m < 2 ^ (w + roundExp w n d) := by omega
    have h2 : 0 < roundExp w n d := by omega
    have h3 := roundHalfEven_nearest (n := n) (q' := 2 ^ w) hD
    have h4 : 2 ^ (w + roundExp w n d) * d ≤ n := by
      have : roundExp w n d = (n / d).log2 - w := rfl
      rw [show w + roundExp w n d = (n / d).log2 by omega]
      have h0 : n / d ≠ 0 := by
        intro h0
        rw [h0] at this
        simp at this
        omega
      exact (Nat.le_div_iff_mul_le hd).1 (Nat.log2_self_le h0)
    have h5 : 2 ^ w * (d * 2 ^ roundExp w n d) = 2 ^ (w + roundExp w n d) * d := by
      rw [Nat.pow_add]; ac_rfl
    rw [h5] at h3
    have h6 := Nat.mul_lt_mul_of_pos_right h1 hd
    omega

/-- Rounding a fraction, with its sign, gives the nearest number. -/
theorem nearest_round {x : F32} {b : Bool} {N d : Nat} (hd : 0 < d) (hx : x.finite = true)
    (hv : x.val = signed b (rnd32 N d)) : Spec.NearestF32 ((if b then -1 else 1) * ((N : ℚ) / (d * 2 ^ 149))) x := by
  refine ⟨hx, fun y _ => ?_⟩
  have hP : (0 : ℚ) < 2 ^ 149 := by positivity
  have hdq : (0 : ℚ) < d := by exact_mod_cast hd
  -- in units of the smallest float
  have key : ∀ s : Int, |(s : ℚ) / 2 ^ 149 - (if b then -1 else 1) * ((N : ℚ) / (d * 2 ^ 149))| =
      |((s * d - signed b N : Int) : ℚ)| / (2 ^ 149 * d) := by
    intro s
    rw [← abs_of_pos (mul_pos hP hdq), ← abs_div]
    congr 1
    unfold signed
    cases b <;> simp <;> field_simp
  unfold F32.q
  rw [key, key]
  apply div_le_div_of_nonneg_right _ (by positivity)
  have h0 := decode_round_nearest (w := 23) (n := N) (m := 0) hd
  have h1 := decode_round_nearest (w := 23) (n := N) (m := y.mag) hd
  rw [show decodeMag 23 0 = 0 from rfl] at h0
  change ((rnd32 N d * d : Nat) - (N : Int)).natAbs ≤ _ at h0
  change ((rnd32 N d * d : Nat) - (N : Int)).natAbs ≤ _ at h1
  rw [hv]
  rw [F32.val_eq]
  generalize rnd32 N d = r at *
  generalize decodeMag 23 y.mag = Y at *
  rw [← Int.cast_abs, ← Int.cast_abs]
  have goal : |signed b r * (d : Int) - signed b N| ≤ |signed y.neg Y * (d : Int) - signed b N| := by
    rw [Int.abs_eq_natAbs, Int.abs_eq_natAbs]
    push_cast at h0 h1
    unfold signed
    generalize hA : (r : Int) * d = A at *
    generalize hB : (Y : Int) * d = B at *
    have hB0 : 0 ≤ B := by rw [← hB]; positivity
    cases b <;> cases y.neg <;> simp only [if_true, if_false, Bool.false_eq_true, Int.neg_mul, hA, hB] <;> omega
  exact_mod_cast goal

/-- Floats of some size are multiples of a power of two. -/
theorem F32.q_grid {x : F32} {j : Nat} (hj : j ≤ 100) (hx : 1 / 2 ^ (j + 2) ≤ x.q) : ∃ X : Int, x.q = X / 2 ^ (j + 25) := by
  unfold F32.q at hx ⊢
  have e : (2 : ℚ) ^ 149 = 2 ^ (j + 2) * 2 ^ (147 - j) := by rw [← pow_add]; congr 1; omega
  have h1 : ((2 ^ (147 - j) : Nat) : ℚ) ≤ x.val := by
    rw [div_le_div_iff₀ (by positivity) (by positivity), one_mul, e, mul_comm] at hx
    have := le_of_mul_le_mul_right hx (by positivity)
    exact_mod_cast this
  have h2 : ((2 ^ (147 - j) : Nat) : Int) ≤ x.val := by exact_mod_cast h1
  have h3 : 2 ^ (23 + (124 - j)) ≤ decodeMag 23 x.mag := by
    rw [← F32.natAbs_val, show 23 + (124 - j) = 147 - j by omega]
    omega
  obtain ⟨c, hc⟩ := decode_dvd h3
  refine ⟨c, ?_⟩
  have h4 : x.val = ((2 ^ (124 - j) * c : Nat) : Int) := by
    rw [← hc, ← F32.natAbs_val]
    have : (0 : Int) ≤ ((2 ^ (147 - j) : Nat) : Int) := Int.natCast_nonneg _
    omega
  rw [h4]
  have e2 : (2 : ℚ) ^ 149 = 2 ^ (j + 25) * 2 ^ (124 - j) := by rw [← pow_add]; congr 1; omega
  rw [e2]
  push_cast
  field_simp

theorem nearer_sq {x y t : ℚ} (h : |x - t| ≤ |y - t|) : 0 ≤ (y - x) * (y + x - 2 * t) := by
  have := sq_le_sq.2 h
  nlinarith

theorem nearer_sq' {x y t : ℚ} (h : |y - t| < |x - t|) : (y - x) * (y + x - 2 * t) < 0 := by
  have := sq_lt_sq.2 h
  nlinarith

/-- A number that is nearest to a very good approximation of a fraction with a small odd denominator is nearest to the fraction. -/
theorem nearest_twice {x : F32} {P : ℚ} {a K : Nat} (hK : 1 < K) (hK2 : K < 2 ^ 16) (hodd : K % 2 = 1) (ha : 0 < a) (haK : a < K)
    (hx : Spec.NearestF32 P x) (hx2 : |x.q - P| ≤ P / 2 ^ 24) (hP : |P - (a : ℚ) / K| ≤ (a : ℚ) / K / 2 ^ 53) :
    Spec.NearestF32 ((a : ℚ) / K) x := by
  refine ⟨hx.1, fun y hy => ?_⟩
  have h1 := hx.2 y hy
  by_contra hlt
  rw [not_le] at hlt
  have hKq : (0 : ℚ) < K := by exact_mod_cast (show 0 < K by omega)
  have haq : (0 : ℚ) < a := by exact_mod_cast ha
  set t : ℚ := (a : ℚ) / K with ht
  have t0 : 0 < t := by positivity
  have t1 : t < 1 := by rw [ht, div_lt_one hKq]; exact_mod_cast haK
  obtain ⟨j, hj1, hj2⟩ := exists_nat_pow_near_of_lt_one t0 (le_of_lt t1) (show (0 : ℚ) < 1 / 2 by norm_num) (by norm_num)
  have hj : j ≤ 100 := by
    by_contra hj
    have h3 : (1 / 2 : ℚ) ^ j ≤ (1 / 2 : ℚ) ^ 16 := pow_le_pow_of_le_one (by norm_num) (by norm_num) (by omega)
    have h4 : t ≤ 1 / 2 ^ 16 := by
      calc t ≤ _ := hj2
        _ ≤ _ := h3
        _ = _ := by norm_num
    rw [ht, div_le_div_iff₀ hKq (by positivity)] at h4
    have h5 : a * 2 ^ 16 ≤ 1 * K := by exact_mod_cast h4
    omega
  have tl : 1 / 2 ^ (j + 1) < t := by rw [one_div_pow] at hj1; exact hj1
  have tu : t ≤ 1 / 2 ^ j := by rw [one_div_pow] at hj2; exact hj2
  have hPt : P ≤ t * (1 + 1 / 2 ^ 53) ∧ t * (1 - 1 / 2 ^ 53) ≤ P := by
    have := abs_le.1 hP
    constructor <;> linarith [this.1, this.2]
  have hxt : |x.q - t| ≤ t / 4 := by
    have := abs_sub_le x.q P t
    have h6 : P / 2 ^ 24 ≤ t / 8 := by
      have := hPt.1
      linarith
    have h7 : t / 2 ^ 53 ≤ t / 8 := by
      apply div_le_div_of_nonneg_left (le_of_lt t0) (by norm_num) (by norm_num)
    linarith
  have e1 : (1 : ℚ) / 2 ^ (j + 1) = 2 * (1 / 2 ^ (j + 2)) := by rw [pow_succ 2 (j + 1)]; field_simp
  have hxl : 1 / 2 ^ (j + 2) ≤ x.q := by
    have := (abs_le.1 hxt).1
    linarith
  have hyl : 1 / 2 ^ (j + 2) ≤ y.q := by
    have := (abs_le.1 (le_trans (le_of_lt hlt) hxt)).1
    linarith
  obtain ⟨X, hX⟩ := F32.q_grid hj hxl
  obtain ⟨Y, hY⟩ := F32.q_grid hj hyl
  -- the middle of the two floats is not the fraction
  have hmid : 1 / (K * 2 ^ (j + 25)) ≤ |y.q + x.q - 2 * t| := by
    have e : y.q + x.q - 2 * t = (((X + Y) * K - 2 * a * 2 ^ (j + 25) : Int) : ℚ) / (K * 2 ^ (j + 25)) := by
      rw [hX, hY, ht]
      push_cast
      field_simp
      ring
    rw [e, abs_div, abs_of_pos (show (0 : ℚ) < K * 2 ^ (j + 25) by positivity)]
    apply div_le_div_of_nonneg_right _ (by positivity)
    have hne : (X + Y) * K - 2 * a * 2 ^ (j + 25) ≠ 0 := by
      intro h0
      have h8 : (K : Int) ∣ 2 ^ (j + 26) * a := by
        refine ⟨X + Y, ?_⟩
        rw [show (2 : Int) ^ (j + 26) * a = 2 * a * 2 ^ (j + 25) by rw [pow_succ]; ring, mul_comm (K : Int)]
        linarith
      have h9 : K ∣ 2 ^ (j + 26) * a := by exact_mod_cast h8
      have h10 : Nat.Coprime K (2 ^ (j + 26)) := by
        apply Nat.Coprime.pow_right
        rw [Nat.coprime_comm, Nat.coprime_two_left]
        exact Nat.odd_iff.2 hodd
      have h11 := Nat.le_of_dvd ha (h10.dvd_of_dvd_mul_left h9)
      omega
    rw [← Int.cast_abs]
    exact_mod_cast Int.one_le_abs hne
  have s1 := nearer_sq h1
  have s2 := nearer_sq' hlt
  have hle : |y.q + x.q - 2 * t| ≤ 2 * |P - t| := by
    rw [show 2 * |P - t| = |2 * (P - t)| by rw [abs_mul, abs_of_pos (show (0 : ℚ) < 2 by norm_num)]]
    rcases lt_trichotomy (y.q - x.q) 0 with hd | hd | hd
    · have a1 : 0 < y.q + x.q - 2 * t := by by_contra h; rw [not_lt] at h; nlinarith
      have a2 : y.q + x.q - 2 * P ≤ 0 := by by_contra h; rw [not_le] at h; nlinarith
      rw [abs_of_pos a1, abs_of_pos (by linarith)]
      linarith
    · rw [hd] at s2; linarith
    · have a1 : y.q + x.q - 2 * t < 0 := by by_contra h; rw [not_lt] at h; nlinarith
      have a2 : 0 ≤ y.q + x.q - 2 * P := by by_contra h; rw [not_le] at h; nlinarith
      rw [abs_of_neg a1, abs_of_neg (by linarith)]
      linarith
  have hfin : 1 / (K * 2 ^ (j + 25)) ≤ 2 * (1 / 2 ^ j / 2 ^ 53 : ℚ) := by
    have : t / 2 ^ 53 ≤ 1 / 2 ^ j / 2 ^ 53 := div_le_div_of_nonneg_right tu (by positivity)
    linarith
  rw [pow_add, show (2 : ℚ) * (1 / 2 ^ j / 2 ^ 53) = 1 / (2 ^ 52 * 2 ^ j) by field_simp,
    div_le_div_iff₀ (by positivity) (by positivity), one_mul, one_mul] at hfin
  have hK3 : (K : ℚ) ≤ 2 ^ 16 := by exact_mod_cast (le_of_lt hK2)
  have : (2 : ℚ) ^ 52 * 2 ^ j ≤ 2 ^ 16 * 2 ^ 25 * 2 ^ j := by
    calc _ ≤ _ := hfin
      _ = K * 2 ^ 25 * 2 ^ j := by ring
      _ ≤ _ := by gcongr
  have := le_of_mul_le_mul_right this (by positivity)
  norm_num at this

theorem nearestF32_exact {x : F32} {t : ℚ} (hx : x.finite = true) (h : x.q = t) : Spec.NearestF32 t x :=
  ⟨hx, fun y _ => by rw [h, sub_self, abs_zero]; exact abs_nonneg _⟩

theorem F32.q_of_val {x : F32} {n : Nat} (h : x.val = n) : x.q = n / 2 ^ 149 := by
  unfold F32.q; rw [h, Int.cast_natCast]

theorem nearest_neg {x x' : F32} {t : ℚ} (hx : x.finite = true) (h : x.val = -x'.val) (h' : Spec.NearestF32 t x') :
    Spec.NearestF32 (-t) x := by
  refine ⟨hx, fun y hy => ?_⟩
  have hm : y.mag < inf32 := by unfold F32.finite at hy; exact of_decide_eq_true hy
  obtain ⟨m1, m2⟩ := make32 (neg := !y.neg) hm
  have hf : (F32.make (!y.neg) y.mag).finite = true := by unfold F32.finite; rw [m1]; exact decide_eq_true hm
  have hv : (F32.make (!y.neg) y.mag).val = -y.val := by
    rw [F32.val_eq, F32.val_eq, m1, m2]
    unfold signed
    cases y.neg <;> simp
  have := h'.2 _ hf
  have q1 : (F32.make (!y.neg) y.mag).q = -y.q := by unfold F32.q; rw [hv]; push_cast; ring
  have q2 : x.q = -x'.q := by unfold F32.q; rw [h]; push_cast; ring
  rw [q1] at this
  rw [q2, show -x'.q - -t = -(x'.q - t) by ring, show y.q - -t = -(-y.q - t) by ring, abs_neg, abs_neg]
  exact this

theorem abs_sub_of {q P e : ℚ} (h1 : P - e ≤ q) (h2 : q ≤ P + e) : |q - P| ≤ e := by
  rw [abs_le]
  constructor <;> linarith

/-- Rounding first to `float64` makes no difference. -/
theorem nearest_denS {K a : Nat} {x : F32} (hK : 1 < K) (hK2 : K < 2 ^ 16) (hodd : K % 2 = 1) (h : a ≤ K) (hx : x.finite = true)
    (hv : x.val = denS K a) : Spec.NearestF32 ((a : ℚ) / K) x := by
  have hKq : (0 : ℚ) < K := by exact_mod_cast (show 0 < K by omega)
  by_cases ha : a = 0
  · subst ha
    have h0 : denS K 0 = 0 := by
      unfold denS
      rw [Nat.zero_mul, rnd64_zero, rnd32_zero]
    rw [h0] at hv
    apply nearestF32_exact hx
    rw [F32.q_of_val hv]
    simp
  by_cases haK : a = K
  · subst haK
    have h0 : denS a a = 2 ^ 149 := by
      unfold denS
      have h1 := den64_le (K := a) (by omega) (Nat.le_refl a)
      have h2 := den64_ge (K := a) (by omega) (Nat.le_refl a)
      rw [Nat.le_antisymm h1 h2]
      exact rnd32_one
    apply nearestF32_exact hx
    rw [F32.q_of_val hv, h0, div_self (ne_of_gt hKq)]
    norm_num
  have haq : (0 : ℚ) < a := by exact_mod_cast (show 0 < a by omega)
  have hW : (0 : ℚ) < 2 ^ 1074 := by positivity
  have hWn : 0 < 2 ^ 1074 := Nat.two_pow_pos _
  -- the quotient as a float64
  have tl : 1 / 2 ^ 16 ≤ (a : ℚ) / K := by
    rw [div_le_div_iff₀ (by positivity) hKq, one_mul]
    have : K ≤ a * 2 ^ 16 := by omega
    exact_mod_cast this
  have tu : (a : ℚ) / K ≤ 1 := by rw [div_le_one hKq]; exact_mod_cast h
  have n64 := near64_make (n := a * 2 ^ 1074 * 2 ^ 1074) (d := K * 2 ^ 1074) (t := (a : ℚ) / K) (Nat.mul_pos (by omega) hWn)
    (by rw [Nat.cast_mul, Nat.cast_mul, Nat.cast_mul, Nat.cast_pow, Nat.cast_ofNat]
        generalize (2 : ℚ) ^ 1074 = W at *
        field_simp)
    (le_trans (by norm_num) tl) (le_trans tu (by norm_num))
  have hb : rnd64 (a * 2 ^ 1074 * 2 ^ 1074) (K * 2 ^ 1074) < 2 ^ 52 * 2 ^ 2046 := by
    refine Nat.lt_of_le_of_lt (den64_le (by omega) h) ?_
    rw [← Nat.pow_add]
    exact Nat.pow_lt_pow_right (by decide) (by decide)
  obtain ⟨v64, -⟩ := make64_val (neg := false) hb
  have q64 : (F64.make false (roundMag 52 (a * 2 ^ 1074 * 2 ^ 1074) (K * 2 ^ 1074))).q =
      (rnd64 (a * 2 ^ 1074 * 2 ^ 1074) (K * 2 ^ 1074) : ℚ) / 2 ^ 1074 := by
    unfold F64.q
    rw [v64, show signed false (rnd64 (a * 2 ^ 1074 * 2 ^ 1074) (K * 2 ^ 1074)) =
      ((rnd64 (a * 2 ^ 1074 * 2 ^ 1074) (K * 2 ^ 1074) : Nat) : Int) from rfl, Int.cast_natCast]
  have e1 : (2 : ℚ) ^ 1074 = 2 ^ 925 * 2 ^ 149 := by rw [← pow_add]
  have hlo := n64.lo
  have hhi := n64.hi
  rw [q64] at hlo hhi
  unfold denS at hv
  generalize rnd64 (a * 2 ^ 1074 * 2 ^ 1074) (K * 2 ^ 1074) = p at *
  have t0 : 0 < (a : ℚ) / K := by positivity
  have Pl : 1 / 2 ^ 126 ≤ (p : ℚ) / 2 ^ 1074 := by
    refine le_trans ?_ hlo
    have : (a : ℚ) / K - a / K / 2 ^ 53 = a / K * (1 - 1 / 2 ^ 53) := by ring
    rw [this]
    refine le_trans ?_ (mul_le_mul_of_nonneg_right tl (by norm_num))
    norm_num
  have Pu : (p : ℚ) / 2 ^ 1074 ≤ 2 ^ 100 := by
    refine le_trans hhi ?_
    have : (a : ℚ) / K / 2 ^ 53 ≤ 1 := div_le_one_of_le₀ (le_trans tu (by norm_num)) (by positivity)
    have h2 : (2 : ℚ) ≤ 2 ^ 100 := by norm_num
    linarith
  have n32 := near32_make (n := p) (d := 2 ^ 925) (t := (p : ℚ) / 2 ^ 1074) (Nat.two_pow_pos _) (by
    rw [e1, Nat.cast_pow, Nat.cast_ofNat]
    have : (2 : ℚ) ^ 925 ≠ 0 := by positivity
    generalize (2 : ℚ) ^ 925 = V at *
    have : (2 : ℚ) ^ 149 ≠ 0 := by positivity
    generalize (2 : ℚ) ^ 149 = U at *
    field_simp) Pl Pu
  have hx3 := nearest_round (b := false) (N := p) (d := 2 ^ 925) (Nat.two_pow_pos _) hx hv
  rw [Nat.cast_pow, Nat.cast_ofNat, ← e1] at hx3
  simp only [Bool.false_eq_true, if_false, one_mul] at hx3
  have hxq : x.q = (F32.make false (roundMag 23 p (2 ^ 925))).q := by
    have hmag : (F32.make false (roundMag 23 p (2 ^ 925))).val = signed false (rnd32 p (2 ^ 925)) := by
      have h7 := F32.finite_lt hx
      rw [← F32.natAbs_val, hv, Int.natAbs_natCast] at h7
      exact (make32_val (neg := false) (n := p) (d := 2 ^ 925) h7).1
    have hs : signed false (rnd32 p (2 ^ 925)) = ((rnd32 p (2 ^ 925) : Nat) : Int) := rfl
    unfold F32.q
    rw [hmag, hv, hs]
  refine nearest_twice hK hK2 hodd (Nat.pos_of_ne_zero ha) (Nat.lt_of_le_of_ne h haK) hx3 ?_ ?_
  · rw [hxq]
    exact abs_sub_of n32.lo n32.hi
  · exact abs_sub_of hlo hhi

end Gltf
