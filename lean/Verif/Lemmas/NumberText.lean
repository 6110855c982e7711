/-
The form of the text of numbers: when there is an exponent, and no zeros at the end of a fraction.
-/
import Verif.Lemmas.Shortest

namespace Gltf

open Spec

set_option exponentiation.threshold 6000

theorem stripZeros_last : ∀ f m (e : Int), m ≠ 0 → m < 10 ^ (f + 1) → (stripZeros f m e).1 % 10 ≠ 0
  | 0, m, e, h0, h => by
    unfold stripZeros
    simp only
    have : m < 10 := by simpa using h
    omega
  | f + 1, m, e, h0, h => by
    unfold stripZeros
    split
    · refine stripZeros_last f _ _ (by omega) ?_
      rw [Nat.pow_succ] at h
      omega
    · assumption

theorem digitsFuel_last : ∀ f n, n < f → ∃ l, digitsFuel f n = l ++ [UInt8.ofNat (48 + n % 10)]
  | f + 1, n, h => by
    unfold digitsFuel
    split
    · rename_i h1
      exact ⟨[], by rw [Nat.mod_eq_of_lt h1]; rfl⟩
    · exact ⟨_, rfl⟩

theorem printNat_last {n : Nat} (h : n % 10 ≠ 0) : (printNat n).getLast? ≠ some 48 := by
  obtain ⟨l, hl⟩ := digitsFuel_last (n + 1) n (by omega)
  unfold printNat
  rw [hl, List.getLast?_append]
  simp only [List.getLast?_singleton, Option.some_or]
  have key : ∀ d, d < 10 → d ≠ 0 → UInt8.ofNat (48 + d) ≠ 48 := by decide
  intro hc
  injection hc with hc
  exact key (n % 10) (Nat.mod_lt _ (by decide)) h hc

/-- Digits, points and signs only. -/
def NoExp (s : Bytes) : Prop := ∀ c ∈ s, c ≠ 101

theorem digits_noExp {s : Bytes} (h : ∀ c ∈ s, 48 ≤ c ∧ c ≤ 57) : NoExp s := by
  intro c hc h1
  subst h1
  exact absurd (h _ hc).2 (by decide)

theorem digits_noDot {s : Bytes} (h : ∀ c ∈ s, 48 ≤ c ∧ c ≤ 57) : 46 ∉ s := by
  intro hc
  exact absurd (h _ hc).1 (by decide)

theorem noExp_append {a b : Bytes} : NoExp (a ++ b) ↔ NoExp a ∧ NoExp b := by
  unfold NoExp
  constructor
  · intro h; exact ⟨fun c hc => h c (by simp [hc]), fun c hc => h c (by simp [hc])⟩
  · rintro ⟨h1, h2⟩ c hc
    rcases List.mem_append.1 hc with h | h
    · exact h1 c h
    · exact h2 c h

theorem takeWhile_noExp {a b : Bytes} (h : NoExp a) : (a ++ 101 :: b).takeWhile (· ≠ 101) = a := by
  induction a with
  | nil => rfl
  | cons c a ih =>
    have := h c (by simp)
    rw [List.cons_append, List.takeWhile_cons, if_pos (by simpa using this), ih fun d hd => h d (by simp [hd])]

theorem takeWhile_noExp' {a : Bytes} (h : NoExp a) : a.takeWhile (· ≠ 101) = a := by
  induction a with
  | nil => rfl
  | cons c a ih =>
    have := h c (by simp)
    rw [List.takeWhile_cons, if_pos (by simpa using this), ih fun d hd => h d (by simp [hd])]

theorem noExp_b {b : Bytes} (h : 101 ∉ b) : NoExp b := fun _ hc h1 => h (h1 ▸ hc)

theorem fmtF_form {m : Nat} (e : Int) (hm : m % 10 ≠ 0) : NoExp (fmtF m e) ∧ (46 ∈ fmtF m e → (fmtF m e).getLast? ≠ some 48) := by
  have hd := (printNat_digits m).2
  have hl := printNat_last hm
  have hne := (printNat_digits m).1
  unfold fmtF
  simp only
  split
  · have hz : ∀ c ∈ (if m = 0 then ([] : Bytes) else List.replicate e.toNat 48), 48 ≤ c ∧ c ≤ 57 := by
      split
      · simp
      · exact zeros_digits _
    refine ⟨noExp_append.2 ⟨digits_noExp hd, digits_noExp hz⟩, fun h => ?_⟩
    rcases List.mem_append.1 h with h | h
    · exact absurd h (digits_noDot hd)
    · exact absurd h (digits_noDot hz)
  · split
    · rename_i he hk
      refine ⟨noExp_append.2 ⟨noExp_append.2 ⟨digits_noExp fun c hc => hd c (List.mem_of_mem_take hc), noExp_b (by decide)⟩,
        digits_noExp fun c hc => hd c (List.mem_of_mem_drop hc)⟩, fun _ => ?_⟩
      rw [List.getLast?_append, List.getLast?_drop, if_neg (by omega)]
      cases hg : (printNat m).getLast? with
      | none => exact absurd (List.getLast?_eq_none_iff.1 hg) hne
      | some c => rw [hg] at hl; simpa using hl
    · refine ⟨noExp_append.2 ⟨noExp_append.2 ⟨noExp_b (by decide), digits_noExp (zeros_digits _)⟩, digits_noExp hd⟩, fun _ => ?_⟩
      rw [List.getLast?_append]
      cases hg : (printNat m).getLast? with
      | none => exact absurd (List.getLast?_eq_none_iff.1 hg) hne
      | some c => rw [hg] at hl; simpa using hl

theorem fmtE_form {m : Nat} (e : Int) (hm : m % 10 ≠ 0) : ∃ a b, fmtE m e = a ++ 101 :: b ∧ NoExp a ∧ (46 ∈ fmtE m e → a.getLast? ≠ some 48) := by
  have hd := (printNat_digits m).2
  have hl := printNat_last hm
  have hne := (printNat_digits m).1
  unfold fmtE
  simp only
  refine ⟨(printNat m).take 1 ++ (if (printNat m).length = 1 then [] else b!"." ++ (printNat m).drop 1),
    (if e + ((printNat m).length : Int) - 1 < 0 then b!"-" else b!"+") ++ printNat (e + ((printNat m).length : Int) - 1).natAbs, ?_, ?_, ?_⟩
  · simp only [List.append_assoc]; rfl
  · refine noExp_append.2 ⟨digits_noExp fun c hc => hd c (List.mem_of_mem_take hc), ?_⟩
    split
    · exact noExp_b (by decide)
    · exact noExp_append.2 ⟨noExp_b (by decide), digits_noExp fun c hc => hd c (List.mem_of_mem_drop hc)⟩
  · intro _
    split
    · rename_i h1
      rw [List.append_nil, List.take_of_length_le (by omega)]
      exact hl
    · rename_i h1
      have : 0 < (printNat m).length := List.length_pos_iff.2 hne
      rw [List.getLast?_append, List.getLast?_append, List.getLast?_drop, if_neg (by omega)]
      cases hg : (printNat m).getLast? with
      | none => exact absurd (List.getLast?_eq_none_iff.1 hg) hne
      | some c => rw [hg] at hl; simpa using hl

/-- The form of a number with sign. -/
theorem floatText_form (neg sci : Bool) {m : Nat} (e : Int) (h0 : m ≠ 0) (h : m < 10 ^ 18) :
    (101 ∈ floatText neg sci m e ↔ sci = true) ∧
    (46 ∈ floatText neg sci m e → ((floatText neg sci m e).takeWhile (· ≠ 101)).getLast? ≠ some 48) := by
  have hm := stripZeros_last 17 m e h0 h
  unfold floatText
  simp only
  generalize (stripZeros 17 m e).1 = k at hm
  generalize (stripZeros 17 m e).2 = e'
  have hs : NoExp (if neg then b!"-" else []) := by cases neg <;> exact noExp_b (by decide)
  have hs' : 46 ∉ (if neg then b!"-" else ([] : Bytes)) := by cases neg <;> decide
  generalize (if neg then b!"-" else ([] : Bytes)) = sg at hs hs'
  cases sci with
  | false =>
    simp only [Bool.false_eq_true, if_false, iff_false]
    obtain ⟨f1, f2⟩ := fmtF_form e' hm
    have hno := noExp_append.2 ⟨hs, f1⟩
    refine ⟨fun h => hno _ h rfl, fun h => ?_⟩
    rw [takeWhile_noExp' hno]
    rcases List.mem_append.1 h with h | h
    · exact absurd h hs'
    · have := f2 h
      rw [List.getLast?_append]
      cases hg : (fmtF k e').getLast? with
      | none =>
        rw [List.getLast?_eq_none_iff.1 hg] at h
        exact absurd h (by simp)
      | some c => rw [hg] at this; simpa using this
  | true =>
    simp only [if_true, iff_true]
    obtain ⟨a, b, e1, e2, e3⟩ := fmtE_form e' hm
    refine ⟨by rw [e1]; simp, fun h => ?_⟩
    have h46 : 46 ∈ fmtE k e' := by
      rcases List.mem_append.1 h with h | h
      · exact absurd h hs'
      · exact h
    have h5 := e3 h46
    rw [e1, ← List.append_assoc, takeWhile_noExp (noExp_append.2 ⟨hs, e2⟩), List.getLast?_append]
    cases hg : a.getLast? with
    | none =>
      have ha := List.getLast?_eq_none_iff.1 hg
      rw [ha] at e1
      have hu := fmtE_unsigned k e'
      rw [e1] at hu
      obtain ⟨int, frac, exp, h1, h2, _⟩ := hu
      have hi := int_digits h2
      cases int with
      | nil => exact absurd rfl hi.1
      | cons c int =>
        injection h1 with h1 _
        have := (hi.2 c (by simp)).2
        rw [← h1] at this
        exact absurd this (by decide)
    | some c => rw [hg] at h5; simpa using h5

/-- The text of a number that is not zero comes from the search. -/
theorem search_text {x : F64} (hf : x.finite = true) (h0 : x.mag ≠ 0) {n count : Nat} (sci : Bool)
    (he : (decodeMag 52 x.mag : ℚ) / 2 ^ 1074 = (n : ℚ) / 10 ^ floatPlaces) (c1 : 10 ^ (count - 1) ≤ n) (c2 : n < 10 ^ count) (c3 : 18 ≤ count) :
    ∃ c e, shortest x n count sci 17 1 = floatText x.neg sci c e ∧ c ≠ 0 ∧ c < 10 ^ 18 := by
  have hit := hit_seventeen h0 (by omega) c1 he
  obtain ⟨D, c, d1, d2, _, _, d5, _, d7⟩ := shortest_search hf n count sci 17 1 ⟨17, by omega, by omega, hit⟩
  have h1 : n / 10 ^ (count - D) < 10 ^ D := by
    rw [Nat.div_lt_iff_lt_mul (Nat.pow_pos (by decide)), ← Nat.pow_add, show D + (count - D) = count by omega]
    exact c2
  have h2 : 10 ^ (D - 1) ≤ n / 10 ^ (count - D) := by
    rw [Nat.le_div_iff_mul_le (Nat.pow_pos (by decide)), ← Nat.pow_add, show D - 1 + (count - D) = count - 1 by omega]
    exact c1
  have h3 : 0 < 10 ^ (D - 1) := Nat.pow_pos (by decide)
  have h4 : 10 ^ D ≤ 10 ^ 17 := Nat.pow_le_pow_right (by decide) (by omega)
  exact ⟨c, _, d7, by omega, by omega⟩

theorem goFmt_search_sci {x : F64} (h0 : x.mag ≠ 0) {n count : Nat} (hn : n = decodeMag 52 x.mag * 5 ^ floatPlaces)
    (hc : count = digitCount 4 n (n.log2 * 1233 / 4096 + 3)) : goFmt x = shortest x n count (decide (x.mag < mag1e6 ∨ mag1e21 ≤ x.mag)) 17 1 := by
  rw [hc, hn]
  unfold goFmt
  rw [if_neg h0]

theorem goFmt_form {x : F64} (hf : x.finite = true) :
    (101 ∈ goFmt x ↔ x.mag ≠ 0 ∧ (x.mag < mag1e6 ∨ mag1e21 ≤ x.mag)) ∧
    (46 ∈ goFmt x → ((goFmt x).takeWhile (· ≠ 101)).getLast? ≠ some 48) := by
  by_cases h0 : x.mag = 0
  · unfold goFmt
    rw [if_pos h0]
    cases x.neg
    · exact ⟨⟨fun h => absurd h (by decide), fun h => absurd h0 h.1⟩, fun h => absurd h (by decide)⟩
    · exact ⟨⟨fun h => absurd h (by decide), fun h => absurd h0 h.1⟩, fun h => absurd h (by decide)⟩
  · have e := value_eq (decodeMag 52 x.mag)
    generalize hn : decodeMag 52 x.mag * 5 ^ floatPlaces = n at e
    obtain ⟨c1, c2, c3⟩ := count_spec hf h0 hn.symm rfl
    rw [goFmt_search_sci h0 hn.symm rfl]
    obtain ⟨c, e', h1, h2, h3⟩ := search_text hf h0 (decide (x.mag < mag1e6 ∨ mag1e21 ≤ x.mag)) e c1 c2 c3
    rw [h1]
    obtain ⟨f1, f2⟩ := floatText_form x.neg (decide (x.mag < mag1e6 ∨ mag1e21 ≤ x.mag)) e' h2 h3
    exact ⟨by rw [f1, decide_eq_true_iff]; exact ⟨fun h => ⟨h0, h⟩, fun h => h.2⟩, f2⟩

theorem F64.abs_q (x : F64) : |x.q| = (decodeMag 52 x.mag : ℚ) / 2 ^ 1074 := by
  rw [F64.q_eq, abs_signed, abs_of_nonneg (by positivity)]

theorem abs_q_le_iff {x y : F64} : |x.q| ≤ |y.q| ↔ x.mag ≤ y.mag := by
  rw [F64.abs_q, F64.abs_q, div_le_div_iff_of_pos_right (by positivity), ← decode_le_iff (w := 52)]
  exact Nat.cast_le

end Gltf
