/-
base64: the model against the specification.
-/
import Verif.Model.Base64
import Verif.Spec.Base64

namespace Gltf

open Spec

theorem b64Digit_eq {n : Nat} (h : n < 64) : base64Alphabet.getD n 0 = b64Digit n := by
  have : ∀ n : Fin 64, base64Alphabet.getD n.1 0 = b64Digit n.1 := by decide +kernel
  exact this ⟨n, h⟩

theorem b64Value_digit {n : Nat} (h : n < 64) : b64Value (b64Digit n) = some n := by
  have : ∀ n : Fin 64, b64Value (b64Digit n.1) = some n.1 := by decide +kernel
  exact this ⟨n, h⟩

theorem b64Value_some {c : UInt8} {n : Nat} (h : b64Value c = some n) : n < 64 ∧ c = b64Digit n := by
  have : ∀ c : UInt8, (match b64Value c with | some n => decide (n < 64 ∧ c = b64Digit n) | none => true) = true := by
    have h2 : ∀ k : Fin 256, (match b64Value (UInt8.ofNat k.1) with
        | some n => decide (n < 64 ∧ UInt8.ofNat k.1 = b64Digit n) | none => true) = true := by decide +kernel
    intro c
    have := h2 ⟨c.toNat, c.toNat_lt⟩
    simpa using this
  have := this c
  rw [h] at this
  simpa using this

theorem b64Digit_ne {n : Nat} (h : n < 64) : b64Digit n ≠ b64Pad ∧ b64Digit n ≠ 10 ∧ b64Digit n ≠ 13 := by
  have : ∀ n : Fin 64, b64Digit n.1 ≠ b64Pad ∧ b64Digit n.1 ≠ 10 ∧ b64Digit n.1 ≠ 13 := by decide +kernel
  exact this ⟨n, h⟩

theorem ofNat_toNat {n : Nat} (h : n < 256) : (UInt8.ofNat n).toNat = n := by
  rw [UInt8.toNat_ofNat']; omega

theorem b64Groups_encode (data : Bytes) : b64Groups (b64Encode data) = (data, none) := by
  fun_induction b64Encode data with
  | case1 => rfl
  | case2 a =>
    have ha := a.toNat_lt
    unfold b64Groups
    rw [b64Value_digit (by omega), b64Value_digit (by omega)]
    simp only [if_true]
    rw [if_neg (by decide)]
    congr 2
    have : (a.toNat / 4 * 64 + a.toNat * 16 % 64) / 16 = a.toNat := by omega
    rw [this, UInt8.ofNat_toNat]
  | case3 a b n =>
    have ha := a.toNat_lt
    have hb := b.toNat_lt
    unfold b64Groups
    rw [b64Value_digit (by omega), b64Value_digit (by omega)]
    simp only
    rw [if_neg (b64Digit_ne (by omega)).1, b64Value_digit (by omega)]
    simp only [if_true]
    have h1 : (n / 1024 * 4096 + n / 16 % 64 * 64 + n * 4 % 64) / 1024 = a.toNat := by omega
    have h2 : (n / 1024 * 4096 + n / 16 % 64 * 64 + n * 4 % 64) / 4 % 256 = b.toNat := by omega
    rw [h1, h2, UInt8.ofNat_toNat, UInt8.ofNat_toNat]
  | case4 a b c rest n ih =>
    have ha := a.toNat_lt
    have hb := b.toNat_lt
    have hc := c.toNat_lt
    unfold b64Groups
    rw [b64Value_digit (by omega), b64Value_digit (by omega)]
    simp only
    rw [if_neg (b64Digit_ne (by omega)).1, b64Value_digit (by omega)]
    simp only
    rw [if_neg (b64Digit_ne (by omega)).1, b64Value_digit (by omega)]
    simp only [ih]
    have h : n / 262144 * 262144 + n / 4096 % 64 * 4096 + n / 64 % 64 * 64 + n % 64 = n := by omega
    rw [h]
    have h1 : n / 65536 = a.toNat := by omega
    have h2 : n / 256 % 256 = b.toNat := by omega
    have h3 : n % 256 = c.toNat := by omega
    rw [h1, h2, h3, UInt8.ofNat_toNat, UInt8.ofNat_toNat, UInt8.ofNat_toNat]

theorem b64Encode_clean (data : Bytes) : ∀ c ∈ b64Encode data, c ≠ 10 ∧ c ≠ 13 := by
  have hp : b64Pad ≠ 10 ∧ b64Pad ≠ 13 := by decide
  fun_induction b64Encode data with
  | case1 => simp
  | case2 a =>
    have ha := a.toNat_lt
    intro c hc
    simp only [List.mem_cons, List.not_mem_nil, or_false] at hc
    rcases hc with rfl | rfl | rfl | rfl
    · exact (b64Digit_ne (by omega)).2
    · exact (b64Digit_ne (by omega)).2
    · exact hp
    · exact hp
  | case3 a b n =>
    have ha := a.toNat_lt
    have hb := b.toNat_lt
    intro c hc
    simp only [List.mem_cons, List.not_mem_nil, or_false] at hc
    rcases hc with rfl | rfl | rfl | rfl
    · exact (b64Digit_ne (by omega)).2
    · exact (b64Digit_ne (by omega)).2
    · exact (b64Digit_ne (by omega)).2
    · exact hp
  | case4 a b c rest n ih =>
    have ha := a.toNat_lt
    have hb := b.toNat_lt
    have hc := c.toNat_lt
    intro c hc
    simp only [List.mem_cons] at hc
    rcases hc with rfl | rfl | rfl | rfl | hc
    · exact (b64Digit_ne (by omega)).2
    · exact (b64Digit_ne (by omega)).2
    · exact (b64Digit_ne (by omega)).2
    · exact (b64Digit_ne (by omega)).2
    · exact ih c hc

theorem b64Decode_encode (data : Bytes) : b64Decode (b64Encode data) = (data, none) := by
  unfold b64Decode
  rw [List.filter_eq_self.2, b64Groups_encode]
  intro c hc
  simpa using b64Encode_clean data c hc

theorem numeral_append (base : Nat) (l m : List Nat) : numeral base (l ++ m) = numeral base l * base ^ m.length + numeral base m := by
  induction l with
  | nil => simp [numeral]
  | cons d l ih =>
    simp only [List.cons_append, numeral, ih, List.length_append, Nat.pow_add, Nat.add_mul, Nat.mul_assoc]
    omega

theorem pow_eq {n r k : Nat} (h : 3 * (n + k) = 4 * (r + k)) : 64 ^ n = 256 ^ r * 4 ^ k := by
  have h1 : (64 : Nat) = 2 ^ 6 := rfl
  have h2 : (256 : Nat) = 2 ^ 8 := rfl
  have h3 : (4 : Nat) = 2 ^ 2 := rfl
  rw [h1, h2, h3, ← Nat.pow_mul, ← Nat.pow_mul, ← Nat.pow_mul, ← Nat.pow_add]
  congr 1
  omega

/-- A successful decoding is a decoding in the sense of the specification. -/
theorem b64Groups_sound (text data : Bytes) (h : b64Groups text = (data, none)) : IsBase64 text data := by
  fun_induction b64Groups text generalizing data with
  | case1 => cases h; exact ⟨[], 0, by omega, by simp, rfl, rfl, rfl⟩
  | case2 a b d rest w x hw hx hd => cases h
  | case3 a b d rest w x hw hx hd =>
    have hd : d = b64Pad := by simpa using hd
    subst hd
    split at h
    · next hr =>
      subst hr
      cases h
      obtain ⟨h1, rfl⟩ := b64Value_some hw
      obtain ⟨h2, rfl⟩ := b64Value_some hx
      refine ⟨[w, x], 2, by omega, ?_, ?_, rfl, ?_⟩
      · intro d hd; simp at hd; rcases hd with rfl | rfl <;> assumption
      · simp only [List.map_cons, List.map_nil, b64Digit_eq h1, b64Digit_eq h2]; rfl
      · simp only [numeral, List.map_cons, List.map_nil, List.length_nil, List.length_cons]
        rw [ofNat_toNat (by omega)]
        omega
    · cases h
  | case4 => cases h
  | case5 a b c rest w x hw hx hc y hy n =>
    split at h
    · next hr =>
      subst hr
      cases h
      obtain ⟨h1, rfl⟩ := b64Value_some hw
      obtain ⟨h2, rfl⟩ := b64Value_some hx
      obtain ⟨h3, rfl⟩ := b64Value_some hy
      refine ⟨[w, x, y], 1, by omega, ?_, ?_, rfl, ?_⟩
      · intro d hd; simp at hd; rcases hd with rfl | rfl | rfl <;> assumption
      · simp only [List.map_cons, List.map_nil, b64Digit_eq h1, b64Digit_eq h2, b64Digit_eq h3]; rfl
      · simp only [numeral, List.map_cons, List.map_nil, List.length_nil, List.length_cons]
        rw [ofNat_toNat (by omega), ofNat_toNat (by omega)]
        omega
    · cases h
  | case6 => cases h
  | case7 a b c d rest w x hw hx hc y hy hd z hz n r ih =>
    obtain ⟨h1, rfl⟩ := b64Value_some hw
    obtain ⟨h2, rfl⟩ := b64Value_some hx
    obtain ⟨h3, rfl⟩ := b64Value_some hy
    obtain ⟨h4, rfl⟩ := b64Value_some hz
    cases hr : r with
    | mk data' e =>
      simp only [hr, Prod.mk.injEq] at h
      obtain ⟨rfl, rfl⟩ := h
      obtain ⟨ds, k, hk, hlt, rfl, hlen, hnum⟩ := ih data' hr
      refine ⟨w :: x :: y :: z :: ds, k, hk, ?_, ?_, ?_, ?_⟩
      · intro d hd
        simp only [List.mem_cons] at hd
        rcases hd with rfl | rfl | rfl | rfl | hd
        · assumption
        · assumption
        · assumption
        · assumption
        · exact hlt d hd
      · simp only [List.map_cons, b64Digit_eq h1, b64Digit_eq h2, b64Digit_eq h3, b64Digit_eq h4, List.cons_append]
      · simp only [List.length_cons]; omega
      · have e1 : numeral 64 (w :: x :: y :: z :: ds) = n * 64 ^ ds.length + numeral 64 ds := by
          simp only [numeral, List.length_cons, Nat.pow_succ]
          have : n * 64 ^ ds.length = w * (64 ^ ds.length * 64 * 64 * 64) + x * (64 ^ ds.length * 64 * 64)
              + y * (64 ^ ds.length * 64) + z * 64 ^ ds.length := by
            show (w * 262144 + x * 4096 + y * 64 + z) * _ = _
            generalize 64 ^ ds.length = P
            simp only [Nat.add_mul, Nat.mul_assoc, Nat.mul_comm P]
            have : 262144 * P = 64 * (64 * (64 * P)) := by omega
            have h' : 4096 * P = 64 * (64 * P) := by omega
            rw [this, h']
          omega
        have e2 : numeral 256 (((UInt8.ofNat (n / 65536) :: UInt8.ofNat (n / 256 % 256) :: UInt8.ofNat (n % 256) :: data').map (·.toNat)))
            = n * 256 ^ data'.length + numeral 256 (data'.map (·.toNat)) := by
          simp only [List.map_cons, numeral, List.length_cons, Nat.pow_succ, List.length_map]
          rw [ofNat_toNat (by omega), ofNat_toNat (by omega), ofNat_toNat (by omega)]
          have : n * 256 ^ data'.length = n / 65536 * (256 ^ data'.length * 256 * 256) + n / 256 % 256 * (256 ^ data'.length * 256)
              + n % 256 * 256 ^ data'.length := by
            have hn : n = n / 65536 * 65536 + n / 256 % 256 * 256 + n % 256 := by omega
            generalize 256 ^ data'.length = P
            conv => lhs; rw [hn]
            simp only [Nat.add_mul, Nat.mul_assoc, Nat.mul_comm P]
            have : 65536 * P = 256 * (256 * P) := by omega
            rw [this]
          omega
        rw [e1, e2, pow_eq hlen, hnum, ← Nat.mul_assoc, Nat.mul_comm (n * 256 ^ data'.length) (4 ^ k),
          Nat.mul_add_div (Nat.pow_pos (by omega))]
  | case8 => cases h
  | case9 => cases h

theorem numeral_lt {base : Nat} {l : List Nat} (h : ∀ d ∈ l, d < base) : numeral base l < base ^ l.length := by
  induction l with
  | nil => exact Nat.one_pos
  | cons d l ih =>
    have h1 := ih fun d hd => h d (List.mem_cons_of_mem _ hd)
    have h2 := h d List.mem_cons_self
    simp only [numeral, List.length_cons, Nat.pow_succ]
    calc d * base ^ l.length + numeral base l < d * base ^ l.length + base ^ l.length := by omega
      _ = (d + 1) * base ^ l.length := by rw [Nat.add_mul, Nat.one_mul]
      _ ≤ base * base ^ l.length := Nat.mul_le_mul_right _ h2
      _ = base ^ l.length * base := Nat.mul_comm _ _

theorem numeral_inj {base : Nat} {l m : List Nat} (hl : ∀ d ∈ l, d < base) (hm : ∀ d ∈ m, d < base)
    (hlen : l.length = m.length) (h : numeral base l = numeral base m) : l = m := by
  induction l generalizing m with
  | nil => cases m with | nil => rfl | cons => simp at hlen
  | cons d l ih =>
    cases m with
    | nil => simp at hlen
    | cons e m =>
      have hlen' : l.length = m.length := by simpa using hlen
      have h1 := numeral_lt fun d hd => hl d (List.mem_cons_of_mem _ hd)
      have h2 := numeral_lt fun d hd => hm d (List.mem_cons_of_mem _ hd)
      simp only [numeral, hlen'] at h
      rw [hlen'] at h1
      have hp : 0 < base ^ m.length := Nat.lt_of_le_of_lt (Nat.zero_le _) h1
      have hde : d = e := by
        have e1 : (d * base ^ m.length + numeral base l) / base ^ m.length = d := by
          rw [Nat.mul_comm, Nat.mul_add_div hp, Nat.div_eq_of_lt h1, Nat.add_zero]
        have e2 : (e * base ^ m.length + numeral base m) / base ^ m.length = e := by
          rw [Nat.mul_comm, Nat.mul_add_div hp, Nat.div_eq_of_lt h2, Nat.add_zero]
        rw [← e1, ← e2, h]
      subst hde
      rw [ih (fun d hd => hl d (List.mem_cons_of_mem _ hd)) (fun d hd => hm d (List.mem_cons_of_mem _ hd)) hlen'
        (by omega)]

/-- Text of the right form is decoded. -/
theorem b64Groups_total (digits : List Nat) (k : Nat) (hk : k ≤ 2) (hlt : ∀ d ∈ digits, d < 64)
    (hlen : (digits.length + k) % 4 = 0) :
    ∃ data, b64Groups (digits.map b64Digit ++ List.replicate k 61) = (data, none) := by
  match digits, hlt, hlen with
  | [], _, hlen =>
    have : k = 0 := by simp at hlen; omega
    subst this
    exact ⟨[], rfl⟩
  | [w], _, hlen => simp at hlen; omega
  | [w, x], hlt, hlen =>
    have : k = 2 := by simp at hlen; omega
    subst this
    have h1 := hlt w (by simp)
    have h2 := hlt x (by simp)
    refine ⟨[UInt8.ofNat ((w * 64 + x) / 16)], ?_⟩
    simp only [List.map_cons, List.map_nil, List.cons_append, List.nil_append, List.replicate]
    unfold b64Groups
    rw [b64Value_digit h1, b64Value_digit h2]
    rfl
  | [w, x, y], hlt, hlen =>
    have : k = 1 := by simp at hlen; omega
    subst this
    have h1 := hlt w (by simp)
    have h2 := hlt x (by simp)
    have h3 := hlt y (by simp)
    refine ⟨[UInt8.ofNat ((w * 4096 + x * 64 + y) / 1024), UInt8.ofNat ((w * 4096 + x * 64 + y) / 4 % 256)], ?_⟩
    simp only [List.map_cons, List.map_nil, List.cons_append, List.nil_append, List.replicate]
    unfold b64Groups
    rw [b64Value_digit h1, b64Value_digit h2]
    simp only
    rw [if_neg (b64Digit_ne h3).1, b64Value_digit h3]
    rfl
  | w :: x :: y :: z :: ds, hlt, hlen =>
    have h1 := hlt w (by simp)
    have h2 := hlt x (by simp)
    have h3 := hlt y (by simp)
    have h4 := hlt z (by simp)
    obtain ⟨data, hd⟩ := b64Groups_total ds k hk (fun d hd => hlt d (by simp [hd])) (by simp at hlen; omega)
    let n := w * 262144 + x * 4096 + y * 64 + z
    refine ⟨UInt8.ofNat (n / 65536) :: UInt8.ofNat (n / 256 % 256) :: UInt8.ofNat (n % 256) :: data, ?_⟩
    simp only [List.map_cons, List.cons_append]
    unfold b64Groups
    rw [b64Value_digit h1, b64Value_digit h2]
    simp only
    rw [if_neg (b64Digit_ne h3).1, b64Value_digit h3]
    simp only
    rw [if_neg (b64Digit_ne h4).1, b64Value_digit h4]
    simp only [hd]
    rfl

theorem map_digit {digits : List Nat} (h : ∀ d ∈ digits, d < 64) :
    digits.map (fun d => base64Alphabet.getD d 0) = digits.map b64Digit :=
  List.map_congr_left fun d hd => b64Digit_eq (h d hd)

theorem digits_unique {ds es : List Nat} {k l : Nat} (hd : ∀ d ∈ ds, d < 64) (he : ∀ d ∈ es, d < 64)
    (h : ds.map b64Digit ++ List.replicate k (61 : UInt8) = es.map b64Digit ++ List.replicate l 61) : ds = es ∧ k = l := by
  induction ds generalizing es with
  | nil =>
    cases es with
    | nil =>
      simp only [List.map_nil, List.nil_append] at h
      exact ⟨rfl, by simpa using congrArg List.length h⟩
    | cons e es =>
      cases k with
      | zero => simp at h
      | succ k =>
        simp only [List.map_nil, List.nil_append, List.replicate_succ, List.map_cons, List.cons_append, List.cons.injEq] at h
        exact absurd h.1.symm (b64Digit_ne (he e (by simp))).1
  | cons d ds ih =>
    cases es with
    | nil =>
      cases l with
      | zero => simp at h
      | succ l =>
        simp only [List.map_nil, List.nil_append, List.replicate_succ, List.map_cons, List.cons_append, List.cons.injEq] at h
        exact absurd h.1 (b64Digit_ne (hd d (by simp))).1
    | cons e es =>
      simp only [List.map_cons, List.cons_append, List.cons.injEq] at h
      obtain ⟨rfl, rfl⟩ := ih (fun d hd' => hd d (by simp [hd'])) (fun d hd' => he d (by simp [hd'])) h.2
      have h1 := b64Value_digit (hd d (by simp))
      have h2 := b64Value_digit (he e (by simp))
      rw [h.1, h2] at h1
      cases h1
      exact ⟨rfl, rfl⟩

/-- Decoding succeeds exactly on base64 text, with the data of the specification. -/
theorem b64Groups_iff (text data : Bytes) : b64Groups text = (data, none) ↔ IsBase64 text data := by
  refine ⟨b64Groups_sound text data, ?_⟩
  rintro ⟨ds, k, hk, hlt, rfl, hlen, hnum⟩
  rw [map_digit hlt]
  obtain ⟨data', hd⟩ := b64Groups_total ds k hk hlt (by omega)
  rw [hd]
  obtain ⟨es, l, hl, hlt', heq, hlen', hnum'⟩ := b64Groups_sound _ _ hd
  rw [map_digit hlt'] at heq
  obtain ⟨rfl, rfl⟩ := digits_unique hlt hlt' heq
  have : data'.map (·.toNat) = data.map (·.toNat) := by
    apply numeral_inj (base := 256)
    · intro d hd; obtain ⟨c, -, rfl⟩ := List.mem_map.1 hd; exact c.toNat_lt
    · intro d hd; obtain ⟨c, -, rfl⟩ := List.mem_map.1 hd; exact c.toNat_lt
    · simp only [List.length_map]; omega
    · rw [hnum, hnum']
  have : data' = data := (List.map_inj_right fun a b h => UInt8.toNat_inj.1 h).1 this
  rw [this]

end Gltf
