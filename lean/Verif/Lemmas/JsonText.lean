/-
Lemmas about the printer and the parser of JSON text.
-/
import Verif.Model.JsonText
import Verif.Spec.Json

namespace Gltf

/-! ### Strings -/

theorem escape_skip : ∀ (n : Nat) (s : Bytes), escape n s = escape 0 (s.drop n)
  | 0, _ => rfl
  | _ + 1, [] => rfl
  | n + 1, _ :: s => escape_skip n s

theorem parseStr_skip : ∀ (n : Nat) (s : Bytes), parseStr n s = parseStr 0 (s.drop n)
  | 0, _ => rfl
  | _ + 1, [] => rfl
  | n + 1, _ :: s => parseStr_skip n s

theorem isSecond_cont {b0 b1 : UInt8} (h : isSecond b0 b1 = true) : isCont b1 = true := by
  simp only [isSecond, isCont, Bool.and_eq_true, decide_eq_true_eq] at h ⊢
  obtain ⟨h1, h2⟩ := h
  constructor
  · split at h1
    · grind
    · split at h1 <;> grind
  · split at h2
    · grind
    · split at h2 <;> grind

theorem seqLen_spec {b : UInt8} {s : Bytes} {n : Nat} (h : seqLen (b :: s) = n + 1) :
    n + 1 ≤ s.length ∧ ∀ x, seqLen (b :: (s.take (n + 1) ++ x)) = n + 1 := by
  unfold seqLen at h
  split at h
  · next b0 b1 rest heq =>
    cases heq
    split at h
    · split at h
      · next h1 h2 =>
        cases h
        refine ⟨by simp, fun x => ?_⟩
        simp [seqLen, h1, h2]
      · cases h
    · split at h
      · split at h
        · split at h
          · next h0 h1 _ _ _ h2 =>
            cases h
            refine ⟨by simp, fun x => ?_⟩
            simp only [List.take_succ_cons, List.take_zero, List.cons_append, List.nil_append, seqLen,
              if_neg h0, if_pos h1, if_pos h2]
          · cases h
        · cases h
      · split at h
        · split at h
          · split at h
            · next h0 h1 h1' _ _ _ _ h2 =>
              cases h
              refine ⟨by simp, fun x => ?_⟩
              simp only [List.take_succ_cons, List.take_zero, List.cons_append, List.nil_append, seqLen,
                if_neg h0, if_neg h1, if_pos h1', if_pos h2]
            · cases h
          · cases h
        · cases h
  · cases h

theorem seqLen_append {b : UInt8} {s : Bytes} {n : Nat} (h : seqLen (b :: s) = n + 1) (x : Bytes) :
    seqLen (b :: (s ++ x)) = n + 1 := by
  obtain ⟨_, h2⟩ := seqLen_spec h
  have := h2 (s.drop (n + 1) ++ x)
  rwa [← List.append_assoc, List.take_append_drop] at this

theorem seqLen_zero_append {b : UInt8} {s : Bytes} (h : seqLen (b :: s) = 0)
    (hn : ¬ (s.length < seqNeed b ∧ s.all isCont = true)) (x : Bytes) : seqLen (b :: (s ++ x)) = 0 := by
  match s with
  | [] =>
    have : seqNeed b = 0 := by
      rcases Nat.eq_zero_or_pos (seqNeed b) with h | h
      · exact h
      · exact absurd ⟨h, rfl⟩ hn
    unfold seqNeed at this
    cases x with
    | nil => exact h
    | cons y x =>
      simp only [List.nil_append, seqLen]
      split at this
      · cases this
      · next h1 =>
        rw [if_neg h1]
        split at this
        · cases this
        · next h2 =>
          rw [if_neg h2]
          split at this
          · cases this
          · next h3 => rw [if_neg h3]
  | [b1] =>
    simp only [List.cons_append, List.nil_append, seqLen] at h ⊢
    unfold seqNeed at hn
    split
    · next h1 => rwa [if_pos h1] at h
    · next h1 =>
      rw [if_neg h1] at hn
      split
      · next h2 =>
        rw [if_pos h2] at hn
        have hc : isCont b1 = false := by
          cases hc : isCont b1 with
          | false => rfl
          | true => exact absurd ⟨by simp, by simp [hc]⟩ hn
        split
        · rw [if_neg]
          intro hh
          rw [isSecond_cont hh.1] at hc
          cases hc
        · rfl
      · next h2 =>
        rw [if_neg h2] at hn
        split
        · next h3 =>
          rw [if_pos h3] at hn
          have hc : isCont b1 = false := by
            cases hc : isCont b1 with
            | false => rfl
            | true => exact absurd ⟨by simp, by simp [hc]⟩ hn
          split
          · rw [if_neg]
            intro hh
            rw [isSecond_cont hh.1] at hc
            cases hc
          · rfl
        · rfl
  | [b1, b2] =>
    simp only [List.cons_append, List.nil_append, seqLen] at h ⊢
    unfold seqNeed at hn
    split
    · next h1 => rwa [if_pos h1] at h
    · next h1 =>
      rw [if_neg h1] at hn h
      split
      · next h2 => rwa [if_pos h2] at h
      · next h2 =>
        rw [if_neg h2] at hn
        split
        · next h3 =>
          rw [if_pos h3] at hn
          have hc : isCont b1 = false ∨ isCont b2 = false := by
            cases hc : isCont b1 with
            | false => exact .inl rfl
            | true =>
              cases hc2 : isCont b2 with
              | false => exact .inr rfl
              | true => exact absurd ⟨by simp, by simp [hc, hc2]⟩ hn
          split
          · next heq =>
            cases x with
            | nil => cases heq
            | cons y x =>
              cases heq
              rw [if_neg]
              intro hh
              rcases hc with hc | hc
              · rw [isSecond_cont hh.1] at hc; cases hc
              · rw [hh.2.1] at hc; cases hc
          · rfl
        · rfl
  | b1 :: b2 :: b3 :: s => exact h

/-- The second result is the first one, seen with more bytes. -/
def PRes.le {α : Type} (x : Bytes) : PRes α → PRes α → Prop
  | .more, _ => True
  | .ok a r, q => q = .ok a (r ++ x)
  | .bad, q => q = .bad

theorem PRes.le_map {α β : Type} {x : Bytes} {p q : PRes α} (h : p.le x q) (f : α → β) : (p.map f).le x (q.map f) := by
  cases p with
  | more => exact trivial
  | ok a r => cases h; exact rfl
  | bad => cases h; exact rfl

theorem PRes.le_then {α β : Type} {x : Bytes} {p q : PRes α} (h : p.le x q) {f g : α → Bytes → PRes β}
    (hf : ∀ a r, (f a r).le x (g a (r ++ x))) : (p.then f).le x (q.then g) := by
  cases p with
  | more => exact trivial
  | ok a r => cases h; exact hf a r
  | bad => cases h; exact rfl

theorem hex4_some {a b c d : UInt8} : (hex4 a b c d).isSome = true ↔
    (hexValue a).isSome = true ∧ (hexValue b).isSome = true ∧ (hexValue c).isSome = true ∧ (hexValue d).isSome = true := by
  unfold hex4
  cases hexValue a <;> cases hexValue b <;> cases hexValue c <;> cases hexValue d <;> simp

theorem runeStep_mono (r : Nat) (s x : Bytes) : runeStep r s = .more ∨ runeStep r (s ++ x) = runeStep r s := by
  unfold runeStep
  split
  · exact .inr rfl
  split
  · exact .inr rfl
  split
  · exact .inl rfl
  next h1 h2 h3 =>
  refine .inr ?_
  match s with
  | [] => exact absurd rfl h3
  | [c] =>
    have hc : c ≠ 92 := by intro h; apply h3; simp [startsHex4, h]
    have e : startsHex4 ([c] ++ x) = false := by
      cases x with
      | nil => simpa [startsHex4] using hc
      | cons y x => simp [startsHex4, hc]
    rw [e]
    simp only [Bool.false_eq_true, if_false]
    simp only [List.cons_append, List.nil_append]
    split
    · next heq =>
      cases heq
      split
      · rw [if_neg]; exact fun h => hc h.1
      · rfl
    · rfl
  | c :: d :: hs =>
    have e : startsHex4 (c :: d :: hs ++ x) = false := by
      simp only [List.cons_append, startsHex4, Bool.not_eq_true, Bool.and_eq_false_iff] at h3 ⊢
      rcases h3 with ((h3 | h3) | h3) | h3
      · exact .inl (.inl (.inl h3))
      · exact .inl (.inl (.inr h3))
      · refine .inl (.inr ?_)
        simp only [decide_eq_false_iff_not, List.length_append] at h3 ⊢
        omega
      · refine .inr ?_
        rw [List.all_append, h3]; rfl
    rw [e]
    simp only [Bool.false_eq_true, if_false, List.cons_append]
    match hs with
    | g1 :: g2 :: g3 :: g4 :: hs => rfl
    | [] | [g1] | [g1, g2] | [g1, g2, g3] =>
      simp only [startsHex4, Bool.and_eq_true, not_and] at h3
      split
      · next heq =>
        cases heq
        split
        · next r2 hr =>
          rw [if_neg]
          intro hh
          have := hex4_some.1 (by rw [hr]; rfl)
          simp_all
        · rfl
      · rfl

theorem escStep_mono (s x : Bytes) : escStep s = .more ∨ escStep (s ++ x) = escStep s := by
  match s with
  | [] => exact .inl rfl
  | c :: s =>
    simp only [List.cons_append, escStep]
    cases simpleEscape c with
    | some e => exact .inr rfl
    | none =>
      simp only
      split
      · exact .inr rfl
      · match s with
        | h1 :: h2 :: h3 :: h4 :: s =>
          simp only [List.cons_append]
          cases hex4 h1 h2 h3 h4 with
          | none => exact .inr rfl
          | some r => exact runeStep_mono r s x
        | [] => exact .inl rfl
        | [h1] | [h1, h2] | [h1, h2, h3] =>
          simp only
          split
          · exact .inl rfl
          · next hs =>
            refine .inr ?_
            simp only [List.cons_append, List.nil_append]
            split
            · next heq =>
              cases heq
              cases hr : hex4 _ _ _ _ with
              | none => rfl
              | some r =>
                have := hex4_some.1 (by rw [hr]; rfl)
                simp_all
            · rw [if_neg]
              intro hh
              apply hs
              simp_all

theorem strStep_mono (b : UInt8) (s x : Bytes) : strStep b s = .more ∨ strStep b (s ++ x) = strStep b s := by
  unfold strStep
  split
  · exact .inr rfl
  split
  · exact escStep_mono s x
  split
  · exact .inr rfl
  split
  · exact .inr rfl
  cases h : seqLen (b :: s) with
  | zero =>
    simp only
    split
    · exact .inl rfl
    · next hn =>
      rw [seqLen_zero_append h hn x]
      simp only
      refine .inr ?_
      rw [if_neg]
      intro hh
      apply hn
      refine ⟨?_, ?_⟩
      · have := hh.1; rw [List.length_append] at this; omega
      · have := hh.2; rw [List.all_append, Bool.and_eq_true] at this; exact this.1
  | succ n =>
    rw [seqLen_append h x]
    refine .inr ?_
    simp only
    rw [List.take_append_of_le_length (seqLen_spec h).1]

theorem runeStep_emit {r : Nat} {s out : Bytes} {n : Nat} (h : runeStep r s = .emit out n) : n ≤ s.length + 5 := by
  unfold runeStep at h
  split at h
  · cases h; omega
  split at h
  · cases h; omega
  split at h
  · cases h
  split at h
  · split at h
    · split at h
      · injection h with _ h; simp only [List.length_cons]; omega
      · cases h; omega
    · cases h; omega
  · cases h; omega

theorem strStep_emit {b : UInt8} {s out : Bytes} {n : Nat} (h : strStep b s = .emit out n) : n ≤ s.length := by
  unfold strStep at h
  split at h
  · cases h
  split at h
  · unfold escStep at h
    split at h
    · cases h
    · split at h
      · cases h; simp
      · split at h
        · cases h
        · split at h
          · split at h
            · cases h
            · have := runeStep_emit h; simp only [List.length_cons]; omega
          · split at h <;> cases h
  split at h
  · cases h
  split at h
  · cases h; omega
  cases hl : seqLen (b :: s) with
  | zero => rw [hl] at h; simp only at h; split at h <;> cases h; omega
  | succ m => rw [hl] at h; cases h; exact (seqLen_spec hl).1

theorem parseStr_mono (s : Bytes) (x : Bytes) : ∀ k, k ≤ s.length → (parseStr k s).le x (parseStr k (s ++ x)) := by
  induction s with
  | nil => intro k _; cases k <;> exact trivial
  | cons b s ih =>
    intro k hk
    cases k with
    | succ k => exact ih k (by simpa using hk)
    | zero =>
      simp only [List.cons_append, parseStr]
      rcases strStep_mono b s x with h | h
      · rw [h]; exact trivial
      · rw [h]
        cases hs : strStep b s with
        | close => exact rfl
        | more => exact trivial
        | bad => exact rfl
        | emit out n => exact PRes.le_map (ih n (strStep_emit hs)) _

/-- unicode/utf8: invalid bytes replaced by U+FFFD. The first `k` bytes belong to a valid sequence. -/
def toValid : (k : Nat) → Bytes → Bytes
  | _, [] => []
  | k + 1, b :: s => b :: toValid k s
  | 0, b :: s =>
    if b < 0x80 then b :: toValid 0 s
    else
      match seqLen (b :: s) with
      | 0 => replacement ++ toValid 0 s
      | n + 1 => b :: toValid (n + 1) s

theorem toValid_skip : ∀ (n : Nat) (s : Bytes), toValid n s = s.take n ++ toValid 0 (s.drop n)
  | 0, _ => rfl
  | _ + 1, [] => rfl
  | n + 1, b :: s => by simp only [toValid, List.take_succ_cons, List.drop_succ_cons, List.cons_append, toValid_skip n s]

theorem PRes.map_map {α β γ : Type} (f : α → β) (g : β → γ) (p : PRes α) : (p.map f).map g = p.map fun a => g (f a) := by
  cases p <;> rfl

theorem hexValue_hexDigit : ∀ n, n < 16 → hexValue (hexDigit n) = some n := by decide +kernel

theorem strStep_u {a b c d : UInt8} {r : Nat} (h : hex4 a b c d = some r) (hr : r < 0xD800 ∨ 0xE000 ≤ r)
    (rest : Bytes) : strStep 92 (117 :: a :: b :: c :: d :: rest) = .emit (encodeRune r) 5 := by
  have es : simpleEscape 117 = none := rfl
  unfold strStep escStep
  simp only [es, h]
  rw [if_neg (by decide), if_pos trivial, if_neg (by simp)]
  unfold runeStep
  rw [if_pos hr]

theorem parseStr_u {a b c d : UInt8} {r : Nat} (h : hex4 a b c d = some r) (hr : r < 0xD800 ∨ 0xE000 ≤ r)
    (rest : Bytes) : parseStr 0 (92 :: 117 :: a :: b :: c :: d :: rest) = (parseStr 0 rest).map (encodeRune r ++ ·) := by
  simp only [parseStr, strStep_u h hr]

theorem parseStr_escByte {b : UInt8} (hb : b < 0x80) (rest : Bytes) :
    parseStr 0 (escByte b ++ rest) = (parseStr 0 rest).map (b :: ·) := by
  unfold escByte
  split
  · next h => subst h; rfl
  split
  · next h => subst h; rfl
  split
  · next h => subst h; rfl
  split
  · next h => subst h; rfl
  split
  · next h => subst h; rfl
  split
  · next h => subst h; rfl
  split
  · next h => subst h; rfl
  next h1 h2 _ _ _ _ _ =>
  split
  · have hb' : b.toNat < 128 := hb
    have e : strStep 92 (117 :: 48 :: 48 :: hexDigit (b.toNat / 16) :: hexDigit (b.toNat % 16) :: rest)
        = .emit [b] 5 := by
      have e4 : hex4 48 48 (hexDigit (b.toNat / 16)) (hexDigit (b.toNat % 16)) = some b.toNat := by
        unfold hex4
        rw [hexValue_hexDigit _ (by omega), hexValue_hexDigit _ (by omega)]
        have : hexValue 48 = some 0 := rfl
        rw [this]
        show some _ = some _
        congr 1; omega
      rw [strStep_u e4 (by omega)]
      unfold encodeRune
      rw [if_pos hb', UInt8.ofNat_toNat]
    simp only [List.cons_append, List.nil_append, parseStr, e]
  · next h =>
    have e : strStep b rest = .emit [b] 0 := by
      unfold strStep
      rw [if_neg h1, if_neg h2, if_neg (fun h' => h (.inl h')), if_pos hb]
    simp only [List.cons_append, List.nil_append, parseStr, e]

theorem parseStr_head (b : UInt8) (s rest : Bytes) : parseStr 0 ((escHead b s).1 ++ rest) =
    (parseStr 0 rest).map (toValid 0 ((b :: s).take ((escHead b s).2 + 1)) ++ ·) := by
  unfold escHead
  split
  · next h =>
    rw [parseStr_escByte h]
    simp [toValid, h]
  next h =>
  have h34 : b ≠ 34 := by rintro rfl; exact h (by decide)
  have h92 : b ≠ 92 := by rintro rfl; exact h (by decide)
  have h32 : ¬ b < 32 := by intro h'; apply h; exact UInt8.lt_trans h' (by decide)
  cases hl : seqLen (b :: s) with
  | zero =>
    simp only [List.cons_append, List.nil_append, List.take_succ_cons, List.take_zero]
    have e1 : seqLen [b] = 0 := rfl
    simp only [toValid, if_neg h, e1, List.append_nil]
    rw [parseStr_u (r := 0xFFFD) (by decide +kernel) (by decide +kernel), show encodeRune 0xFFFD = replacement by decide +kernel]
  | succ n =>
    obtain ⟨hle, hst⟩ := seqLen_spec hl
    have ev : toValid 0 (b :: s.take (n + 1)) = b :: s.take (n + 1) := by
      have := hst []
      rw [List.append_nil] at this
      simp only [toValid, if_neg h, this]
      rw [toValid_skip, List.take_take, Nat.min_self, List.drop_eq_nil_of_le (by simp; omega)]
      simp [toValid]
    simp only
    split
    · next h2 =>
      obtain ⟨rfl, h2⟩ := h2
      simp only [List.take_succ_cons, ev]
      match s, h2 with
      | s0 :: s1 :: s, h2 =>
        simp only [List.take_succ_cons, List.take_zero, List.cons.injEq, and_true] at h2
        obtain ⟨rfl, rfl⟩ := h2
        cases hl
        simp only [List.cons_append, List.nil_append]
        rw [parseStr_u (r := 0x2028) (by decide +kernel) (by decide +kernel), show encodeRune 0x2028 = [0xE2, 0x80, 0xA8] by decide +kernel]
        rfl
    split
    · next h2 =>
      obtain ⟨rfl, h2⟩ := h2
      simp only [List.take_succ_cons, ev]
      match s, h2 with
      | s0 :: s1 :: s, h2 =>
        simp only [List.take_succ_cons, List.take_zero, List.cons.injEq, and_true] at h2
        obtain ⟨rfl, rfl⟩ := h2
        cases hl
        simp only [List.cons_append, List.nil_append]
        rw [parseStr_u (r := 0x2029) (by decide +kernel) (by decide +kernel), show encodeRune 0x2029 = [0xE2, 0x80, 0xA9] by decide +kernel]
        rfl
    · simp only [List.take_succ_cons, ev, List.cons_append, parseStr]
      have e : strStep b (s.take (n + 1) ++ rest) = .emit (b :: s.take (n + 1)) (n + 1) := by
        unfold strStep
        rw [if_neg h34, if_neg h92, if_neg h32, if_neg h, hst rest]
        simp only
        rw [List.take_append_of_le_length (by simp; omega), List.take_take, Nat.min_self]
      rw [e]
      simp only
      rw [parseStr_skip, List.drop_left' (by simp; omega)]
      rfl

theorem escHead_le (b : UInt8) (s : Bytes) : (escHead b s).2 ≤ s.length := by
  unfold escHead
  split
  · exact Nat.zero_le _
  cases hl : seqLen (b :: s) with
  | zero => exact Nat.zero_le _
  | succ n =>
    have := (seqLen_spec hl).1
    simp only
    split
    · exact this
    · split <;> exact this

theorem toValid_head (b : UInt8) (s : Bytes) : toValid 0 (b :: s) =
    toValid 0 ((b :: s).take ((escHead b s).2 + 1)) ++ toValid 0 (s.drop (escHead b s).2) := by
  unfold escHead
  split
  · next h => simp [toValid, h]
  next h =>
  cases hl : seqLen (b :: s) with
  | zero =>
    have e1 : seqLen [b] = 0 := rfl
    simp only [List.take_succ_cons, List.take_zero, List.drop_zero, toValid, if_neg h, hl, e1, List.append_nil]
  | succ n =>
    obtain ⟨hle, hst⟩ := seqLen_spec hl
    have ev : toValid 0 (b :: s.take (n + 1)) = b :: s.take (n + 1) := by
      have := hst []
      rw [List.append_nil] at this
      simp only [toValid, if_neg h, this]
      rw [toValid_skip, List.take_take, Nat.min_self, List.drop_eq_nil_of_le (by simp; omega)]
      simp [toValid]
    have e : toValid 0 (b :: s) = b :: s.take (n + 1) ++ toValid 0 (s.drop (n + 1)) := by
      simp only [toValid, if_neg h, hl, toValid_skip (n + 1) s, List.cons_append]
    simp only
    split
    · simp only [List.take_succ_cons, ev, e]
    · split <;> simp only [List.take_succ_cons, ev, e]

theorem parseStr_escape (rest : Bytes) : ∀ (n : Nat) (s : Bytes), s.length ≤ n →
    parseStr 0 (escape 0 s ++ 34 :: rest) = .ok (toValid 0 s) rest := by
  intro n
  induction n with
  | zero =>
    intro s h
    match s, h with
    | [], _ => rfl
  | succ n ih =>
    intro s h
    match s with
    | [] => rfl
    | b :: s =>
      simp only [escape, List.append_assoc]
      rw [parseStr_head, escape_skip, ih _ (by simp only [List.length_cons] at h; simp; omega), toValid_head b s]
      rfl

/-- A printed string is read back, invalid bytes replaced. -/
theorem parseStr_printStr (s rest : Bytes) : printStr s ++ rest = 34 :: (escape 0 s ++ 34 :: rest) ∧
    parseStr 0 (escape 0 s ++ 34 :: rest) = .ok (toValid 0 s) rest :=
  ⟨by simp [printStr], parseStr_escape rest s.length s (Nat.le_refl _)⟩

/-! ### UTF-8 -/

theorem u8_le {n m : Nat} (hn : n < 256) (hm : m < 256) : (UInt8.ofNat n ≤ UInt8.ofNat m) ↔ n ≤ m := by
  rw [UInt8.le_iff_toNat_le, UInt8.toNat_ofNat', UInt8.toNat_ofNat', Nat.mod_eq_of_lt hn, Nat.mod_eq_of_lt hm]

theorem u8_lt {n m : Nat} (hn : n < 256) (hm : m < 256) : (UInt8.ofNat n < UInt8.ofNat m) ↔ n < m := by
  rw [UInt8.lt_iff_toNat_lt, UInt8.toNat_ofNat', UInt8.toNat_ofNat', Nat.mod_eq_of_lt hn, Nat.mod_eq_of_lt hm]

theorem u8_eq {n m : Nat} (hn : n < 256) (hm : m < 256) : (UInt8.ofNat n = UInt8.ofNat m) ↔ n = m := by
  rw [← UInt8.toNat_inj, UInt8.toNat_ofNat', UInt8.toNat_ofNat', Nat.mod_eq_of_lt hn, Nat.mod_eq_of_lt hm]

theorem isCont_ofNat {n : Nat} (hn : n < 64) : isCont (UInt8.ofNat (n + 0x80)) = true := by
  have h1 := @u8_le 0x80 (n + 0x80) (by omega) (by omega)
  have h2 := @u8_le (n + 0x80) 0xBF (by omega) (by omega)
  unfold isCont
  rw [Bool.and_eq_true, decide_eq_true_eq, decide_eq_true_eq]
  exact ⟨h1.2 (by omega), h2.2 (by omega)⟩

theorem isSecond_ofNat {n m : Nat} (hn : n < 256) (hm : m < 64) (h1 : n = 0xE0 → 0x20 ≤ m) (h2 : n = 0xF0 → 0x10 ≤ m)
    (h3 : n = 0xED → m < 0x20) (h4 : n = 0xF4 → m < 0x10) : isSecond (UInt8.ofNat n) (UInt8.ofNat (m + 0x80)) = true := by
  unfold isSecond
  rw [Bool.and_eq_true, decide_eq_true_eq, decide_eq_true_eq]
  have e1 := @u8_eq n 0xE0 hn (by omega)
  have e2 := @u8_eq n 0xF0 hn (by omega)
  have e3 := @u8_eq n 0xED hn (by omega)
  have e4 := @u8_eq n 0xF4 hn (by omega)
  constructor
  · split
    · next h => exact (@u8_le 0xA0 (m + 0x80) (by omega) (by omega)).2 (by have := h1 (e1.1 h); omega)
    · split
      · next h => exact (@u8_le 0x90 (m + 0x80) (by omega) (by omega)).2 (by have := h2 (e2.1 h); omega)
      · exact (@u8_le 0x80 (m + 0x80) (by omega) (by omega)).2 (by omega)
  · split
    · next h => exact (@u8_le (m + 0x80) 0x9F (by omega) (by omega)).2 (by have := h3 (e3.1 h); omega)
    · split
      · next h => exact (@u8_le (m + 0x80) 0x8F (by omega) (by omega)).2 (by have := h4 (e4.1 h); omega)
      · exact (@u8_le (m + 0x80) 0xBF (by omega) (by omega)).2 (by omega)

theorem u8_range {n a b : Nat} (hn : n < 256) (ha : a < 256) (hb : b < 256) :
    (UInt8.ofNat a ≤ UInt8.ofNat n ∧ UInt8.ofNat n ≤ UInt8.ofNat b) ↔ a ≤ n ∧ n ≤ b := by
  rw [u8_le ha hn, u8_le hn hb]

theorem seqLen_char (c : Char) (x : Bytes) : ∃ b s, String.utf8EncodeChar c = b :: s ∧
    ((b < 0x80 ∧ s = []) ∨ (¬ b < 0x80 ∧ s ≠ [] ∧ seqLen (b :: (s ++ x)) = s.length)) := by
  have hv : c.val.toNat < 0xD800 ∨ (0xDFFF < c.val.toNat ∧ c.val.toNat < 0x110000) := c.valid
  unfold String.utf8EncodeChar
  generalize c.val.toNat = v at hv
  simp only
  split
  · next h =>
    exact ⟨_, _, rfl, .inl ⟨(@u8_lt v 0x80 (by omega) (by omega)).2 (by omega), rfl⟩⟩
  split
  · next h0 h =>
    refine ⟨_, _, rfl, .inr ⟨?_, by simp, ?_⟩⟩
    · intro h'; have := (@u8_lt (v / 64 % 0x20 + 0xc0) 0x80 (by omega) (by omega)).1 h'; omega
    · simp only [List.cons_append, List.nil_append, seqLen]
      rw [if_pos (show (0xC2 : UInt8) ≤ UInt8.ofNat (v / 64 % 0x20 + 0xc0) ∧ UInt8.ofNat (v / 64 % 0x20 + 0xc0) ≤ (0xDF : UInt8) from (@u8_range (v / 64 % 0x20 + 0xc0) 0xC2 0xDF (by omega) (by omega) (by omega)).2 (by omega)),
        if_pos (isCont_ofNat (by omega))]
      rfl
  split
  · next h0 h1 h =>
    refine ⟨_, _, rfl, .inr ⟨?_, by simp, ?_⟩⟩
    · intro h'; have := (@u8_lt (v / 4096 % 0x10 + 0xe0) 0x80 (by omega) (by omega)).1 h'; omega
    · simp only [List.cons_append, List.nil_append, seqLen]
      rw [if_neg (fun h' => by
            have := (@u8_range (v / 4096 % 0x10 + 0xe0) 0xC2 0xDF (by omega) (by omega) (by omega)).1 h'; omega),
        if_pos (show (0xE0 : UInt8) ≤ UInt8.ofNat (v / 4096 % 0x10 + 0xe0) ∧ UInt8.ofNat (v / 4096 % 0x10 + 0xe0) ≤ (0xEF : UInt8) from (@u8_range (v / 4096 % 0x10 + 0xe0) 0xE0 0xEF (by omega) (by omega) (by omega)).2 (by omega)),
        if_pos ⟨isSecond_ofNat (by omega) (by omega) (by omega) (by omega) (by omega) (by omega), isCont_ofNat (by omega)⟩]
      rfl
  · next h0 h1 h =>
    refine ⟨_, _, rfl, .inr ⟨?_, by simp, ?_⟩⟩
    · intro h'; have := (@u8_lt (v / 262144 % 0x08 + 0xf0) 0x80 (by omega) (by omega)).1 h'; omega
    · simp only [List.cons_append, List.nil_append, seqLen]
      rw [if_neg (fun h' => by
            have := (@u8_range (v / 262144 % 0x08 + 0xf0) 0xC2 0xDF (by omega) (by omega) (by omega)).1 h'; omega),
        if_neg (fun h' => by
            have := (@u8_range (v / 262144 % 0x08 + 0xf0) 0xE0 0xEF (by omega) (by omega) (by omega)).1 h'; omega),
        if_pos (show (0xF0 : UInt8) ≤ UInt8.ofNat (v / 262144 % 0x08 + 0xf0) ∧ UInt8.ofNat (v / 262144 % 0x08 + 0xf0) ≤ (0xF4 : UInt8) from (@u8_range (v / 262144 % 0x08 + 0xf0) 0xF0 0xF4 (by omega) (by omega) (by omega)).2 (by omega)),
        if_pos ⟨isSecond_ofNat (by omega) (by omega) (by omega) (by omega) (by omega) (by omega), isCont_ofNat (by omega),
          isCont_ofNat (by omega)⟩]
      rfl

theorem toValid_utf8 {s : Bytes} (h : Spec.IsUtf8 s) : toValid 0 s = s := by
  obtain ⟨cs, rfl⟩ := h
  induction cs with
  | nil => rfl
  | cons c cs ih =>
    rw [List.flatMap_cons]
    obtain ⟨b, t, he, h⟩ := seqLen_char c (cs.flatMap String.utf8EncodeChar)
    rw [he]
    rcases h with ⟨h1, rfl⟩ | ⟨h1, h2, h3⟩
    · simp [toValid, h1, ih]
    · simp only [List.cons_append, toValid, if_neg h1, h3]
      cases hl : t.length with
      | zero => exact absurd (List.length_eq_zero_iff.1 hl) h2
      | succ n =>
        simp only
        rw [← hl, toValid_skip, List.take_left, List.drop_left, ih]

/-! ### Numbers -/

theorem IsDigits.head {s : Bytes} (h : Spec.IsDigits s) : ∃ c t, s = c :: t ∧ isDigit c = true ∧ ∀ d ∈ t, isDigit d = true := by
  obtain ⟨h1, h2⟩ := h
  match s with
  | [] => exact absurd rfl h1
  | c :: t =>
    refine ⟨c, t, rfl, ?_, fun d hd => ?_⟩
    · simpa [isDigit] using h2 c (by simp)
    · simpa [isDigit] using h2 d (by simp [hd])

theorem span_all {p : UInt8 → Bool} {t : Bytes} (h : ∀ d ∈ t, p d = true) {c : UInt8} (hc : p c = false) (r : Bytes) :
    (t ++ c :: r).takeWhile p = t ∧ (t ++ c :: r).dropWhile p = c :: r := by
  rw [List.takeWhile_append_of_pos h, List.dropWhile_append_of_pos h]
  simp [hc]

theorem parseDigits_ok {s : Bytes} (h : Spec.IsDigits s) {c : UInt8} (hc : isDigit c = false) (r : Bytes) :
    parseDigits (s ++ c :: r) = .ok s (c :: r) := by
  obtain ⟨d, t, rfl, hd, ht⟩ := IsDigits.head h
  simp only [List.cons_append, parseDigits, hd, if_true, (span_all ht hc r).1, (span_all ht hc r).2]
  simp

/-- The byte cannot continue a number. -/
def endsNumber (c : UInt8) : Bool := !isDigit c && c != 46 && c != 101 && c != 69

theorem parseNum_ok {s : Bytes} (h : Spec.IsNumber s) {c : UInt8} (hc : endsNumber c = true) (r : Bytes) :
    parseNum (s ++ c :: r) = .ok s (c :: r) := by
  obtain ⟨sign, int, frac, exp, rfl, hs, hi, hf, he⟩ := h
  simp only [endsNumber, Bool.and_eq_true, Bool.not_eq_true', bne_iff_ne, ne_eq] at hc
  obtain ⟨⟨⟨hc1, hc2⟩, hc3⟩, hc4⟩ := hc
  -- exponent
  have hexp : parseExp (exp ++ c :: r) = .ok exp (c :: r) := by
    rcases he with rfl | ⟨e, s, ds, h1, h2, h3, rfl⟩
    · simp [parseExp, hc3, hc4]
    · have hd := parseDigits_ok h3 hc1 r
      obtain ⟨d, t, hdt, hd0, _⟩ := IsDigits.head h3
      have hd43 : d ≠ 43 := by rintro rfl; exact absurd hd0 (by decide)
      have hd45 : d ≠ 45 := by rintro rfl; exact absurd hd0 (by decide)
      rcases h1 with rfl | rfl <;> rcases h2 with rfl | rfl | rfl <;>
        first
        | (subst hdt
           simp only [List.cons_append] at hd
           simp [parseExp, hd43, hd45, hd, PRes.map]; done)
        | (simp [parseExp, hd, PRes.map]; done)
  have hexpne : ∃ q t, exp ++ c :: r = q :: t ∧ isDigit q = false ∧ q ≠ 46 := by
    rcases he with rfl | ⟨e, s, ds, h1, h2, h3, rfl⟩
    · exact ⟨c, r, rfl, hc1, hc2⟩
    · rcases h1 with rfl | rfl
      · exact ⟨101, _, rfl, by decide, by decide⟩
      · exact ⟨69, _, rfl, by decide, by decide⟩
  obtain ⟨q, t, hq, hq1, hq2⟩ := hexpne
  have hfrac : parseFrac (frac ++ (exp ++ c :: r)) = .ok frac (exp ++ c :: r) := by
    rw [hq]
    rcases hf with rfl | ⟨ds, h3, rfl⟩
    · simp [parseFrac, hq2]
    · simp only [List.cons_append, List.nil_append, parseFrac, if_true]
      rw [parseDigits_ok h3 hq1]; rfl
  have hfracne : ∃ q' t', frac ++ (exp ++ c :: r) = q' :: t' ∧ isDigit q' = false := by
    rcases hf with rfl | ⟨ds, h3, rfl⟩
    · exact ⟨q, t, hq, hq1⟩
    · exact ⟨46, _, rfl, by decide⟩
  obtain ⟨q', t', hq', hq1'⟩ := hfracne
  have hint : parseInt (int ++ (frac ++ (exp ++ c :: r))) = .ok int (frac ++ (exp ++ c :: r)) := by
    rw [hq']
    rcases hi with rfl | ⟨h1, h2⟩
    · simp [parseInt]
    · obtain ⟨d, t, rfl, hd, ht⟩ := IsDigits.head h1
      have hd48 : d ≠ 48 := by rintro rfl; exact h2 rfl
      have := parseDigits_ok h1 hq1' t'
      simp only [List.cons_append] at this ⊢
      simp only [parseInt, if_neg hd48, this]
  have hint0 : ∃ d u, int ++ (frac ++ (exp ++ c :: r)) = d :: u ∧ d ≠ 45 := by
    rcases hi with rfl | ⟨h1, h2⟩
    · exact ⟨48, _, rfl, by decide⟩
    · obtain ⟨d, t, rfl, hd, ht⟩ := IsDigits.head h1
      exact ⟨d, _, rfl, by rintro rfl; exact absurd hd (by decide)⟩
  obtain ⟨d, u, hdu, hd45⟩ := hint0
  simp only [List.append_assoc]
  unfold parseNum
  rcases hs with rfl | rfl
  · have : ([] ++ (int ++ (frac ++ (exp ++ c :: r)))).head? ≠ some 45 := by
      rw [List.nil_append, hdu]; simpa using hd45
    rw [if_neg this]
    simp only [List.nil_append, hint, PRes.then, hfrac, hexp, List.append_assoc]
  · have : (b!"-" ++ (int ++ (frac ++ (exp ++ c :: r)))).head? = some 45 := rfl
    rw [if_pos this]
    simp only [List.cons_append, List.nil_append, List.drop_one, List.tail_cons, hint, PRes.then, hfrac, hexp, List.append_assoc]

theorem number_head {s : Bytes} (h : Spec.IsNumber s) : ∃ c t, s = c :: t ∧ (c = 45 ∨ isDigit c = true) := by
  obtain ⟨sign, int, frac, exp, rfl, hs, hi, -, -⟩ := h
  rcases hs with rfl | rfl
  · rcases hi with rfl | ⟨h1, h2⟩
    · exact ⟨48, _, rfl, .inr (by decide)⟩
    · obtain ⟨d, t, rfl, hd, ht⟩ := IsDigits.head h1
      exact ⟨d, _, rfl, .inr hd⟩
  · exact ⟨45, _, rfl, .inl rfl⟩

/-! ### Numbers seen with more bytes -/

theorem span_mono {p : UInt8 → Bool} (s x : Bytes) : s.dropWhile p ≠ [] →
    (s ++ x).takeWhile p = s.takeWhile p ∧ (s ++ x).dropWhile p = s.dropWhile p ++ x := by
  induction s with
  | nil => intro h; exact absurd rfl h
  | cons b s ih =>
    intro h
    cases hb : p b with
    | false => simp [hb]
    | true =>
      simp only [List.dropWhile_cons, hb, if_true] at h
      simp [hb, ih h]

theorem parseDigits_mono (s x : Bytes) : (parseDigits s).le x (parseDigits (s ++ x)) := by
  match s with
  | [] => exact trivial
  | b :: s =>
    simp only [List.cons_append, parseDigits]
    cases isDigit b with
    | false => exact rfl
    | true =>
      simp only [if_true]
      by_cases h : s.dropWhile isDigit = []
      · rw [if_pos h]; exact trivial
      · rw [if_neg h, (span_mono s x h).1, (span_mono s x h).2]
        rw [if_neg (by simp [h])]
        exact rfl

theorem parseInt_mono (s x : Bytes) : (parseInt s).le x (parseInt (s ++ x)) := by
  match s with
  | [] => exact trivial
  | b :: s =>
    simp only [List.cons_append, parseInt]
    split
    · split
      · exact trivial
      · next h => rw [if_neg (by simp [h])]; exact rfl
    · exact parseDigits_mono (b :: s) x

theorem parseFrac_mono (s x : Bytes) : (parseFrac s).le x (parseFrac (s ++ x)) := by
  match s with
  | [] => exact trivial
  | b :: s =>
    simp only [List.cons_append, parseFrac]
    split
    · exact PRes.le_map (parseDigits_mono s x) _
    · exact rfl

theorem parseExp_mono (s x : Bytes) : (parseExp s).le x (parseExp (s ++ x)) := by
  match s with
  | [] => exact trivial
  | b :: s =>
    simp only [List.cons_append, parseExp]
    split
    · match s with
      | [] => exact trivial
      | c :: s =>
        simp only [List.cons_append]
        split
        · exact PRes.le_map (parseDigits_mono s x) _
        · exact PRes.le_map (parseDigits_mono (c :: s) x) _
    · exact rfl

theorem parseNum_mono (s x : Bytes) : (parseNum s).le x (parseNum (s ++ x)) := by
  match s with
  | [] => exact trivial
  | b :: s =>
    unfold parseNum
    by_cases h : b = 45
    · subst h
      simp only [List.cons_append, List.head?_cons, if_true, List.drop_one, List.tail_cons]
      exact PRes.le_then (parseInt_mono _ _) fun a r => PRes.le_then (parseFrac_mono _ _) fun a r =>
        PRes.le_then (parseExp_mono _ _) fun a r => rfl
    · simp only [List.cons_append, List.head?_cons, Option.some.injEq, h, if_false]
      rw [← List.cons_append]
      exact PRes.le_then (parseInt_mono _ _) fun a r => PRes.le_then (parseFrac_mono _ _) fun a r =>
        PRes.le_then (parseExp_mono _ _) fun a r => rfl

/-! ### Values seen with more bytes -/

theorem parseWord_mono (v : JVal) (w s x : Bytes) : (parseWord v w s).le x (parseWord v w (s ++ x)) := by
  induction w generalizing s with
  | nil => exact rfl
  | cons c w ih =>
    match s with
    | [] => exact trivial
    | b :: s =>
      simp only [List.cons_append, parseWord]
      split
      · exact ih s
      · exact rfl

theorem skipWs_mono {s : Bytes} {c : UInt8} {t : Bytes} (h : skipWs s = c :: t) (x : Bytes) :
    skipWs (s ++ x) = c :: (t ++ x) := by
  have := (span_mono (p := isSpace) s x (by rw [show s.dropWhile isSpace = c :: t from h]; simp)).2
  rw [show s.dropWhile isSpace = c :: t from h] at this
  exact this

theorem parse_mono (x : Bytes) : ∀ f g, f ≤ g → ∀ d,
    (∀ b, (parseValue f d b).le x (parseValue g d (b ++ x))) ∧
    (∀ b, (parseElems f d b).le x (parseElems g d (b ++ x))) ∧
    (∀ b, (parseMembers f d b).le x (parseMembers g d (b ++ x))) := by
  intro f
  induction f with
  | zero =>
    intro g _ d
    refine ⟨fun b => ?_, fun b => ?_, fun b => ?_⟩
    · unfold parseValue; exact trivial
    · unfold parseElems; exact trivial
    · unfold parseMembers; exact trivial
  | succ f ih =>
    intro g hg d
    match g, hg with
    | g + 1, hg =>
    have hfg : f ≤ g := by omega
    refine ⟨fun b => ?_, fun b => ?_, fun b => ?_⟩
    · simp only [parseValue]
      cases hs : skipWs b with
      | nil => exact trivial
      | cons c s =>
        rw [skipWs_mono hs x]
        simp only
        split
        · split
          · exact rfl
          · cases hs' : skipWs s with
            | nil => exact trivial
            | cons c' s' =>
              rw [skipWs_mono hs' x]
              simp only
              split
              · exact rfl
              · exact PRes.le_map ((ih g hfg (d - 1)).2.2 s) _
        split
        · split
          · exact rfl
          · cases hs' : skipWs s with
            | nil => exact trivial
            | cons c' s' =>
              rw [skipWs_mono hs' x]
              simp only
              split
              · exact rfl
              · exact PRes.le_map ((ih g hfg (d - 1)).2.1 s) _
        split
        · exact PRes.le_map (parseStr_mono s x 0 (Nat.zero_le _)) _
        split
        · exact parseWord_mono _ _ _ _
        split
        · exact parseWord_mono _ _ _ _
        split
        · exact parseWord_mono _ _ _ _
        split
        · exact PRes.le_map (parseNum_mono (c :: s) x) _
        · exact rfl
    · simp only [parseElems]
      refine PRes.le_then ((ih g hfg d).1 b) fun v r => ?_
      cases hs : skipWs r with
      | nil => exact trivial
      | cons c s =>
        rw [skipWs_mono hs x]
        simp only
        split
        · exact PRes.le_map ((ih g hfg d).2.1 s) _
        · split <;> exact rfl
    · simp only [parseMembers]
      cases hs : skipWs b with
      | nil => exact trivial
      | cons c s =>
        rw [skipWs_mono hs x]
        simp only
        split
        · exact rfl
        refine PRes.le_then (parseStr_mono s x 0 (Nat.zero_le _)) fun k r => ?_
        cases hs : skipWs r with
        | nil => exact trivial
        | cons c s =>
          rw [skipWs_mono hs x]
          simp only
          split
          · exact rfl
          refine PRes.le_then ((ih g hfg d).1 s) fun v r => ?_
          cases hs : skipWs r with
          | nil => exact trivial
          | cons c s =>
            rw [skipWs_mono hs x]
            simp only
            split
            · exact PRes.le_map ((ih g hfg d).2.2 s) _
            · split <;> exact rfl

/-- What is known after reading some bytes stays true when more bytes are read. -/
theorem parseTop_mono (b x : Bytes) : (parseTop b).le x (parseTop (b ++ x)) := by
  have h := (parse_mono x (2 * b.length + 2) (2 * (b ++ x).length + 2) (by rw [List.length_append]; omega) maxDepth).1 b
  unfold parseTop
  cases hp : parseValue (2 * b.length + 2) maxDepth b with
  | more => exact trivial
  | bad => rw [hp] at h; rw [show parseValue (2 * (b ++ x).length + 2) maxDepth (b ++ x) = .bad from h]; exact rfl
  | ok v r =>
    rw [hp] at h; rw [show parseValue (2 * (b ++ x).length + 2) maxDepth (b ++ x) = .ok v (r ++ x) from h]
    cases v with
    | obj l => exact rfl
    | arr l => exact rfl
    | null | bool _ | num _ | str _ =>
      simp only
      split
      · exact trivial
      · next hr => rw [if_neg (by simp [hr])]; exact rfl

/-! ### Printed values are read back -/

theorem skipWs_blank {s : Bytes} (h : Spec.IsBlank s) (t : Bytes) : skipWs (s ++ t) = skipWs t := by
  unfold skipWs
  rw [List.dropWhile_append_of_pos]
  intro c hc
  have := h c hc
  simp only [isSpace, Bool.or_eq_true, decide_eq_true_eq]
  rcases this with h | h | h | h
  · exact .inl (.inl (.inl h))
  · exact .inl (.inl (.inr h))
  · exact .inl (.inr h)
  · exact .inr h

theorem skipWs_cons {c : UInt8} (h : isSpace c = false) (t : Bytes) : skipWs (c :: t) = c :: t := by
  simp [skipWs, h]

/-- The layout consists of white space. -/
def Layout.Blank (L : Layout) : Prop := (∀ n, Spec.IsBlank (L.newline n)) ∧ Spec.IsBlank L.colon

/-- A byte that may follow a value: neither part of a number. -/
theorem isSpace_endsNumber {c : UInt8} (h : isSpace c = true) : endsNumber c = true := by
  simp only [isSpace, Bool.or_eq_true, decide_eq_true_eq] at h
  rcases h with ((rfl | rfl) | rfl) | rfl <;> rfl

/-- A rest that ends a number. -/
def Stops : Bytes → Prop
  | [] => False
  | c :: _ => endsNumber c = true

theorem Stops.append {s : Bytes} (hs : Spec.IsBlank s) {t : Bytes} (ht : Stops t) : Stops (s ++ t) := by
  match s with
  | [] => exact ht
  | c :: s =>
    have := hs c (by simp)
    rcases this with rfl | rfl | rfl | rfl <;> exact rfl

theorem printStr_cons (s rest : Bytes) : printStr s ++ rest = 34 :: (escape 0 s ++ 34 :: rest) := (parseStr_printStr s rest).1

/-- The first byte of a printed value. -/
theorem print_head (L : Layout) (n : Nat) {v : JVal} (hv : Spec.JsonOk v) : ∃ c t, v.print L n = c :: t ∧ isSpace c = false ∧
    c ≠ 93 ∧ c ≠ 125 := by
  cases v with
  | null => exact ⟨_, _, rfl, by decide, by decide, by decide⟩
  | bool b => cases b <;> exact ⟨_, _, rfl, by decide, by decide, by decide⟩
  | num lit =>
    cases hv with
    | num _ h =>
      obtain ⟨c, t, rfl, hc⟩ := number_head h
      refine ⟨c, t, by simp [JVal.print], ?_⟩
      rcases hc with rfl | hc
      · exact ⟨by decide, by decide, by decide⟩
      · simp only [isDigit, Bool.and_eq_true, decide_eq_true_eq] at hc
        have h1 : 48 ≤ c.toNat := UInt8.le_iff_toNat_le.1 hc.1
        have h2 : c.toNat ≤ 57 := UInt8.le_iff_toNat_le.1 hc.2
        refine ⟨?_, ?_, ?_⟩
        · cases hs : isSpace c with
          | false => rfl
          | true =>
            simp only [isSpace, Bool.or_eq_true, decide_eq_true_eq] at hs
            rcases hs with ((rfl | rfl) | rfl) | rfl <;> exact absurd h1 (by decide)
        · rintro rfl; exact absurd h2 (by decide)
        · rintro rfl; exact absurd h2 (by decide)
  | str s => exact ⟨34, escape 0 s ++ [34], rfl, by decide, by decide, by decide⟩
  | arr l => cases l <;> exact ⟨91, _, rfl, by decide, by decide, by decide⟩
  | obj l => cases l <;> exact ⟨123, _, rfl, by decide, by decide, by decide⟩

theorem parseValue_blank {s : Bytes} (hs : Spec.IsBlank s) (f d : Nat) (t : Bytes) :
    parseValue f d (s ++ t) = parseValue f d t := by
  cases f with
  | zero => unfold parseValue; rfl
  | succ f => simp only [parseValue, skipWs_blank hs]

/-- What `parseElems` does after an element. -/
def afterElem (f d : Nat) (v : JVal) (r : Bytes) : PRes (List JVal) :=
  match skipWs r with
  | [] => .more
  | c :: s =>
    if c = 44 then (parseElems f d s).map (v :: ·)
    else if c = 93 then .ok [v] s
    else .bad

/-- What `parseMembers` does after a member. -/
def afterMember (f d : Nat) (m : Bytes × JVal) (r : Bytes) : PRes (List (Bytes × JVal)) :=
  match skipWs r with
  | [] => .more
  | c :: s =>
    if c = 44 then (parseMembers f d s).map (m :: ·)
    else if c = 125 then .ok [m] s
    else .bad

theorem parseElems_eq (f d : Nat) (b : Bytes) : parseElems (f + 1) d b = (parseValue f d b).then (afterElem f d) := by
  simp only [parseElems]; rfl

theorem parseMember_ok {L : Layout} (hL : L.Blank) {f d n : Nat} {k : Bytes} (hk : Spec.IsUtf8 k) {v : JVal} {r : Bytes} {s : Bytes}
    (hs : Spec.IsBlank s) (h : parseValue f d (v.print L n ++ r) = .ok v r) :
    parseMembers (f + 1) d (s ++ (printStr k ++ (58 :: (L.colon ++ (v.print L n ++ r))))) = afterMember f d (k, v) r := by
  simp only [parseMembers, skipWs_blank hs]
  rw [printStr_cons, skipWs_cons (by decide)]
  simp only
  rw [if_neg (by decide), (parseStr_printStr k _).2, toValid_utf8 hk]
  simp only [PRes.then]
  rw [skipWs_cons (by decide)]
  simp only
  rw [if_neg (by decide), parseValue_blank hL.2, h]
  rfl

theorem stops_elems {L : Layout} (n m : Nat) (hL : L.Blank) (l : List JVal) (rest : Bytes) :
    Stops (printElems L n l ++ (L.newline m ++ 93 :: rest)) := by
  cases l with
  | nil => exact Stops.append (hL.1 m) rfl
  | cons v l => exact rfl

theorem stops_members {L : Layout} (n m : Nat) (hL : L.Blank) (l : List (Bytes × JVal)) (rest : Bytes) :
    Stops (printMembers L n l ++ (L.newline m ++ 125 :: rest)) := by
  cases l with
  | nil => exact Stops.append (hL.1 m) rfl
  | cons v l => exact rfl

/-- The rest ends the value: nothing to say except for numbers. -/
def Ends : JVal → Bytes → Prop
  | .num _, rest => Stops rest
  | _, _ => True

theorem Stops.ends {rest : Bytes} (h : Stops rest) (v : JVal) : Ends v rest := by
  cases v <;> first | exact h | exact trivial

mutual
theorem parse_print_val {L : Layout} (hL : L.Blank) : (v : JVal) → Spec.JsonOk v → ∀ n d f rest, Spec.DepthLe d v → Ends v rest →
    (v.print L n).length ≤ f → parseValue f d (v.print L n ++ rest) = .ok v rest
  | .null, _, n, d, f, rest, _, _, hf => by
    match f, hf with
    | f + 1, _ => rfl
  | .bool true, _, n, d, f, rest, _, _, hf => by
    match f, hf with
    | f + 1, _ => rfl
  | .bool false, _, n, d, f, rest, _, _, hf => by
    match f, hf with
    | f + 1, _ => rfl
  | .num lit, hw, n, d, f, rest, _, hr, hf => by
    cases hw with
    | num _ hw =>
    match rest, hr with
    | c :: rest, hr =>
    have hp := parseNum_ok hw hr rest
    obtain ⟨q, t, rfl, hq⟩ := number_head hw
    simp only [JVal.print] at hf ⊢
    match f, hf with
    | f + 1, _ =>
    have hq' : isSpace q = false ∧ q ≠ 123 ∧ q ≠ 91 ∧ q ≠ 34 ∧ q ≠ 116 ∧ q ≠ 102 ∧ q ≠ 110 := by
      rcases hq with rfl | hq
      · decide
      · simp only [isDigit, Bool.and_eq_true, decide_eq_true_eq] at hq
        have h1 : 48 ≤ q.toNat := UInt8.le_iff_toNat_le.1 hq.1
        have h2 : q.toNat ≤ 57 := UInt8.le_iff_toNat_le.1 hq.2
        refine ⟨?_, ?_, ?_, ?_, ?_, ?_, ?_⟩
        · cases hs : isSpace q with
          | false => rfl
          | true =>
            simp only [isSpace, Bool.or_eq_true, decide_eq_true_eq] at hs
            rcases hs with ((rfl | rfl) | rfl) | rfl <;> exact absurd h1 (by decide)
        · rintro rfl; exact absurd h2 (by decide)
        · rintro rfl; exact absurd h2 (by decide)
        · rintro rfl; exact absurd h1 (by decide)
        · rintro rfl; exact absurd h2 (by decide)
        · rintro rfl; exact absurd h2 (by decide)
        · rintro rfl; exact absurd h2 (by decide)
    simp only [List.cons_append] at hp ⊢
    simp only [parseValue]
    rw [skipWs_cons hq'.1]
    simp only
    rw [if_neg hq'.2.1, if_neg hq'.2.2.1, if_neg hq'.2.2.2.1, if_neg hq'.2.2.2.2.1, if_neg hq'.2.2.2.2.2.1,
      if_neg hq'.2.2.2.2.2.2, if_pos hq, hp]
    rfl
  | .str s, hw, n, d, f, rest, _, hr, hf => by
    cases hw with
    | str _ hw =>
    match f, hf with
    | f + 1, _ =>
    simp only [JVal.print, parseValue]
    rw [printStr_cons, skipWs_cons (by decide)]
    simp only
    rw [if_neg (by decide), if_neg (by decide), if_pos trivial, (parseStr_printStr s rest).2, toValid_utf8 hw]
    rfl
  | .arr [], hw, n, d, f, rest, hd, hr, hf => by
    match f, hf with
    | f + 1, _ =>
    cases hd with
    | arr d _ _ =>
    rfl
  | .arr (v :: l), hw, n, d, f, rest, hd, hr, hf => by
    cases hw with
    | arr _ hw =>
    cases hd with
    | arr d _ hd =>
    simp only [JVal.print, List.length_append, List.length_cons, List.length_nil] at hf
    obtain ⟨f, rfl⟩ : ∃ f', f = f' + 2 := ⟨f - 2, by omega⟩
    have h1 := parse_print_val hL v (hw v (by simp)) (n + 1) d f
      (printElems L (n + 1) l ++ (L.newline n ++ 93 :: rest)) (hd v (by simp)) ((stops_elems _ _ hL _ _).ends _) (by omega)
    have h2 := parse_print_elems hL l (fun w hw' => hw w (by simp [hw'])) (n + 1) n d f rest v (fun w hw' => hd w (by simp [hw'])) (by omega)
    have he : parseElems (f + 1) d (L.newline (n + 1) ++ (v.print L (n + 1) ++ (printElems L (n + 1) l ++ (L.newline n ++ 93 :: rest))))
        = .ok (v :: l) rest := by
      rw [parseElems_eq, parseValue_blank (hL.1 _), h1]
      exact h2
    obtain ⟨c, t, hc, hs, h93, h125⟩ := print_head L (n + 1) (hw v (by simp))
    simp only [JVal.print, List.append_assoc, List.cons_append, List.nil_append, parseValue]
    rw [skipWs_cons (by decide)]
    simp only
    rw [if_neg (by decide), if_pos trivial, if_neg (by omega), skipWs_blank (hL.1 _), hc, List.cons_append, skipWs_cons hs]
    simp only
    rw [if_neg h93, Nat.add_sub_cancel, ← List.cons_append, ← hc, he]
    rfl
  | .obj [], hw, n, d, f, rest, hd, hr, hf => by
    match f, hf with
    | f + 1, _ =>
    cases hd with
    | obj d _ _ =>
    rfl
  | .obj ((k, v) :: l), hw, n, d, f, rest, hd, hr, hf => by
    cases hw with
    | obj _ hk hw =>
    cases hd with
    | obj d _ hd =>
    simp only [JVal.print, List.length_append, List.length_cons, List.length_nil] at hf
    obtain ⟨f, rfl⟩ : ∃ f', f = f' + 2 := ⟨f - 2, by omega⟩
    have h1 := parse_print_val hL v (hw (k, v) (by simp)) (n + 1) d f
      (printMembers L (n + 1) l ++ (L.newline n ++ 125 :: rest)) (hd (k, v) (by simp)) ((stops_members _ _ hL _ _).ends _) (by omega)
    have h2 := parse_print_members hL l (fun w hw' => hk w (by simp [hw'])) (fun w hw' => hw w (by simp [hw'])) (n + 1) n d f rest (k, v) (fun w hw' => hd w (by simp [hw'])) (by omega)
    have he := parseMember_ok hL (hk (k, v) (by simp)) (hL.1 (n + 1)) h1
    rw [h2] at he
    simp only [JVal.print, List.append_assoc, List.cons_append, List.nil_append, parseValue]
    rw [skipWs_cons (by decide)]
    simp only
    rw [if_pos trivial, if_neg (by omega), skipWs_blank (hL.1 _), printStr_cons, skipWs_cons (by decide)]
    simp only
    rw [if_neg (by decide), Nat.add_sub_cancel, ← printStr_cons, he]
    rfl
theorem parse_print_elems {L : Layout} (hL : L.Blank) : (l : List JVal) → (∀ v ∈ l, Spec.JsonOk v) → ∀ n m d f rest v,
    (∀ v ∈ l, Spec.DepthLe d v) → (printElems L n l).length ≤ f →
    afterElem f d v (printElems L n l ++ (L.newline m ++ 93 :: rest)) = .ok (v :: l) rest
  | [], _, n, m, d, f, rest, v, _, hf => by
    simp only [printElems, List.nil_append, afterElem, skipWs_blank (hL.1 m)]
    rfl
  | w :: l, hw, n, m, d, f, rest, v, hd, hf => by
    simp only [printElems, List.length_append, List.length_cons, List.length_nil] at hf
    obtain ⟨f, rfl⟩ : ∃ f', f = f' + 1 := ⟨f - 1, by omega⟩
    have h1 := parse_print_val hL w (hw w (by simp)) n d f (printElems L n l ++ (L.newline m ++ 93 :: rest)) (hd w (by simp))
      ((stops_elems _ _ hL _ _).ends _) (by omega)
    have h2 := parse_print_elems hL l (fun w hw' => hw w (by simp [hw'])) n m d f rest w (fun w hw' => hd w (by simp [hw'])) (by omega)
    unfold afterElem
    simp only [printElems, List.append_assoc, List.cons_append, List.nil_append]
    rw [skipWs_cons (by decide)]
    simp only
    rw [if_pos trivial, parseElems_eq, parseValue_blank (hL.1 _), h1]
    simp only [PRes.then]
    rw [h2]
    rfl
theorem parse_print_members {L : Layout} (hL : L.Blank) : (l : List (Bytes × JVal)) → (∀ m ∈ l, Spec.IsUtf8 m.1) →
    (∀ m ∈ l, Spec.JsonOk m.2) → ∀ n m d f rest v, (∀ m ∈ l, Spec.DepthLe d m.2) → (printMembers L n l).length ≤ f →
    afterMember f d v (printMembers L n l ++ (L.newline m ++ 125 :: rest)) = .ok (v :: l) rest
  | [], _, _, n, m, d, f, rest, v, _, hf => by
    simp only [printMembers, List.nil_append, afterMember, skipWs_blank (hL.1 m)]
    rfl
  | (k, w) :: l, hk, hw, n, m, d, f, rest, v, hd, hf => by
    simp only [printMembers, List.length_append, List.length_cons, List.length_nil] at hf
    obtain ⟨f, rfl⟩ : ∃ f', f = f' + 1 := ⟨f - 1, by omega⟩
    have h1 := parse_print_val hL w (hw (k, w) (by simp)) n d f (printMembers L n l ++ (L.newline m ++ 125 :: rest)) (hd (k, w) (by simp))
      ((stops_members _ _ hL _ _).ends _) (by omega)
    have h2 := parse_print_members hL l (fun w hw' => hk w (by simp [hw'])) (fun w hw' => hw w (by simp [hw'])) n m d f rest (k, w) (fun w hw' => hd w (by simp [hw'])) (by omega)
    have he := parseMember_ok hL (hk (k, w) (by simp)) (hL.1 n) h1
    rw [h2] at he
    unfold afterMember
    simp only [printMembers, List.append_assoc, List.cons_append, List.nil_append]
    rw [skipWs_cons (by decide)]
    simp only
    rw [if_pos trivial, he]
    rfl
end

/-- A printed object or array is read back, whatever follows. -/
theorem parseTop_print {L : Layout} (hL : L.Blank) {v : JVal} (hv : Spec.JsonOk v) (hd : Spec.DepthLe maxDepth v)
    (n : Nat) (rest : Bytes) (he : (∃ l, v = .obj l) ∨ (∃ l, v = .arr l) ∨ Stops rest) :
    parseTop (v.print L n ++ rest) = .ok v rest := by
  have h := parse_print_val hL v hv n maxDepth (2 * (v.print L n ++ rest).length + 2) rest hd
    (by rcases he with ⟨l, rfl⟩ | ⟨l, rfl⟩ | h
        · exact trivial
        · exact trivial
        · exact h.ends v) (by rw [List.length_append]; omega)
  unfold parseTop
  rw [h]
  rcases he with ⟨l, rfl⟩ | ⟨l, rfl⟩ | hs
  · rfl
  · rfl
  · match rest, hs with
    | c :: rest, _ => cases v <;> rfl

end Gltf
