/-
What the parser of JSON text accepts belongs to the grammar.
-/
import Verif.Lemmas.TextParse

namespace Gltf

open Spec

/-! ### Strings -/

theorem seqLen_high {b : UInt8} {s : Bytes} {n : Nat} (h : seqLen (b :: s) = n + 1) : ∀ x ∈ b :: s.take (n + 1), 0x80 ≤ x := by
  have hc : ∀ {x : UInt8}, isCont x = true → 0x80 ≤ x := fun h => by
    simp only [isCont, Bool.and_eq_true, decide_eq_true_eq] at h; exact h.1
  have hb : ∀ {a : UInt8}, 0x80 ≤ a → a ≤ b → 0x80 ≤ b := fun h1 h2 => UInt8.le_trans h1 h2
  unfold seqLen at h
  split at h
  · next b0 b1 rest heq =>
    cases heq
    split at h
    · split at h
      · next h1 h2 =>
        cases h
        intro x hx
        simp only [List.take_succ_cons, List.take_zero, List.mem_cons, List.not_mem_nil, or_false] at hx
        rcases hx with rfl | rfl
        · exact hb (by decide) h1.1
        · exact hc h2
      · cases h
    · split at h
      · split at h
        · split at h
          · next h0 h1 _ _ _ h2 =>
            cases h
            intro x hx
            simp only [List.take_succ_cons, List.take_zero, List.mem_cons, List.not_mem_nil, or_false] at hx
            rcases hx with rfl | rfl | rfl
            · exact hb (by decide) h1.1
            · exact hc (isSecond_cont h2.1)
            · exact hc h2.2
          · cases h
        · cases h
      · split at h
        · split at h
          · split at h
            · next h0 h1 h1' _ _ _ _ h2 =>
              cases h
              intro x hx
              simp only [List.take_succ_cons, List.take_zero, List.mem_cons, List.not_mem_nil, or_false] at hx
              rcases hx with rfl | rfl | rfl | rfl
              · exact hb (by decide) h1'.1
              · exact hc (isSecond_cont h2.1)
              · exact hc h2.2.1
              · exact hc h2.2.2
            · cases h
          · cases h
        · cases h
  · cases h

theorem utf8_low {c : Char} (h : c.toNat < 0x80) : String.utf8EncodeChar c = [UInt8.ofNat c.toNat] := by
  unfold String.utf8EncodeChar
  simp only
  have hv : c.val.toNat = c.toNat := rfl
  rw [hv, if_pos (by omega)]

theorem chars_list {lax : Bool} {s t : Bytes} (h : Chars lax s t) : ∀ cs : List Char, (∀ c ∈ cs, 0x80 ≤ c.toNat) →
    Chars lax (cs.flatMap String.utf8EncodeChar ++ s) (cs.flatMap String.utf8EncodeChar ++ t)
  | [], _ => h
  | c :: cs, hc => by
    have h1 := chars_list h cs fun x hx => hc x (by simp [hx])
    have h2 := hc c (by simp)
    simp only [List.flatMap_cons, List.append_assoc]
    refine .char c (by omega) ?_ ?_ h1
    · rintro rfl; exact absurd h2 (by decide)
    · rintro rfl; exact absurd h2 (by decide)

theorem replacement_eq : replacementChar = replacement := by
  have : replacement = encodeRune 0xFFFD := by decide
  rw [this, encodeRune_char (.inr (by decide))]; rfl

theorem simpleEscape_mem {c e : UInt8} (h : simpleEscape c = some e) : (c, e) ∈ shortEscapes := by
  unfold simpleEscape at h
  split at h
  · rename_i hc
    cases h
    rcases hc with rfl | rfl | rfl <;> decide
  repeat (split at h; · rename_i hc; cases h; subst hc; decide)
  cases h

/-- A byte with no special meaning in strings. -/
theorem chars_byte {lax : Bool} {b : UInt8} (h1 : b ≠ 34) (h2 : b ≠ 92) (h3 : ¬ b < 32) (h4 : b < 0x80) {s t : Bytes} (h : Chars lax s t) :
    Chars lax (b :: s) (b :: t) := by
  have hb : b.toNat < 0x80 := UInt8.lt_iff_toNat_lt.1 h4
  have h3' : 32 ≤ b.toNat := Nat.le_of_not_lt fun h => h3 (UInt8.lt_iff_toNat_lt.2 h)
  have hv : (Char.ofNat b.toNat).toNat = b.toNat := by
    have : b.toNat.isValidChar := .inl (by omega)
    simp only [Char.ofNat, dif_pos this, Char.ofNatAux]
    rfl
  have e : String.utf8EncodeChar (Char.ofNat b.toNat) = [b] := by
    rw [utf8_low (by omega), hv, UInt8.ofNat_toNat]
  have := Chars.char (Char.ofNat b.toNat) (by omega)
    (fun h => h1 (by
      have := congrArg Char.toNat h
      rw [hv] at this
      exact UInt8.toNat_inj.1 this))
    (fun h => h2 (by
      have := congrArg Char.toNat h
      rw [hv] at this
      exact UInt8.toNat_inj.1 this)) h
  rw [e] at this
  exact this

theorem ofNat_toNat' {r : Nat} (h : r < 0xD800 ∨ (0xE000 ≤ r ∧ r < 0x110000)) : (Char.ofNat r).toNat = r := by
  have : r.isValidChar := by
    rcases h with h | h
    · exact .inl h
    · exact .inr ⟨by omega, h.2⟩
  simp only [Char.ofNat, dif_pos this, Char.ofNatAux]
  rfl

theorem runeStep_chars {r : Nat} (hr : r < 65536) {h4 s : Bytes} (hh : Hex4 h4 r) {out : Bytes} {n : Nat} (h : runeStep r s = .emit out n) :
    ∃ k, n = 5 + k ∧ ∀ s' t', Chars true s' t' → Chars true (out ++ s') (b!"\\u" ++ h4 ++ s.take k ++ t') := by
  have rp : ∀ {out : Bytes} {n : Nat}, 0xD800 ≤ r → r < 0xE000 → StrStep.emit replacement 5 = .emit out n →
      ∃ k, n = 5 + k ∧ ∀ s' t', Chars true s' t' → Chars true (out ++ s') (b!"\\u" ++ h4 ++ s.take k ++ t') := by
    intro out n h1 h2 e
    cases e
    refine ⟨0, rfl, fun s' t' hc => ?_⟩
    rw [List.take_zero, List.append_nil, ← replacement_eq]
    exact .half rfl h1 h2 hh hc
  unfold runeStep at h
  split at h
  · rename_i h1
    cases h
    refine ⟨0, rfl, fun s' t' hc => ?_⟩
    have hv : (Char.ofNat r).toNat = r := by
      have : r.isValidChar := by
        rcases h1 with h1 | h1
        · exact .inl h1
        · exact .inr ⟨by omega, by omega⟩
      simp only [Char.ofNat, dif_pos this, Char.ofNatAux]
      rfl
    rw [List.take_zero, List.append_nil, encodeRune_char (by omega)]
    exact .hex _ (by rw [hv]; exact hh) hc
  rename_i h1
  split at h
  · exact rp (by omega) (by omega) h
  rename_i h2
  split at h
  · cases h
  split at h
  · rename_i c1 c2 g1 g2 g3 g4 s3 hs3
    split at h
    · rename_i r2 hr2
      split at h
      · rename_i hc
        obtain ⟨rfl, rfl, hc3, hc4⟩ := hc
        have e := StrStep.emit.inj h
        obtain ⟨e1, e2⟩ := e
        subst e2
        refine ⟨6, rfl, fun s' t' hc => ?_⟩
        rw [← e1]
        obtain ⟨x, rfl, hx⟩ : ∃ x, r = 0xD800 + x ∧ x < 1024 := ⟨r - 0xD800, by omega, by omega⟩
        obtain ⟨y, rfl, hy⟩ : ∃ y, r2 = 0xDC00 + y ∧ y < 1024 := ⟨r2 - 0xDC00, by omega, by omega⟩
        rw [rune_eq]
        have hlt : 0x10000 + 1024 * x + y < 0x110000 := by omega
        generalize hq : 0x10000 + 1024 * x + y = q at hlt
        have hge : 0xE000 ≤ q := by omega
        rw [encodeRune_char (.inr ⟨hge, hlt⟩)]
        have := Chars.pair (lax := true) (Char.ofNat q) hx hy hh (hex4_iff.1 hr2) (by rw [ofNat_toNat' (.inr ⟨hge, hlt⟩), hq]) hc
        simpa using this
      · exact rp (by omega) (by omega) h
    · exact rp (by omega) (by omega) h
  · exact rp (by omega) (by omega) h

theorem strStep_chars {b : UInt8} {s out : Bytes} {n : Nat} (h : strStep b s = .emit out n) {s' t' : Bytes} (hc : Chars true s' t') :
    Chars true (out ++ s') (b :: s.take n ++ t') := by
  unfold strStep at h
  split at h
  · cases h
  rename_i hb1
  split at h
  · rename_i hb
    subst hb
    unfold escStep at h
    split at h
    · cases h
    rename_i c s1
    split at h
    · rename_i e he
      cases h
      exact .short (simpleEscape_mem he) hc
    · split at h
      · cases h
      rename_i hu
      have hu : c = 117 := Decidable.not_not.1 hu
      subst hu
      split at h
      · rename_i h1 h2 h3 h4 s2
        split at h
        · cases h
        · rename_i r hr
          obtain ⟨k, rfl, hk⟩ := runeStep_chars (hex4_lt hr) (hex4_iff.1 hr) h
          have := hk s' t' hc
          have e : (117 :: h1 :: h2 :: h3 :: h4 :: s2).take (5 + k) = 117 :: h1 :: h2 :: h3 :: h4 :: s2.take k := by
            rw [Nat.add_comm]; rfl
          rw [e]
          simpa using this
      · split at h <;> cases h
  rename_i hb2
  split at h
  · cases h
  rename_i hb3
  split at h
  · rename_i hb4
    cases h
    exact chars_byte hb1 hb2 hb3 hb4 hc
  rename_i hb4
  split at h
  · split at h
    · cases h
    · cases h
      rw [← replacement_eq]
      exact .stray rfl (UInt8.le_iff_toNat_le.2 (Nat.le_of_not_lt fun h => hb4 (UInt8.lt_iff_toNat_lt.2 h))) hc
  · rename_i m hl
    cases h
    obtain ⟨cs, hcs⟩ := seqLen_utf8 hl
    have hh := seqLen_high hl
    rw [hcs] at hh ⊢
    refine chars_list hc cs fun c hcc => Nat.le_of_not_lt fun hlt => ?_
    have := hh (UInt8.ofNat c.toNat) (List.mem_flatMap.2 ⟨c, hcc, by rw [utf8_low hlt]; simp⟩)
    rw [UInt8.le_iff_toNat_le, UInt8.toNat_ofNat', Nat.mod_eq_of_lt (by omega)] at this
    exact absurd this (Nat.not_le.2 hlt)

theorem parseStr_sound : ∀ (n : Nat) (s : Bytes), s.length ≤ n → ∀ x rest, parseStr 0 s = .ok x rest →
    ∃ t, Chars true x t ∧ s = t ++ 34 :: rest := by
  intro n
  induction n with
  | zero =>
    intro s hs x rest h
    have : s = [] := List.eq_nil_of_length_eq_zero (by omega)
    subst this
    cases h
  | succ n ih =>
    intro s hs x rest h
    cases s with
    | nil => cases h
    | cons b s =>
      have hs' : s.length ≤ n := by simpa using hs
      cases hst : strStep b s with
      | close =>
        simp only [parseStr, hst] at h
        cases h
        have : b = 34 := by
          unfold strStep at hst
          split at hst
          · assumption
          split at hst
          · unfold escStep at hst
            split at hst
            · cases hst
            · split at hst
              · cases hst
              · split at hst
                · cases hst
                · split at hst
                  · split at hst
                    · cases hst
                    · unfold runeStep at hst
                      repeat (first | (split at hst) | cases hst)
                  · split at hst <;> cases hst
          · repeat (first | (split at hst) | cases hst)
        subst this
        exact ⟨[], .nil, rfl⟩
      | emit out k =>
        rw [parseStr_emit hst] at h
        obtain ⟨x', h1, rfl⟩ := PRes.map_ok h
        have hk := strStep_emit hst
        obtain ⟨t, ht, he⟩ := ih (s.drop k) (by rw [List.length_drop]; omega) x' rest h1
        refine ⟨b :: s.take k ++ t, strStep_chars hst ht, ?_⟩
        have : s = s.take k ++ (t ++ 34 :: rest) := by rw [← he, List.take_append_drop]
        simp only [List.cons_append, List.append_assoc]
        rw [← this]
      | more => simp only [parseStr, hst] at h; cases h
      | bad => simp only [parseStr, hst] at h; cases h

/-! ### Numbers and words -/

theorem parseDigits_split {s ds rest : Bytes} (h : parseDigits s = .ok ds rest) : s = ds ++ rest := by
  cases s with
  | nil => cases h
  | cons b s =>
    simp only [parseDigits] at h
    split at h
    · split at h
      · cases h
      · cases h
        rw [List.cons_append, List.takeWhile_append_dropWhile]
    · cases h

theorem parseInt_split {s i rest : Bytes} (h : parseInt s = .ok i rest) : s = i ++ rest := by
  cases s with
  | nil => cases h
  | cons b s =>
    simp only [parseInt] at h
    split at h
    · rename_i hb
      subst hb
      split at h
      · cases h
      · cases h; rfl
    · exact parseDigits_split h

theorem parseFrac_split {s f rest : Bytes} (h : parseFrac s = .ok f rest) : s = f ++ rest := by
  cases s with
  | nil => cases h
  | cons b s =>
    simp only [parseFrac] at h
    split at h
    · obtain ⟨ds, h1, rfl⟩ := PRes.map_ok h
      rw [parseDigits_split h1]; rfl
    · cases h; rfl

theorem parseExp_split {s x rest : Bytes} (h : parseExp s = .ok x rest) : s = x ++ rest := by
  cases s with
  | nil => cases h
  | cons b s =>
    simp only [parseExp] at h
    split at h
    · split at h
      · cases h
      · split at h
        · obtain ⟨ds, h1, rfl⟩ := PRes.map_ok h
          rw [parseDigits_split h1]; rfl
        · obtain ⟨ds, h1, rfl⟩ := PRes.map_ok h
          rw [parseDigits_split h1]; rfl
    · cases h; rfl

theorem parseNum_split {s x rest : Bytes} (h : parseNum s = .ok x rest) : s = x ++ rest := by
  unfold parseNum at h
  have key : ∀ sign b1, ((parseInt b1).then fun i b2 =>
      (parseFrac b2).then fun f b3 => (parseExp b3).then fun e b4 => PRes.ok (sign ++ i ++ f ++ e) b4) = .ok x rest → sign ++ b1 = x ++ rest := by
    intro sign b1 h
    obtain ⟨i, b2, h1, h⟩ := PRes.then_ok h
    obtain ⟨f, b3, h2, h⟩ := PRes.then_ok h
    obtain ⟨e, b4, h3, h⟩ := PRes.then_ok h
    cases h
    rw [parseInt_split h1, parseFrac_split h2, parseExp_split h3]
    simp only [List.append_assoc]
  split at h
  · rename_i heq
    split at heq
    · rename_i hh
      cases heq
      rw [← key _ _ h]
      cases s with
      | nil => cases hh
      | cons c s => cases hh; rfl
    · cases heq; rw [← key _ _ h]; rfl

theorem parseWord_split {v w : JVal} : ∀ {word s rest : Bytes}, parseWord v word s = .ok w rest → w = v ∧ s = word ++ rest
  | [], s, rest, h => by cases h; exact ⟨rfl, rfl⟩
  | c :: word, [], rest, h => by cases h
  | c :: word, b :: s, rest, h => by
    simp only [parseWord] at h
    split at h
    · rename_i hb
      obtain ⟨h1, h2⟩ := parseWord_split h
      exact ⟨h1, by rw [hb, h2]; rfl⟩
    · cases h

/-! ### Values -/

theorem skipWs_split (b : Bytes) : ∃ w, IsBlank w ∧ b = w ++ skipWs b := by
  refine ⟨b.takeWhile isSpace, fun c hc => ?_, (List.takeWhile_append_dropWhile ..).symm⟩
  have := takeWhile_mem hc
  simp only [isSpace, Bool.or_eq_true, decide_eq_true_eq] at this
  rcases this with ((h | h) | h) | h
  · exact .inl h
  · exact .inr (.inl h)
  · exact .inr (.inr (.inl h))
  · exact .inr (.inr (.inr h))

theorem parse_text (f : Nat) : ∀ d,
    (∀ b v rest, parseValue f d b = .ok v rest → ∃ w t, IsBlank w ∧ Text true (.value v) t ∧ b = w ++ (t ++ rest)) ∧
    (∀ b l rest, parseElems f d b = .ok l rest → ∃ t, Text true (.elems l) t ∧ b = t ++ 93 :: rest) ∧
    (∀ b l rest, parseMembers f d b = .ok l rest → ∃ t, Text true (.members l) t ∧ b = t ++ 125 :: rest) := by
  induction f with
  | zero => intro d; exact ⟨(fun _ _ _ h => by cases h), (fun _ _ _ h => by cases h), (fun _ _ _ h => by cases h)⟩
  | succ f ih =>
    intro d
    refine ⟨?_, ?_, ?_⟩
    · intro b v rest h
      simp only [parseValue] at h
      obtain ⟨w, hw, hb⟩ := skipWs_split b
      have fin : ∀ {t : Bytes}, Text true (.value v) t → skipWs b = t ++ rest →
          ∃ w t, IsBlank w ∧ Text true (.value v) t ∧ b = w ++ (t ++ rest) := fun {t} ht e => ⟨w, t, hw, ht, by rw [← e]; exact hb⟩
      split at h
      · cases h
      rename_i c s hs
      split at h
      · rename_i hc
        subst hc
        split at h
        · cases h
        obtain ⟨w1, hw1, hb1⟩ := skipWs_split s
        split at h
        · cases h
        rename_i c' s' hs'
        split at h
        · rename_i hc'
          subst hc'
          cases h
          exact fin (.objNil hw1) (by rw [hs, hb1, hs']; simp)
        · obtain ⟨l, h1, rfl⟩ := PRes.map_ok h
          obtain ⟨t, ht, e⟩ := (ih (d - 1)).2.2 _ _ _ h1
          exact fin (.obj ht) (by rw [hs, e]; simp)
      split at h
      · rename_i hc
        subst hc
        split at h
        · cases h
        obtain ⟨w1, hw1, hb1⟩ := skipWs_split s
        split at h
        · cases h
        rename_i c' s' hs'
        split at h
        · rename_i hc'
          subst hc'
          cases h
          exact fin (.arrNil hw1) (by rw [hs, hb1, hs']; simp)
        · obtain ⟨l, h1, rfl⟩ := PRes.map_ok h
          obtain ⟨t, ht, e⟩ := (ih (d - 1)).2.1 _ _ _ h1
          exact fin (.arr ht) (by rw [hs, e]; simp)
      split at h
      · rename_i hc
        subst hc
        obtain ⟨x, h1, rfl⟩ := PRes.map_ok h
        obtain ⟨t, ht, e⟩ := parseStr_sound _ _ (Nat.le_refl _) _ _ h1
        exact fin (.str ht) (by rw [hs, e]; simp)
      split at h
      · rename_i hc
        subst hc
        obtain ⟨rfl, e⟩ := parseWord_split h
        exact fin .true (by rw [hs, e]; rfl)
      split at h
      · rename_i hc
        subst hc
        obtain ⟨rfl, e⟩ := parseWord_split h
        exact fin .false (by rw [hs, e]; rfl)
      split at h
      · rename_i hc
        subst hc
        obtain ⟨rfl, e⟩ := parseWord_split h
        exact fin .null (by rw [hs, e]; rfl)
      split at h
      · obtain ⟨x, h1, rfl⟩ := PRes.map_ok h
        exact fin (.num (parseNum_number h1)) (by rw [hs]; exact parseNum_split h1)
      · cases h
    · intro b l rest h
      rw [parseElems_eq] at h
      obtain ⟨v, r, h1, h2⟩ := PRes.then_ok h
      obtain ⟨w, t, hw, ht, hb⟩ := (ih d).1 _ _ _ h1
      unfold afterElem at h2
      obtain ⟨w', hw', hr⟩ := skipWs_split r
      split at h2
      · cases h2
      rename_i c s hs
      rw [hs] at hr
      split at h2
      · rename_i hc
        subst hc
        obtain ⟨l', h3, rfl⟩ := PRes.map_ok h2
        obtain ⟨t', ht', e⟩ := (ih d).2.1 _ _ _ h3
        exact ⟨_, .elems hw hw' ht ht', by rw [hb, hr, e]; simp⟩
      split at h2
      · rename_i hc
        subst hc
        cases h2
        exact ⟨_, .elem hw hw' ht, by rw [hb, hr]; simp⟩
      · cases h2
    · intro b l rest h
      simp only [parseMembers] at h
      obtain ⟨w, hw, hb⟩ := skipWs_split b
      split at h
      · cases h
      rename_i c s hs
      rw [hs] at hb
      split at h
      · cases h
      rename_i hc
      have hc : c = 34 := Decidable.not_not.1 hc
      subst hc
      obtain ⟨k, r, h1, h⟩ := PRes.then_ok h
      obtain ⟨kt, hk, e1⟩ := parseStr_sound _ _ (Nat.le_refl _) _ _ h1
      obtain ⟨w1, hw1, hb1⟩ := skipWs_split r
      split at h
      · cases h
      rename_i c s1 hs1
      rw [hs1] at hb1
      split at h
      · cases h
      rename_i hc
      have hc : c = 58 := Decidable.not_not.1 hc
      subst hc
      obtain ⟨v, r2, h2, h⟩ := PRes.then_ok h
      obtain ⟨w2, t, hw2, ht, e2⟩ := (ih d).1 _ _ _ h2
      obtain ⟨w', hw', hb2⟩ := skipWs_split r2
      split at h
      · cases h
      rename_i c s2 hs2
      rw [hs2] at hb2
      split at h
      · rename_i hc
        subst hc
        obtain ⟨l', h3, rfl⟩ := PRes.map_ok h
        obtain ⟨t', ht', e⟩ := (ih d).2.2 _ _ _ h3
        exact ⟨_, .members hw hw1 hw2 hw' hk ht ht', by rw [hb, e1, hb1, e2, hb2, e]; simp⟩
      split at h
      · rename_i hc
        subst hc
        cases h
        exact ⟨_, .member hw hw1 hw2 hw' hk ht, by rw [hb, e1, hb1, e2, hb2]; simp⟩
      · cases h

/-- What is read as a JSON value starts with a text of that value. -/
theorem parseTop_sound {b : Bytes} {v : JVal} {rest : Bytes} (h : parseTop b = .ok v rest) :
    ∃ w t, IsBlank w ∧ Text true (.value v) t ∧ b = w ++ t ++ rest := by
  have key : parseValue (2 * b.length + 2) maxDepth b = .ok v rest := by
    unfold parseTop at h
    split at h
    · rename_i he; rw [he]; exact h
    · rename_i he; rw [he]; exact h
    · rename_i he
      split at h
      · cases h
      · rw [he]; exact h
    · exact h
  obtain ⟨w, t, hw, ht, e⟩ := (parse_text _ _).1 _ _ _ key
  exact ⟨w, t, hw, ht, by rw [e, List.append_assoc]⟩

end Gltf
