/-
What the parser of JSON text gives is valid: strings are UTF-8, numbers follow the grammar and the depth is bounded.
-/
import Verif.Lemmas.JsonText
import Verif.Lemmas.JsonSound

namespace Gltf

open Spec

/-! ### Strings -/

theorem utf8_append {s t : Bytes} (h1 : IsUtf8 s) (h2 : IsUtf8 t) : IsUtf8 (s ++ t) := by
  obtain ⟨c, rfl⟩ := h1
  obtain ⟨d, rfl⟩ := h2
  exact ⟨c ++ d, by simp⟩

theorem encodeRune_char {r : Nat} (h : r < 0xD800 ∨ (0xE000 ≤ r ∧ r < 0x110000)) : encodeRune r = String.utf8EncodeChar (Char.ofNat r) := by
  have hv : (Char.ofNat r).val.toNat = r := by
    have : r.isValidChar := by
      rcases h with h | h
      · exact .inl h
      · exact .inr ⟨by omega, h.2⟩
    simp only [Char.ofNat, dif_pos this, Char.ofNatAux]
    rfl
  unfold encodeRune String.utf8EncodeChar
  simp only [hv]
  by_cases h1 : r < 0x80
  · rw [if_pos h1, if_pos (show r ≤ 0x7f by omega)]
  rw [if_neg h1, if_neg (show ¬r ≤ 0x7f by omega)]
  by_cases h2 : r < 0x800
  · rw [if_pos h2, if_pos (show r ≤ 0x7ff by omega)]
    have e : r / 64 % 32 = r / 64 := Nat.mod_eq_of_lt (by omega)
    rw [e, Nat.add_comm 192, Nat.add_comm 128]
  rw [if_neg h2, if_neg (show ¬r ≤ 0x7ff by omega)]
  by_cases h3 : r < 0x10000
  · rw [if_pos h3, if_pos (show r ≤ 0xffff by omega)]
    have e : r / 4096 % 16 = r / 4096 := Nat.mod_eq_of_lt (by omega)
    rw [e, Nat.add_comm 224, Nat.add_comm 128, Nat.add_comm 128]
  · rw [if_neg h3, if_neg (show ¬r ≤ 0xffff by omega)]
    have e : r / 262144 % 8 = r / 262144 := Nat.mod_eq_of_lt (by omega)
    rw [e, Nat.add_comm 240, Nat.add_comm 128, Nat.add_comm 128, Nat.add_comm 128]

theorem encodeRune_utf8 {r : Nat} (h : r < 0xD800 ∨ (0xE000 ≤ r ∧ r < 0x110000)) : IsUtf8 (encodeRune r) :=
  ⟨[Char.ofNat r], by rw [encodeRune_char h]; simp⟩

theorem replacement_utf8 : IsUtf8 replacement := by
  have : replacement = encodeRune 0xFFFD := by decide
  rw [this]
  exact encodeRune_utf8 (.inr (by decide))

theorem utf8_byte {b : UInt8} (h : b < 0x80) : IsUtf8 [b] := utf8_ascii (by simpa using h)

theorem isCont_iff {b : UInt8} : isCont b = true ↔ 0x80 ≤ b.toNat ∧ b.toNat ≤ 0xBF := by
  simp only [isCont, Bool.and_eq_true, decide_eq_true_eq, UInt8.le_iff_toNat_le]
  exact Iff.rfl

theorem ofNat_eq {b : UInt8} {n : Nat} (h : n = b.toNat) : UInt8.ofNat n = b := by rw [h, UInt8.ofNat_toNat]

/-- A valid sequence is a character. -/
theorem seqLen_utf8 {b : UInt8} {s : Bytes} {n : Nat} (h : seqLen (b :: s) = n + 1) : IsUtf8 (b :: s.take (n + 1)) := by
  unfold seqLen at h
  split at h
  · rename_i b0 b1 rest heq
    cases heq
    split at h
    · rename_i hb
      split at h
      · rename_i h1
        cases h
        obtain ⟨c1, c2⟩ := isCont_iff.1 h1
        have l1 : 0xC2 ≤ b.toNat := UInt8.le_iff_toNat_le.1 hb.1
        have l2 : b.toNat ≤ 0xDF := UInt8.le_iff_toNat_le.1 hb.2
        have e : b :: List.take (0 + 1) (b1 :: rest) = encodeRune ((b.toNat - 0xC0) * 64 + (b1.toNat - 0x80)) := by
          unfold encodeRune
          rw [if_neg (by omega), if_pos (by omega), ofNat_eq (b := b) (by omega), ofNat_eq (b := b1) (by omega)]
          rfl
        rw [e]
        exact encodeRune_utf8 (.inl (by omega))
      · cases h
    · split at h
      · rename_i hb
        split at h
        · split at h
          · rename_i b2 _ h1
            cases h
            obtain ⟨c1, c2⟩ := isCont_iff.1 h1.2
            have l1 : 0xE0 ≤ b.toNat := UInt8.le_iff_toNat_le.1 hb.1
            have l2 : b.toNat ≤ 0xEF := UInt8.le_iff_toNat_le.1 hb.2
            obtain ⟨d1, d2⟩ := isCont_iff.1 (isSecond_cont h1.1)
            have hs := h1.1
            simp only [isSecond, Bool.and_eq_true, decide_eq_true_eq] at hs
            have x1 : b.toNat = 0xE0 → 0xA0 ≤ b1.toNat := fun e => by
              have e' : b = 0xE0 := UInt8.toNat_inj.1 e
              have := hs.1
              rw [if_pos e'] at this
              exact UInt8.le_iff_toNat_le.1 this
            have x2 : b.toNat = 0xED → b1.toNat ≤ 0x9F := fun e => by
              have e' : b = 0xED := UInt8.toNat_inj.1 e
              have := hs.2
              rw [if_pos e'] at this
              exact UInt8.le_iff_toNat_le.1 this
            have e : ∀ r, b :: List.take (1 + 1) (b1 :: b2 :: r) =
                encodeRune ((b.toNat - 0xE0) * 4096 + (b1.toNat - 0x80) * 64 + (b2.toNat - 0x80)) := by
              intro r
              unfold encodeRune
              rw [if_neg (by omega), if_neg (by omega), if_pos (by omega), ofNat_eq (b := b) (by omega), ofNat_eq (b := b1) (by omega),
                ofNat_eq (b := b2) (by omega)]
              rfl
            rw [e]
            exact encodeRune_utf8 (by omega)
          · cases h
        · cases h
      · split at h
        · rename_i hb
          split at h
          · split at h
            · rename_i b2 b3 _ h1
              cases h
              obtain ⟨c1, c2⟩ := isCont_iff.1 h1.2.1
              obtain ⟨f1, f2⟩ := isCont_iff.1 h1.2.2
              have l1 : 0xF0 ≤ b.toNat := UInt8.le_iff_toNat_le.1 hb.1
              have l2 : b.toNat ≤ 0xF4 := UInt8.le_iff_toNat_le.1 hb.2
              obtain ⟨d1, d2⟩ := isCont_iff.1 (isSecond_cont h1.1)
              have hs := h1.1
              simp only [isSecond, Bool.and_eq_true, decide_eq_true_eq] at hs
              have x1 : b.toNat = 0xF0 → 0x90 ≤ b1.toNat := fun e => by
                have e' : b = 0xF0 := UInt8.toNat_inj.1 e
                have := hs.1
                rw [if_neg (by rw [e']; decide), if_pos e'] at this
                exact UInt8.le_iff_toNat_le.1 this
              have x2 : b.toNat = 0xF4 → b1.toNat ≤ 0x8F := fun e => by
                have e' : b = 0xF4 := UInt8.toNat_inj.1 e
                have := hs.2
                rw [if_neg (by rw [e']; decide), if_pos e'] at this
                exact UInt8.le_iff_toNat_le.1 this
              have e : ∀ r, b :: List.take (2 + 1) (b1 :: b2 :: b3 :: r) =
                  encodeRune ((b.toNat - 0xF0) * 262144 + (b1.toNat - 0x80) * 4096 + (b2.toNat - 0x80) * 64 + (b3.toNat - 0x80)) := by
                intro r
                unfold encodeRune
                rw [if_neg (by omega), if_neg (by omega), if_neg (by omega), ofNat_eq (b := b) (by omega), ofNat_eq (b := b1) (by omega),
                  ofNat_eq (b := b2) (by omega), ofNat_eq (b := b3) (by omega)]
                rfl
              rw [e]
              exact encodeRune_utf8 (by omega)
            · cases h
          · cases h
        · cases h
  · cases h

theorem hexValue_lt {b : UInt8} {n : Nat} (h : hexValue b = some n) : n < 16 := by
  unfold hexValue at h
  simp only [UInt8.le_iff_toNat_le] at h
  split at h
  · rename_i hb
    cases h
    have : b.toNat ≤ 57 := hb.2
    omega
  split at h
  · rename_i hb
    cases h
    have : b.toNat ≤ 102 := hb.2
    omega
  split at h
  · rename_i hb
    cases h
    have : b.toNat ≤ 70 := hb.2
    omega
  · cases h

theorem hex4_lt {a b c d : UInt8} {r : Nat} (h : hex4 a b c d = some r) : r < 65536 := by
  unfold hex4 at h
  cases h1 : hexValue a with
  | none => rw [h1] at h; cases h
  | some x1 =>
  cases h2 : hexValue b with
  | none => rw [h1, h2] at h; cases h
  | some x2 =>
  cases h3 : hexValue c with
  | none => rw [h1, h2, h3] at h; cases h
  | some x3 =>
  cases h4 : hexValue d with
  | none => rw [h1, h2, h3, h4] at h; cases h
  | some x4 =>
  rw [h1, h2, h3, h4] at h
  cases h
  have := hexValue_lt h1
  have := hexValue_lt h2
  have := hexValue_lt h3
  have := hexValue_lt h4
  omega

theorem runeStep_utf8 {r : Nat} (hr : r < 65536) {s out : Bytes} {n : Nat} (h : runeStep r s = .emit out n) : IsUtf8 out := by
  unfold runeStep at h
  split at h
  · cases h
    exact encodeRune_utf8 (by omega)
  split at h
  · cases h; exact replacement_utf8
  split at h
  · cases h
  split at h
  · split at h
    · split at h
      · rename_i h1 h2 _ _ _ _ _ _ _ _ _ _ _ h3
        injection h with h4 _
        rw [← h4]
        exact encodeRune_utf8 (.inr (by omega))
      · cases h; exact replacement_utf8
    · cases h; exact replacement_utf8
  · cases h; exact replacement_utf8

theorem simpleEscape_ascii {c e : UInt8} (h : simpleEscape c = some e) : e < 0x80 := by
  unfold simpleEscape at h
  split at h
  · rename_i hc
    cases h
    rcases hc with rfl | rfl | rfl <;> decide
  repeat (split at h; · cases h; decide)
  cases h

theorem escStep_utf8 {s out : Bytes} {n : Nat} (h : escStep s = .emit out n) : IsUtf8 out := by
  cases s with
  | nil => cases h
  | cons c s =>
    simp only [escStep] at h
    split at h
    · rename_i e he
      cases h
      exact utf8_byte (simpleEscape_ascii he)
    · split at h
      · cases h
      · split at h
        · split at h
          · cases h
          · rename_i r hr
            exact runeStep_utf8 (hex4_lt hr) h
        · split at h <;> cases h

theorem strStep_utf8 {b : UInt8} {s out : Bytes} {n : Nat} (h : strStep b s = .emit out n) : IsUtf8 out := by
  unfold strStep at h
  split at h
  · cases h
  split at h
  · exact escStep_utf8 h
  split at h
  · cases h
  split at h
  · rename_i hb
    cases h
    exact utf8_byte hb
  split at h
  · split at h
    · cases h
    · cases h; exact replacement_utf8
  · rename_i k hk
    cases h
    exact seqLen_utf8 hk

theorem parseStr_utf8 : ∀ (s : Bytes) (k : Nat) (t rest : Bytes), parseStr k s = .ok t rest → IsUtf8 t
  | [], k, t, rest, h => by cases k <;> cases h
  | _ :: s, k + 1, t, rest, h => parseStr_utf8 s k t rest h
  | b :: s, 0, t, rest, h => by
    simp only [parseStr] at h
    split at h
    · cases h; exact ⟨[], rfl⟩
    · rename_i out n hs
      cases hp : parseStr n s with
      | ok t' r' =>
        rw [hp] at h
        cases h
        exact utf8_append (strStep_utf8 hs) (parseStr_utf8 s n t' _ hp)
      | more => rw [hp] at h; cases h
      | bad => rw [hp] at h; cases h
    · cases h
    · cases h

/-! ### Numbers -/

theorem takeWhile_mem {α : Type} {p : α → Bool} {c : α} : ∀ {l : List α}, c ∈ l.takeWhile p → p c = true
  | [], h => by cases h
  | a :: l, h => by
    rw [List.takeWhile_cons] at h
    split at h
    · rename_i ha
      rcases List.mem_cons.1 h with rfl | h
      · exact ha
      · exact takeWhile_mem h
    · cases h

theorem isDigit_iff {c : UInt8} : isDigit c = true ↔ 48 ≤ c ∧ c ≤ 57 := by
  simp only [isDigit, Bool.and_eq_true, decide_eq_true_eq]

theorem parseDigits_digits {s ds rest : Bytes} (h : parseDigits s = .ok ds rest) : IsDigits ds ∧ ∃ c t, s = c :: t ∧ ds.head? = some c := by
  cases s with
  | nil => cases h
  | cons b s =>
    simp only [parseDigits] at h
    split at h
    · rename_i hb
      split at h
      · cases h
      · cases h
        refine ⟨⟨by simp, ?_⟩, b, s, rfl, rfl⟩
        intro c hc
        rcases List.mem_cons.1 hc with rfl | hc
        · exact isDigit_iff.1 hb
        · exact isDigit_iff.1 (takeWhile_mem hc)
    · cases h

theorem PRes.then_ok {α β : Type} {x : PRes α} {f : α → Bytes → PRes β} {b : β} {rest : Bytes} (h : x.then f = .ok b rest) :
    ∃ a r, x = .ok a r ∧ f a r = .ok b rest := by
  cases x with
  | ok a r => exact ⟨a, r, rfl, h⟩
  | more => cases h
  | bad => cases h

theorem PRes.map_ok {α β : Type} {x : PRes α} {f : α → β} {b : β} {rest : Bytes} (h : x.map f = .ok b rest) :
    ∃ a, x = .ok a rest ∧ b = f a := by
  cases x with
  | ok a r => cases h; exact ⟨a, rfl, rfl⟩
  | more => cases h
  | bad => cases h

theorem parseInt_digits {s i rest : Bytes} (h : parseInt s = .ok i rest) : i = b!"0" ∨ (IsDigits i ∧ i.head? ≠ some 48) := by
  cases s with
  | nil => cases h
  | cons b s =>
    simp only [parseInt] at h
    split at h
    · split at h
      · cases h
      · cases h; exact .inl rfl
    · rename_i hb
      obtain ⟨h1, c, t, e, h2⟩ := parseDigits_digits h
      cases e
      refine .inr ⟨h1, ?_⟩
      rw [h2]
      intro e
      cases e
      exact hb rfl

theorem parseFrac_digits {s f rest : Bytes} (h : parseFrac s = .ok f rest) : f = [] ∨ ∃ ds, IsDigits ds ∧ f = b!"." ++ ds := by
  cases s with
  | nil => cases h
  | cons b s =>
    simp only [parseFrac] at h
    split at h
    · rename_i hb
      subst hb
      obtain ⟨ds, h1, rfl⟩ := PRes.map_ok h
      exact .inr ⟨ds, (parseDigits_digits h1).1, rfl⟩
    · cases h; exact .inl rfl

theorem parseExp_digits {s x rest : Bytes} (h : parseExp s = .ok x rest) : x = [] ∨ ∃ e s ds, (e = b!"e" ∨ e = b!"E") ∧
    (s = [] ∨ s = b!"+" ∨ s = b!"-") ∧ IsDigits ds ∧ x = e ++ s ++ ds := by
  cases s with
  | nil => cases h
  | cons b s =>
    simp only [parseExp] at h
    split at h
    · rename_i hb
      have hb' : [b] = b!"e" ∨ [b] = b!"E" := by
        rcases hb with rfl | rfl
        · exact .inl rfl
        · exact .inr rfl
      split at h
      · cases h
      · rename_i c s1
        split at h
        · rename_i hc
          obtain ⟨ds, h1, rfl⟩ := PRes.map_ok h
          refine .inr ⟨[b], [c], ds, hb', ?_, (parseDigits_digits h1).1, rfl⟩
          rcases hc with rfl | rfl
          · exact .inr (.inl rfl)
          · exact .inr (.inr rfl)
        · obtain ⟨ds, h1, rfl⟩ := PRes.map_ok h
          exact .inr ⟨[b], [], ds, hb', .inl rfl, (parseDigits_digits h1).1, rfl⟩
    · cases h; exact .inl rfl

theorem parseNum_number {s x rest : Bytes} (h : parseNum s = .ok x rest) : IsNumber x := by
  unfold parseNum at h
  have key : ∀ sign b1, (sign = [] ∨ sign = b!"-") → ((parseInt b1).then fun i b2 =>
      (parseFrac b2).then fun f b3 => (parseExp b3).then fun e b4 => PRes.ok (sign ++ i ++ f ++ e) b4) = .ok x rest → IsNumber x := by
    intro sign b1 hs h
    obtain ⟨i, b2, h1, h⟩ := PRes.then_ok h
    obtain ⟨f, b3, h2, h⟩ := PRes.then_ok h
    obtain ⟨e, b4, h3, h⟩ := PRes.then_ok h
    cases h
    exact ⟨sign, i, f, e, rfl, hs, parseInt_digits h1, parseFrac_digits h2, parseExp_digits h3⟩
  split at h
  · rename_i heq
    split at heq
    · cases heq; exact key _ _ (.inr rfl) h
    · cases heq; exact key _ _ (.inl rfl) h

theorem parseWord_ok {v w : JVal} : ∀ {word s rest : Bytes}, parseWord v word s = .ok w rest → w = v
  | [], s, rest, h => by cases h; rfl
  | c :: word, [], rest, h => by cases h
  | c :: word, b :: s, rest, h => by
    simp only [parseWord] at h
    split at h
    · exact parseWord_ok h
    · cases h

/-! ### Values -/

theorem parse_valid (f : Nat) : ∀ d,
    (∀ b v rest, parseValue f d b = .ok v rest → Val d v) ∧
    (∀ b l rest, parseElems f d b = .ok l rest → ∀ v ∈ l, Val d v) ∧
    (∀ b l rest, parseMembers f d b = .ok l rest → ∀ m ∈ l, IsUtf8 m.1 ∧ Val d m.2) := by
  induction f with
  | zero => intro d; exact ⟨(fun _ _ _ h => by cases h), (fun _ _ _ h => by cases h), (fun _ _ _ h => by cases h)⟩
  | succ f ih =>
    intro d
    refine ⟨fun b v rest h => ?_, fun b l rest h => ?_, fun b l rest h => ?_⟩
    · simp only [parseValue] at h
      cases hs : skipWs b with
      | nil => rw [hs] at h; cases h
      | cons c s =>
        rw [hs] at h
        simp only at h
        have hobj : ∀ l, d ≠ 0 → (∀ m ∈ l, IsUtf8 m.1 ∧ Val (d - 1) m.2) → Val d (.obj l) := fun l h0 hl => by
          obtain ⟨e, rfl⟩ : ∃ e, d = e + 1 := ⟨d - 1, by omega⟩
          exact ⟨.obj l (fun m hm => (hl m hm).1) fun m hm => (hl m hm).2.ok, .obj e l fun m hm => (hl m hm).2.depth⟩
        have harr : ∀ l, d ≠ 0 → (∀ m ∈ l, Val (d - 1) m) → Val d (.arr l) := fun l h0 hl => by
          obtain ⟨e, rfl⟩ : ∃ e, d = e + 1 := ⟨d - 1, by omega⟩
          exact ⟨.arr l fun m hm => (hl m hm).ok, .arr e l fun m hm => (hl m hm).depth⟩
        split at h
        · split at h
          · cases h
          · rename_i h0
            split at h
            · cases h
            · split at h
              · cases h; exact hobj [] h0 (by simp)
              · obtain ⟨l, h1, rfl⟩ := PRes.map_ok h
                exact hobj l h0 ((ih (d - 1)).2.2 _ _ _ h1)
        split at h
        · split at h
          · cases h
          · rename_i h0
            split at h
            · cases h
            · split at h
              · cases h; exact harr [] h0 (by simp)
              · obtain ⟨l, h1, rfl⟩ := PRes.map_ok h
                exact harr l h0 ((ih (d - 1)).2.1 _ _ _ h1)
        split at h
        · obtain ⟨t, h1, rfl⟩ := PRes.map_ok h
          exact ⟨.str t (parseStr_utf8 _ _ _ _ h1), .str d t⟩
        split at h
        · rw [parseWord_ok h]; exact ⟨.bool _, .bool _ _⟩
        split at h
        · rw [parseWord_ok h]; exact ⟨.bool _, .bool _ _⟩
        split at h
        · rw [parseWord_ok h]; exact ⟨.null, .null _⟩
        split at h
        · obtain ⟨t, h1, rfl⟩ := PRes.map_ok h
          exact ⟨.num t (parseNum_number h1), .num d t⟩
        · cases h
    · simp only [parseElems] at h
      obtain ⟨v, r, h1, h⟩ := PRes.then_ok h
      have hv := (ih d).1 _ _ _ h1
      split at h
      · cases h
      · split at h
        · obtain ⟨t, h2, rfl⟩ := PRes.map_ok h
          exact List.forall_mem_cons.2 ⟨hv, (ih d).2.1 _ _ _ h2⟩
        · split at h
          · cases h; simpa using hv
          · cases h
    · simp only [parseMembers] at h
      split at h
      · cases h
      · split at h
        · cases h
        · obtain ⟨k, r, h1, h⟩ := PRes.then_ok h
          have hk := parseStr_utf8 _ _ _ _ h1
          split at h
          · cases h
          · split at h
            · cases h
            · obtain ⟨v, r, h2, h⟩ := PRes.then_ok h
              have hv := (ih d).1 _ _ _ h2
              split at h
              · cases h
              · split at h
                · obtain ⟨t, h3, rfl⟩ := PRes.map_ok h
                  exact List.forall_mem_cons.2 ⟨⟨hk, hv⟩, (ih d).2.2 _ _ _ h3⟩
                · split at h
                  · cases h; simpa using ⟨hk, hv⟩
                  · cases h

/-- What is read is valid JSON of bounded depth. -/
theorem parseTop_valid {b : Bytes} {v : JVal} {rest : Bytes} (h : parseTop b = .ok v rest) : Val maxDepth v := by
  have key : parseValue (2 * b.length + 2) maxDepth b = .ok v rest := by
    unfold parseTop at h
    split at h
    · rename_i he; rw [he]; exact h
    · rename_i he; rw [he]; exact h
    · rename_i he
      split at h
      · cases h
      · rw [he]; exact h
    · exact h
  exact (parse_valid _ _).1 _ _ _ key

end Gltf
