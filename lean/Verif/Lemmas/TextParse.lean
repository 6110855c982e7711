/-
The parser of JSON text reads every text of the grammar as the value that it stands for.
-/
import Verif.Lemmas.ParseSound
import Verif.Spec.JsonText

namespace Gltf

open Spec

/-! ### Strings -/

theorem hexValue_iff {c : UInt8} {n : Nat} : hexValue c = some n ↔ HexDigit c n := by
  unfold hexValue HexDigit
  simp only [UInt8.le_iff_toNat_le]
  have h := c.toNat_lt
  split
  · rename_i h1
    have h2 : 48 ≤ c.toNat ∧ c.toNat ≤ 57 := h1
    constructor
    · intro e; cases e; exact .inl ⟨h1.1, h1.2, by omega⟩
    · rintro (⟨_, _, e⟩ | ⟨a, b, e⟩ | ⟨a, b, e⟩)
      · rw [e]; congr 1; omega
      · exact absurd (show 65 ≤ c.toNat from a) (by omega)
      · exact absurd (show 97 ≤ c.toNat from a) (by omega)
  split
  · rename_i h0 h1
    have h2 : 97 ≤ c.toNat ∧ c.toNat ≤ 102 := h1
    constructor
    · intro e; cases e; exact .inr (.inr ⟨h1.1, h1.2, by omega⟩)
    · rintro (⟨a, b, e⟩ | ⟨a, b, e⟩ | ⟨a, b, e⟩)
      · exact absurd (show c.toNat ≤ 57 from b) (by omega)
      · exact absurd (show c.toNat ≤ 70 from b) (by omega)
      · congr 1; omega
  split
  · rename_i h0 h00 h1
    have h2 : 65 ≤ c.toNat ∧ c.toNat ≤ 70 := h1
    constructor
    · intro e; cases e; exact .inr (.inl ⟨h1.1, h1.2, by omega⟩)
    · rintro (⟨a, b, e⟩ | ⟨a, b, e⟩ | ⟨a, b, e⟩)
      · exact absurd (show c.toNat ≤ 57 from b) (by omega)
      · congr 1; omega
      · exact absurd (show 97 ≤ c.toNat from a) (by omega)
  · rename_i h0 h1 h2
    constructor
    · intro e; cases e
    · rintro (⟨a, b, e⟩ | ⟨a, b, e⟩ | ⟨a, b, e⟩)
      · exact absurd ⟨a, b⟩ h0
      · exact absurd ⟨a, b⟩ h2
      · exact absurd ⟨a, b⟩ h1

theorem hex4_iff {a b c d : UInt8} {n : Nat} : hex4 a b c d = some n ↔ Hex4 [a, b, c, d] n := by
  constructor
  · intro h
    unfold hex4 at h
    cases h1 : hexValue a with
    | none => rw [h1] at h; cases h
    | some x =>
    cases h2 : hexValue b with
    | none => rw [h1, h2] at h; cases h
    | some y =>
    cases h3 : hexValue c with
    | none => rw [h1, h2, h3] at h; cases h
    | some z =>
    cases h4 : hexValue d with
    | none => rw [h1, h2, h3, h4] at h; cases h
    | some w =>
    rw [h1, h2, h3, h4] at h
    cases h
    exact ⟨a, b, c, d, x, y, z, w, rfl, hexValue_iff.1 h1, hexValue_iff.1 h2, hexValue_iff.1 h3, hexValue_iff.1 h4, by omega⟩
  · rintro ⟨a', b', c', d', x, y, z, w, e, h1, h2, h3, h4, rfl⟩
    cases e
    unfold hex4
    rw [hexValue_iff.2 h1, hexValue_iff.2 h2, hexValue_iff.2 h3, hexValue_iff.2 h4]
    simp only [Option.pure_def, Option.bind_eq_bind, Option.bind_some]

theorem Spec.Hex4.digits {h : Bytes} {n : Nat} (hh : Hex4 h n) : ∃ a b c d, h = [a, b, c, d] ∧ hex4 a b c d = some n := by
  have h0 := hh
  obtain ⟨a, b, c, d, -, -, -, -, rfl, -⟩ := hh
  exact ⟨a, b, c, d, rfl, hex4_iff.2 h0⟩

theorem parseStr_emit {b : UInt8} {s out : Bytes} {n : Nat} (h : strStep b s = .emit out n) :
    parseStr 0 (b :: s) = (parseStr 0 (s.drop n)).map (out ++ ·) := by
  simp only [parseStr, h, parseStr_skip n s]

theorem strStep_char (c : Char) (h1 : 0x20 ≤ c.toNat) (h2 : c ≠ '"') (h3 : c ≠ '\\') (t : Bytes) :
    parseStr 0 (String.utf8EncodeChar c ++ t) = (parseStr 0 t).map (String.utf8EncodeChar c ++ ·) := by
  obtain ⟨b, s, he, hb⟩ := seqLen_char c t
  rw [he]
  rcases hb with ⟨hb, rfl⟩ | ⟨hb, hs, hl⟩
  · have hv : c.toNat < 0x80 ∧ b = UInt8.ofNat c.toNat := by
      unfold String.utf8EncodeChar at he
      simp only at he
      have hv : c.val.toNat = c.toNat := rfl
      rw [hv] at he
      split at he
      · cases he; exact ⟨by omega, rfl⟩
      · split at he
        · cases he
        · split at he <;> cases he
    obtain ⟨hv, rfl⟩ := hv
    have e1 : ∀ n, n < 256 → UInt8.ofNat c.toNat = UInt8.ofNat n → c.toNat = n := fun n hn h => (u8_eq (by omega) hn).1 h
    have n1 : UInt8.ofNat c.toNat ≠ 34 := fun h => h2 (Char.toNat_inj.1 (e1 34 (by omega) h))
    have n2 : UInt8.ofNat c.toNat ≠ 92 := fun h => h3 (Char.toNat_inj.1 (e1 92 (by omega) h))
    have n3 : ¬ UInt8.ofNat c.toNat < 32 := fun h => by
      have := (u8_lt (m := 32) (by omega) (by omega)).1 h; omega
    simp only [List.cons_append, List.nil_append]
    rw [parseStr_emit (out := [UInt8.ofNat c.toNat]) (n := 0)]
    · rfl
    · unfold strStep
      rw [if_neg n1, if_neg n2, if_neg n3, if_pos hb]
  · have hb' : (0x80 : Nat) ≤ b.toNat := by
      have := mt UInt8.lt_iff_toNat_lt.2 hb
      exact Nat.le_of_not_lt this
    have n1 : b ≠ 34 := by rintro rfl; exact hb (by decide)
    have n2 : b ≠ 92 := by rintro rfl; exact hb (by decide)
    have n3 : ¬ b < 32 := fun h => hb (UInt8.lt_trans h (by decide))
    obtain ⟨n, hn⟩ : ∃ n, s.length = n + 1 := by
      cases s with
      | nil => exact absurd rfl hs
      | cons x s => exact ⟨s.length, rfl⟩
    rw [hn] at hl
    simp only [List.cons_append]
    rw [parseStr_emit (out := b :: s) (n := n + 1)]
    · rw [← hn, List.drop_left]; rfl
    · unfold strStep
      rw [if_neg n1, if_neg n2, if_neg n3, if_neg hb]
      simp only [hl]
      rw [← hn, List.take_left]

theorem parseStr_short {e c : UInt8} (h : (e, c) ∈ shortEscapes) (t : Bytes) :
    parseStr 0 (92 :: e :: t) = (parseStr 0 t).map (c :: ·) := by
  have hs : simpleEscape e = some c := by
    simp only [shortEscapes, List.mem_cons, Prod.mk.injEq, List.not_mem_nil, or_false] at h
    rcases h with ⟨rfl, rfl⟩ | ⟨rfl, rfl⟩ | ⟨rfl, rfl⟩ | ⟨rfl, rfl⟩ | ⟨rfl, rfl⟩ | ⟨rfl, rfl⟩ | ⟨rfl, rfl⟩ | ⟨rfl, rfl⟩ <;> rfl
  rw [parseStr_emit (out := [c]) (n := 1)]
  · rfl
  · unfold strStep escStep
    rw [if_neg (by decide), if_pos rfl]
    simp only [hs]

theorem char_range (c : Char) : c.toNat < 0xD800 ∨ (0xE000 ≤ c.toNat ∧ c.toNat < 0x110000) := by
  have : c.val.toNat < 0xD800 ∨ (0xDFFF < c.val.toNat ∧ c.val.toNat < 0x110000) := c.valid
  have e : c.val.toNat = c.toNat := rfl
  omega

theorem encodeRune_toNat (c : Char) : encodeRune c.toNat = String.utf8EncodeChar c := by
  rw [encodeRune_char (char_range c), Char.ofNat_toNat]

theorem rune_eq (x y : Nat) : 0x10000 + (0xD800 + x - 0xD800) * 1024 + (0xDC00 + y - 0xDC00) = 0x10000 + 1024 * x + y := by omega

theorem parseStr_pair {a b c d a' b' c' d' : UInt8} {x y : Nat} (hx : x < 1024) (hy : y < 1024) (h1 : hex4 a b c d = some (0xD800 + x))
    (h2 : hex4 a' b' c' d' = some (0xDC00 + y)) (t : Bytes) :
    parseStr 0 (92 :: 117 :: a :: b :: c :: d :: 92 :: 117 :: a' :: b' :: c' :: d' :: t) =
      (parseStr 0 t).map (encodeRune (0x10000 + 1024 * x + y) ++ ·) := by
  rw [parseStr_emit (out := encodeRune (0x10000 + 1024 * x + y)) (n := 11)]
  · rfl
  · have es : simpleEscape 117 = none := rfl
    unfold strStep escStep
    simp only [es, h1]
    rw [if_neg (by decide), if_pos trivial, if_neg (by simp)]
    unfold runeStep
    rw [if_neg (by omega), if_neg (by omega)]
    have hs : startsHex4 (92 :: 117 :: a' :: b' :: c' :: d' :: t) = false := by
      simp only [startsHex4, List.length_cons]
      rw [show decide (t.length + 1 + 1 + 1 + 1 < 4) = false from decide_eq_false (by omega)]
      simp
    rw [hs]
    simp only [h2]
    rw [if_neg (by simp), if_pos ⟨trivial, trivial, by omega, by omega⟩]
    rw [show 0x10000 + (0xD800 + x - 0xD800) * 1024 + (0xDC00 + y - 0xDC00) = 0x10000 + 1024 * x + y from rune_eq x y]

theorem parseStr_chars {s t : Bytes} (h : Chars false s t) (rest : Bytes) : parseStr 0 (t ++ 34 :: rest) = .ok s rest := by
  induction h with
  | nil => rfl
  | char c h1 h2 h3 h ih => rw [List.append_assoc, strStep_char c h1 h2 h3, ih]; rfl
  | short he h ih => rw [List.cons_append, List.cons_append, parseStr_short he, ih]; rfl
  | hex c hh h ih =>
    obtain ⟨a, b, x, d, rfl, h4⟩ := hh.digits
    simp only [List.cons_append, List.nil_append, List.append_assoc]
    rw [parseStr_u h4 (by have := char_range c; omega), ih, encodeRune_toNat]; rfl
  | pair c hx hy hh1 hh2 hc h ih =>
    obtain ⟨a, b, z, d, rfl, h4⟩ := hh1.digits
    obtain ⟨a', b', z', d', rfl, h4'⟩ := hh2.digits
    simp only [List.cons_append, List.nil_append, List.append_assoc]
    rw [parseStr_pair hx hy h4 h4', ih, ← hc, encodeRune_toNat]; rfl
  | half hl => cases hl
  | stray hl => cases hl

/-! ### Values -/

/-- The nesting of the parts of an item. -/
def ItemDepth (d : Nat) : Item → Prop
  | .value v => DepthLe d v
  | .elems l => ∀ v ∈ l, DepthLe d v
  | .members l => ∀ m ∈ l, DepthLe d m.2

/-- What the parser does with the text of an item. -/
def Reads (f d : Nat) (t : Bytes) : Item → Prop
  | .value v => t.length ≤ f → ∀ rest, Ends v rest → parseValue f d (t ++ rest) = .ok v rest
  | .elems l => t.length + 1 ≤ f → ∀ rest, parseElems f d (t ++ 93 :: rest) = .ok l rest
  | .members l => t.length + 1 ≤ f → ∀ rest, parseMembers f d (t ++ 125 :: rest) = .ok l rest

/-- The first byte of an item. -/
def Heads (t : Bytes) : Item → Prop
  | .value _ => ∃ c s, t = c :: s ∧ isSpace c = false ∧ c ≠ 93 ∧ c ≠ 125
  | .elems _ => ∀ rest, ∃ c s, skipWs (t ++ rest) = c :: s ∧ c ≠ 93
  | .members _ => ∀ rest, ∃ c s, skipWs (t ++ rest) = c :: s ∧ c ≠ 125

theorem text_head {lax : Bool} {i : Item} {t : Bytes} (h : Text lax i t) : Heads t i := by
  have el : ∀ {t w r : Bytes}, IsBlank w → (∃ c s, t = c :: s ∧ isSpace c = false ∧ c ≠ 93 ∧ c ≠ 125) →
      ∃ c s, skipWs (w ++ (t ++ r)) = c :: s ∧ c ≠ 93 := by
    rintro t w r hw ⟨c, s, rfl, h1, h2, h3⟩
    exact ⟨c, s ++ r, by rw [skipWs_blank hw, List.cons_append, skipWs_cons h1], h2⟩
  have me : ∀ {w r : Bytes}, IsBlank w → ∃ c s, skipWs (w ++ (34 :: r)) = c :: s ∧ c ≠ 125 := by
    intro w r hw
    exact ⟨34, r, by rw [skipWs_blank hw, skipWs_cons (by decide)], by decide⟩
  induction h with
  | null => exact ⟨_, _, rfl, by decide, by decide, by decide⟩
  | true => exact ⟨_, _, rfl, by decide, by decide, by decide⟩
  | false => exact ⟨_, _, rfl, by decide, by decide, by decide⟩
  | num h =>
    obtain ⟨c, s, e, h1, h2, h3⟩ := print_head compact 0 (JsonOk.num _ h)
    exact ⟨c, s, e, h1, h2, h3⟩
  | str h => exact ⟨34, _, rfl, by decide, by decide, by decide⟩
  | arrNil h => exact ⟨91, _, rfl, by decide, by decide, by decide⟩
  | arr h => exact ⟨91, _, rfl, by decide, by decide, by decide⟩
  | objNil h => exact ⟨123, _, rfl, by decide, by decide, by decide⟩
  | obj h => exact ⟨123, _, rfl, by decide, by decide, by decide⟩
  | elem hw hw' h ih => intro rest; simp only [List.append_assoc]; exact el hw ih
  | elems hw hw' h h' ih ih' => intro rest; simp only [List.append_assoc]; exact el hw ih
  | member hw => intro rest; simp only [List.append_assoc]; exact me hw
  | members hw => intro rest; simp only [List.append_assoc]; exact me hw

/-- What `parseMembers` does with a member. -/
theorem parseMembers_member {f d : Nat} {w k kt w1 w2 : Bytes} {b r : Bytes} {v : JVal} (hw : IsBlank w) (hw1 : IsBlank w1) (hw2 : IsBlank w2)
    (hk : Chars false k kt) (h : parseValue f d b = .ok v r) :
    parseMembers (f + 1) d (w ++ (34 :: (kt ++ (34 :: (w1 ++ (58 :: (w2 ++ b))))))) = afterMember f d (k, v) r := by
  simp only [parseMembers, skipWs_blank hw]
  rw [skipWs_cons (by decide)]
  simp only
  rw [if_neg (by decide), parseStr_chars hk]
  simp only [PRes.then]
  rw [skipWs_blank hw1, skipWs_cons (by decide)]
  simp only
  rw [if_neg (by decide), parseValue_blank hw2, h]
  rfl

theorem text_reads {i : Item} {t : Bytes} (h : Text false i t) : ∀ d f, ItemDepth d i → Reads f d t i := by
  induction h with
  | null => intro d f _ hf rest _; match f, hf with | f + 1, _ => rfl
  | true => intro d f _ hf rest _; match f, hf with | f + 1, _ => rfl
  | false => intro d f _ hf rest _; match f, hf with | f + 1, _ => rfl
  | num h =>
    intro d f hd hf rest hr
    exact parse_print_val (L := compact) ⟨fun _ _ h => absurd h (by simp [compact]), fun _ h => absurd h (by simp [compact])⟩ (.num _) (.num _ h) 0 d f rest (.num _ _) hr hf
  | str h =>
    intro d f hd hf rest hr
    match f, hf with
    | f + 1, _ =>
    simp only [List.cons_append, List.nil_append, List.append_assoc, parseValue]
    rw [skipWs_cons (by decide)]
    simp only
    rw [if_neg (by decide), if_neg (by decide), if_pos trivial, parseStr_chars h]
    rfl
  | arrNil h =>
    intro d f hd hf rest hr
    cases hd with
    | arr d _ _ =>
    match f, hf with
    | f + 1, _ =>
    simp only [List.cons_append, List.nil_append, List.append_assoc, parseValue]
    rw [skipWs_cons (by decide)]
    simp only
    rw [if_neg (by decide), if_pos trivial, if_neg (by omega), skipWs_blank h, skipWs_cons (by decide)]
    rfl
  | arr h ih =>
    intro d f hd hf rest hr
    cases hd with
    | arr d _ hd =>
    simp only [List.length_append, List.length_cons, List.length_nil] at hf
    obtain ⟨f, rfl⟩ : ∃ f', f = f' + 1 := ⟨f - 1, by omega⟩
    have h1 := ih d f hd (by omega) rest
    obtain ⟨c, s, hc, h93⟩ := text_head h (93 :: rest)
    simp only [List.cons_append, List.nil_append, List.append_assoc, parseValue]
    rw [skipWs_cons (by decide)]
    simp only
    rw [if_neg (by decide), if_pos trivial, if_neg (by omega), hc]
    simp only
    rw [if_neg h93, Nat.add_sub_cancel, h1]
    rfl
  | objNil h =>
    intro d f hd hf rest hr
    cases hd with
    | obj d _ _ =>
    match f, hf with
    | f + 1, _ =>
    simp only [List.cons_append, List.nil_append, List.append_assoc, parseValue]
    rw [skipWs_cons (by decide)]
    simp only
    rw [if_pos trivial, if_neg (by omega), skipWs_blank h, skipWs_cons (by decide)]
    rfl
  | obj h ih =>
    intro d f hd hf rest hr
    cases hd with
    | obj d _ hd =>
    simp only [List.length_append, List.length_cons, List.length_nil] at hf
    obtain ⟨f, rfl⟩ : ∃ f', f = f' + 1 := ⟨f - 1, by omega⟩
    have h1 := ih d f hd (by omega) rest
    obtain ⟨c, s, hc, h125⟩ := text_head h (125 :: rest)
    simp only [List.cons_append, List.nil_append, List.append_assoc, parseValue]
    rw [skipWs_cons (by decide)]
    simp only
    rw [if_pos trivial, if_neg (by omega), hc]
    simp only
    rw [if_neg h125, Nat.add_sub_cancel, h1]
    rfl
  | elem hw hw' h ih =>
    intro d f hd hf rest
    simp only [List.length_append] at hf
    obtain ⟨f, rfl⟩ : ∃ f', f = f' + 1 := ⟨f - 1, by omega⟩
    have h1 := ih d f (hd _ (by simp)) (by omega) _ ((Stops.append hw' (t := 93 :: rest) rfl).ends _)
    simp only [List.append_assoc]
    rw [parseElems_eq, parseValue_blank hw, h1]
    simp only [PRes.then, afterElem]
    rw [skipWs_blank hw', skipWs_cons (by decide)]
    rfl
  | @elems v l w t w' r hw hw' h h' ih ih' =>
    intro d f hd hf rest
    simp only [List.length_append, List.length_cons, List.length_nil] at hf
    obtain ⟨f, rfl⟩ : ∃ f', f = f' + 1 := ⟨f - 1, by omega⟩
    have h1 := ih d f (hd _ (by simp)) (by omega) _ ((Stops.append hw' (t := 44 :: (r ++ 93 :: rest)) rfl).ends _)
    have h2 := ih' d f (fun v hv => hd v (by simp [hv])) (by omega) rest
    simp only [List.append_assoc, List.cons_append, List.nil_append]
    rw [parseElems_eq, parseValue_blank hw, h1]
    simp only [PRes.then, afterElem]
    rw [skipWs_blank hw', skipWs_cons (by decide)]
    simp only
    rw [if_pos trivial, h2]
    rfl
  | @member k v _ _ _ _ _ _ hw hw1 hw2 hw' hk h ih =>
    intro d f hd hf rest
    simp only [List.length_append, List.length_cons, List.length_nil] at hf
    obtain ⟨f, rfl⟩ : ∃ f', f = f' + 1 := ⟨f - 1, by omega⟩
    have h1 := ih d f (hd (k, v) (by simp)) (by omega) _ ((Stops.append hw' (t := 125 :: rest) rfl).ends _)
    simp only [List.append_assoc, List.cons_append, List.nil_append]
    rw [parseMembers_member hw hw1 hw2 hk h1]
    simp only [afterMember]
    rw [skipWs_blank hw', skipWs_cons (by decide)]
    rfl
  | @members k v l w kt w1 w2 t w' r hw hw1 hw2 hw' hk h h' ih ih' =>
    intro d f hd hf rest
    simp only [List.length_append, List.length_cons, List.length_nil] at hf
    obtain ⟨f, rfl⟩ : ∃ f', f = f' + 1 := ⟨f - 1, by omega⟩
    have h1 := ih d f (hd (k, v) (by simp)) (by omega) _ ((Stops.append hw' (t := 44 :: (r ++ 125 :: rest)) rfl).ends _)
    have h2 := ih' d f (fun v hv => hd v (by simp [hv])) (by omega) rest
    simp only [List.append_assoc, List.cons_append, List.nil_append]
    rw [parseMembers_member hw hw1 hw2 hk h1]
    simp only [afterMember]
    rw [skipWs_blank hw', skipWs_cons (by decide)]
    simp only
    rw [if_pos trivial, h2]
    rfl

/-- The text of an object or array is read as the value it stands for, whatever follows. -/
theorem parseTop_text {v : JVal} {w t : Bytes} (hw : IsBlank w) (h : Text false (.value v) t) (hd : DepthLe maxDepth v) (rest : Bytes)
    (he : (∃ l, v = .obj l) ∨ (∃ l, v = .arr l)) : parseTop (w ++ t ++ rest) = .ok v rest := by
  have h1 := text_reads h maxDepth (2 * (w ++ t ++ rest).length + 2) hd (by simp only [List.length_append]; omega) rest
    (by rcases he with ⟨l, rfl⟩ | ⟨l, rfl⟩ <;> exact trivial)
  unfold parseTop
  rw [List.append_assoc, parseValue_blank hw, ← List.append_assoc, h1]
  rcases he with ⟨l, rfl⟩ | ⟨l, rfl⟩ <;> rfl

/-- Characters that are not escaped. -/
theorem plain_chars {s t : Bytes} (h : Chars false s t) : ∀ cs : List Char, (∀ c ∈ cs, 0x20 ≤ c.toNat ∧ c ≠ '"' ∧ c ≠ '\\') →
    Chars false (cs.flatMap String.utf8EncodeChar ++ s) (cs.flatMap String.utf8EncodeChar ++ t)
  | [], _ => h
  | c :: cs, hc => by
    have h1 := plain_chars h cs fun x hx => hc x (.tail _ hx)
    obtain ⟨a, b, d⟩ := hc c (.head _)
    simpa using Chars.char c a b d h1

end Gltf
