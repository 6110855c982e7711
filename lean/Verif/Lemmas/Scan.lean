/-
The brackets of a JSON text: the text of an object ends where its brackets are closed, so that no text of an object
is the beginning of another one.
-/
import Verif.Lemmas.TextFile

namespace Gltf

open Spec

/-- Where a scan of a text is: outside of strings, in a string, or after a backslash. -/
inductive ScanMode where
  | out | str | esc
  deriving DecidableEq

/-- The number of open brackets, and where the scan is. -/
structure Scan where
  depth : Nat
  mode : ScanMode

/-- One byte of the text. -/
def Scan.step (a : Scan) (c : UInt8) : Scan :=
  match a.mode with
  | .out =>
    if c = 34 then ⟨a.depth, .str⟩
    else if c = 123 ∨ c = 91 then ⟨a.depth + 1, .out⟩
    else if c = 125 ∨ c = 93 then ⟨a.depth - 1, .out⟩
    else a
  | .str => if c = 34 then ⟨a.depth, .out⟩ else if c = 92 then ⟨a.depth, .esc⟩ else a
  | .esc => ⟨a.depth, .str⟩

/-- A scan of a text leads from one place to another one, and at least `n` brackets are open all the time. -/
def Keeps (n : Nat) : Scan → Bytes → Scan → Prop
  | a, [], b => a = b ∧ n ≤ a.depth
  | a, c :: t, b => n ≤ a.depth ∧ Keeps n (a.step c) t b

theorem Keeps.append {n : Nat} : ∀ {t u : Bytes} {a b c : Scan}, Keeps n a t b → Keeps n b u c → Keeps n a (t ++ u) c
  | [], _, _, _, _, h1, h2 => by obtain ⟨rfl, _⟩ := h1; exact h2
  | _ :: _, _, _, _, _, h1, h2 => ⟨h1.1, h1.2.append h2⟩

theorem Keeps.mono {m n : Nat} (h : m ≤ n) : ∀ {t : Bytes} {a b : Scan}, Keeps n a t b → Keeps m a t b
  | [], _, _, h1 => ⟨h1.1, Nat.le_trans h h1.2⟩
  | _ :: _, _, _, h1 => ⟨Nat.le_trans h h1.1, h1.2.mono h⟩

theorem Keeps.prefix {n : Nat} : ∀ {t u : Bytes} {a b : Scan}, Keeps n a (t ++ u) b → ∃ c, Keeps n a t c ∧ Keeps n c u b
  | [], u, a, b, h => by
    refine ⟨a, ⟨rfl, ?_⟩, h⟩
    cases u with
    | nil => exact h.2
    | cons _ _ => exact h.1
  | _ :: _, _, _, _, h => by
    obtain ⟨c, h1, h2⟩ := Keeps.prefix h.2
    exact ⟨c, ⟨h.1, h1⟩, h2⟩

theorem Keeps.unique {m n : Nat} : ∀ {t : Bytes} {a b c : Scan}, Keeps n a t b → Keeps m a t c → b = c
  | [], _, _, _, h1, h2 => h1.1.symm.trans h2.1
  | _ :: _, _, _, _, h1, h2 => h1.2.unique h2.2

theorem Keeps.last {n : Nat} : ∀ {t : Bytes} {a b : Scan}, Keeps n a t b → n ≤ b.depth
  | [], _, _, h => h.1 ▸ h.2
  | _ :: _, _, _, h => h.2.last

/-- Bytes that mean nothing outside of strings. -/
theorem keeps_out (d : Nat) : ∀ {t : Bytes}, (∀ c ∈ t, c ≠ 34 ∧ c ≠ 123 ∧ c ≠ 91 ∧ c ≠ 125 ∧ c ≠ 93) → Keeps d ⟨d, .out⟩ t ⟨d, .out⟩
  | [], _ => ⟨rfl, Nat.le_refl _⟩
  | c :: t, h => by
    obtain ⟨h1, h2, h3, h4, h5⟩ := h c (.head _)
    refine ⟨Nat.le_refl _, ?_⟩
    have : Scan.step ⟨d, .out⟩ c = ⟨d, .out⟩ := by simp [Scan.step, h1, h2, h3, h4, h5]
    rw [this]
    exact keeps_out d fun c hc => h c (.tail _ hc)

/-- Bytes that mean nothing in strings. -/
theorem keeps_str (d : Nat) : ∀ {t : Bytes}, (∀ c ∈ t, c ≠ 34 ∧ c ≠ 92) → Keeps d ⟨d, .str⟩ t ⟨d, .str⟩
  | [], _ => ⟨rfl, Nat.le_refl _⟩
  | c :: t, h => by
    obtain ⟨h1, h2⟩ := h c (.head _)
    refine ⟨Nat.le_refl _, ?_⟩
    have : Scan.step ⟨d, .str⟩ c = ⟨d, .str⟩ := by simp [Scan.step, h1, h2]
    rw [this]
    exact keeps_str d fun c hc => h c (.tail _ hc)

theorem keeps_esc (d : Nat) (e : UInt8) : Keeps d ⟨d, .str⟩ [92, e] ⟨d, .str⟩ :=
  ⟨Nat.le_refl _, Nat.le_refl _, rfl, Nat.le_refl _⟩

theorem hexDigit_plain {c : UInt8} {n : Nat} (h : HexDigit c n) : c ≠ 34 ∧ c ≠ 92 := by
  constructor <;> (rintro rfl; revert h; simp [HexDigit])

theorem hex4_plain {h : Bytes} {n : Nat} (hh : Hex4 h n) : ∀ c ∈ h, c ≠ 34 ∧ c ≠ 92 := by
  obtain ⟨a, b, c, d, x, y, z, w, rfl, h1, h2, h3, h4, -⟩ := hh
  intro e he
  simp only [List.mem_cons, List.not_mem_nil, or_false] at he
  rcases he with rfl | rfl | rfl | rfl
  · exact hexDigit_plain h1
  · exact hexDigit_plain h2
  · exact hexDigit_plain h3
  · exact hexDigit_plain h4

theorem char_noQuote {c : Char} (h1 : c ≠ '"') (h2 : c ≠ '\\') : ∀ b ∈ String.utf8EncodeChar c, b ≠ 34 ∧ b ≠ 92 := by
  by_cases hc : c.toNat < 0x80
  · rw [utf8_low hc]
    intro b hb
    rw [List.mem_singleton] at hb
    subst hb
    constructor <;> intro e
    · refine h1 (Char.ext (UInt32.toNat.inj ?_))
      have := congrArg UInt8.toNat e
      simp at this
      show c.toNat = 34
      omega
    · refine h2 (Char.ext (UInt32.toNat.inj ?_))
      have := congrArg UInt8.toNat e
      simp at this
      show c.toNat = 92
      omega
  · intro b hb
    have : 128 ≤ b.toNat := by
      unfold String.utf8EncodeChar at hb
      simp only at hb
      have hv : c.val.toNat = c.toNat := rfl
      have hlt : c.val.toNat < 1114112 := by
        rcases c.valid with h | ⟨_, h⟩
        · exact Nat.lt_trans h (by decide)
        · exact h
      rw [if_neg (by omega)] at hb
      split at hb
      · simp only [List.mem_cons, List.not_mem_nil, or_false] at hb
        rcases hb with rfl | rfl <;> rw [UInt8.toNat_ofNat'] <;> omega
      split at hb
      · simp only [List.mem_cons, List.not_mem_nil, or_false] at hb
        rcases hb with rfl | rfl | rfl <;> rw [UInt8.toNat_ofNat'] <;> omega
      · simp only [List.mem_cons, List.not_mem_nil, or_false] at hb
        rcases hb with rfl | rfl | rfl | rfl <;> rw [UInt8.toNat_ofNat'] <;> omega
    constructor <;> (rintro rfl; exact absurd this (by decide))

theorem keeps_u (d : Nat) {h : Bytes} {n : Nat} (hh : Hex4 h n) : Keeps d ⟨d, .str⟩ (b!"\\u" ++ h) ⟨d, .str⟩ :=
  (keeps_esc d _).append (keeps_str d (hex4_plain hh))

theorem keeps_chars (d : Nat) {lax : Bool} {s t : Bytes} (h : Chars lax s t) : Keeps d ⟨d, .str⟩ t ⟨d, .str⟩ := by
  induction h with
  | nil => exact ⟨rfl, Nat.le_refl _⟩
  | char c _ h1 h2 _ ih => exact (keeps_str d (char_noQuote h1 h2)).append ih
  | short _ _ ih => exact (keeps_esc d _).append ih
  | hex c hh _ ih => exact (keeps_u d hh).append ih
  | pair c _ _ h1 h2 _ _ ih =>
    rw [List.append_assoc (b!"\\u" ++ _) b!"\\u"]
    exact ((keeps_u d h1).append (keeps_u d h2)).append ih
  | half _ _ _ hh _ ih => exact (keeps_u d hh).append ih
  | @stray b s t _ hb _ ih =>
    refine (keeps_str d (t := [b]) fun c hc => ?_).append ih
    rw [List.mem_singleton] at hc
    subst hc
    constructor <;> (rintro rfl; revert hb; decide)

theorem keeps_string (d : Nat) {lax : Bool} {s t : Bytes} (h : Chars lax s t) : Keeps d ⟨d, .out⟩ (b!"\"" ++ t ++ b!"\"") ⟨d, .out⟩ :=
  have h1 : Keeps d ⟨d, .out⟩ b!"\"" ⟨d, .str⟩ := ⟨Nat.le_refl _, rfl, Nat.le_refl _⟩
  have h2 : Keeps d ⟨d, .str⟩ b!"\"" ⟨d, .out⟩ := ⟨Nat.le_refl _, rfl, Nat.le_refl _⟩
  (h1.append (keeps_chars d h)).append h2

theorem keeps_blank (d : Nat) {w : Bytes} (h : IsBlank w) : Keeps d ⟨d, .out⟩ w ⟨d, .out⟩ :=
  keeps_out d fun c hc => by rcases h c hc with rfl | rfl | rfl | rfl <;> decide

theorem number_noBrackets {s : Bytes} (h : IsNumber s) : ∀ c ∈ s, c ≠ 34 ∧ c ≠ 123 ∧ c ≠ 91 ∧ c ≠ 125 ∧ c ≠ 93 := by
  have digits : ∀ {ds : Bytes}, IsDigits ds → ∀ c ∈ ds, c ≠ 34 ∧ c ≠ 123 ∧ c ≠ 91 ∧ c ≠ 125 ∧ c ≠ 93 := by
    intro ds h c hc
    have := h.2 c hc
    refine ⟨?_, ?_, ?_, ?_, ?_⟩ <;> (rintro rfl; exact absurd this (by decide))
  obtain ⟨sign, int, frac, exp, rfl, h1, h2, h3, h4⟩ := h
  intro c hc
  simp only [List.mem_append] at hc
  rcases hc with ((hc | hc) | hc) | hc
  · rcases h1 with rfl | rfl <;> revert c <;> decide
  · rcases h2 with rfl | h
    · revert c; decide
    · exact digits h.1 c hc
  · rcases h3 with rfl | ⟨ds, h, rfl⟩
    · cases hc
    · rcases List.mem_append.1 hc with hc | hc
      · rw [List.mem_singleton] at hc; subst hc; decide
      · exact digits h c hc
  · rcases h4 with rfl | ⟨e, s, ds, he, hs, h, rfl⟩
    · cases hc
    · simp only [List.mem_append] at hc
      rcases hc with (hc | hc) | hc
      · rcases he with rfl | rfl <;> revert c <;> decide
      · rcases hs with rfl | rfl | rfl <;> revert c <;> decide
      · exact digits h c hc

/-- The scan of a text ends where it began. -/
theorem keeps_text {lax : Bool} {i : Item} {t : Bytes} (h : Text lax i t) : ∀ d, Keeps d ⟨d, .out⟩ t ⟨d, .out⟩ := by
  have opens : ∀ d (c : UInt8), c = 123 ∨ c = 91 → Keeps d ⟨d, .out⟩ [c] ⟨d + 1, .out⟩ := by
    rintro d c (rfl | rfl) <;> exact ⟨Nat.le_refl _, rfl, Nat.le_succ _⟩
  have closes : ∀ d (c : UInt8), c = 125 ∨ c = 93 → Keeps d ⟨d + 1, .out⟩ [c] ⟨d, .out⟩ := by
    rintro d c (rfl | rfl) <;> exact ⟨Nat.le_succ _, rfl, Nat.le_refl _⟩
  have one : ∀ d (c : UInt8), (c ≠ 34 ∧ c ≠ 123 ∧ c ≠ 91 ∧ c ≠ 125 ∧ c ≠ 93) → Keeps d ⟨d, .out⟩ [c] ⟨d, .out⟩ :=
    fun d c hc => keeps_out d fun b hb => by rw [List.mem_singleton] at hb; exact hb ▸ hc
  induction h with
  | null => exact fun d => keeps_out d (by decide)
  | true => exact fun d => keeps_out d (by decide)
  | false => exact fun d => keeps_out d (by decide)
  | num h => exact fun d => keeps_out d (number_noBrackets h)
  | str h => exact fun d => keeps_string d h
  | arrNil h => exact fun d => ((opens d 91 (.inr rfl)).append ((keeps_blank _ h).mono (Nat.le_succ d))).append (closes d 93 (.inr rfl))
  | arr _ ih => exact fun d => ((opens d 91 (.inr rfl)).append ((ih _).mono (Nat.le_succ d))).append (closes d 93 (.inr rfl))
  | objNil h => exact fun d => ((opens d 123 (.inl rfl)).append ((keeps_blank _ h).mono (Nat.le_succ d))).append (closes d 125 (.inl rfl))
  | obj _ ih => exact fun d => ((opens d 123 (.inl rfl)).append ((ih _).mono (Nat.le_succ d))).append (closes d 125 (.inl rfl))
  | elem hw hw' _ ih => exact fun d => ((keeps_blank d hw).append (ih d)).append (keeps_blank d hw')
  | elems hw hw' _ _ ih1 ih2 =>
    exact fun d => ((((keeps_blank d hw).append (ih1 d)).append (keeps_blank d hw')).append (one d 44 (by decide))).append (ih2 d)
  | @member k v w kt w1 w2 t w' hw hw1 hw2 hw' hc _ ih =>
    intro d
    have := ((((((keeps_blank d hw).append (keeps_string d hc)).append (keeps_blank d hw1)).append (one d 58 (by decide))).append
      (keeps_blank d hw2)).append (ih d)).append (keeps_blank d hw')
    simpa only [List.append_assoc] using this
  | @members k v l w kt w1 w2 t w' r hw hw1 hw2 hw' hc _ _ ih1 ih2 =>
    intro d
    have := ((((((((keeps_blank d hw).append (keeps_string d hc)).append (keeps_blank d hw1)).append (one d 58 (by decide))).append
      (keeps_blank d hw2)).append (ih1 d)).append (keeps_blank d hw')).append (one d 44 (by decide))).append (ih2 d)
    simpa only [List.append_assoc] using this

/-- In the text of an object a bracket is open until the last byte. -/
theorem object_open {lax : Bool} {ms : List (Bytes × JVal)} {t : Bytes} (h : Text lax (.value (.obj ms)) t) :
    ∃ m, t = b!"{" ++ m ++ b!"}" ∧ Keeps 1 ⟨1, .out⟩ m ⟨1, .out⟩ := by
  cases h with
  | objNil h => exact ⟨_, rfl, keeps_blank 1 h⟩
  | obj h => exact ⟨_, rfl, keeps_text h 1⟩

/-- No text of a value is a proper part of the text of an object at its beginning. -/
theorem object_prefix {lax lax' : Bool} {ms : List (Bytes × JVal)} {v : JVal} {t t' x : Bytes} (h : Text lax (.value (.obj ms)) t)
    (h' : Text lax' (.value v) t') (e : t = t' ++ x) : x = [] := by
  obtain ⟨m, rfl, hm⟩ := object_open h
  have hk := keeps_text h' 0
  cases t' with
  | nil => exact absurd rfl (text_last h').1
  | cons c t' =>
    rcases List.eq_nil_or_concat x with rfl | ⟨x', b, rfl⟩
    · rfl
    · exfalso
      simp only [List.concat_eq_append, List.cons_append, List.nil_append] at e
      injection e with e1 e2
      subst e1
      rw [← List.append_assoc] at e2
      have e3 := (List.append_inj' e2 rfl).1
      rw [e3] at hm
      obtain ⟨c, h1, h2⟩ := hm.prefix
      have he := (hk.2).unique h1
      have hl := h1.last
      rw [← he] at hl
      exact absurd hl (by decide)

end Gltf
