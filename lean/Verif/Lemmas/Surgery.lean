/-
Editing of JSON text with search and replace: when it removes exactly the wanted members.
-/
import Verif.Model.Ext
import Verif.Lemmas.JsonText

namespace Gltf

/-! ### Replacing once -/

theorem isPrefixOf_iff {a b : Bytes} : a.isPrefixOf b = true ↔ a <+: b := List.isPrefixOf_iff_prefix

theorem replaceOnce_miss {old new : Bytes} : ∀ {s : Bytes}, ¬ old <:+: s → replaceOnce old new s = s
  | [], _ => rfl
  | c :: s, h => by
    unfold replaceOnce
    rw [if_neg (fun hp => h (isPrefixOf_iff.1 hp).isInfix), replaceOnce_miss (fun hs => h (hs.trans (List.suffix_cons c s).isInfix))]

theorem replaceOnce_hit {old new b : Bytes} (h0 : old ≠ []) : ∀ {a : Bytes}, ¬ old <:+: a ++ old.dropLast →
    replaceOnce old new (a ++ old ++ b) = a ++ new ++ b
  | [], _ => by
    cases old with
    | nil => exact absurd rfl h0
    | cons c old =>
      show replaceOnce (c :: old) new (c :: (old ++ b)) = new ++ b
      unfold replaceOnce
      rw [if_pos (show (c :: old).isPrefixOf (c :: (old ++ b)) = true from isPrefixOf_iff.2 (List.prefix_append (c :: old) b))]
      have : (c :: (old ++ b)).drop (c :: old).length = b := List.drop_left (l₁ := c :: old) (l₂ := b)
      rw [this]
  | x :: a, h => by
    show replaceOnce old new (x :: (a ++ old ++ b)) = x :: (a ++ new ++ b)
    unfold replaceOnce
    rw [if_neg, replaceOnce_hit h0 (fun hs => h (hs.trans (List.suffix_cons x (a ++ old.dropLast)).isInfix))]
    intro hp
    refine h (List.IsPrefix.isInfix ?_)
    have hp := isPrefixOf_iff.1 hp
    have hq : x :: (a ++ old.dropLast) <+: x :: (a ++ old ++ b) := by
      rw [List.append_assoc]
      exact List.cons_prefix_cons.2 ⟨rfl, (List.prefix_append_right_inj a).2 ((List.dropLast_prefix old).trans (List.prefix_append old b))⟩
    refine List.prefix_of_prefix_length_le hp hq ?_
    have := List.length_dropLast (xs := old)
    simp
    omega

/-- Where a pattern can lie in a text that has a comma in the middle. -/
theorem infix_comma {p x y : Bytes} (h : p <:+: x ++ 44 :: y) :
    p <:+: x ∨ p <:+: y ∨ ∃ u v, p = u ++ 44 :: v ∧ u <:+ x ∧ v <+: y := by
  obtain ⟨s, t, h⟩ := h
  rw [List.append_assoc, List.append_eq_append_iff] at h
  rcases h with ⟨m, h1, h2⟩ | ⟨m, h1, h2⟩
  · -- x = s ++ m, p ++ t = m ++ 44 :: y
    rw [List.append_eq_append_iff] at h2
    rcases h2 with ⟨k, h3, h4⟩ | ⟨k, h3, h4⟩
    · exact .inl ⟨s, k, by rw [h1, h3, List.append_assoc]⟩
    · cases k with
      | nil =>
        refine .inl ⟨s, [], ?_⟩
        rw [h1, h3]; simp
      | cons c k =>
        injection h4 with h4 h5
        subst h4
        exact .inr (.inr ⟨m, k, h3, ⟨s, h1.symm⟩, ⟨t, h5.symm⟩⟩)
  · -- s = x ++ m, 44 :: y = m ++ (p ++ t)
    cases m with
    | nil =>
      cases p with
      | nil => exact .inl (List.nil_infix)
      | cons c p =>
        injection h2 with h2 h3
        subst h2
        exact .inr (.inr ⟨[], p, rfl, List.nil_suffix, ⟨t, h3.symm⟩⟩)
    | cons c m =>
      injection h2 with h2 h3
      exact .inr (.inl ⟨m, t, by rw [h3]; simp⟩)

theorem infix_skip {p s : Bytes} {c d : UInt8} (hp : p.head? = some d) (hc : c ≠ d) (h : p <:+: c :: s) : p <:+: s := by
  rcases List.infix_cons_iff.1 h with h | h
  · cases p with
    | nil => cases hp
    | cons a p =>
      cases hp
      exact absurd (List.cons_prefix_cons.1 h).1.symm hc
  · exact h

theorem not_infix_of_mem {p s : Bytes} (c : UInt8) (h1 : c ∈ p) (h2 : c ∉ s) : ¬ p <:+: s := fun h => h2 (h.subset h1)

/-! ### Pieces of text that the clean-up leaves alone -/

/-- A piece of text between commas. -/
structure Solid (x : Bytes) : Prop where
  ne : x ≠ []
  head : x.head? ≠ some 44 ∧ x.head? ≠ some 125
  last : x.getLast? ≠ some 44 ∧ x.getLast? ≠ some 123
  cc : ¬ b!",," <:+: x
  oc : ¬ b!"{," <:+: x
  co : ¬ b!",}" <:+: x

theorem suffix_singleton {c : UInt8} {x : Bytes} (h : [c] <:+ x) : x.getLast? = some c := by
  obtain ⟨s, rfl⟩ := h
  simp

theorem prefix_singleton {c : UInt8} {x : Bytes} (h : [c] <+: x) : x.head? = some c := by
  obtain ⟨s, rfl⟩ := h
  rfl

/-- A pattern of two bytes in a text with a comma in the middle. -/
theorem pair_comma {a b : UInt8} {x y : Bytes} (h : [a, b] <:+: x ++ 44 :: y) :
    [a, b] <:+: x ∨ [a, b] <:+: y ∨ (a = 44 ∧ y.head? = some b) ∨ (b = 44 ∧ x.getLast? = some a) := by
  rcases infix_comma h with h | h | ⟨u, v, hp, hu, hv⟩
  · exact .inl h
  · exact .inr (.inl h)
  · cases u with
    | nil =>
      injection hp with h1 h2
      subst h2
      exact .inr (.inr (.inl ⟨h1, prefix_singleton hv⟩))
    | cons c u =>
      injection hp with h1 h2
      subst h1
      cases u with
      | nil =>
        injection h2 with h2 h3
        exact .inr (.inr (.inr ⟨h2, suffix_singleton hu⟩))
      | cons d u =>
        injection h2 with h2 h3
        cases u <;> cases h3

theorem solid_comma {x y : Bytes} (hx : Solid x) (hy : Solid y) : Solid (x ++ 44 :: y) where
  ne := by simp
  head := by
    have := hx.head
    cases x with
    | nil => exact absurd rfl hx.ne
    | cons c x => exact this
  last := by
    have := hy.last
    have hn := hy.ne
    rw [List.getLast?_append, List.getLast?_cons]
    cases hl : y.getLast? with
    | none => rw [List.getLast?_eq_none_iff] at hl; exact absurd hl hn
    | some c => rw [hl] at this; simpa using this
  cc := fun h => by
    rcases pair_comma h with h | h | h | h
    · exact hx.cc h
    · exact hy.cc h
    · exact hy.head.1 h.2
    · exact hx.last.1 h.2
  oc := fun h => by
    rcases pair_comma h with h | h | h | h
    · exact hx.oc h
    · exact hy.oc h
    · exact absurd h.1 (by decide)
    · exact hx.last.2 h.2
  co := fun h => by
    rcases pair_comma h with h | h | h | h
    · exact hx.co h
    · exact hy.co h
    · exact hy.head.2 h.2
    · exact absurd h.1 (by decide)

theorem solid_plain {x : Bytes} (hn : x ≠ []) (h : ∀ c ∈ x, c ≠ 44 ∧ c ≠ 123 ∧ c ≠ 125) : Solid x where
  ne := hn
  head := ⟨fun hh => (h _ (List.mem_of_head? hh)).1 rfl, fun hh => (h _ (List.mem_of_head? hh)).2.2 rfl⟩
  last := ⟨fun hh => (h _ (List.mem_of_getLast? hh)).1 rfl, fun hh => (h _ (List.mem_of_getLast? hh)).2.1 rfl⟩
  cc := not_infix_of_mem 44 (by simp) fun hm => (h _ hm).1 rfl
  oc := not_infix_of_mem 44 (by simp) fun hm => (h _ hm).1 rfl
  co := not_infix_of_mem 44 (by simp) fun hm => (h _ hm).1 rfl

/-! ### Lists of pieces -/

/-- Pieces with commas between them. -/
def joinC : List Bytes → Bytes
  | [] => []
  | [x] => x
  | x :: y :: l => x ++ 44 :: joinC (y :: l)

theorem joinC_cons (x : Bytes) {l : List Bytes} (h : l ≠ []) : joinC (x :: l) = x ++ 44 :: joinC l := by
  cases l with
  | nil => exact absurd rfl h
  | cons y l => rfl

theorem joinC_append : ∀ {a b : List Bytes}, a ≠ [] → b ≠ [] → joinC (a ++ b) = joinC a ++ 44 :: joinC b
  | [x], b, _, hb => joinC_cons x hb
  | x :: y :: a, b, _, hb => by
    show joinC (x :: (y :: a ++ b)) = (x ++ 44 :: joinC (y :: a)) ++ 44 :: joinC b
    rw [joinC_cons x (by simp), joinC_append (by simp) hb]
    simp

theorem joinC_solid : ∀ {l : List Bytes}, l ≠ [] → (∀ x ∈ l, Solid x) → Solid (joinC l)
  | [x], _, h => h x (by simp)
  | x :: y :: l, _, h => solid_comma (h x (by simp)) (joinC_solid (by simp) fun z hz => h z (List.mem_cons_of_mem x hz))

/-- A comma or nothing. -/
def optComma (b : Bool) : Bytes := if b then [44] else []

/-- Braces around pieces, with a comma left over at the beginning or the end. -/
def frame (c1 : Bool) (items : List Bytes) (c2 : Bool) : Bytes := 123 :: (optComma c1 ++ joinC items ++ optComma c2 ++ [125])

/-- The text during the removal of members. -/
def Framed (items : List Bytes) (t : Bytes) : Prop := ∃ c1 c2, t = frame c1 items c2 ∧ (items = [] → c1 = true → c2 = false)

/-- A pattern does not begin in a piece. -/
def Avoids (p x : Bytes) : Prop := ¬ p <:+: x ∧ ∀ u v, p = u ++ 44 :: v → ¬ u <:+ x

theorem not_infix_before {p : Bytes} (hp : p.head? = some 34) : ∀ {a : List Bytes}, a ≠ [] → (∀ x ∈ a, Avoids p x) →
    ¬ p <:+: joinC a ++ 44 :: p.dropLast := by
  have hlen : ¬ p <:+: p.dropLast := by
    intro h
    have := h.length_le
    cases p with
    | nil => cases hp
    | cons c p => simp at this; omega
  intro a
  induction a with
  | nil => intro h _; exact absurd rfl h
  | cons x l ih =>
    intro _ h hi
    have hx := h x (by simp)
    cases l with
    | nil =>
      rcases infix_comma hi with hi | hi | ⟨u, v, e, hu, _⟩
      · exact hx.1 hi
      · exact hlen hi
      · exact hx.2 u v e hu
    | cons y l =>
      rw [joinC_cons x (by simp), List.append_assoc] at hi
      rcases infix_comma hi with hi | hi | ⟨u, v, e, hu, _⟩
      · exact hx.1 hi
      · exact ih (by simp) (fun z hz => h z (List.mem_cons_of_mem x hz)) hi
      · exact hx.2 u v e hu

/-- No two commas in a framed text. -/
theorem frame_no_cc {x : Bytes} (hx : Solid x) (c1 c2 : Bool) : ¬ b!",," <:+: 123 :: (optComma c1 ++ x ++ optComma c2 ++ [125]) := by
  intro h
  have h := infix_skip (d := 44) rfl (by decide) h
  have h1 : ¬ b!",," <:+: x ++ optComma c2 ++ [125] := by
    intro h
    cases c2 with
    | false =>
      have h : b!",," <:+: x ++ [125] := by simpa [optComma] using h
      rw [show x ++ [125] = x ++ [125] from rfl, ← List.reverse_infix] at h
      rw [List.reverse_append] at h
      have h := infix_skip (d := 44) rfl (by decide) h
      exact hx.cc (by rw [← List.reverse_infix]; exact h)
    | true =>
      have h : b!",," <:+: x ++ 44 :: [125] := by simpa [optComma] using h
      rcases pair_comma h with h | h | h | h
      · exact hx.cc h
      · exact absurd h.length_le (by simp)
      · exact absurd h.2 (by simp)
      · exact hx.last.1 h.2
  cases c1 with
  | false => exact h1 (by simpa [optComma] using h)
  | true =>
    have h : b!",," <:+: [] ++ 44 :: (x ++ optComma c2 ++ [125]) := by simpa [optComma] using h
    rcases pair_comma h with h | h | h | h
    · exact absurd h.length_le (by simp)
    · exact h1 h
    · refine hx.head.1 ?_
      have h2 := h.2
      have hn := hx.ne
      cases x with
      | nil => exact absurd rfl hn
      | cons c x => exact h2
    · cases h.2

/-- What stays before the removed piece. -/
def beforeHole (a : List Bytes) : Bytes := if a = [] then [] else joinC a ++ [44]

/-- What stays after the removed piece. -/
def afterHole (b : List Bytes) : Bytes := if b = [] then [] else 44 :: joinC b

theorem joinC_hole (a : List Bytes) (p : Bytes) (b : List Bytes) : joinC (a ++ p :: b) = beforeHole a ++ p ++ afterHole b := by
  have hb : joinC (p :: b) = p ++ afterHole b := by
    unfold afterHole
    by_cases h : b = []
    · subst h; simp [joinC]
    · rw [if_neg h, joinC_cons p h]
  unfold beforeHole
  by_cases h : a = []
  · subst h; simpa using hb
  · rw [if_neg h, joinC_append h (by simp), hb]
    simp

theorem replace_hole {p : Bytes} (hp : p.head? = some 34) {a b : List Bytes} (ha : ∀ x ∈ a, Avoids p x) (c1 c2 : Bool) :
    replaceOnce p [] (frame c1 (a ++ p :: b) c2) = 123 :: (optComma c1 ++ beforeHole a ++ afterHole b ++ optComma c2 ++ [125]) := by
  have h0 : p ≠ [] := by rintro rfl; cases hp
  have := replaceOnce_hit (old := p) (new := []) (b := afterHole b ++ optComma c2 ++ [125]) h0 (a := 123 :: (optComma c1 ++ beforeHole a)) ?_
  · unfold frame
    rw [joinC_hole]
    simpa using this
  · intro h
    have h : p <:+: optComma c1 ++ beforeHole a ++ p.dropLast := infix_skip (d := 34) hp (by decide) h
    have h : p <:+: beforeHole a ++ p.dropLast := by
      cases c1 with
      | false => simpa [optComma] using h
      | true => exact infix_skip (d := 34) (c := 44) hp (by decide) (by simpa [optComma] using h)
    unfold beforeHole at h
    by_cases ha0 : a = []
    · rw [if_pos ha0] at h
      have := h.length_le
      cases p with
      | nil => cases hp
      | cons c p => simp at this; omega
    · rw [if_neg ha0] at h
      exact not_infix_before hp ha0 ha (by simpa using h)

/-- Two commas are merged. -/
theorem merge_commas {x : Bytes} (h : ¬ b!",," <:+: x ++ [44]) (y : Bytes) : replaceOnce b!",," b!"," (x ++ 44 :: 44 :: y) = x ++ 44 :: y := by
  have := replaceOnce_hit (old := b!",,") (new := b!",") (b := y) (by simp) (a := x) h
  simpa using this

/-- Removing a member and merging the commas around it. -/
theorem remove_framed {p : Bytes} (hp : p.head? = some 34) {a b : List Bytes} {t : Bytes} (hs : ∀ x ∈ a ++ b, Solid x)
    (ha : ∀ x ∈ a, Avoids p x) (ht : Framed (a ++ p :: b) t) : Framed (a ++ b) (removeProperty p t) := by
  obtain ⟨c1, c2, rfl, _⟩ := ht
  unfold removeProperty
  rw [replace_hole hp ha]
  unfold beforeHole afterHole
  have cc1 : ∀ c1, ¬ b!",," <:+: 123 :: (optComma c1 ++ joinC a) ++ [44] ∨ a = [] := by
    intro c1
    by_cases h : a = []
    · exact .inr h
    · refine .inl fun hi => frame_no_cc (joinC_solid h fun x hx => hs x (by simp [hx])) c1 true ?_
      refine hi.trans ⟨[], [125], ?_⟩
      simp [optComma]
  by_cases h1 : a = []
  · by_cases h2 : b = []
    · subst h1 h2
      cases c1 <;> cases c2 <;> first
        | exact ⟨false, false, rfl, fun _ h => by cases h⟩
        | exact ⟨false, true, rfl, fun _ h => by cases h⟩
        | exact ⟨true, false, rfl, fun _ _ => rfl⟩
    · rw [if_pos h1, if_neg h2]
      subst h1
      have hb := joinC_solid h2 (fun x hx => hs x (by simp [hx]))
      refine ⟨true, c2, ?_, fun h => absurd h h2⟩
      cases c1 with
      | false =>
        have := frame_no_cc hb true c2
        rw [replaceOnce_miss]
        · simp [frame, optComma]
        · simpa [optComma] using this
      | true =>
        have := merge_commas (x := [123]) (by decide) (joinC b ++ optComma c2 ++ [125])
        simpa [frame, optComma] using this
  · have hsa := joinC_solid h1 (fun x hx => hs x (by simp [hx]))
    rw [if_neg h1]
    by_cases h2 : b = []
    · rw [if_pos h2]
      subst h2
      refine ⟨c1, true, ?_, fun h => absurd h (by simpa using h1)⟩
      cases c2 with
      | false =>
        have := frame_no_cc hsa c1 true
        rw [replaceOnce_miss]
        · simp [frame, optComma]
        · simpa [optComma] using this
      | true =>
        have := merge_commas ((cc1 c1).resolve_right h1) [125]
        simpa [frame, optComma] using this
    · rw [if_neg h2]
      refine ⟨c1, c2, ?_, fun h => absurd h (by simp [h1])⟩
      have := merge_commas ((cc1 c1).resolve_right h1) (joinC b ++ optComma c2 ++ [125])
      rw [frame, joinC_append h1 h2]
      simpa using this

theorem pair_concat {a b c : UInt8} {x : Bytes} (h : [a, b] <:+: x ++ [c]) : [a, b] <:+: x ∨ (b = c ∧ x.getLast? = some a) := by
  rw [← List.reverse_infix, List.reverse_append] at h
  rcases List.infix_cons_iff.1 h with h | h
  · have h : [b, a] <+: c :: x.reverse := h
    have h := List.cons_prefix_cons.1 h
    refine .inr ⟨h.1, ?_⟩
    have := prefix_singleton h.2
    simpa using this
  · exact .inl (List.reverse_infix.1 h)

/-- The end of the clean-up. -/
theorem sanitize_framed {items : List Bytes} {t : Bytes} (hs : ∀ x ∈ items, Solid x) (ht : Framed items t) :
    sanitizeJSON t = 123 :: (joinC items ++ [125]) := by
  obtain ⟨c1, c2, rfl, hc⟩ := ht
  unfold sanitizeJSON
  by_cases h : items = []
  · subst h
    cases c1 <;> cases c2 <;> first | rfl | exact absurd (hc rfl rfl) (by decide)
  · have hx := joinC_solid h hs
    unfold frame
    generalize joinC items = x at hx ⊢
    have h1 : replaceOnce b!"{," b!"{" (123 :: (optComma c1 ++ x ++ optComma c2 ++ [125])) = 123 :: (x ++ optComma c2 ++ [125]) := by
      cases c1 with
      | true =>
        have := replaceOnce_hit (old := b!"{,") (new := b!"{") (a := []) (b := x ++ optComma c2 ++ [125]) (by simp) (by decide)
        simpa [optComma] using this
      | false =>
        rw [replaceOnce_miss]
        · simp [optComma]
        · intro h
          rcases List.infix_cons_iff.1 h with h | h
          · have := prefix_singleton (List.cons_prefix_cons.1 h).2
            have hn := hx.ne
            have hh := hx.head.1
            cases x with
            | nil => exact absurd rfl hn
            | cons c x => exact hh this
          · rcases pair_concat h with h | h
            · cases c2 with
              | false => exact hx.oc (by simpa [optComma] using h)
              | true =>
                have h : b!"{," <:+: x ++ [44] := by simpa [optComma] using h
                rcases pair_concat h with h | h
                · exact hx.oc h
                · exact hx.last.2 h.2
            · exact absurd h.1 (by decide)
    rw [h1]
    cases c2 with
    | true =>
      have := replaceOnce_hit (old := b!",}") (new := b!"}") (a := 123 :: x) (b := []) (by simp) ?_
      · simpa [optComma] using this
      · intro h
        rcases pair_concat (show b!",}" <:+: (123 :: x) ++ [44] from h) with h | h
        · exact hx.co (infix_skip (d := 44) rfl (by decide) h)
        · exact absurd h.1 (by decide)
    | false =>
      rw [replaceOnce_miss]
      · simp [optComma]
      · intro h
        rcases pair_concat (show b!",}" <:+: (123 :: x) ++ [125] by simpa [optComma] using h) with h | h
        · exact hx.co (infix_skip (d := 44) rfl (by decide) h)
        · have h2 := h.2
          have hn := hx.ne
          have hl := hx.last.1
          rw [List.getLast?_cons] at h2
          cases hy : x.getLast? with
          | none => rw [List.getLast?_eq_none_iff] at hy; exact hn hy
          | some c => rw [hy] at h2 hl; exact hl (by simpa using h2)

/-! ### Objects -/

/-- The text of a member. -/
def memberText (m : Bytes × JVal) : Bytes := printStr m.1 ++ 58 :: m.2.print compact 1

theorem printMembers_join (l : List (Bytes × JVal)) : printMembers compact 1 l = afterHole (l.map memberText) := by
  induction l with
  | nil => rfl
  | cons m l ih =>
    obtain ⟨k, v⟩ := m
    have : afterHole (memberText (k, v) :: l.map memberText) = 44 :: (memberText (k, v) ++ afterHole (l.map memberText)) := by
      unfold afterHole
      rw [if_neg (by simp)]
      by_cases h : l.map memberText = []
      · rw [if_pos h, h]; simp [joinC]
      · rw [if_neg h, joinC_cons _ h]
    rw [List.map_cons, this, ← ih]
    rw [show printMembers compact 1 ((k, v) :: l) = b!"," ++ [] ++ printStr k ++ b!":" ++ [] ++ v.print compact 1 ++ printMembers compact 1 l
      by rw [printMembers]; rfl]
    simp [memberText]

theorem print_obj (l : List (Bytes × JVal)) : (JVal.obj l).print compact 0 = 123 :: (joinC (l.map memberText) ++ [125]) := by
  cases l with
  | nil => rfl
  | cons m l =>
    obtain ⟨k, v⟩ := m
    have h := joinC_hole [] (memberText (k, v)) (l.map memberText)
    rw [List.nil_append] at h
    rw [List.map_cons, h, ← printMembers_join]
    unfold JVal.print
    simp [memberText, compact, beforeHole]

theorem print_framed (l : List (Bytes × JVal)) : Framed (l.map memberText) ((JVal.obj l).print compact 0) :=
  ⟨false, false, by rw [print_obj]; simp [frame, optComma], fun _ h => by cases h⟩

end Gltf
