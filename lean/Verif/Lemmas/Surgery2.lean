/-
Texts of members with numbers, for the editing of JSON text.
-/
import Verif.Lemmas.Surgery
import Verif.Lemmas.JsonField

namespace Gltf
open Spec

/-! ### Texts of numbers -/

/-- The bytes of numbers. -/
def numChar (c : UInt8) : Bool := (48 ≤ c && c ≤ 57) || c == 43 || c == 45 || c == 46 || c == 69 || c == 101

theorem number_chars {s : Bytes} (h : IsNumber s) : s ≠ [] ∧ ∀ c ∈ s, numChar c = true := by
  have dig : ∀ {ds : Bytes}, IsDigits ds → ∀ c ∈ ds, numChar c = true := by
    intro ds hd c hc
    have := hd.2 c hc
    unfold numChar
    simp [this.1, this.2]
  obtain ⟨sign, int, frac, exp, rfl, h1, h2, h3, h4⟩ := h
  have hi : int ≠ [] ∧ ∀ c ∈ int, numChar c = true := by
    rcases h2 with rfl | h2
    · exact ⟨by simp, by decide⟩
    · exact ⟨h2.1.1, dig h2.1⟩
  refine ⟨by simp [hi.1], ?_⟩
  intro c hc
  simp only [List.mem_append] at hc
  rcases hc with ((hc | hc) | hc) | hc
  · rcases h1 with rfl | rfl
    · cases hc
    · rw [List.mem_singleton.1 hc]; decide
  · exact hi.2 c hc
  · rcases h3 with rfl | ⟨ds, hd, rfl⟩
    · cases hc
    · rcases List.mem_append.1 hc with hc | hc
      · rw [List.mem_singleton.1 hc]; decide
      · exact dig hd c hc
  · rcases h4 with rfl | ⟨e, s, ds, he, hs, hd, rfl⟩
    · cases hc
    · rcases List.mem_append.1 hc with hc | hc
      · rcases List.mem_append.1 hc with hc | hc
        · rcases he with rfl | rfl <;> (rw [List.mem_singleton.1 hc]; decide)
        · rcases hs with rfl | rfl | rfl
          · cases hc
          · rw [List.mem_singleton.1 hc]; decide
          · rw [List.mem_singleton.1 hc]; decide
      · exact dig hd c hc

/-- A piece without commas and braces. -/
def Plain (x : Bytes) : Prop := x ≠ [] ∧ ∀ c ∈ x, c ≠ 44 ∧ c ≠ 123 ∧ c ≠ 125

theorem number_plain {s : Bytes} (h : IsNumber s) : Plain s := by
  have := number_chars h
  refine ⟨this.1, fun c hc => ?_⟩
  have hn := this.2 c hc
  refine ⟨?_, ?_, ?_⟩ <;> (rintro rfl; revert hn; decide)

theorem plain_append {x y : Bytes} (hx : ∀ c ∈ x, c ≠ 44 ∧ c ≠ 123 ∧ c ≠ 125) (hy : Plain y) : Plain (x ++ y) := by
  refine ⟨by simp [hy.1], fun c hc => ?_⟩
  rcases List.mem_append.1 hc with hc | hc
  · exact hx c hc
  · exact hy.2 c hc

theorem plain_append' {x y : Bytes} (hx : Plain x) (hy : ∀ c ∈ y, c ≠ 44 ∧ c ≠ 123 ∧ c ≠ 125) : Plain (x ++ y) := by
  refine ⟨by simp [hx.1], fun c hc => ?_⟩
  rcases List.mem_append.1 hc with hc | hc
  · exact hx.2 c hc
  · exact hy c hc

theorem solid_of_plain {x : Bytes} (h : Plain x) : Solid x := solid_plain h.1 h.2

theorem solid_array {suf : Bytes} (hs : ∀ c ∈ suf, c ≠ 44 ∧ c ≠ 123 ∧ c ≠ 125) : ∀ {l : List Bytes} {pre : Bytes},
    (∀ c ∈ pre, c ≠ 44 ∧ c ≠ 123 ∧ c ≠ 125) → l ≠ [] → (∀ x ∈ l, Plain x) → Solid (pre ++ joinC l ++ suf)
  | [x], pre, hp, _, hl => solid_of_plain (plain_append' (plain_append hp (hl x (by simp))) hs)
  | x :: y :: l, pre, hp, _, hl => by
    have h1 := solid_of_plain (plain_append hp (hl x (by simp)))
    have h2 := solid_array hs (l := y :: l) (pre := []) (by simp) (by simp) (fun z hz => hl z (List.mem_cons_of_mem x hz))
    have := solid_comma h1 h2
    rw [joinC_cons x (by simp)]
    simpa using this

theorem mem_joinC {c : UInt8} : ∀ {l : List Bytes}, c ∈ joinC l → c = 44 ∨ ∃ x ∈ l, c ∈ x
  | [], h => by cases h
  | [x], h => .inr ⟨x, by simp, h⟩
  | x :: y :: l, h => by
    rw [joinC_cons x (by simp)] at h
    rcases List.mem_append.1 h with h | h
    · exact .inr ⟨x, by simp, h⟩
    · rcases List.mem_cons.1 h with h | h
      · exact .inl h
      · rcases mem_joinC h with h | ⟨z, hz, h⟩
        · exact .inl h
        · exact .inr ⟨z, List.mem_cons_of_mem x hz, h⟩

/-- A byte that occurs neither in the key nor in numbers. -/
theorem not_mem_array {c : UInt8} {pre suf : Bytes} {l : List Bytes} (h1 : c ∉ pre) (h2 : c ∉ suf) (h3 : c ≠ 44) (h4 : numChar c = false)
    (hl : ∀ x ∈ l, ∀ d ∈ x, numChar d = true) : c ∉ pre ++ joinC l ++ suf := by
  intro h
  rcases List.mem_append.1 h with h | h
  · rcases List.mem_append.1 h with h | h
    · exact h1 h
    · rcases mem_joinC h with h | ⟨x, hx, h⟩
      · exact h3 h
      · rw [hl x hx c h] at h4; cases h4
  · exact h2 h

/-- A pattern that contains a foreign byte before its first comma does not begin in a piece. -/
theorem avoids_of_not_mem {p x : Bytes} (c : UInt8) (h : c ∉ x) (hp : c ∈ p.takeWhile (· ≠ 44)) : Avoids p x := by
  refine ⟨not_infix_of_mem c ((List.takeWhile_prefix _).subset hp) h, ?_⟩
  intro u v e hu
  refine h (hu.subset ?_)
  have : p.takeWhile (· ≠ 44) <+: u := by
    rw [e, List.takeWhile_append]
    split
    · simp
    · exact List.takeWhile_prefix _
  exact this.subset hp

/-- A check for given texts. -/
theorem avoids_of_check {p x : Bytes} (h1 : ¬ p <:+: x) (h2 : ∀ i < p.length, p[i]? = some 44 → ¬ p.take i <:+ x) : Avoids p x := by
  refine ⟨h1, fun u v e => ?_⟩
  have := h2 u.length (by rw [e]; simp) (by rw [e]; simp)
  rwa [e, List.take_left] at this

/-- The pattern does not occur at all. -/
theorem not_infix_frame {p : Bytes} (hp : p.head? = some 34) (hl : 125 ∉ p) (hl' : p.getLast? ≠ some 44) {items : List Bytes}
    (ha : ∀ x ∈ items, Avoids p x) (c1 c2 : Bool) : ¬ p <:+: frame c1 items c2 := by
  intro h
  unfold frame at h
  have h : p <:+: optComma c1 ++ (joinC items ++ optComma c2 ++ [125]) := by simpa using infix_skip (d := 34) hp (by decide) h
  have h : p <:+: joinC items ++ optComma c2 ++ [125] := by
    cases c1 with
    | false => exact h
    | true => exact infix_skip (c := 44) (d := 34) hp (by decide) (by simpa [optComma] using h)
  have skipR : ∀ {c : UInt8} {s : Bytes}, p.getLast? ≠ some c → p <:+: s ++ [c] → p <:+: s := by
    intro c s hc h
    rw [← List.reverse_infix, List.reverse_append] at h
    rw [← List.reverse_infix]
    have hne : p.reverse ≠ [] := by
      rintro e
      rw [List.reverse_eq_nil_iff] at e
      subst e; cases hp
    cases hr : p.reverse with
    | nil => exact absurd hr hne
    | cons d r =>
      rw [hr] at h
      refine infix_skip (c := c) (d := d) rfl ?_ h
      rintro rfl
      refine hc ?_
      rw [← List.head?_reverse, hr]; rfl
  have h := skipR (fun he => hl (List.mem_of_getLast? he)) h
  have h : p <:+: joinC items := by
    cases c2 with
    | false => simpa [optComma] using h
    | true => exact skipR hl' (by simpa [optComma] using h)
  by_cases h0 : items = []
  · subst h0
    have := h.length_le
    cases p with
    | nil => cases hp
    | cons c p => simp [joinC] at this
  · exact not_infix_before hp h0 ha (h.trans ⟨[], 44 :: p.dropLast, by simp⟩)

theorem remove_miss {p : Bytes} (hp : p.head? = some 34) (hl : 125 ∉ p) (hl' : p.getLast? ≠ some 44) {items : List Bytes} {t : Bytes}
    (hn : items ≠ []) (hs : ∀ x ∈ items, Solid x) (ha : ∀ x ∈ items, Avoids p x) (ht : Framed items t) : removeProperty p t = t := by
  obtain ⟨c1, c2, rfl, hc⟩ := ht
  unfold removeProperty
  rw [replaceOnce_miss (not_infix_frame hp hl hl' ha c1 c2), replaceOnce_miss]
  exact frame_no_cc (joinC_solid hn hs) c1 c2

/-! ### Members -/

/-- A field that is present or not. -/
def optMember (k : Bytes) : Option JVal → List (Bytes × JVal)
  | none => []
  | some v => [(k, v)]

theorem cons_enc {α τ : Type} {name : Bytes} {f : FE α} {r : FC τ} {a : α} {t : τ} {v : Option JVal} {ms : List (Bytes × JVal)}
    (h1 : f.enc a = .ok v) (h2 : r.enc t = .ok ms) : (FC.cons name f r).enc (a, t) = .ok (optMember name v ++ ms) := by
  unfold FC.cons
  simp only [h1, h2]
  cases v <;> rfl

theorem print_arr (l : List Bytes) (h : l ≠ []) (n : Nat) : (JVal.arr (l.map .num)).print compact n = 91 :: (joinC l ++ [93]) := by
  have key : ∀ l : List Bytes, printElems compact (n + 1) (l.map .num) = afterHole l := by
    intro l
    induction l with
    | nil => simp [printElems, afterHole]
    | cons x l ih =>
      have : afterHole (x :: l) = 44 :: (x ++ afterHole l) := by
        unfold afterHole
        rw [if_neg (by simp)]
        by_cases h : l = []
        · rw [if_pos h, h]; simp [joinC]
        · rw [if_neg h, joinC_cons _ h]
      rw [List.map_cons, this, ← ih, printElems]
      simp [JVal.print, show compact.newline (n + 1) = [] from rfl]
  cases l with
  | nil => exact absurd rfl h
  | cons x l =>
    have h := joinC_hole [] x l
    rw [List.nil_append] at h
    rw [h, List.map_cons, JVal.print, key]
    simp [JVal.print, show compact.newline (n + 1) = [] from rfl, show compact.newline n = [] from rfl, beforeHole]

end Gltf
