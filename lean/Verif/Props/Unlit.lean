/-
Property C61: the unlit extension.
-/
import Verif.Props.Extensions
import Verif.Model.Ext

namespace Gltf
open Spec

theorem mem_lookup {α : Type} {k : Bytes} {a : α} : ∀ {m : List (Bytes × α)}, m.Pairwise (fun a b => a.1 < b.1) → (k, a) ∈ m → m.lookup k = some a
  | (k', a') :: m, hs, h => by
    obtain ⟨h1, h2⟩ := List.pairwise_cons.1 hs
    rcases List.mem_cons.1 h with h | h
    · cases h; simp [List.lookup]
    · have hk : k ≠ k' := fun e => by
        have := h1 _ h
        rw [e] at this
        exact List.lt_irrefl _ this
      have hb : (k == k') = false := by simpa using hk
      simp only [List.lookup, hb]
      exact mem_lookup h2 h

/-- The members that a map has after some insertions. -/
theorem foldl_mapInsert {α : Type} : ∀ (ms m : List (Bytes × α)), m.Pairwise (fun a b => a.1 < b.1) →
    (ms.foldl (fun m p => mapInsert p.1 p.2 m) m).Pairwise (fun a b => a.1 < b.1) ∧
    ∀ key v, (ms.foldl (fun m p => mapInsert p.1 p.2 m) m).lookup key = some v ↔
      LastFor ms key v ∨ ((∀ p ∈ ms, p.1 ≠ key) ∧ m.lookup key = some v)
  | [], m, h => ⟨h, fun key v => ⟨fun h => .inr ⟨by simp, h⟩, fun h => h.elim (fun ⟨a, b, e, _⟩ => by simp at e) (·.2)⟩⟩
  | (k, x) :: ms, m, h => by
    obtain ⟨s1, _⟩ := mapInsert_sorted k x m h
    obtain ⟨i1, i2⟩ := foldl_mapInsert ms _ s1
    refine ⟨i1, fun key v => ?_⟩
    rw [List.foldl_cons, i2, mapInsert_lookup k x m key h]
    constructor
    · rintro (⟨a, b, e, hb⟩ | ⟨hn, hl⟩)
      · exact .inl ⟨(k, x) :: a, b, by rw [e]; rfl, hb⟩
      · by_cases hk : key = k
        · rw [if_pos hk] at hl
          cases hl
          subst hk
          exact .inl ⟨[], ms, rfl, hn⟩
        · rw [if_neg hk] at hl
          refine .inr ⟨fun p hp => ?_, hl⟩
          rcases List.mem_cons.1 hp with rfl | hp
          · exact fun e => hk e.symm
          · exact hn p hp
    · rintro (⟨a, b, e, hb⟩ | ⟨hn, hl⟩)
      · cases a with
        | nil =>
          injection e with e1 e2
          cases e1
          subst e2
          exact .inr ⟨hb, if_pos rfl⟩
        | cons p a =>
          injection e with _ e2
          exact .inl ⟨a, b, e2, hb⟩
      · refine .inr ⟨fun p hp => hn p (List.mem_cons_of_mem _ hp), ?_⟩
        rw [if_neg (fun e => hn (k, x) (by simp) e.symm)]
        exact hl

/-- C61: of each member of the payload the last value is kept, nothing else is, and what is written is stable. -/
theorem C61_unlit_members (ms : List (Bytes × JVal)) :
    ∃ ms', unlitExt (.obj ms) = .ok (.ok (.obj ms')) ∧ (∀ key v, (key, v) ∈ ms' ↔ LastFor ms key v) ∧
      ms'.Pairwise (fun a b => a.1 < b.1) ∧ unlitExt (.obj ms') = .ok (.ok (.obj ms')) := by
  obtain ⟨h1, h2⟩ := foldl_mapInsert ms [] .nil
  refine ⟨_, rfl, fun key v => ?_, h1, ?_⟩
  · constructor
    · intro hm
      rcases (h2 key v).1 (mem_lookup h1 hm) with h | h
      · exact h
      · cases h.2
    · intro h
      exact lookup_mem ((h2 key v).2 (.inl h))
  · have key : ∀ (b a : List (Bytes × JVal)), (a ++ b).Pairwise (fun a b => a.1 < b.1) →
        b.foldl (fun m p => mapInsert p.1 p.2 m) a = a ++ b := by
      intro b
      induction b with
      | nil => simp
      | cons p b ih =>
        intro a ha
        rw [List.foldl_cons, mapInsert_last, ih]
        · simp
        · simpa using ha
        · intro q hq
          exact (List.pairwise_append.1 ha).2.2 q hq p (by simp)
    show Except.ok (Except.ok (JVal.obj _)) = _
    rw [key _ [] h1]
    rfl

/-- C61, the other payloads: `null` counts as no members, and anything else is left as it is. -/
theorem C61_unlit_others (E : Env) :
    (standardExtensions E).decode b!"KHR_materials_unlit" .null = .typed (.ok (.obj [])) ∧
    ∀ v : JVal, (∀ ms, v ≠ .obj ms) → v ≠ .null → (standardExtensions E).decode b!"KHR_materials_unlit" v = .raw v := by
  refine ⟨rfl, fun v h h0 => ?_⟩
  cases v with
  | obj ms => exact absurd rfl (h ms)
  | null => exact absurd rfl h0
  | _ => rfl

example : LastFor [(b!"b", JVal.null), (b!"a", .bool true), (b!"b", .bool false)] b!"b" (.bool false) :=
  ⟨[(b!"b", .null), (b!"a", .bool true)], [], rfl, by simp⟩

end Gltf
