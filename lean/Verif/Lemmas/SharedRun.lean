/-
Lemmas: the goroutines finish.
-/
import Verif.Lemmas.SharedEncode

namespace Gltf.Shared

/-- What a program can become in a step. -/
inductive Sub {α : Type} : Prog α → Prog α → Prop where
  | load (a : Nat) (k : Obj → Prog α) (o : Obj) : Sub (k o) (.load a k)
  | fault (a : Nat) (k : Obj → Prog α) (r : Res α) : Sub (.ret r) (.load a k)
  | store (a : Nat) (o : Obj) (k : Prog α) : Sub k (.store a o k)
  | alloc (o : Obj) (k : Nat → Prog α) (a : Nat) : Sub (k a) (.alloc o k)

theorem sub_acc {α : Type} : ∀ p : Prog α, Acc Sub p
  | .ret r => ⟨_, fun _ h => by cases h⟩
  | .load a k => ⟨_, fun q h => by
      cases h with
      | load _ _ o => exact sub_acc (k o)
      | fault _ _ r => exact ⟨_, fun _ h => by cases h⟩⟩
  | .store a o k => ⟨_, fun q h => by cases h; exact sub_acc k⟩
  | .alloc o k => ⟨_, fun q h => by cases h with | alloc _ _ a => exact sub_acc (k a)⟩

/-- One of the programs of a list makes a step. -/
inductive SubL {α : Type} : List (Prog α) → List (Prog α) → Prop where
  | head {q p : Prog α} (l : List (Prog α)) : Sub q p → SubL (q :: l) (p :: l)
  | tail (p : Prog α) {l' l : List (Prog α)} : SubL l' l → SubL (p :: l') (p :: l)

theorem subL_cons {α : Type} {p : Prog α} (hp : Acc Sub p) : ∀ {l : List (Prog α)}, Acc SubL l → Acc SubL (p :: l) := by
  induction hp with
  | intro p _ ihp =>
    intro l hl
    induction hl with
    | intro l hl ihl =>
      refine ⟨_, fun l' h => ?_⟩
      cases h with
      | head _ h => exact ihp _ h ⟨_, hl⟩
      | tail _ h => exact ihl _ h

theorem subL_acc {α : Type} : ∀ l : List (Prog α), Acc SubL l
  | [] => ⟨_, fun _ h => by cases h⟩
  | p :: l => subL_cons (sub_acc p) (subL_acc l)

theorem subL_set {α : Type} : ∀ {l : List (Prog α)} {i : Nat} {p q : Prog α}, l[i]? = some p → Sub q p → SubL (l.set i q) l
  | _ :: _, 0, _, _, h, hs => by cases h; exact .head _ hs
  | _ :: _, _ + 1, _, _, h, hs => .tail _ (subL_set h hs)
  | [], _, _, _, h, _ => by cases h

theorem step_subL {α : Type} {s t : State α} {i : Nat} (h : step s i = some t) : SubL t.threads s.threads := by
  unfold step at h
  split at h
  · cases h
  · cases h
  · next a k hp =>
    split at h
    · cases h; exact subL_set hp (.load a k _)
    · cases h; exact subL_set hp (.fault a k _)
  · next a o k hp => cases h; exact subL_set hp (.store a o k)
  · next o k hp => cases h; exact subL_set hp (.alloc o k _)

theorem no_descent {α : Type} (f : Nat → State α) (h : ∀ n, ∃ i, step (f n) i = some (f (n + 1))) : False := by
  have key : ∀ l : List (Prog α), Acc SubL l → ∀ n, (f n).threads ≠ l := by
    intro l hl
    induction hl with
    | intro l _ ih =>
      intro n e
      obtain ⟨i, hi⟩ := h n
      exact ih _ (e ▸ step_subL hi) (n + 1) rfl
  exact key _ (subL_acc _) 0 rfl

theorem step_or {α : Type} {s : State α} {i : Nat} (hi : i < s.threads.length) : (∃ t, step s i = some t) ∨ ∃ r, Finished s i r := by
  have he : s.threads[i]? = some s.threads[i] := List.getElem?_eq_getElem hi
  unfold Finished step
  rw [he]
  cases s.threads[i] with
  | ret r => exact .inr ⟨r, rfl⟩
  | load a k =>
    refine .inl ?_
    show ∃ t, (match s.mem[a]? with | some o => _ | none => _) = some t
    cases s.mem[a]? <;> exact ⟨_, rfl⟩
  | store a o k => exact .inl ⟨_, rfl⟩
  | alloc o k => exact .inl ⟨_, rfl⟩

theorem threads_length {α : Type} {s t : State α} (h : Reach s t) : t.threads.length = s.threads.length := by
  induction h with
  | refl => rfl
  | step t u i _ h ih =>
    rw [← ih]
    unfold step at h
    split at h
    · cases h
    · cases h
    · split at h <;> cases h <;> simp
    · cases h; simp
    · cases h; simp

theorem Reach.trans {α : Type} {s t u : State α} (h : Reach s t) (h' : Reach t u) : Reach s u := by
  induction h' with
  | refl => exact h
  | step t u i _ e ih => exact .step _ _ i ih e

theorem reach_end {α : Type} (l : List (Prog α)) : ∀ s : State α, s.threads = l →
    ∃ t, Reach s t ∧ ∀ i, i < s.threads.length → ∃ r, Finished t i r := by
  induction subL_acc l with
  | intro l _ ih =>
    intro s e
    by_cases hs : ∃ i t, step s i = some t
    · obtain ⟨i, t, ht⟩ := hs
      obtain ⟨u, hu, hf⟩ := ih _ (e ▸ step_subL ht) t rfl
      have hl := threads_length (Reach.step s t i .refl ht)
      exact ⟨u, Reach.trans (.step _ _ i .refl ht) hu, fun j hj => hf j (by omega)⟩
    · refine ⟨s, .refl, fun i hi => ?_⟩
      rcases step_or hi with ⟨t, ht⟩ | h
      · exact absurd ⟨i, t, ht⟩ hs
      · exact h

theorem inv_encode {E : Env} {U : UrlLib} {m : Mem} {calls : List Call} (hv : ∀ c ∈ calls, c.doc.Valid m) {s : State Encoded}
    (h : Reach (start E U m calls) s) :
    ∃ own, Inv m (fun i r => ∀ c, calls[i]? = some c → r = .ok (Gltf.encode E U c.opts (c.doc.value m) c.sink c.fsys)) s own := by
  refine inv_reach h (inv_start fun i p hp => ?_)
  rw [List.getElem?_map] at hp
  cases hc : calls[i]? with
  | none => rw [hc] at hp; cases hp
  | some c =>
    rw [hc] at hp
    cases hp
    refine wp_mono (wp_encode (hv c (List.mem_of_getElem? hc)) c.sink c.fsys _) ?_
    rintro r _ rfl c' hc'
    cases hc'
    rfl

end Gltf.Shared
