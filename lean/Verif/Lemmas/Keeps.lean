/-
Predicates that decoding keeps.
-/
import Verif.Model.JsonCodec

namespace Gltf

/-- Decoding keeps a predicate. -/
def JC.Keeps {α : Type} (dec : JVal → α → Except Err α) (P : α → Prop) : Prop := ∀ v a a', P a → dec v a = .ok a' → P a'

/-- Decoding a member keeps a predicate. -/
def FC.Keeps {τ : Type} (fc : FC τ) (P : τ → Prop) : Prop := ∀ k v a a', P a → fc.dec k v a = .ok a' → P a'

theorem FC.keeps_cons {α τ : Type} {name : Bytes} {f : FE α} {r : FC τ} {P : α → Prop} {Q : τ → Prop} (hf : JC.Keeps f.dec P)
    (hr : r.Keeps Q) : (FC.cons name f r).Keeps (fun t => P t.1 ∧ Q t.2) := by
  intro k v a a' h e
  simp only [FC.cons] at e
  split at e
  · cases hd : f.dec v a.1 with
    | error e' => rw [hd] at e; cases e
    | ok x => rw [hd] at e; cases e; exact ⟨hf _ _ _ h.1 hd, h.2⟩
  · cases hd : r.dec k v a.2 with
    | error e' => rw [hd] at e; cases e
    | ok x => rw [hd] at e; cases e; exact ⟨h.1, hr _ _ _ _ h.2 hd⟩

theorem FC.keeps_skip {α τ : Type} {z : α} {r : FC τ} {P : α → Prop} {Q : τ → Prop} (hr : r.Keeps Q) :
    (FC.skip z r).Keeps (fun t => P t.1 ∧ Q t.2) := by
  intro k v a a' h e
  simp only [FC.skip] at e
  cases hd : r.dec k v a.2 with
  | error e' => rw [hd] at e; cases e
  | ok x => rw [hd] at e; cases e; exact ⟨h.1, hr _ _ _ _ h.2 hd⟩

theorem FC.keeps_true {τ : Type} (fc : FC τ) : fc.Keeps (fun _ => True) := fun _ _ _ _ _ _ => trivial

theorem keeps_true {α : Type} (dec : JVal → α → Except Err α) : JC.Keeps dec (fun _ => True) := fun _ _ _ _ _ => trivial

theorem FC.keeps_all {τ : Type} {fc : FC τ} {P : τ → Prop} (h : fc.Keeps P) : ∀ vs a a', P a → fc.decAll vs a = .ok a' → P a'
  | [], a, a', ha, e => by cases e; exact ha
  | (k, v) :: vs, a, a', ha, e => by
    simp only [FC.decAll] at e
    cases hd : fc.dec k v a with
    | error e' => rw [hd] at e; cases e
    | ok x => rw [hd] at e; exact FC.keeps_all h vs x a' (h _ _ _ _ ha hd) e

theorem JC.keeps_struct {σ τ : Type} {to : σ → τ} {of : τ → σ} {fc : FC τ} {P : τ → Prop} {Q : σ → Prop} (h : fc.Keeps P)
    (h1 : ∀ s, Q s → P (to s)) (h2 : ∀ t, P t → Q (of t)) : JC.Keeps (JC.struct to of fc).dec Q := by
  intro v a a' ha e
  cases v with
  | obj vs =>
    simp only [JC.struct] at e
    cases hd : fc.decAll vs (to a) with
    | error e' => rw [hd] at e; cases e
    | ok x => rw [hd] at e; cases e; exact h2 _ (FC.keeps_all h _ _ _ (h1 _ ha) hd)
  | null => cases e; exact ha
  | _ => cases e

theorem JC.keeps_ptr {α : Type} {c : JC α} {P : α → Prop} (h : JC.Keeps c.dec P) (hz : P c.zero) :
    JC.Keeps (JC.ptr c).dec (fun o => ∀ a, o = some a → P a) := by
  intro v o o' ho e
  have hc : P (o.getD c.zero) := by
    cases o with
    | none => exact hz
    | some a => exact ho a rfl
  have hn : (c.dec v (o.getD c.zero)).map some = .ok o' → ∀ a, o' = some a → P a := by
    intro e a ea
    cases hd : c.dec v (o.getD c.zero) with
    | error e' => rw [hd] at e; cases e
    | ok x => rw [hd] at e; cases e; cases ea; exact h _ _ _ hc hd
  cases v with
  | null => cases e; intro a ea; cases ea
  | _ => exact hn e

theorem keeps_decList {α : Type} {c : JC α} {P : α → Prop} (h : JC.Keeps c.dec P) (hz : P c.zero) : ∀ vs l l',
    (∀ a ∈ l, P a) → decList c vs l = .ok l' → ∀ a ∈ l', P a
  | [], l, l', _, e => by cases e; simp
  | v :: vs, l, l', hl, e => by
    have hk : ∃ cur curs, P cur ∧ (∀ a ∈ curs, P a) ∧ (do
        let a ← c.dec v cur
        let l ← decList c vs curs
        return a :: l) = Except.ok l' := by
      cases l with
      | nil => exact ⟨c.zero, [], hz, by simp, e⟩
      | cons cur curs => exact ⟨cur, curs, hl _ (by simp), fun a ha => hl a (by simp [ha]), e⟩
    obtain ⟨cur, curs, hc, hcs, e⟩ := hk
    cases h1 : c.dec v cur with
    | error e' => rw [h1] at e; cases e
    | ok a =>
      cases h2 : decList c vs curs with
      | error e' => rw [h1, h2] at e; cases e
      | ok as =>
        rw [h1, h2] at e
        cases e
        intro b hb
        rcases List.mem_cons.1 hb with rfl | hb
        · exact h _ _ _ hc h1
        · exact keeps_decList h hz vs curs as hcs h2 b hb

theorem JC.keeps_list {α : Type} {c : JC α} {P : α → Prop} (h : JC.Keeps c.dec P) (hz : P c.zero) :
    JC.Keeps (JC.list c).dec (fun l => ∀ a ∈ l, P a) := by
  intro v l l' hl e
  cases v with
  | arr vs => exact keeps_decList h hz vs l l' hl e
  | null => cases e; simp
  | _ => cases e

end Gltf
