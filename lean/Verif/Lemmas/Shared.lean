/-
Lemmas on goroutines that only change objects that they allocated.
-/
import Verif.Spec.Shared

namespace Gltf.Shared

open Gltf

/-- The objects that a goroutine allocated. -/
abbrev Cells : Type := Nat → Option Obj

def upd (f : Cells) (a : Nat) (o : Obj) : Cells := fun b => if b = a then some o else f b

def look (m : Mem) (f : Cells) (a : Nat) : Option Obj := if a < m.length then m[a]? else f a

/-- The program only loads objects of `m` and its own ones, it stores only in its own ones, and its result meets `Q`. -/
def wp {α : Type} (m : Mem) : Prog α → Cells → (Res α → Cells → Prop) → Prop
  | .ret r, f, Q => Q r f
  | .load a k, f, Q => ∃ o, look m f a = some o ∧ wp m (k o) f Q
  | .store a o k, f, Q => m.length ≤ a ∧ (f a).isSome ∧ wp m k (upd f a o) Q
  | .alloc o k, f, Q => ∀ a, m.length ≤ a → f a = none → wp m (k a) (upd f a o) Q

theorem wp_mono {α : Type} {m : Mem} {p : Prog α} : ∀ {f : Cells} {Q R : Res α → Cells → Prop}, wp m p f Q → (∀ r f, Q r f → R r f) → wp m p f R := by
  induction p with
  | ret r => intro f Q R h hq; exact hq _ _ h
  | load a k ih => rintro f Q R ⟨o, h1, h2⟩ hq; exact ⟨o, h1, ih o h2 hq⟩
  | store a o k ih => rintro f Q R ⟨h0, h1, h2⟩ hq; exact ⟨h0, h1, ih h2 hq⟩
  | alloc o k ih => intro f Q R h hq a h1 h2; exact ih a (h a h1 h2) hq

/-- What holds after a program that goes on with another one. -/
def after {α β : Type} (m : Mem) (g : α → Prog β) (Q : Res β → Cells → Prop) (r : Res α) (f : Cells) : Prop :=
  match r with
  | .ok a => wp m (g a) f Q
  | .err e => Q (.err e) f
  | .panic w => Q (.panic w) f

theorem wp_bind {α β : Type} {m : Mem} {p : Prog α} {g : α → Prog β} {Q : Res β → Cells → Prop} :
    ∀ {f : Cells}, wp m p f (after m g Q) → wp m (p >>= g) f Q := by
  show ∀ {f : Cells}, wp m p f (after m g Q) → wp m (p.bind g) f Q
  induction p with
  | ret r => intro f h; cases r <;> exact h
  | load a k ih => rintro f ⟨o, h1, h2⟩; exact ⟨o, h1, ih o h2⟩
  | store a o k ih => rintro f ⟨h0, h1, h2⟩; exact ⟨h0, h1, ih h2⟩
  | alloc o k ih => intro f h a h1 h2; exact ih a (h a h1 h2)

theorem wp_attempt {α : Type} {m : Mem} {p : Prog α} {Q : Res (Res α) → Cells → Prop} :
    ∀ {f : Cells}, wp m p f (fun r f => Q (.ok r) f) → wp m p.attempt f Q := by
  induction p with
  | ret r => intro f h; exact h
  | load a k ih => rintro f ⟨o, h1, h2⟩; exact ⟨o, h1, ih o h2⟩
  | store a o k ih => rintro f ⟨h0, h1, h2⟩; exact ⟨h0, h1, ih h2⟩
  | alloc o k ih => intro f h a h1 h2; exact ih a (h a h1 h2)

/-! ### All goroutines -/

/-- What is known of each reachable state. `own i` are the objects that goroutine `i` allocated. -/
structure Inv {α : Type} (m : Mem) (want : Nat → Res α → Prop) (s : State α) (own : Nat → Cells) : Prop where
  old : ∀ a, a < m.length → s.mem[a]? = m[a]?
  length : m.length ≤ s.mem.length
  cells : ∀ i a o, own i a = some o → m.length ≤ a ∧ s.mem[a]? = some o
  apart : ∀ i j a, (own i a).isSome → (own j a).isSome → i = j
  prog : ∀ i p, s.threads[i]? = some p → wp m p (own i) fun r _ => want i r
  allocs : ∀ i a, (i, Access.alloc a) ∈ s.log → (own i a).isSome ∧ m.length ≤ a
  owned : ∀ i a, (own i a).isSome → (i, Access.alloc a) ∈ s.log
  reads : ∀ i a, (i, Access.read a) ∈ s.log → a < m.length ∨ (own i a).isSome
  writes : ∀ i a, (i, Access.write a) ∈ s.log → m.length ≤ a ∧ (own i a).isSome

def updAt (own : Nat → Cells) (i : Nat) (f : Cells) : Nat → Cells := fun j => if j = i then f else own j

theorem updAt_self (own : Nat → Cells) (i : Nat) (f : Cells) : updAt own i f i = f := by simp [updAt]

theorem updAt_other (own : Nat → Cells) {i j : Nat} (f : Cells) (h : j ≠ i) : updAt own i f j = own j := by simp [updAt, h]

theorem isSome_upd {f : Cells} {a b : Nat} {o : Obj} : (upd f a o b).isSome = true ↔ b = a ∨ (f b).isSome = true := by
  unfold upd
  split <;> simp_all

theorem isSome_updAt {own : Nat → Cells} {i j a b : Nat} {o : Obj} :
    (updAt own i (upd (own i) a o) j b).isSome = true ↔ (j = i ∧ b = a) ∨ (own j b).isSome = true := by
  by_cases h : j = i
  · subst h; rw [updAt_self, isSome_upd]; simp
  · rw [updAt_other _ _ h]; simp [h]

theorem inv_start {α : Type} {m : Mem} {want : Nat → Res α → Prop} {ps : List (Prog α)}
    (h : ∀ i p, ps[i]? = some p → Shared.wp m p (fun _ => none) fun r _ => want i r) : Inv m want ⟨m, ps, []⟩ (fun _ _ => none) where
  old _ _ := rfl
  length := Nat.le_refl _
  cells _ _ _ e := by cases e
  apart _ _ _ e := by cases e
  prog := h
  allocs _ _ e := by cases e
  owned _ _ e := by cases e
  reads _ _ e := by cases e
  writes _ _ e := by cases e

theorem thread_set {α : Type} {l : List (Prog α)} {i j : Nat} {p q r : Prog α} (h : l[i]? = some p) (e : (l.set i q)[j]? = some r) :
    (j = i ∧ r = q) ∨ (j ≠ i ∧ l[j]? = some r) := by
  rw [List.getElem?_set] at e
  split at e
  · next hij =>
    rw [if_pos (List.getElem?_eq_some_iff.1 h).1] at e
    cases e
    exact .inl ⟨hij.symm, rfl⟩
  · next hij => exact .inr ⟨Ne.symm hij, e⟩

theorem mem_snoc {α : Type} {l : List α} {a b : α} : a ∈ l ++ [b] ↔ a ∈ l ∨ a = b := by simp

theorem inv_step {α : Type} {m : Mem} {want : Nat → Res α → Prop} {s u : State α} {own : Nat → Cells} {i : Nat} (hi : Inv m want s own)
    (h : step s i = some u) : ∃ own', Inv m want u own' := by
  unfold step at h
  split at h
  · cases h
  · cases h
  · next a k e =>
    obtain ⟨o, h1, h2⟩ := hi.prog i _ e
    have hm : s.mem[a]? = some o ∧ (a < m.length ∨ (own i a).isSome) := by
      unfold look at h1
      split at h1
      · next ha => exact ⟨(hi.old a ha).trans h1, .inl ha⟩
      · exact ⟨(hi.cells i a o h1).2, .inr (by rw [h1]; rfl)⟩
    rw [hm.1] at h
    cases h
    refine ⟨own, hi.old, hi.length, hi.cells, hi.apart, fun j p hj => ?_, fun j b hb => ?_, fun j b hb => ?_, fun j b hb => ?_, fun j b hb => ?_⟩
    · rcases thread_set e hj with ⟨rfl, rfl⟩ | ⟨-, hj⟩
      · exact h2
      · exact hi.prog j p hj
    · rcases mem_snoc.1 hb with hb | hb
      · exact hi.allocs j b hb
      · cases hb
    · exact mem_snoc.2 (.inl (hi.owned j b hb))
    · rcases mem_snoc.1 hb with hb | hb
      · exact hi.reads j b hb
      · cases hb; exact hm.2
    · rcases mem_snoc.1 hb with hb | hb
      · exact hi.writes j b hb
      · cases hb
  · next a o k e =>
    cases h
    obtain ⟨h0, h1, h2⟩ := hi.prog i _ e
    have hlen : a < s.mem.length := by
      cases hx : own i a with
      | none => rw [hx] at h1; cases h1
      | some x => exact (List.getElem?_eq_some_iff.1 (hi.cells i a x hx).2).1
    refine ⟨updAt own i (upd (own i) a o), fun b hb => ?_, ?_, fun j b x hx => ?_, fun j j' b hj hj' => ?_, fun j p hj => ?_, fun j b hb => ?_,
      fun j b hb => ?_, fun j b hb => ?_, fun j b hb => ?_⟩
    · rw [List.getElem?_set, if_neg (by omega)]; exact hi.old b hb
    · rw [List.length_set]; exact hi.length
    · by_cases hji : j = i
      · subst hji
        rw [updAt_self] at hx
        unfold upd at hx
        split at hx
        · next hba => cases hx; subst hba; exact ⟨h0, by rw [List.getElem?_set, if_pos rfl, if_pos hlen]⟩
        · next hba =>
          refine ⟨(hi.cells j b x hx).1, ?_⟩
          rw [List.getElem?_set, if_neg (Ne.symm hba)]; exact (hi.cells j b x hx).2
      · rw [updAt_other _ _ hji] at hx
        have hba : a ≠ b := by
          rintro rfl
          exact hji (hi.apart j i a (by rw [hx]; rfl) h1)
        exact ⟨(hi.cells j b x hx).1, by rw [List.getElem?_set, if_neg hba]; exact (hi.cells j b x hx).2⟩
    · rw [isSome_updAt] at hj hj'
      have : ∀ {j : Nat}, (j = i ∧ b = a) ∨ (own j b).isSome = true → (own j b).isSome = true := by
        rintro j (⟨rfl, rfl⟩ | h)
        · exact h1
        · exact h
      exact hi.apart j j' b (this hj) (this hj')
    · rcases thread_set e hj with ⟨rfl, rfl⟩ | ⟨hne, hj⟩
      · rw [updAt_self]; exact h2
      · rw [updAt_other _ _ hne]; exact hi.prog j p hj
    · rcases mem_snoc.1 hb with hb | hb
      · exact ⟨isSome_updAt.2 (.inr (hi.allocs j b hb).1), (hi.allocs j b hb).2⟩
      · cases hb
    · refine mem_snoc.2 (.inl ?_)
      rcases isSome_updAt.1 hb with ⟨rfl, rfl⟩ | hb
      · exact hi.owned _ _ h1
      · exact hi.owned _ _ hb
    · rcases mem_snoc.1 hb with hb | hb
      · exact (hi.reads j b hb).imp id fun h => isSome_updAt.2 (.inr h)
      · cases hb
    · rcases mem_snoc.1 hb with hb | hb
      · exact ⟨(hi.writes j b hb).1, isSome_updAt.2 (.inr (hi.writes j b hb).2)⟩
      · cases hb; exact ⟨h0, isSome_updAt.2 (.inr h1)⟩
  · next o k e =>
    cases h
    have hnone : ∀ j, own j s.mem.length = none := by
      intro j
      cases hx : own j s.mem.length with
      | none => rfl
      | some x => exact absurd (List.getElem?_eq_some_iff.1 (hi.cells j _ x hx).2).1 (Nat.lt_irrefl _)
    have h2 := hi.prog i _ e s.mem.length hi.length (hnone i)
    refine ⟨updAt own i (upd (own i) s.mem.length o), fun b hb => ?_, ?_, fun j b x hx => ?_, fun j j' b hj hj' => ?_, fun j p hj => ?_, fun j b hb => ?_,
      fun j b hb => ?_, fun j b hb => ?_, fun j b hb => ?_⟩
    · rw [List.getElem?_append_left (Nat.lt_of_lt_of_le hb hi.length)]; exact hi.old b hb
    · rw [List.length_append]; exact Nat.le_trans hi.length (Nat.le_add_right _ _)
    · have hold : own j b = some x → m.length ≤ b ∧ (s.mem ++ [o])[b]? = some x := fun hx =>
        ⟨(hi.cells j b x hx).1, by
          rw [List.getElem?_append_left (List.getElem?_eq_some_iff.1 (hi.cells j b x hx).2).1]; exact (hi.cells j b x hx).2⟩
      by_cases hji : j = i
      · subst hji
        rw [updAt_self] at hx
        unfold upd at hx
        split at hx
        · next hba => cases hx; subst hba; exact ⟨hi.length, by simp⟩
        · exact hold hx
      · rw [updAt_other _ _ hji] at hx
        exact hold hx
    · rw [isSome_updAt] at hj hj'
      rcases hj with ⟨rfl, rfl⟩ | hj
      · rcases hj' with ⟨rfl, -⟩ | hj'
        · rfl
        · rw [hnone] at hj'; cases hj'
      · rcases hj' with ⟨rfl, rfl⟩ | hj'
        · rw [hnone] at hj; cases hj
        · exact hi.apart j j' b hj hj'
    · rcases thread_set e hj with ⟨rfl, rfl⟩ | ⟨hne, hj⟩
      · rw [updAt_self]; exact h2
      · rw [updAt_other _ _ hne]; exact hi.prog j p hj
    · rcases mem_snoc.1 hb with hb | hb
      · exact ⟨isSome_updAt.2 (.inr (hi.allocs j b hb).1), (hi.allocs j b hb).2⟩
      · cases hb; exact ⟨isSome_updAt.2 (.inl ⟨rfl, rfl⟩), hi.length⟩
    · rcases isSome_updAt.1 hb with ⟨rfl, rfl⟩ | hb
      · exact mem_snoc.2 (.inr rfl)
      · exact mem_snoc.2 (.inl (hi.owned j b hb))
    · rcases mem_snoc.1 hb with hb | hb
      · exact (hi.reads j b hb).imp id fun h => isSome_updAt.2 (.inr h)
      · cases hb
    · rcases mem_snoc.1 hb with hb | hb
      · exact ⟨(hi.writes j b hb).1, isSome_updAt.2 (.inr (hi.writes j b hb).2)⟩
      · cases hb

theorem inv_reach {α : Type} {m : Mem} {want : Nat → Res α → Prop} {s t : State α} (h : Reach s t) {own : Nat → Cells} (hi : Inv m want s own) :
    ∃ own', Inv m want t own' := by
  induction h with
  | refl => exact ⟨own, hi⟩
  | step t u i _ h ih =>
    obtain ⟨own', hi'⟩ := ih
    exact inv_step hi' h

end Gltf.Shared
