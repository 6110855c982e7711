/-
Reasoning about programs that use scratch arrays from pools: a program that only touches arrays it
has taken runs as if it were alone.
-/
import Verif.Model.Pool
import Verif.Lemmas.TypedRead

namespace Gltf.Conc

open Gltf

/-- The arrays that a goroutine has taken. -/
abbrev Own := List (Pool × Nat)

/-- The program, run alone with the given arrays, touches only arrays that it has taken, whatever the
pools give, and ends with `Q`. -/
def wp {α : Type} : Prog α → Own → (Nat → Mem) → (Own → (Nat → Mem) → α → Prop) → Prop
  | .ret a, own, h, Q => Q own h a
  | .get p k, own, h, Q => ∀ id m, (∀ q, (q, id) ∉ own) → wp (k id) ((p, id) :: own) (setHeap h id m) Q
  | .put p id k, own, h, Q => (p, id) ∈ own ∧ wp k (own.erase (p, id)) h Q
  | .load id k, own, h, Q => (∃ q, (q, id) ∈ own) ∧ wp (k (h id)) own h Q
  | .upd id f k, own, h, Q => (∃ q, (q, id) ∈ own) ∧ wp k own (setHeap h id (f (h id))) Q

theorem setHeap_self {h : Nat → Mem} {id : Nat} : setHeap h id (h id) = h := by
  funext i; unfold setHeap; split
  · next e => rw [e]
  · rfl

@[simp] theorem setHeap_eq {h : Nat → Mem} {id : Nat} {m : Mem} : setHeap h id m id = m := by
  unfold setHeap; rw [if_pos rfl]

theorem setHeap_ne {h : Nat → Mem} {id i : Nat} {m : Mem} (e : i ≠ id) : setHeap h id m i = h i := by
  unfold setHeap; rw [if_neg e]

theorem setHeap_twice {h : Nat → Mem} {id : Nat} {m m' : Mem} : setHeap (setHeap h id m) id m' = setHeap h id m' := by
  funext i; unfold setHeap; split <;> rfl

theorem wp_mono {α : Type} {P : Prog α} {own : Own} {h : Nat → Mem} {Q Q' : Own → (Nat → Mem) → α → Prop}
    (hP : wp P own h Q) (hQ : ∀ o g a, Q o g a → Q' o g a) : wp P own h Q' := by
  induction P generalizing own h with
  | ret a => exact hQ _ _ _ hP
  | get p k ih => intro id m hn; exact ih _ (hP id m hn)
  | put p id k ih => exact ⟨hP.1, ih hP.2⟩
  | load id k ih => exact ⟨hP.1, ih _ hP.2⟩
  | upd id f k ih => exact ⟨hP.1, ih hP.2⟩

theorem wp_bind {α β : Type} {P : Prog α} {f : α → Prog β} {own : Own} {h : Nat → Mem}
    {Q : Own → (Nat → Mem) → β → Prop} (hP : wp P own h fun o g a => wp (f a) o g Q) : wp (P.bind f) own h Q := by
  induction P generalizing own h with
  | ret a => exact hP
  | get p k ih => intro id m hn; exact ih _ (hP id m hn)
  | put p id k ih => exact ⟨hP.1, ih hP.2⟩
  | load id k ih => exact ⟨hP.1, ih _ hP.2⟩
  | upd id f k ih => exact ⟨hP.1, ih hP.2⟩

/-- Other arrays do not matter. -/
theorem wp_frame {α : Type} {P : Prog α} {own : Own} {h h' : Nat → Mem} {R : α → Prop}
    (ha : ∀ x ∈ own, h' x.2 = h x.2) (hP : wp P own h fun _ _ a => R a) : wp P own h' fun _ _ a => R a := by
  induction P generalizing own h h' with
  | ret a => exact hP
  | get p k ih =>
    intro id m hn
    apply ih _ _ (hP id m hn)
    intro x hx
    unfold setHeap
    split
    · rfl
    · next hne =>
      rcases List.mem_cons.1 hx with rfl | hx
      · exact absurd rfl hne
      · exact ha x hx
  | put p id k ih => exact ⟨hP.1, ih (fun x hx => ha x (List.mem_of_mem_erase hx)) hP.2⟩
  | load id k ih =>
    obtain ⟨q, hq⟩ := hP.1
    have e : h' id = h id := ha _ hq
    refine ⟨hP.1, ?_⟩
    rw [e]
    exact ih _ ha hP.2
  | upd id f k ih =>
    obtain ⟨q, hq⟩ := hP.1
    have e : h' id = h id := ha _ hq
    refine ⟨hP.1, ih ?_ hP.2⟩
    intro x hx
    unfold setHeap
    split
    · rw [e]
    · exact ha x hx

/-! ### Executions -/

/-- Every goroutine is about to give a result with its property, and no array is used twice. -/
structure Inv (R : Nat → Res Slice → Prop) (s : State) (own : Nat → Own) : Prop where
  thread : ∀ i P, s.threads[i]? = some P → wp P (own i) s.heap fun _ _ a => R i a
  apart : ∀ i j x y, i ≠ j → x ∈ own i → y ∈ own j → x.2 ≠ y.2
  pooled : ∀ i x y, x ∈ own i → y ∈ s.free → x.2 ≠ y.2
  ownNodup : ∀ i, ((own i).map (·.2)).Nodup
  freeNodup : (s.free.map (·.2)).Nodup
  ownLt : ∀ i x, x ∈ own i → x.2 < s.next
  freeLt : ∀ x, x ∈ s.free → x.2 < s.next

/-- Change of the arrays of one goroutine. -/
def setOwn (own : Nat → Own) (i : Nat) (o : Own) : Nat → Own := fun j => if j = i then o else own j

@[simp] theorem setOwn_eq {own : Nat → Own} {i : Nat} {o : Own} : setOwn own i o i = o := by
  unfold setOwn; rw [if_pos rfl]

theorem setOwn_ne {own : Nat → Own} {i j : Nat} {o : Own} (e : j ≠ i) : setOwn own i o j = own j := by
  unfold setOwn; rw [if_neg e]

theorem nodup_erase {l : Own} {x : Pool × Nat} (h : (l.map (·.2)).Nodup) : ((l.erase x).map (·.2)).Nodup :=
  h.sublist (List.Sublist.map _ List.erase_sublist)

theorem snd_ne_of_erase {l : Own} {x y : Pool × Nat} (h : (l.map (·.2)).Nodup) (hx : x ∈ l) (hy : y ∈ l.erase x) :
    y.2 ≠ x.2 := by
  induction l with
  | nil => cases hx
  | cons z l ih =>
    rw [List.map_cons, List.nodup_cons] at h
    rw [List.erase_cons] at hy
    split at hy
    · next e =>
      have e : z = x := by simpa using e
      subst e
      intro he
      exact h.1 (he ▸ List.mem_map_of_mem hy)
    · next e =>
      have e : z ≠ x := by simpa using e
      have hx' : x ∈ l := by
        rcases List.mem_cons.1 hx with h1 | h1
        · exact absurd h1.symm e
        · exact h1
      rcases List.mem_cons.1 hy with rfl | hy
      · intro he
        exact h.1 (he ▸ List.mem_map_of_mem hx')
      · exact ih h.2 hx' hy

theorem threads_set {l : List (Prog (Res Slice))} {i j : Nat} {P P' : Prog (Res Slice)} (h : (l.set i P)[j]? = some P') :
    (j = i ∧ P' = P) ∨ (j ≠ i ∧ l[j]? = some P') := by
  rw [List.getElem?_set] at h
  split at h
  · next e =>
    split at h
    · left; cases h; exact ⟨e.symm, rfl⟩
    · cases h
  · next e => exact .inr ⟨fun h => e h.symm, h⟩

theorem Inv.step {R : Nat → Res Slice → Prop} {s s' : State} {own : Nat → Own} (hi : Inv R s own) (hs : Step s s') :
    ∃ own', Inv R s' own' := by
  cases hs with
  | @reuse i p k id ht hf =>
    have hw := hi.thread i _ ht
    have hnot : ∀ q, (q, id) ∉ own i := fun q hq => hi.pooled i _ _ hq hf rfl
    refine ⟨setOwn own i ((p, id) :: own i), ?_, ?_, ?_, ?_, ?_, ?_, ?_⟩
    · intro j P hj
      rcases threads_set hj with ⟨rfl, rfl⟩ | ⟨hne, hj⟩
      · rw [setOwn_eq]
        have := hw id (s.heap id) hnot
        rwa [setHeap_self] at this
      · rw [setOwn_ne hne]; exact hi.thread j P hj
    · intro a b x y hab hx hy
      by_cases ha : a = i
      · subst ha
        rw [setOwn_eq] at hx
        rw [setOwn_ne (Ne.symm hab)] at hy
        rcases List.mem_cons.1 hx with rfl | hx
        · exact fun e => hi.pooled b _ _ hy hf e.symm
        · exact hi.apart _ _ _ _ hab hx hy
      · rw [setOwn_ne ha] at hx
        by_cases hb : b = i
        · subst hb
          rw [setOwn_eq] at hy
          rcases List.mem_cons.1 hy with rfl | hy
          · exact hi.pooled a _ _ hx hf
          · exact hi.apart _ _ _ _ hab hx hy
        · rw [setOwn_ne hb] at hy
          exact hi.apart _ _ _ _ hab hx hy
    · intro a x y hx hy
      by_cases ha : a = i
      · subst ha
        rw [setOwn_eq] at hx
        rcases List.mem_cons.1 hx with rfl | hx
        · exact (snd_ne_of_erase hi.freeNodup hf hy).symm
        · exact hi.pooled _ _ _ hx (List.mem_of_mem_erase hy)
      · rw [setOwn_ne ha] at hx
        exact hi.pooled _ _ _ hx (List.mem_of_mem_erase hy)
    · intro a
      by_cases ha : a = i
      · subst ha
        rw [setOwn_eq, List.map_cons, List.nodup_cons]
        refine ⟨?_, hi.ownNodup a⟩
        intro hm
        obtain ⟨⟨q, n⟩, hq, rfl⟩ := List.mem_map.1 hm
        exact hnot q hq
      · rw [setOwn_ne ha]; exact hi.ownNodup a
    · exact nodup_erase hi.freeNodup
    · intro a x hx
      by_cases ha : a = i
      · subst ha
        rw [setOwn_eq] at hx
        rcases List.mem_cons.1 hx with rfl | hx
        · exact hi.freeLt _ hf
        · exact hi.ownLt _ _ hx
      · rw [setOwn_ne ha] at hx; exact hi.ownLt _ _ hx
    · intro x hx; exact hi.freeLt _ (List.mem_of_mem_erase hx)
  | @new i p k ht =>
    have hw := hi.thread i _ ht
    have hnot : ∀ q, (q, s.next) ∉ own i := fun q hq => Nat.lt_irrefl _ (hi.ownLt i _ hq)
    refine ⟨setOwn own i ((p, s.next) :: own i), ?_, ?_, ?_, ?_, ?_, ?_, ?_⟩
    · intro j P hj
      rcases threads_set hj with ⟨rfl, rfl⟩ | ⟨hne, hj⟩
      · rw [setOwn_eq]
        exact hw s.next _ hnot
      · rw [setOwn_ne hne]
        apply wp_frame _ (hi.thread j P hj)
        intro x hx
        exact setHeap_ne (Nat.ne_of_lt (hi.ownLt j x hx))
    · intro a b x y hab hx hy
      by_cases ha : a = i
      · subst ha
        rw [setOwn_eq] at hx
        rw [setOwn_ne (Ne.symm hab)] at hy
        rcases List.mem_cons.1 hx with rfl | hx
        · exact Nat.ne_of_gt (hi.ownLt b _ hy)
        · exact hi.apart _ _ _ _ hab hx hy
      · rw [setOwn_ne ha] at hx
        by_cases hb : b = i
        · subst hb
          rw [setOwn_eq] at hy
          rcases List.mem_cons.1 hy with rfl | hy
          · exact Nat.ne_of_lt (hi.ownLt a _ hx)
          · exact hi.apart _ _ _ _ hab hx hy
        · rw [setOwn_ne hb] at hy
          exact hi.apart _ _ _ _ hab hx hy
    · intro a x y hx hy
      by_cases ha : a = i
      · subst ha
        rw [setOwn_eq] at hx
        rcases List.mem_cons.1 hx with rfl | hx
        · exact Nat.ne_of_gt (hi.freeLt _ hy)
        · exact hi.pooled _ _ _ hx hy
      · rw [setOwn_ne ha] at hx
        exact hi.pooled _ _ _ hx hy
    · intro a
      by_cases ha : a = i
      · subst ha
        rw [setOwn_eq, List.map_cons, List.nodup_cons]
        refine ⟨?_, hi.ownNodup a⟩
        intro hm
        obtain ⟨⟨q, n⟩, hq, he⟩ := List.mem_map.1 hm
        cases he
        exact hnot q hq
      · rw [setOwn_ne ha]; exact hi.ownNodup a
    · exact hi.freeNodup
    · intro a x hx
      by_cases ha : a = i
      · subst ha
        rw [setOwn_eq] at hx
        rcases List.mem_cons.1 hx with rfl | hx
        · exact Nat.lt_succ_self _
        · exact Nat.lt_succ_of_lt (hi.ownLt _ _ hx)
      · rw [setOwn_ne ha] at hx; exact Nat.lt_succ_of_lt (hi.ownLt _ _ hx)
    · intro x hx; exact Nat.lt_succ_of_lt (hi.freeLt _ hx)
  | @put i p id k ht =>
    have hw := hi.thread i _ ht
    refine ⟨setOwn own i ((own i).erase (p, id)), ?_, ?_, ?_, ?_, ?_, ?_, ?_⟩
    · intro j P hj
      rcases threads_set hj with ⟨rfl, rfl⟩ | ⟨hne, hj⟩
      · rw [setOwn_eq]; exact hw.2
      · rw [setOwn_ne hne]; exact hi.thread j P hj
    · intro a b x y hab hx hy
      have hx' : x ∈ own a := by
        by_cases ha : a = i
        · subst ha; rw [setOwn_eq] at hx; exact List.mem_of_mem_erase hx
        · rwa [setOwn_ne ha] at hx
      have hy' : y ∈ own b := by
        by_cases ha : b = i
        · subst ha; rw [setOwn_eq] at hy; exact List.mem_of_mem_erase hy
        · rwa [setOwn_ne ha] at hy
      exact hi.apart _ _ _ _ hab hx' hy'
    · intro a x y hx hy
      by_cases ha : a = i
      · subst ha
        rw [setOwn_eq] at hx
        rcases List.mem_cons.1 hy with rfl | hy
        · exact snd_ne_of_erase (hi.ownNodup a) hw.1 hx
        · exact hi.pooled _ _ _ (List.mem_of_mem_erase hx) hy
      · rw [setOwn_ne ha] at hx
        rcases List.mem_cons.1 hy with rfl | hy
        · exact hi.apart _ _ _ _ ha hx hw.1
        · exact hi.pooled _ _ _ hx hy
    · intro a
      by_cases ha : a = i
      · subst ha; rw [setOwn_eq]; exact nodup_erase (hi.ownNodup a)
      · rw [setOwn_ne ha]; exact hi.ownNodup a
    · show (((p, id) :: s.free).map (·.2)).Nodup
      rw [List.map_cons, List.nodup_cons]
      refine ⟨?_, hi.freeNodup⟩
      intro hm
      obtain ⟨y, hy, he⟩ := List.mem_map.1 hm
      exact hi.pooled i _ _ hw.1 hy he.symm
    · intro a x hx
      by_cases ha : a = i
      · subst ha; rw [setOwn_eq] at hx; exact hi.ownLt _ _ (List.mem_of_mem_erase hx)
      · rw [setOwn_ne ha] at hx; exact hi.ownLt _ _ hx
    · intro x hx
      rcases List.mem_cons.1 hx with rfl | hx
      · exact hi.ownLt _ _ hw.1
      · exact hi.freeLt _ hx
  | @load i id k ht =>
    have hw := hi.thread i _ ht
    refine ⟨own, ?_, hi.apart, hi.pooled, hi.ownNodup, hi.freeNodup, hi.ownLt, hi.freeLt⟩
    intro j P hj
    rcases threads_set hj with ⟨rfl, rfl⟩ | ⟨hne, hj⟩
    · exact hw.2
    · exact hi.thread j P hj
  | @upd i id f k ht =>
    have hw := hi.thread i _ ht
    refine ⟨own, ?_, hi.apart, hi.pooled, hi.ownNodup, hi.freeNodup, hi.ownLt, hi.freeLt⟩
    intro j P hj
    rcases threads_set hj with ⟨rfl, rfl⟩ | ⟨hne, hj⟩
    · exact hw.2
    · apply wp_frame _ (hi.thread j P hj)
      intro x hx
      obtain ⟨q, hq⟩ := hw.1
      exact setHeap_ne (hi.apart _ _ _ _ hne hx hq)
  | @collect x hf =>
    exact ⟨own, hi.thread, hi.apart, fun a x y hx hy => hi.pooled _ _ _ hx (List.mem_of_mem_erase hy),
      hi.ownNodup, nodup_erase hi.freeNodup, hi.ownLt, fun x hx => hi.freeLt _ (List.mem_of_mem_erase hx)⟩

theorem Inv.steps {R : Nat → Res Slice → Prop} {s s' : State} {own : Nat → Own} (hi : Inv R s own) (hs : Steps s s') :
    ∃ own', Inv R s' own' := by
  induction hs with
  | refl => exact ⟨own, hi⟩
  | step _ h2 ih =>
    obtain ⟨o, ho⟩ := ih
    exact ho.step h2

/-! ### The readers alone -/

/-- The program keeps its arrays and the contents of all of them, and ends with `R`. -/
def Keeps {α : Type} (P : Prog α) (own : Own) (h : Nat → Mem) (R : α → Prop) : Prop :=
  wp P own h fun o g a => o = own ∧ (∀ x ∈ own, g x.2 = h x.2) ∧ R a

/-- The same for a program that changes one array. -/
def KeepsBut {α : Type} (id : Nat) (P : Prog α) (own : Own) (h : Nat → Mem) (R : Mem → α → Prop) : Prop :=
  wp P own h fun o g a => o = own ∧ (∀ x ∈ own, x.2 ≠ id → g x.2 = h x.2) ∧ R (g id) a

theorem withArray_keeps {α : Type} {p : Pool} {body : Nat → Prog α} {own : Own} {h : Nat → Mem} {R : α → Prop}
    (hb : ∀ id m, (∀ q, (q, id) ∉ own) →
      KeepsBut id (body id) ((p, id) :: own) (setHeap h id m) fun _ a => R a) : Keeps (withArray p body) own h R := by
  intro id m hn
  apply wp_bind
  apply wp_mono (hb id m hn)
  rintro o g a ⟨rfl, h2, h3⟩
  refine ⟨List.mem_cons_self, ?_⟩
  rw [List.erase_cons_head]
  refine ⟨rfl, fun x hx => ?_, h3⟩
  have hne : x.2 ≠ id := by
    rintro rfl
    exact hn x.1 hx
  rw [h2 x (List.mem_cons_of_mem _ hx) hne, setHeap_ne hne]

theorem storeFrom_spec {id : Nat} {ty : ETy} (xs pre old : List ty.Elem) {own : Own} {h : Nat → Mem} {p : Pool}
    (ho : (p, id) ∈ own) (hh : h id = .view ⟨ty, pre ++ old⟩) (hl : old.length = xs.length) :
    wp (storeFrom id ty xs pre.length) own h fun o g _ => o = own ∧ g = setHeap h id (.view ⟨ty, pre ++ xs⟩) := by
  induction xs generalizing pre old h with
  | nil =>
    have : old = [] := List.length_eq_zero_iff.1 hl
    subst this
    exact ⟨rfl, by rw [← hh, setHeap_self]⟩
  | cons x xs ih =>
    cases old with
    | nil => simp at hl
    | cons y old =>
      refine ⟨⟨p, ho⟩, ?_⟩
      have hset : setElem ty pre.length x (h id) = .view ⟨ty, (pre ++ [x]) ++ old⟩ := by
        rw [hh]
        unfold setElem
        simp only [dif_pos]
        simp
      have hlen : (pre ++ [x]).length = pre.length + 1 := by simp
      have := ih (pre ++ [x]) old (h := setHeap h id (setElem ty pre.length x (h id))) (by rw [setHeap_eq, hset])
        (by simpa using hl)
      rw [hlen] at this
      apply wp_mono this
      rintro o g - ⟨rfl, rfl⟩
      refine ⟨rfl, ?_⟩
      rw [setHeap_twice, List.append_assoc]
      rfl

theorem loadFrom_spec {id : Nat} {ty : ETy} {d : List ty.Elem} (n i : Nat) {own : Own} {h : Nat → Mem} {p : Pool}
    (ho : (p, id) ∈ own) (hh : h id = .view ⟨ty, d⟩) (hl : i + n ≤ d.length) :
    wp (loadFrom id ty n i) own h fun o g a => o = own ∧ g = h ∧ a = some ((d.drop i).take n) := by
  induction n generalizing i with
  | zero => exact ⟨rfl, rfl, by simp⟩
  | succ n ih =>
    refine ⟨⟨p, ho⟩, ?_⟩
    have hg : getElem ty i (h id) = some (d[i]'(by omega)) := by
      rw [hh]
      unfold getElem
      simp only [dif_pos]
      exact List.getElem?_eq_getElem (by omega)
    simp only [hg]
    apply wp_bind
    apply wp_mono (ih (i + 1) (by omega))
    rintro o g a ⟨rfl, rfl, rfl⟩
    refine ⟨rfl, rfl, ?_⟩
    rw [Option.map_some, List.drop_eq_getElem_cons (show i < d.length by omega), List.take_succ_cons]

theorem storeWords_spec {id : Nat} (xs pre old : List UInt32) {own : Own} {h : Nat → Mem} {p : Pool}
    (ho : (p, id) ∈ own) (hh : h id = .words (pre ++ old)) (hl : old.length = xs.length) :
    wp (storeWords id xs pre.length) own h fun o g _ => o = own ∧ g = setHeap h id (.words (pre ++ xs)) := by
  induction xs generalizing pre old h with
  | nil =>
    have : old = [] := List.length_eq_zero_iff.1 hl
    subst this
    exact ⟨rfl, by rw [← hh, setHeap_self]⟩
  | cons x xs ih =>
    cases old with
    | nil => simp at hl
    | cons y old =>
      refine ⟨⟨p, ho⟩, ?_⟩
      have hset : setWord pre.length x (h id) = .words ((pre ++ [x]) ++ old) := by
        rw [hh]
        unfold setWord
        simp
      have hlen : (pre ++ [x]).length = pre.length + 1 := by simp
      have := ih (pre ++ [x]) old (h := setHeap h id (setWord pre.length x (h id))) (by rw [setHeap_eq, hset])
        (by simpa using hl)
      rw [hlen] at this
      apply wp_mono this
      rintro o g - ⟨rfl, rfl⟩
      refine ⟨rfl, ?_⟩
      rw [setHeap_twice, List.append_assoc]
      rfl

theorem loadWords_spec {id : Nat} {d : List UInt32} (n i : Nat) {own : Own} {h : Nat → Mem} {p : Pool}
    (ho : (p, id) ∈ own) (hh : h id = .words d) (hl : i + n ≤ d.length) :
    wp (loadWords id n i) own h fun o g a => o = own ∧ g = h ∧ a = some ((d.drop i).take n) := by
  induction n generalizing i with
  | zero => exact ⟨rfl, rfl, by simp⟩
  | succ n ih =>
    refine ⟨⟨p, ho⟩, ?_⟩
    have hg : (h id).toWords[i]? = some (d[i]'(by omega)) := by
      rw [hh]
      exact List.getElem?_eq_getElem (l := d) (by omega)
    simp only [hg]
    apply wp_bind
    apply wp_mono (ih (i + 1) (by omega))
    rintro o g a ⟨rfl, rfl, rfl⟩
    refine ⟨rfl, rfl, ?_⟩
    rw [Option.map_some, List.drop_eq_getElem_cons (show i < d.length by omega), List.take_succ_cons]

theorem contents_spec {id : Nat} {ty : ETy} {d : List ty.Elem} {own : Own} {h : Nat → Mem} {p : Pool}
    (ho : (p, id) ∈ own) (hh : h id = .view ⟨ty, d⟩) :
    wp (contents id ty d.length) own h fun o g a => o = own ∧ g = h ∧ a = .ok ⟨ty, d⟩ := by
  apply wp_bind
  apply wp_mono (loadFrom_spec d.length 0 ho hh (by omega))
  rintro o g a ⟨rfl, rfl, rfl⟩
  exact ⟨rfl, rfl, by simp⟩

theorem readInto_same {doc : Document} {bv : Option Int} {off : Int} {data s : Slice}
    (h : readInto doc bv off data = .ok s) : ∃ d, s = ⟨data.ty, d⟩ ∧ d.length = data.data.length := by
  unfold readInto at h
  cases bv with
  | none => cases h; exact ⟨_, rfl, rfl⟩
  | some i =>
    simp only [Res.bind_eq_ok, Res.pure_eq, Res.ok.injEq] at h
    obtain ⟨_, -, _, -, _, -, d, hd, rfl⟩ := h
    exact ⟨d, rfl, read_length hd⟩

theorem readDense_readInto {doc : Document} {c : ComponentType} {t : AccessorType} {count : Int} {bv : Option Int}
    {off : Int} {buffer : Bytes} : readDense doc c t count bv off buffer
      = makeSliceBuffer c t count buffer >>= fun data => readInto doc bv off data := by
  cases bv <;> rfl

theorem denseProg_spec {repr : Slice → Bytes} {doc : Document} {c : ComponentType} {t : AccessorType} {count : Int}
    {bv : Option Int} {off : Int} {id : Nat} {own : Own} {h : Nat → Mem} {p : Pool} (ho : (p, id) ∈ own) :
    KeepsBut id (denseProg repr doc c t count bv off id) own h fun m a =>
      ∃ b, a = (readDense doc c t count bv off b).map (fun s => (s.ty, s.data.length)) ∧
        ∀ s, readDense doc c t count bv off b = .ok s → m = .view s := by
  refine ⟨⟨p, ho⟩, ?_⟩
  have hr := @readDense_readInto doc c t count bv off ((h id).bytes repr)
  simp only
  split
  · next e he =>
    rw [he, Res.err_bind] at hr
    exact ⟨rfl, fun _ _ _ => rfl, _, by rw [hr]; rfl, fun s hs => by rw [hr] at hs; cases hs⟩
  · next e he =>
    rw [he, Res.panic_bind] at hr
    exact ⟨rfl, fun _ _ _ => rfl, _, by rw [hr]; rfl, fun s hs => by rw [hr] at hs; cases hs⟩
  · next data he =>
    rw [he, Res.ok_bind] at hr
    refine ⟨⟨p, ho⟩, ?_⟩
    split
    · next e he2 =>
      rw [he2] at hr
      exact ⟨rfl, fun _ _ hne => setHeap_ne hne, _, by rw [hr]; rfl, fun s hs => by rw [hr] at hs; cases hs⟩
    · next e he2 =>
      rw [he2] at hr
      exact ⟨rfl, fun _ _ hne => setHeap_ne hne, _, by rw [hr]; rfl, fun s hs => by rw [hr] at hs; cases hs⟩
    · next s he2 =>
      rw [he2] at hr
      obtain ⟨d, rfl, hl⟩ := readInto_same he2
      apply wp_bind
      have := storeFrom_spec (id := id) (ty := data.ty) d [] data.data (own := own) (h := setHeap h id (.view data)) ho
        (by rw [setHeap_eq]; rfl) hl.symm
      apply wp_mono this
      rintro o g - ⟨rfl, rfl⟩
      refine ⟨rfl, fun _ _ hne => ?_, _, by rw [hr]; rfl, fun s hs => ?_⟩
      · rw [setHeap_ne hne, setHeap_ne hne]
      · rw [hr] at hs
        cases hs
        rw [setHeap_eq]
        rfl

theorem fill_length {α β : Type} {buffer r : List β} {f : α → β} {data : List α} (h : fill buffer f data = .ok r) :
    r.length = buffer.length := by
  unfold fill at h
  split at h
  · cases h; simp; omega
  · cases h

theorem indicesOf_length {buffer r : List UInt32} {s : Slice} (h : indicesOf buffer s = .ok r) :
    r.length = buffer.length := by
  unfold indicesOf at h
  split at h
  · exact fill_length h
  · exact fill_length h
  · cases h; exact goCopy_length _ _
  · cases h; rfl

theorem wp_andThen {α β : Type} {P : Prog (Res α)} {f : α → Prog (Res β)} {own : Own} {h : Nat → Mem}
    {Q : Own → (Nat → Mem) → Res β → Prop}
    (hP : wp P own h fun o g r => (∀ a, r = .ok a → wp (f a) o g Q) ∧ (∀ e, r = .err e → Q o g (.err e)) ∧
      ∀ w, r = .panic w → Q o g (.panic w)) : wp (andThen P f) own h Q := by
  apply wp_bind
  apply wp_mono hP
  rintro o g r ⟨h1, h2, h3⟩
  cases r with
  | ok a => exact h1 a rfl
  | err e => exact h2 e rfl
  | panic w => exact h3 w rfl

theorem indicesProg_spec {repr : Slice → Bytes} {doc : Document} {c : ComponentType} {count bv off : Int} {j : Nat}
    {own : Own} {h : Nat → Mem} {p : Pool} (ho : (p, j) ∈ own) :
    KeepsBut j (indicesProg repr doc c count bv off j) own h fun m a =>
      ∃ idx b1, a = (readIndicesDense doc c .scalar count (some bv) off idx b1).map List.length ∧
        ∀ r, readIndicesDense doc c .scalar count (some bv) off idx b1 = .ok r → m = .words r := by
  unfold indicesProg
  split
  · next e he =>
    have hr : readIndicesDense doc c .scalar count (some bv) off [] [] = .err e := by
      unfold readIndicesDense; rw [he]; rfl
    exact ⟨rfl, fun _ _ _ => rfl, _, _, by rw [hr]; rfl, fun s hs => by rw [hr] at hs; cases hs⟩
  · next e he =>
    have hr : readIndicesDense doc c .scalar count (some bv) off [] [] = .panic e := by
      unfold readIndicesDense; rw [he]; rfl
    exact ⟨rfl, fun _ _ _ => rfl, _, _, by rw [hr]; rfl, fun s hs => by rw [hr] at hs; cases hs⟩
  · next u hck =>
    intro b1 m hn
    have hjb : j ≠ b1 := fun e => hn p (e ▸ ho)
    apply wp_bind
    -- the body keeps all arrays but `j` and `b1`
    suffices hbody : wp _ ((Pool.buf, b1) :: own) (setHeap h b1 m) fun o g a =>
        o = (Pool.buf, b1) :: own ∧ (∀ x ∈ own, x.2 ≠ j → g x.2 = h x.2) ∧
          ∃ idx b1, a = (readIndicesDense doc c .scalar count (some bv) off idx b1).map List.length ∧
            ∀ r, readIndicesDense doc c .scalar count (some bv) off idx b1 = .ok r → g j = .words r by
      apply wp_mono hbody
      rintro o g a ⟨rfl, h2, h3⟩
      refine ⟨List.mem_cons_self, ?_⟩
      rw [List.erase_cons_head]
      exact ⟨rfl, h2, h3⟩
    have keep : ∀ g : Nat → Mem, (∀ x ∈ (Pool.buf, b1) :: own, x.2 ≠ b1 → g x.2 = setHeap h b1 m x.2) →
        ∀ x ∈ own, g x.2 = h x.2 := by
      intro g hg x hx
      have hne : x.2 ≠ b1 := by rintro rfl; exact hn x.1 hx
      rw [hg x (List.mem_cons_of_mem _ hx) hne, setHeap_ne hne]
    apply wp_andThen
    apply wp_mono (denseProg_spec (p := .buf) List.mem_cons_self)
    rintro o g r ⟨rfl, hg, b, rfl, hv⟩
    have hg := keep g hg
    have hr : ∀ idx, readIndicesDense doc c .scalar count (some bv) off idx b
        = readDense doc c .scalar count (some bv) off b >>= fun data =>
            makeBufferOf 0 count idx >>= fun buffer => indicesOf buffer data := by
      intro idx; unfold readIndicesDense; rw [hck]; rfl
    refine ⟨?_, ?_, ?_⟩
    · rintro ⟨ty, n⟩ ha
      obtain ⟨data, hd, he⟩ := Res.map_eq_ok.1 ha
      cases he
      have hv := hv data hd
      rw [hd] at hr
      simp only [Res.ok_bind] at hr
      apply wp_andThen
      apply wp_mono (contents_spec (p := .buf) List.mem_cons_self (by rw [hv]))
      rintro o g' r ⟨rfl, rfl, rfl⟩
      refine ⟨?_, nofun, nofun⟩
      rintro _ ⟨⟩
      refine ⟨⟨p, List.mem_cons_of_mem _ ho⟩, ?_⟩
      simp only
      have hr := hr (g' j).toWords
      split
      · next e he =>
        rw [he, Res.err_bind] at hr
        exact ⟨rfl, fun x hx _ => hg x hx, _, _, by rw [hr]; rfl, fun s hs => by rw [hr] at hs; cases hs⟩
      · next e he =>
        rw [he, Res.panic_bind] at hr
        exact ⟨rfl, fun x hx _ => hg x hx, _, _, by rw [hr]; rfl, fun s hs => by rw [hr] at hs; cases hs⟩
      · next buffer he =>
        rw [he, Res.ok_bind] at hr
        refine ⟨⟨p, List.mem_cons_of_mem _ ho⟩, ?_⟩
        split
        · next e he2 =>
          rw [he2] at hr
          exact ⟨rfl, fun x hx hne => by rw [setHeap_ne hne]; exact hg x hx, _, _, by rw [hr]; rfl,
            fun s hs => by rw [hr] at hs; cases hs⟩
        · next e he2 =>
          rw [he2] at hr
          exact ⟨rfl, fun x hx hne => by rw [setHeap_ne hne]; exact hg x hx, _, _, by rw [hr]; rfl,
            fun s hs => by rw [hr] at hs; cases hs⟩
        · next r he2 =>
          rw [he2] at hr
          apply wp_bind
          apply wp_mono (storeWords_spec (p := p) (id := j) r [] buffer (List.mem_cons_of_mem _ ho)
            (by rw [setHeap_eq]; rfl) (indicesOf_length he2).symm)
          rintro o g'' - ⟨rfl, rfl⟩
          refine ⟨rfl, fun x hx hne => ?_, _, _, by rw [hr]; rfl, fun s hs => ?_⟩
          · rw [setHeap_ne hne, setHeap_ne hne]; exact hg x hx
          · rw [hr] at hs
            cases hs
            rw [setHeap_eq]; rfl
    · intro e ha
      have hd : readDense doc c .scalar count (some bv) off b = .err e := by
        cases hx : readDense doc c .scalar count (some bv) off b <;> rw [hx] at ha <;> cases ha; rfl
      rw [hd] at hr
      refine ⟨rfl, fun x hx _ => hg x hx, [], b, by rw [hr]; rfl, fun s hs => by rw [hr] at hs; cases hs⟩
    · intro e ha
      have hd : readDense doc c .scalar count (some bv) off b = .panic e := by
        cases hx : readDense doc c .scalar count (some bv) off b <;> rw [hx] at ha <;> cases ha; rfl
      rw [hd] at hr
      refine ⟨rfl, fun x hx _ => hg x hx, [], b, by rw [hr]; rfl, fun s hs => by rw [hr] at hs; cases hs⟩

/-- The sparse part of `readAccessor`. -/
def sparsePart (doc : Document) (acr : Accessor) (sp : Sparse) (data : Slice) (p : Pools) : Res Slice := do
  let indices ← readIndicesDense doc sp.indices.componentType .scalar sp.count (some sp.indices.bufferView)
    sp.indices.byteOffset p.idx p.b1
  let values ← readDense doc acr.componentType acr.type sp.count (some sp.values.bufferView)
    sp.values.byteOffset p.b2
  assignSparse sp data indices values

theorem map_err_inv {α β : Type} {x : Res α} {f : α → β} {e : Err} (h : x.map f = .err e) : x = .err e := by
  cases x <;> cases h; rfl

theorem map_panic_inv {α β : Type} {x : Res α} {f : α → β} {e : String} (h : x.map f = .panic e) : x = .panic e := by
  cases x <;> cases h; rfl

theorem sparseProg_spec {repr : Slice → Bytes} {doc : Document} {acr : Accessor} {sp : Sparse} {data : Slice}
    {own : Own} {h : Nat → Mem} :
    Keeps (sparseProg repr doc acr sp data) own h fun a => ∃ p, a = sparsePart doc acr sp data p := by
  apply withArray_keeps
  intro j m hn
  apply wp_andThen
  apply wp_mono (indicesProg_spec (p := .idx) List.mem_cons_self)
  rintro o g r ⟨rfl, hg, idx, b1, rfl, hv⟩
  refine ⟨?_, ?_, ?_⟩
  · intro n ha
    obtain ⟨ind, hi, rfl⟩ := Res.map_eq_ok.1 ha
    have hv := hv ind hi
    have hb : Keeps (withArray .buf fun b2 =>
      andThen (denseProg repr doc acr.componentType acr.type sp.count (some sp.values.bufferView) sp.values.byteOffset b2) fun (ty, m) =>
      (loadWords j ind.length 0).bind fun indices =>
      match indices with
      | none => .ret (.panic "concurrent modification")
      | some indices => andThen (contents b2 ty m) fun values => .ret (assignSparse sp data indices values))
      ((Pool.idx, j) :: own) g fun a => ∃ p, a = sparsePart doc acr sp data p := by
      apply withArray_keeps
      intro b2 m2 hn2
      have hjb : j ≠ b2 := fun e => hn2 .idx (e ▸ List.mem_cons_self)
      apply wp_andThen
      apply wp_mono (denseProg_spec (p := .buf) List.mem_cons_self)
      rintro o g' r ⟨rfl, hg', b, rfl, hv'⟩
      have hg'j : g' j = .words ind := by
        rw [hg' (.idx, j) (List.mem_cons_of_mem _ List.mem_cons_self) hjb, setHeap_ne hjb, hv]
      refine ⟨?_, ?_, ?_⟩
      · rintro ⟨ty, n⟩ ha
        obtain ⟨vals, hd, he⟩ := Res.map_eq_ok.1 ha
        cases he
        have hv' := hv' vals hd
        apply wp_bind
        apply wp_mono (loadWords_spec (p := .idx) ind.length 0 (List.mem_cons_of_mem _ List.mem_cons_self) hg'j (by omega))
        rintro o g'' a ⟨rfl, rfl, rfl⟩
        simp only
        apply wp_andThen
        apply wp_mono (contents_spec (p := .buf) List.mem_cons_self (by rw [hv']))
        rintro o g' r ⟨rfl, rfl, rfl⟩
        refine ⟨?_, nofun, nofun⟩
        rintro _ ⟨⟩
        refine ⟨rfl, hg', ⟨idx, b1, b⟩, ?_⟩
        unfold sparsePart
        rw [hi, Res.ok_bind, hd, Res.ok_bind, List.drop_zero, List.take_length]
      · intro e ha
        refine ⟨rfl, hg', ⟨idx, b1, b⟩, ?_⟩
        unfold sparsePart
        rw [hi, Res.ok_bind, map_err_inv ha]; rfl
      · intro e ha
        refine ⟨rfl, hg', ⟨idx, b1, b⟩, ?_⟩
        unfold sparsePart
        rw [hi, Res.ok_bind, map_panic_inv ha]; rfl
    apply wp_mono hb
    rintro o g' a ⟨rfl, h2, h3⟩
    exact ⟨rfl, fun x hx hne => by rw [h2 x hx, hg x hx hne], h3⟩
  · intro e ha
    refine ⟨rfl, hg, ⟨idx, b1, []⟩, ?_⟩
    unfold sparsePart
    rw [map_err_inv ha]; rfl
  · intro e ha
    refine ⟨rfl, hg, ⟨idx, b1, []⟩, ?_⟩
    unfold sparsePart
    rw [map_panic_inv ha]; rfl

theorem readAccessor_parts {doc : Document} {acr : Accessor} {buffer : Bytes} {p : Pools} :
    readAccessor doc acr buffer p
      = readDense doc acr.componentType acr.type acr.count acr.bufferView acr.byteOffset buffer >>= fun data =>
          match acr.sparse with
          | none => .ok data
          | some sp => sparsePart doc acr sp data p := rfl

theorem sparsePart_same {doc : Document} {acr : Accessor} {sp : Sparse} {data s : Slice} {p : Pools}
    (h : sparsePart doc acr sp data p = .ok s) : ∃ d, s = ⟨data.ty, d⟩ ∧ d.length = data.data.length := by
  unfold sparsePart at h
  simp only [Res.bind_eq_ok] at h
  obtain ⟨_, -, _, -, h⟩ := h
  unfold assignSparse at h
  split at h
  · simp only [Res.bind_eq_ok, Res.pure_eq, Res.ok.injEq] at h
    obtain ⟨d, hd, rfl⟩ := h
    exact ⟨d, rfl, sparseLoop_length hd⟩
  · cases h

theorem solo_typed (cf : ColorFns) (doc : Document) (r : Reader) (acr : Accessor) (buffer : List r.ty.Elem)
    (b0 : Bytes) (p : Pools) : Call.solo cf doc (.typed r acr buffer) b0 p
      = r.check acr.componentType acr.type >>= fun _ => readAccessor doc acr b0 p >>= fun data =>
          r.finish cf acr buffer data := by
  have h : ∀ {α β : Type} (x : Res Unit) (y : Res Slice) (z : Res α) (f : α → Slice → Res α) (g : α → β),
      (x >>= fun _ => y >>= fun d => z >>= fun b => f b d).map g = x >>= fun _ => y >>= fun d => (z >>= fun b => f b d).map g := by
    intro α β x y z f g
    cases x <;> cases y <;> rfl
  cases r <;> exact h _ _ _ _ _

/-- A call that runs alone gives what the sequential model gives for some contents of the pools. -/
theorem prog_spec (repr : Slice → Bytes) (cf : ColorFns) (doc : Document) (call : Call) (own : Own) (h : Nat → Mem) :
    wp (call.prog repr cf doc) own h fun _ _ a => ∃ b0 p, a = call.solo cf doc b0 p := by
  cases call with
  | accessor acr buffer =>
    unfold Call.prog
    have hp := fun p => @readAccessor_parts doc acr buffer p
    simp only
    split
    · next e he => exact ⟨[], ⟨[], [], []⟩, by unfold Call.solo; simp only; rw [hp, he]; rfl⟩
    · next e he => exact ⟨[], ⟨[], [], []⟩, by unfold Call.solo; simp only; rw [hp, he]; rfl⟩
    · next data he =>
      rw [he] at hp
      split
      · next hs =>
        rw [hs] at hp
        exact ⟨[], ⟨[], [], []⟩, by unfold Call.solo; simp only; rw [hp]; rfl⟩
      · next sp hs =>
        rw [hs] at hp
        apply wp_mono sparseProg_spec
        rintro o g a ⟨-, -, p, rfl⟩
        exact ⟨[], p, by unfold Call.solo; simp only; rw [hp]; rfl⟩
  | typed r acr buffer =>
    unfold Call.prog
    have hsolo := fun b0 p => solo_typed cf doc r acr buffer b0 p
    have hp := fun b0 p => @readAccessor_parts doc acr b0 p
    simp only
    split
    · next e he => exact ⟨[], ⟨[], [], []⟩, by rw [hsolo, he]; rfl⟩
    · next e he => exact ⟨[], ⟨[], [], []⟩, by rw [hsolo, he]; rfl⟩
    · next u hck =>
      simp only [hck, Res.ok_bind] at hsolo
      suffices hk : Keeps _ own h fun a => ∃ b0 p, a = Call.solo cf doc (.typed r acr buffer) b0 p from
        wp_mono hk fun _ _ _ h => h.2.2
      apply withArray_keeps
      intro b0 m hn
      apply wp_andThen
      apply wp_mono (denseProg_spec (p := .buf) List.mem_cons_self)
      rintro o g r' ⟨rfl, hg, b, rfl, hv⟩
      refine ⟨?_, ?_, ?_⟩
      · rintro ⟨ty, n⟩ ha
        obtain ⟨data, hd, he⟩ := Res.map_eq_ok.1 ha
        cases he
        have hv := hv data hd
        have hp := hp b
        simp only [hd, Res.ok_bind] at hp
        -- the sparse part
        suffices hs : wp (match acr.sparse with
            | none => Prog.ret (Res.ok ())
            | some sp =>
              andThen (contents b0 data.ty data.data.length) fun data' =>
              andThen (sparseProg repr doc acr sp data') fun s =>
              (storeFrom b0 s.ty s.data 0).bind fun _ => .ret (.ok ())) ((Pool.buf, b0) :: own) g fun o g' a =>
            o = (Pool.buf, b0) :: own ∧
              (∀ x ∈ (Pool.buf, b0) :: own, x.2 ≠ b0 → g' x.2 = setHeap h b0 m x.2) ∧
              ∃ p, a = (readAccessor doc acr b p).map (fun _ => ()) ∧
                ∀ s, readAccessor doc acr b p = .ok s → (∃ d, s = ⟨data.ty, d⟩ ∧ d.length = data.data.length) ∧ g' b0 = .view s by
          apply wp_andThen
          apply wp_mono hs
          rintro o g' a ⟨rfl, hg', p, rfl, hs⟩
          refine ⟨?_, ?_, ?_⟩
          · intro _ ha
            obtain ⟨s, hs', -⟩ := Res.map_eq_ok.1 ha
            obtain ⟨⟨d, rfl, hl⟩, hm⟩ := hs s hs'
            have hsolo := hsolo b p
            rw [hs', Res.ok_bind] at hsolo
            apply wp_andThen
            rw [← hl]
            apply wp_mono (contents_spec (p := .buf) List.mem_cons_self hm)
            rintro o g'' a ⟨rfl, rfl, rfl⟩
            refine ⟨?_, nofun, nofun⟩
            rintro _ ⟨⟩
            exact ⟨rfl, hg', b, p, hsolo.symm⟩
          · intro e ha
            refine ⟨rfl, hg', b, p, ?_⟩
            rw [hsolo, map_err_inv ha]; rfl
          · intro e ha
            refine ⟨rfl, hg', b, p, ?_⟩
            rw [hsolo, map_panic_inv ha]; rfl
        split
        · next hs =>
          rw [hs] at hp
          refine ⟨rfl, hg, ⟨[], [], []⟩, by rw [hp]; rfl, fun s hs => ?_⟩
          rw [hp] at hs
          cases hs
          exact ⟨⟨_, rfl, rfl⟩, hv⟩
        · next sp hs =>
          rw [hs] at hp
          simp only at hp
          apply wp_andThen
          apply wp_mono (contents_spec (p := .buf) List.mem_cons_self (by rw [hv]))
          rintro o g' a ⟨rfl, rfl, rfl⟩
          refine ⟨?_, nofun, nofun⟩
          rintro _ ⟨⟩
          apply wp_andThen
          apply wp_mono sparseProg_spec
          rintro o g a ⟨rfl, hg2, p, rfl⟩
          have hb0 : g b0 = .view data := by rw [hg2 (.buf, b0) List.mem_cons_self, hv]
          have hg3 : ∀ x ∈ (Pool.buf, b0) :: own, x.2 ≠ b0 → g x.2 = setHeap h b0 m x.2 :=
            fun x hx hne => by rw [hg2 x hx, hg x hx hne]
          refine ⟨?_, ?_, ?_⟩
          · intro s ha
            have hp := hp p
            rw [ha] at hp
            obtain ⟨d, rfl, hl⟩ := sparsePart_same ha
            apply wp_bind
            apply wp_mono (storeFrom_spec (p := .buf) (id := b0) (ty := data.ty) d [] data.data List.mem_cons_self
              (by rw [hb0]; rfl) hl.symm)
            rintro o g' - ⟨rfl, rfl⟩
            refine ⟨rfl, fun x hx hne => by rw [setHeap_ne hne]; exact hg3 x hx hne, p, by rw [hp]; rfl, fun s hs => ?_⟩
            rw [hp] at hs
            cases hs
            exact ⟨⟨d, rfl, hl⟩, by rw [setHeap_eq]; rfl⟩
          · intro e ha
            have hp := hp p
            rw [ha] at hp
            exact ⟨rfl, hg3, p, by rw [hp]; rfl, fun s hs => by rw [hp] at hs; cases hs⟩
          · intro e ha
            have hp := hp p
            rw [ha] at hp
            exact ⟨rfl, hg3, p, by rw [hp]; rfl, fun s hs => by rw [hp] at hs; cases hs⟩
      · intro e ha
        refine ⟨rfl, hg, b, ⟨[], [], []⟩, ?_⟩
        rw [hsolo, hp, map_err_inv ha]; rfl
      · intro e ha
        refine ⟨rfl, hg, b, ⟨[], [], []⟩, ?_⟩
        rw [hsolo, hp, map_panic_inv ha]; rfl

end Gltf.Conc
