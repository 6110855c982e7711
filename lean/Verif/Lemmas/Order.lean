/-
Decoding does not depend on the order of members.
-/
import Verif.Lemmas.JsonCodec
import Verif.Spec.Order

namespace Gltf

open Spec

theorem map_ok {α β : Type} {x : Except Err α} {f : α → β} {b : β} (h : x.map f = .ok b) : ∃ a, x = .ok a ∧ f a = b := by
  cases x with
  | error _ => cases h
  | ok a => exact ⟨a, rfl, by injection h⟩

/-- Decoding does not depend on the order of members. -/
class JC.Unordered {α : Type} (c : JC α) : Prop where
  stable : ∀ {v w : JVal}, Reordered v w → ∀ cur a, c.dec v cur = .ok a → c.dec w cur = .ok a

class FE.Unordered {α : Type} (f : FE α) : Prop where
  stable : ∀ {v w : JVal}, Reordered v w → ∀ cur a, f.dec v cur = .ok a → f.dec w cur = .ok a

/-- Two members can be exchanged. -/
class FE.Swaps {α : Type} (f : FE α) : Prop where
  swaps : ∀ p q x y cur a, foldKey x.1 ≠ foldKey y.1 → f.dec (.obj (p ++ x :: y :: q)) cur = .ok a → f.dec (.obj (p ++ y :: x :: q)) cur = .ok a

/-- Members with different names commute, and the order within them does not matter. -/
class FC.Free {τ : Type} (fc : FC τ) : Prop where
  comm : ∀ k v k' v' t a b, foldKey k ≠ foldKey k' → fc.dec k v t = .ok a → fc.dec k' v' a = .ok b →
    ∃ a', fc.dec k' v' t = .ok a' ∧ fc.dec k v a' = .ok b
  outer : ∀ k p q x y t a, foldKey x.1 ≠ foldKey y.1 → fc.dec k (.obj (p ++ x :: y :: q)) t = .ok a → fc.dec k (.obj (p ++ y :: x :: q)) t = .ok a
  inner : ∀ k {v w : JVal} t a, foldKey k ≠ foldKey b!"extensions" → Reordered v w → fc.dec k v t = .ok a → fc.dec k w t = .ok a

instance {α : Type} {c : JC α} [h : c.Unordered] : c.always.Unordered := ⟨h.stable⟩

instance {α : Type} {c : JC α} {p : α → Bool} [h : c.Unordered] : (c.omitIf p).Unordered := ⟨h.stable⟩

theorem stable_scalar {α : Type} {c : JC α} (h1 : ∀ l cur a, c.dec (.arr l) cur ≠ .ok a) (h2 : ∀ l cur a, c.dec (.obj l) cur ≠ .ok a) : c.Unordered := by
  constructor
  intro v w h
  induction h with
  | refl => intro _ _ h; exact h
  | trans _ _ ih1 ih2 => intro cur a h; exact ih2 _ _ (ih1 _ _ h)
  | swap => intro cur a h; exact absurd h (h2 _ _ _)
  | element => intro cur a h; exact absurd h (h1 _ _ _)
  | member => intro cur a h; exact absurd h (h2 _ _ _)
  | extension => intro cur a h; exact absurd h (h2 _ _ _)

instance : JC.int.Unordered := stable_scalar (fun _ _ _ h => by cases h) (fun _ _ _ h => by cases h)
instance : JC.string.Unordered := stable_scalar (fun _ _ _ h => by cases h) (fun _ _ _ h => by cases h)
instance : JC.bool.Unordered := stable_scalar (fun _ _ _ h => by cases h) (fun _ _ _ h => by cases h)
instance : JC.uint16.Unordered := stable_scalar (fun _ _ _ h => by cases h) (fun _ _ _ h => by cases h)
instance (io : FloatIO) : (JC.float io).Unordered := stable_scalar (fun _ _ _ h => by cases h) (fun _ _ _ h => by cases h)
instance {α : Type} (s : Nat) (z : α) (f : α → Nat) (g : Nat → α) : (JC.enumNum s z f g).Unordered :=
  stable_scalar (fun _ _ _ h => by cases h) (fun _ _ _ h => by cases h)
instance {α : Type} (z : α) (f : α → Bytes) (g : Bytes → Except Err α) : (JC.enumStr z f g).Unordered :=
  stable_scalar (fun _ _ _ h => by cases h) (fun _ _ _ h => by cases h)

theorem reordered_null {v w : JVal} (h : Reordered v w) : v = .null ↔ w = .null := by
  induction h with
  | refl => exact Iff.rfl
  | trans _ _ ih1 ih2 => exact ih1.trans ih2
  | swap => exact ⟨fun h => by (cases h), fun h => by (cases h)⟩
  | element => exact ⟨fun h => by (cases h), fun h => by (cases h)⟩
  | member => exact ⟨fun h => by (cases h), fun h => by (cases h)⟩
  | extension => exact ⟨fun h => by (cases h), fun h => by (cases h)⟩

theorem ptr_dec_map {α : Type} {c : JC α} {v : JVal} (h : v ≠ .null) (cur : Option α) :
    (JC.ptr c).dec v cur = (c.dec v (cur.getD c.zero)).map some := by
  cases v <;> first | exact absurd rfl h | rfl

instance {α : Type} {c : JC α} [hc : c.Unordered] : (JC.ptr c).Unordered := by
  constructor
  intro v w h cur a e
  by_cases hv : v = .null
  · rw [(reordered_null h).1 hv]
    rw [hv] at e
    exact e
  · have hw : w ≠ .null := fun e => hv ((reordered_null h).2 e)
    rw [ptr_dec_map hv] at e
    rw [ptr_dec_map hw]
    cases hd : c.dec v (cur.getD c.zero) with
    | error _ => rw [hd] at e; cases e
    | ok x =>
      rw [hd] at e
      rw [hc.stable h _ _ hd]
      exact e

theorem decList_element {α : Type} {c : JC α} {v w : JVal} (hc : ∀ cur a, c.dec v cur = .ok a → c.dec w cur = .ok a) (post : List JVal) :
    ∀ (pre : List JVal) (cur a : List α), decList c (pre ++ v :: post) cur = .ok a → decList c (pre ++ w :: post) cur = .ok a
  | [], cur, a, e => by
    cases cur with
    | nil =>
      simp only [List.nil_append, decList] at e ⊢
      cases hd : c.dec v c.zero with
      | error _ => rw [hd] at e; cases e
      | ok x => rw [hd] at e; rw [hc _ _ hd]; exact e
    | cons y cur =>
      simp only [List.nil_append, decList] at e ⊢
      cases hd : c.dec v y with
      | error _ => rw [hd] at e; cases e
      | ok x => rw [hd] at e; rw [hc _ _ hd]; exact e
  | u :: pre, cur, a, e => by
    cases cur with
    | nil =>
      simp only [List.cons_append, decList] at e ⊢
      cases hd : c.dec u c.zero with
      | error _ => rw [hd] at e; cases e
      | ok x =>
        rw [hd] at e
        cases hl : decList c (pre ++ v :: post) [] with
        | error _ => rw [hl] at e; cases e
        | ok l => rw [hl] at e; rw [decList_element hc post pre _ _ hl]; exact e
    | cons y cur =>
      simp only [List.cons_append, decList] at e ⊢
      cases hd : c.dec u y with
      | error _ => rw [hd] at e; cases e
      | ok x =>
        rw [hd] at e
        cases hl : decList c (pre ++ v :: post) cur with
        | error _ => rw [hl] at e; cases e
        | ok l => rw [hl] at e; rw [decList_element hc post pre _ _ hl]; exact e

instance {α : Type} {c : JC α} [hc : c.Unordered] : (JC.list c).Unordered := by
  constructor
  intro v w h
  induction h with
  | refl => intro _ _ h; exact h
  | trans _ _ ih1 ih2 => intro cur a h; exact ih2 _ _ (ih1 _ _ h)
  | swap => intro cur a h; cases h
  | element pre post h => intro cur a e; exact decList_element (hc.stable h) post pre cur a e
  | member => intro cur a h; cases h
  | extension => intro cur a h; cases h

instance {α : Type} {c : JC α} [hc : c.Unordered] : (JC.slice c).Unordered := by
  constructor
  intro v w h
  induction h with
  | refl => intro _ _ h; exact h
  | trans _ _ ih1 ih2 => intro cur a h; exact ih2 _ _ (ih1 _ _ h)
  | swap => intro cur a h; cases h
  | @element pre post v w h =>
    intro cur a e
    simp only [JC.slice] at e ⊢
    cases hl : decList c (pre ++ v :: post) (cur.getD []) with
    | error _ => rw [hl] at e; cases e
    | ok l => rw [hl] at e; rw [decList_element (hc.stable h) post pre _ _ hl]; exact e
  | member => intro cur a h; cases h
  | extension => intro cur a h; cases h

theorem decArray_element {α : Type} {c : JC α} {v w : JVal} (hc : ∀ cur a, c.dec v cur = .ok a → c.dec w cur = .ok a) (post : List JVal) :
    ∀ (pre : List JVal) (cur a : List α), decArray c cur (pre ++ v :: post) = .ok a → decArray c cur (pre ++ w :: post) = .ok a
  | _, [], a, e => by simp only [decArray] at e ⊢; exact e
  | [], y :: cur, a, e => by
    simp only [List.nil_append, decArray] at e ⊢
    cases hd : c.dec v y with
    | error _ => rw [hd] at e; cases e
    | ok x => rw [hd] at e; rw [hc _ _ hd]; exact e
  | u :: pre, y :: cur, a, e => by
    simp only [List.cons_append, decArray] at e ⊢
    cases hd : c.dec u y with
    | error _ => rw [hd] at e; cases e
    | ok x =>
      rw [hd] at e
      cases hl : decArray c cur (pre ++ v :: post) with
      | error _ => rw [hl] at e; cases e
      | ok l => rw [hl] at e; rw [decArray_element hc post pre _ _ hl]; exact e

theorem array_dec_iff {α : Type} {n : Nat} {c : JC α} {vs : List JVal} {cur a : Vector α n} :
    (JC.array n c).dec (.arr vs) cur = .ok a ↔ decArray c cur.toList vs = .ok a.toList := by
  have key : ∀ (x : Except Err (List α)) (hx : ∀ l, x = .ok l → l.length = cur.toList.length),
      (withResult x).map (fun l => (⟨l.1.toArray, by simpa using hx _ l.2⟩ : Vector α n)) = .ok a ↔ x = .ok a.toList := by
    intro x hx
    cases x with
    | error e => exact ⟨fun h => by (cases h), fun h => by (cases h)⟩
    | ok l =>
      constructor
      · intro h
        injection h with h
        rw [← h]
        simp
      · intro h
        injection h with h
        subst h
        simp only [withResult, Except.map]
        rfl
  exact key _ (fun l h => decArray_length c _ _ _ h)

instance {α : Type} {n : Nat} {c : JC α} [hc : c.Unordered] : (JC.array n c).Unordered := by
  constructor
  intro v w h
  induction h with
  | refl => intro _ _ h; exact h
  | trans _ _ ih1 ih2 => intro cur a h; exact ih2 _ _ (ih1 _ _ h)
  | swap => intro cur a h; cases h
  | @element pre post v w h =>
    intro cur a e
    exact array_dec_iff.2 (decArray_element (hc.stable h) post pre _ _ (array_dec_iff.1 e))
  | member => intro cur a h; cases h
  | extension => intro cur a h; cases h

theorem bytesLt_false {a b : Bytes} (h : b < a) : bytesLt a b = false := by
  cases hb : bytesLt a b with
  | false => rfl
  | true => exact absurd h (List.lt_asymm ((bytesLt_iff _ _).1 hb))

theorem bytes_tri (a b : Bytes) : a < b ∨ a = b ∨ b < a := by
  by_cases h1 : a < b
  · exact .inl h1
  · by_cases h2 : b < a
    · exact .inr (.inr h2)
    · exact .inr (.inl (List.le_antisymm (List.not_lt.1 h2) (List.not_lt.1 h1)))

theorem mapInsert_lt {α : Type} {k x : Bytes} {a y : α} {m : List (Bytes × α)} (h : k < x) :
    mapInsert k a ((x, y) :: m) = (k, a) :: (x, y) :: m := by
  rw [mapInsert, if_neg (fun e => List.lt_irrefl _ (e ▸ h)), if_pos ((bytesLt_iff _ _).2 h)]

theorem mapInsert_eq {α : Type} {k : Bytes} {a y : α} {m : List (Bytes × α)} : mapInsert k a ((k, y) :: m) = (k, a) :: m := by
  rw [mapInsert, if_pos rfl]

theorem mapInsert_gt {α : Type} {k x : Bytes} {a y : α} {m : List (Bytes × α)} (h : x < k) :
    mapInsert k a ((x, y) :: m) = (x, y) :: mapInsert k a m := by
  rw [mapInsert, if_neg (fun e => List.lt_irrefl _ (e ▸ h)), bytesLt_false h]
  rfl

theorem mapInsert_comm {α : Type} {k k' : Bytes} {a a' : α} (h : k ≠ k') :
    ∀ m, mapInsert k a (mapInsert k' a' m) = mapInsert k' a' (mapInsert k a m)
  | [] => by
    show mapInsert k a [(k', a')] = mapInsert k' a' [(k, a)]
    rcases bytes_tri k k' with hk | hk | hk
    · rw [mapInsert_lt hk, mapInsert_gt hk]; rfl
    · exact absurd hk h
    · rw [mapInsert_gt hk, mapInsert_lt hk]; rfl
  | (x, y) :: m => by
    rcases bytes_tri k x with h1 | h1 | h1 <;> rcases bytes_tri k' x with h2 | h2 | h2
    · rw [mapInsert_lt h1, mapInsert_lt h2]
      rcases bytes_tri k k' with hk | hk | hk
      · rw [mapInsert_lt hk, mapInsert_gt hk, mapInsert_lt h2]
      · exact absurd hk h
      · rw [mapInsert_gt hk, mapInsert_lt hk, mapInsert_lt h1]
    · subst h2
      rw [mapInsert_lt h1, mapInsert_eq, mapInsert_lt h1, mapInsert_gt h1, mapInsert_eq]
    · rw [mapInsert_lt h1, mapInsert_gt h2, mapInsert_lt h1, mapInsert_gt (List.lt_trans h1 h2), mapInsert_gt h2]
    · subst h1
      rw [mapInsert_lt h2, mapInsert_eq, mapInsert_lt h2, mapInsert_gt h2, mapInsert_eq]
    · exact absurd (h1.trans h2.symm) h
    · subst h1
      rw [mapInsert_gt h2, mapInsert_eq, mapInsert_eq, mapInsert_gt h2]
    · rw [mapInsert_gt h1, mapInsert_lt h2, mapInsert_lt h2, mapInsert_gt (List.lt_trans h2 h1), mapInsert_gt h1]
    · subst h2
      rw [mapInsert_gt h1, mapInsert_eq, mapInsert_eq, mapInsert_gt h1]
    · rw [mapInsert_gt h1, mapInsert_gt h2, mapInsert_gt h1, mapInsert_gt h2, mapInsert_comm h m]

theorem decMap_swap {α : Type} {c : JC α} {x y : Bytes × JVal} (h : x.1 ≠ y.1) (post : List (Bytes × JVal)) :
    ∀ (pre : List (Bytes × JVal)) (cur a : List (Bytes × α)), decMap c (pre ++ x :: y :: post) cur = .ok a → decMap c (pre ++ y :: x :: post) cur = .ok a
  | [], cur, a, e => by
    obtain ⟨k, v⟩ := x
    obtain ⟨k', v'⟩ := y
    simp only [List.nil_append, decMap] at e ⊢
    cases h1 : c.dec v c.zero with
    | error _ => rw [h1] at e; cases e
    | ok x =>
      rw [h1] at e
      cases h2 : c.dec v' c.zero with
      | error _ => rw [h2] at e; cases e
      | ok y =>
        rw [h2] at e
        show decMap c post (mapInsert k x (mapInsert k' y cur)) = _
        rw [mapInsert_comm h]
        exact e
  | (k, v) :: pre, cur, a, e => by
    simp only [List.cons_append, decMap] at e ⊢
    cases h1 : c.dec v c.zero with
    | error _ => rw [h1] at e; cases e
    | ok z =>
      rw [h1] at e
      exact decMap_swap h post pre _ _ e

theorem decMap_member {α : Type} {c : JC α} {v w : JVal} (hc : ∀ cur a, c.dec v cur = .ok a → c.dec w cur = .ok a) (k : Bytes)
    (post : List (Bytes × JVal)) : ∀ (pre : List (Bytes × JVal)) (cur a : List (Bytes × α)),
    decMap c (pre ++ (k, v) :: post) cur = .ok a → decMap c (pre ++ (k, w) :: post) cur = .ok a
  | [], cur, a, e => by
    simp only [List.nil_append, decMap] at e ⊢
    cases h1 : c.dec v c.zero with
    | error _ => rw [h1] at e; cases e
    | ok x => rw [h1] at e; rw [hc _ _ h1]; exact e
  | (k', v') :: pre, cur, a, e => by
    simp only [List.cons_append, decMap] at e ⊢
    cases h1 : c.dec v' c.zero with
    | error _ => rw [h1] at e; cases e
    | ok z =>
      rw [h1] at e
      exact decMap_member hc k post pre _ _ e

instance {α : Type} {c : JC α} [hc : c.Unordered] : (JC.map c).Unordered := by
  constructor
  intro v w h
  induction h with
  | refl => intro _ _ h; exact h
  | trans _ _ ih1 ih2 => intro cur a h; exact ih2 _ _ (ih1 _ _ h)
  | swap pre post x y h =>
    intro cur a e
    simp only [JC.map] at e ⊢
    cases hl : decMap c (pre ++ x :: y :: post) (cur.getD []) with
    | error _ => rw [hl] at e; cases e
    | ok l => rw [hl] at e; rw [decMap_swap (fun e => h (congrArg foldKey e)) post pre _ _ hl]; exact e
  | element => intro cur a h; cases h
  | @member pre post k v w hk h =>
    intro cur a e
    simp only [JC.map] at e ⊢
    cases hl : decMap c (pre ++ (k, v) :: post) (cur.getD []) with
    | error _ => rw [hl] at e; cases e
    | ok l => rw [hl] at e; rw [decMap_member (hc.stable h) k post pre _ _ hl]; exact e
  | extension pre post p q k x y h =>
    intro cur a e
    simp only [JC.map] at e ⊢
    obtain ⟨l, hl, rfl⟩ := map_ok e
    rw [decMap_member (hc.stable (.swap p q x y h)) k post pre _ _ hl]; rfl

theorem anyList_element {io : FloatIO} {v w : JVal} (hc : ∀ a, GoAny.dec io v = .ok a → GoAny.dec io w = .ok a) (post : List JVal) :
    ∀ (pre : List JVal) (a : List GoAny), GoAny.decList io (pre ++ v :: post) = .ok a → GoAny.decList io (pre ++ w :: post) = .ok a
  | [], a, e => by
    simp only [List.nil_append, GoAny.decList] at e ⊢
    cases h1 : GoAny.dec io v with
    | error _ => rw [h1] at e; cases e
    | ok x => rw [h1] at e; rw [hc _ h1]; exact e
  | u :: pre, a, e => by
    simp only [List.cons_append, GoAny.decList] at e ⊢
    cases h1 : GoAny.dec io u with
    | error _ => rw [h1] at e; cases e
    | ok x =>
      rw [h1] at e
      cases h2 : GoAny.decList io (pre ++ v :: post) with
      | error _ => rw [h2] at e; cases e
      | ok l => rw [h2] at e; rw [anyList_element hc post pre _ h2]; exact e

theorem anyMap_swap {io : FloatIO} {x y : Bytes × JVal} (h : x.1 ≠ y.1) (post : List (Bytes × JVal)) :
    ∀ (pre : List (Bytes × JVal)) (cur a : List (Bytes × GoAny)), GoAny.decMap io (pre ++ x :: y :: post) cur = .ok a →
      GoAny.decMap io (pre ++ y :: x :: post) cur = .ok a
  | [], cur, a, e => by
    obtain ⟨k, v⟩ := x
    obtain ⟨k', v'⟩ := y
    simp only [List.nil_append, GoAny.decMap] at e ⊢
    cases h1 : GoAny.dec io v with
    | error _ => rw [h1] at e; cases e
    | ok x =>
      rw [h1] at e
      cases h2 : GoAny.dec io v' with
      | error _ => rw [h2] at e; cases e
      | ok y =>
        rw [h2] at e
        show GoAny.decMap io post (mapInsert k x (mapInsert k' y cur)) = _
        rw [mapInsert_comm h]
        exact e
  | (k, v) :: pre, cur, a, e => by
    simp only [List.cons_append, GoAny.decMap] at e ⊢
    cases h1 : GoAny.dec io v with
    | error _ => rw [h1] at e; cases e
    | ok z =>
      rw [h1] at e
      exact anyMap_swap h post pre _ _ e

theorem anyMap_member {io : FloatIO} {v w : JVal} (hc : ∀ a, GoAny.dec io v = .ok a → GoAny.dec io w = .ok a) (k : Bytes)
    (post : List (Bytes × JVal)) : ∀ (pre : List (Bytes × JVal)) (cur a : List (Bytes × GoAny)),
    GoAny.decMap io (pre ++ (k, v) :: post) cur = .ok a → GoAny.decMap io (pre ++ (k, w) :: post) cur = .ok a
  | [], cur, a, e => by
    simp only [List.nil_append, GoAny.decMap] at e ⊢
    cases h1 : GoAny.dec io v with
    | error _ => rw [h1] at e; cases e
    | ok x => rw [h1] at e; rw [hc _ h1]; exact e
  | (k', v') :: pre, cur, a, e => by
    simp only [List.cons_append, GoAny.decMap] at e ⊢
    cases h1 : GoAny.dec io v' with
    | error _ => rw [h1] at e; cases e
    | ok z =>
      rw [h1] at e
      exact anyMap_member hc k post pre _ _ e

theorem any_swap (io : FloatIO) {pre post : List (Bytes × JVal)} {x y : Bytes × JVal} (h : foldKey x.1 ≠ foldKey y.1) (a : GoAny)
    (e : GoAny.dec io (.obj (pre ++ x :: y :: post)) = .ok a) : GoAny.dec io (.obj (pre ++ y :: x :: post)) = .ok a := by
  simp only [GoAny.dec] at e ⊢
  obtain ⟨l, hl, rfl⟩ := map_ok e
  rw [anyMap_swap (fun e => h (congrArg foldKey e)) post pre _ _ hl]; rfl

theorem any_unordered (io : FloatIO) {v w : JVal} (h : Reordered v w) : ∀ a, GoAny.dec io v = .ok a → GoAny.dec io w = .ok a := by
  induction h with
  | refl => intro _ h; exact h
  | trans _ _ ih1 ih2 => intro a h; exact ih2 _ (ih1 _ h)
  | swap pre post x y h => exact any_swap io h
  | @element pre post v w h ih =>
    intro a e
    simp only [GoAny.dec] at e ⊢
    cases hl : GoAny.decList io (pre ++ v :: post) with
    | error _ => rw [hl] at e; cases e
    | ok l => rw [hl] at e; rw [anyList_element ih post pre _ hl]; exact e
  | @member pre post k v w hk h ih =>
    intro a e
    simp only [GoAny.dec] at e ⊢
    cases hl : GoAny.decMap io (pre ++ (k, v) :: post) [] with
    | error _ => rw [hl] at e; cases e
    | ok l => rw [hl] at e; rw [anyMap_member ih k post pre _ _ hl]; exact e
  | extension pre post p q k x y h =>
    intro a e
    simp only [GoAny.dec] at e ⊢
    obtain ⟨l, hl, rfl⟩ := map_ok e
    rw [anyMap_member (any_swap io h) k post pre _ _ hl]; rfl

instance (io : FloatIO) : (JC.any io).Unordered := ⟨fun h _ a e => any_unordered io h a e⟩

/-! ### Structs -/

instance : FC.nil.Free := ⟨fun _ _ _ _ t a b _ h1 h2 => ⟨t, rfl, by cases h1; cases h2; rfl⟩, fun _ _ _ _ _ _ _ _ h => h, fun _ _ _ _ _ _ _ h => h⟩

theorem cons_comm {α τ : Type} (name : Bytes) (f : FE α) {r : FC τ} (hr : r.Free) (k : Bytes) (v : JVal) (k' : Bytes) (v' : JVal)
    (t a b : α × τ) (hk : foldKey k ≠ foldKey k') (h1 : (FC.cons name f r).dec k v t = .ok a)
    (h2 : (FC.cons name f r).dec k' v' a = .ok b) :
    ∃ a', (FC.cons name f r).dec k' v' t = .ok a' ∧ (FC.cons name f r).dec k v a' = .ok b := by
  simp only [FC.cons] at h1 h2 ⊢
  by_cases n1 : foldKey k = foldKey name
  · have n2 : foldKey k' ≠ foldKey name := fun h => hk (n1.trans h.symm)
    rw [if_pos n1] at h1
    rw [if_neg n2] at h2
    obtain ⟨x, hx, rfl⟩ := map_ok h1
    obtain ⟨y, hy, rfl⟩ := map_ok h2
    simp only [if_neg n2, if_pos n1]
    refine ⟨(t.1, y), ?_, ?_⟩
    · simp only at hy; rw [hy]; rfl
    · rw [hx]; rfl
  · rw [if_neg n1] at h1
    obtain ⟨x, hx, rfl⟩ := map_ok h1
    by_cases n2 : foldKey k' = foldKey name
    · rw [if_pos n2] at h2
      obtain ⟨y, hy, rfl⟩ := map_ok h2
      simp only [if_pos n2, if_neg n1]
      refine ⟨(y, t.2), ?_, ?_⟩
      · simp only at hy; rw [hy]; rfl
      · rw [hx]; rfl
    · rw [if_neg n2] at h2
      obtain ⟨y, hy, rfl⟩ := map_ok h2
      simp only [if_neg n2, if_neg n1]
      obtain ⟨z, hz, hz'⟩ := hr.comm k v k' v' t.2 x y hk hx hy
      refine ⟨(t.1, z), ?_, ?_⟩
      · rw [hz]; rfl
      · simp only; rw [hz']; rfl

instance freeCons {α τ : Type} (name : Bytes) (f : FE α) (r : FC τ) [hf : f.Unordered] [hr : r.Free] : (FC.cons name f r).Free where
  comm := cons_comm name f hr
  outer k p q x y t a h e := by
    simp only [FC.cons] at e ⊢
    by_cases n1 : foldKey k = foldKey name
    · rw [if_pos n1] at e ⊢
      obtain ⟨z, hz, rfl⟩ := map_ok e
      rw [hf.stable (.swap p q x y h) _ _ hz]; rfl
    · rw [if_neg n1] at e ⊢
      obtain ⟨z, hz, rfl⟩ := map_ok e
      rw [hr.outer k p q x y _ _ h hz]; rfl
  inner k v w t a hk h e := by
    simp only [FC.cons] at e ⊢
    by_cases n1 : foldKey k = foldKey name
    · rw [if_pos n1] at e ⊢
      obtain ⟨x, hx, rfl⟩ := map_ok e
      rw [hf.stable h _ _ hx]; rfl
    · rw [if_neg n1] at e ⊢
      obtain ⟨x, hx, rfl⟩ := map_ok e
      rw [hr.inner k _ _ hk h hx]; rfl

instance freeExt {α τ : Type} (f : FE α) (r : FC τ) [hf : f.Swaps] [hr : r.Free] : (FC.cons b!"extensions" f r).Free where
  comm := cons_comm _ f hr
  outer k p q x y t a h e := by
    simp only [FC.cons] at e ⊢
    by_cases n1 : foldKey k = foldKey b!"extensions"
    · rw [if_pos n1] at e ⊢
      obtain ⟨z, hz, rfl⟩ := map_ok e
      rw [hf.swaps p q x y _ _ h hz]; rfl
    · rw [if_neg n1] at e ⊢
      obtain ⟨z, hz, rfl⟩ := map_ok e
      rw [hr.outer k p q x y _ _ h hz]; rfl
  inner k v w t a hk h e := by
    simp only [FC.cons] at e ⊢
    rw [if_neg hk] at e ⊢
    obtain ⟨x, hx, rfl⟩ := map_ok e
    rw [hr.inner k _ _ hk h hx]; rfl

instance freeSkip {α τ : Type} (z : α) (r : FC τ) [hr : r.Free] : (FC.skip z r).Free where
  comm k v k' v' t a b hk h1 h2 := by
    simp only [FC.skip] at h1 h2 ⊢
    obtain ⟨x, hx, rfl⟩ := map_ok h1
    obtain ⟨y, hy, rfl⟩ := map_ok h2
    obtain ⟨z, hz, hz'⟩ := hr.comm k v k' v' t.2 x y hk hx hy
    refine ⟨(t.1, z), ?_, ?_⟩
    · rw [hz]; rfl
    · simp only; rw [hz']; rfl
  outer k p q x y t a h e := by
    simp only [FC.skip] at e ⊢
    obtain ⟨z, hz, rfl⟩ := map_ok e
    rw [hr.outer k p q x y _ _ h hz]; rfl
  inner k v w t a hk h e := by
    simp only [FC.skip] at e ⊢
    obtain ⟨x, hx, rfl⟩ := map_ok e
    rw [hr.inner k _ _ hk h hx]; rfl

theorem decAll_swap {τ : Type} {fc : FC τ} (hf : fc.Free) {x y : Bytes × JVal} (h : foldKey x.1 ≠ foldKey y.1) (post : List (Bytes × JVal)) :
    ∀ (pre : List (Bytes × JVal)) (t b : τ), fc.decAll (pre ++ x :: y :: post) t = .ok b → fc.decAll (pre ++ y :: x :: post) t = .ok b
  | [], t, b, e => by
    obtain ⟨k, v⟩ := x
    obtain ⟨k', v'⟩ := y
    simp only [List.nil_append, FC.decAll] at e ⊢
    cases h1 : fc.dec k v t with
    | error _ => rw [h1] at e; cases e
    | ok p =>
      rw [h1] at e
      cases h2 : fc.dec k' v' p with
      | error _ =>
        change (fc.dec k' v' p >>= fun t => fc.decAll post t) = _ at e
        rw [h2] at e; cases e
      | ok q =>
        change (fc.dec k' v' p >>= fun t => fc.decAll post t) = _ at e
        rw [h2] at e
        obtain ⟨p', h3, h4⟩ := hf.comm k v k' v' t p q h h1 h2
        rw [h3]
        show (fc.dec k v p' >>= fun t => fc.decAll post t) = _
        rw [h4]
        exact e
  | (k, v) :: pre, t, b, e => by
    simp only [List.cons_append, FC.decAll] at e ⊢
    cases h1 : fc.dec k v t with
    | error _ => rw [h1] at e; cases e
    | ok z =>
      rw [h1] at e
      exact decAll_swap hf h post pre _ _ e

theorem decAll_member {τ : Type} {fc : FC τ} {k : Bytes} {v w : JVal} (h : ∀ t a, fc.dec k v t = .ok a → fc.dec k w t = .ok a)
    (post : List (Bytes × JVal)) : ∀ (pre : List (Bytes × JVal)) (t b : τ), fc.decAll (pre ++ (k, v) :: post) t = .ok b →
      fc.decAll (pre ++ (k, w) :: post) t = .ok b
  | [], t, b, e => by
    simp only [List.nil_append, FC.decAll] at e ⊢
    cases h1 : fc.dec k v t with
    | error _ => rw [h1] at e; cases e
    | ok p => rw [h1] at e; rw [h t p h1]; exact e
  | (k', v') :: pre, t, b, e => by
    simp only [List.cons_append, FC.decAll] at e ⊢
    cases h1 : fc.dec k' v' t with
    | error _ => rw [h1] at e; cases e
    | ok z =>
      rw [h1] at e
      exact decAll_member h post pre _ _ e

instance structUnordered {σ τ : Type} (to : σ → τ) (of : τ → σ) (fc : FC τ) [hf : fc.Free] : (JC.struct to of fc).Unordered := by
  constructor
  intro v w h
  induction h with
  | refl => intro _ _ h; exact h
  | trans _ _ ih1 ih2 => intro cur a h; exact ih2 _ _ (ih1 _ _ h)
  | swap pre post x y h =>
    intro cur a e
    simp only [JC.struct] at e ⊢
    obtain ⟨l, hl, rfl⟩ := map_ok e
    rw [decAll_swap hf h post pre _ _ hl]; rfl
  | element => intro cur a h; cases h
  | @member pre post k v w hk h =>
    intro cur a e
    simp only [JC.struct] at e ⊢
    obtain ⟨l, hl, rfl⟩ := map_ok e
    rw [decAll_member (fun t a => hf.inner k t a hk h) post pre _ _ hl]; rfl
  | extension pre post p q k x y h =>
    intro cur a e
    simp only [JC.struct] at e ⊢
    obtain ⟨l, hl, rfl⟩ := map_ok e
    rw [decAll_member (fun t a => hf.outer k p q x y t a h) post pre _ _ hl]; rfl

instance {σ : Type} (c : JC σ) (d : σ) [hc : c.Unordered] : (c.withDefault d).Unordered := ⟨fun h _ a e => hc.stable h d a e⟩

theorem decExtensions_swap {r : Registry} {x y : Bytes × JVal} (h : x.1 ≠ y.1) (post : List (Bytes × JVal)) :
    ∀ (pre : List (Bytes × JVal)) (cur : Extensions), decExtensions r (pre ++ x :: y :: post) cur = decExtensions r (pre ++ y :: x :: post) cur
  | [], cur => by
    show decExtensions r post (mapInsert y.1 _ (mapInsert x.1 _ cur)) = decExtensions r post (mapInsert x.1 _ (mapInsert y.1 _ cur))
    rw [mapInsert_comm h]
  | (k, v) :: pre, cur => decExtensions_swap h post pre _

instance (E : Env) : E.ext.Swaps where
  swaps p q x y cur a h e := by
    have hs := decExtensions_swap (r := E.reg) (fun e => h (congrArg foldKey e)) q p cur
    change Except.ok (decExtensions E.reg (p ++ x :: y :: q) cur) = _ at e
    show Except.ok (decExtensions E.reg (p ++ y :: x :: q) cur) = _
    rw [← hs]
    exact e

/-! ### The document -/

instance : componentTypeC.Unordered := by unfold componentTypeC; infer_instance
instance : primitiveModeC.Unordered := by unfold primitiveModeC; infer_instance
instance : magFilterC.Unordered := by unfold magFilterC; infer_instance
instance : minFilterC.Unordered := by unfold minFilterC; infer_instance
instance : wrappingModeC.Unordered := by unfold wrappingModeC; infer_instance
instance : accessorTypeC.Unordered := by unfold accessorTypeC; infer_instance
instance : alphaModeC.Unordered := by unfold alphaModeC; infer_instance
instance : interpolationC.Unordered := by unfold interpolationC; infer_instance
instance : trsPropertyC.Unordered := by unfold trsPropertyC; infer_instance
instance (E : Env) : E.float.Unordered := by unfold Env.float; infer_instance
instance (E : Env) : E.extras.Unordered := by unfold Env.extras; infer_instance
instance : omitString.Unordered := by unfold omitString; infer_instance
instance : omitInt.Unordered := by unfold omitInt; infer_instance
instance : omitBool.Unordered := by unfold omitBool; infer_instance
instance : omitIndex.Unordered := by unfold omitIndex; infer_instance
instance : omitInts.Unordered := by unfold omitInts; infer_instance
instance : omitStrings.Unordered := by unfold omitStrings; infer_instance
instance (E : Env) : E.floats.Unordered := by unfold Env.floats; infer_instance
instance (E : Env) : E.omitFloat.Unordered := by unfold Env.omitFloat; infer_instance
instance (E : Env) (d : F64) : (E.omitFloatIf d).Unordered := by unfold Env.omitFloatIf; infer_instance
instance (E : Env) : (assetC' E).Unordered := by unfold assetC'; infer_instance
instance (E : Env) : (assetC E).Unordered := ⟨fun h cur a e => (inferInstance : ((assetC' E).withDefault { version := b!"2.0" }).Unordered).stable h cur a e⟩
instance (E : Env) : (sparseIndicesC E).Unordered := by unfold sparseIndicesC; infer_instance
instance (E : Env) : (sparseValuesC E).Unordered := by unfold sparseValuesC; infer_instance
instance (E : Env) : (sparseC E).Unordered := by unfold sparseC; infer_instance
instance (E : Env) : (accessorC E).Unordered := by unfold accessorC; infer_instance
instance (E : Env) : (bufferC E).Unordered := by unfold bufferC; infer_instance
instance (E : Env) : (bufferViewC E).Unordered := by unfold bufferViewC; infer_instance
instance (E : Env) : (sceneC E).Unordered := by unfold sceneC; infer_instance
instance (E : Env) : (nodeC' E).Unordered := by unfold nodeC'; infer_instance
instance (E : Env) : (nodeC E).Unordered := by unfold nodeC; infer_instance
instance (E : Env) : (skinC E).Unordered := by unfold skinC; infer_instance
instance (E : Env) : (orthographicC E).Unordered := by unfold orthographicC; infer_instance
instance (E : Env) : (perspectiveC E).Unordered := by unfold perspectiveC; infer_instance
instance (E : Env) : (cameraC' E).Unordered := by unfold cameraC'; infer_instance
instance (E : Env) : (cameraC E).Unordered := ⟨fun h cur a e => (inferInstance : (cameraC' E).Unordered).stable h cur a e⟩
instance (E : Env) : (primitiveC E).Unordered := by unfold primitiveC; infer_instance
instance (E : Env) : (meshC E).Unordered := by unfold meshC; infer_instance
instance (E : Env) : (normalTextureC' E).Unordered := by unfold normalTextureC'; infer_instance
instance (E : Env) : (normalTextureC E).Unordered := by unfold normalTextureC; infer_instance
instance (E : Env) : (occlusionTextureC' E).Unordered := by unfold occlusionTextureC'; infer_instance
instance (E : Env) : (occlusionTextureC E).Unordered := by unfold occlusionTextureC; infer_instance
instance (E : Env) : (textureInfoC E).Unordered := by unfold textureInfoC; infer_instance
instance (E : Env) : (pbrC' E).Unordered := by unfold pbrC'; infer_instance
instance (E : Env) : (pbrC E).Unordered := by unfold pbrC; infer_instance
instance (E : Env) : (materialC' E).Unordered := by unfold materialC'; infer_instance
instance (E : Env) : (materialC E).Unordered := by unfold materialC; infer_instance
instance (E : Env) : (textureC E).Unordered := by unfold textureC; infer_instance
instance (E : Env) : (samplerC E).Unordered := by unfold samplerC; infer_instance
instance (E : Env) : (imageC E).Unordered := by unfold imageC; infer_instance
instance (E : Env) : (animationSamplerC E).Unordered := by unfold animationSamplerC; infer_instance
instance (E : Env) : (animationChannelTargetC E).Unordered := by unfold animationChannelTargetC; infer_instance
instance (E : Env) : (animationChannelC E).Unordered := by unfold animationChannelC; infer_instance
instance (E : Env) : (animationC E).Unordered := by unfold animationC; infer_instance
instance (E : Env) : (documentC E).Unordered := by unfold documentC; infer_instance

theorem reordered_symm {v w : JVal} (h : Reordered v w) : Reordered w v := by
  induction h with
  | refl => exact .refl _
  | trans _ _ ih1 ih2 => exact .trans ih2 ih1
  | swap pre post x y h => exact .swap pre post y x (Ne.symm h)
  | element pre post _ ih => exact .element pre post ih
  | member pre post k hk _ ih => exact .member pre post k hk ih
  | extension pre post p q k x y h => exact .extension pre post p q k y x (Ne.symm h)

theorem document_reordered (E : Env) {v w : JVal} (h : Reordered v w) (cur d : Document) :
    (documentC E).dec v cur = .ok d ↔ (documentC E).dec w cur = .ok d :=
  ⟨(inferInstance : (documentC E).Unordered).stable h cur d, (inferInstance : (documentC E).Unordered).stable (reordered_symm h) cur d⟩

theorem mem_swap {α : Type} {pre post : List α} {x y z : α} (h : z ∈ pre ++ y :: x :: post) : z ∈ pre ++ x :: y :: post := by
  simp only [List.mem_append, List.mem_cons] at h ⊢
  rcases h with h | h | h | h
  · exact .inl h
  · exact .inr (.inr (.inl h))
  · exact .inr (.inl h)
  · exact .inr (.inr (.inr h))

theorem depth_swap {n : Nat} {pre post : List (Bytes × JVal)} {x y : Bytes × JVal} (h : DepthLe n (.obj (pre ++ x :: y :: post))) :
    DepthLe n (.obj (pre ++ y :: x :: post)) := by
  cases h with
  | obj n _ h => exact .obj n _ fun z hz => h z (mem_swap hz)

theorem depth_member {n : Nat} {pre post : List (Bytes × JVal)} {k : Bytes} {v w : JVal} (ih : ∀ n, DepthLe n v → DepthLe n w)
    (h : DepthLe n (.obj (pre ++ (k, v) :: post))) : DepthLe n (.obj (pre ++ (k, w) :: post)) := by
  cases h with
  | obj n _ h =>
    refine .obj n _ fun z hz => ?_
    simp only [List.mem_append, List.mem_cons] at h hz
    rcases hz with hz | rfl | hz
    · exact h z (.inl hz)
    · exact ih n (h (k, v) (.inr (.inl rfl)))
    · exact h z (.inr (.inr hz))

theorem depth_reordered {v w : JVal} (h : Reordered v w) : ∀ n, DepthLe n v → DepthLe n w := by
  induction h with
  | refl => exact fun _ h => h
  | trans _ _ ih1 ih2 => exact fun n h => ih2 n (ih1 n h)
  | swap pre post x y h => exact fun n h => depth_swap h
  | @element pre post v w _ ih =>
    intro n h
    cases h with
    | arr n _ h =>
      refine .arr n _ fun z hz => ?_
      simp only [List.mem_append, List.mem_cons] at h hz
      rcases hz with hz | rfl | hz
      · exact h z (.inl hz)
      · exact ih n (h v (.inr (.inl rfl)))
      · exact h z (.inr (.inr hz))
  | member pre post k hk _ ih => exact fun n h => depth_member ih h
  | extension pre post p q k x y h => exact fun n h => depth_member (fun _ h => depth_swap h) h

end Gltf
