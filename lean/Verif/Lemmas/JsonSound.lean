/-
What decoding gives is valid: strings are UTF-8, integers are in range, numbers are finite, enumerations have
named values, maps are sorted.
-/
import Verif.Lemmas.JsonCodec
import Verif.Spec.DocValid
import Verif.Model.JsonDoc

namespace Gltf

open Spec

/-- Valid JSON values nested at most `n` deep. -/
structure Val (n : Nat) (v : JVal) : Prop where
  ok : JsonOk v
  depth : DepthLe n v

theorem Val.mem {n : Nat} {l : List JVal} (h : Val n (.arr l)) : ∀ v ∈ l, Val n v := by
  intro v hv
  cases h.ok with
  | arr _ h1 =>
    cases h.depth with
    | arr m _ h2 => exact ⟨h1 v hv, depthLe_mono (h2 v hv) (Nat.le_succ m)⟩

theorem Val.member {n : Nat} {l : List (Bytes × JVal)} (h : Val n (.obj l)) : ∀ m ∈ l, IsUtf8 m.1 ∧ Val n m.2 := by
  intro v hv
  cases h.ok with
  | obj _ hk h1 =>
    cases h.depth with
    | obj m _ h2 => exact ⟨hk v hv, h1 v hv, depthLe_mono (h2 v hv) (Nat.le_succ m)⟩

/-- Decoding valid JSON keeps a predicate. -/
def Sound {α : Type} (dec : JVal → α → Except Err α) (n : Nat) (P : α → Prop) : Prop :=
  ∀ v a a', Val n v → P a → dec v a = .ok a' → P a'

/-- Decoding a valid member keeps a predicate. -/
def FC.Sound {τ : Type} (fc : FC τ) (n : Nat) (P : τ → Prop) : Prop :=
  ∀ k v a a', Val n v → P a → fc.dec k v a = .ok a' → P a'

/-! ### Structs -/

theorem sound_true {α : Type} (dec : JVal → α → Except Err α) (n : Nat) : Sound dec n (fun _ => True) := fun _ _ _ _ _ _ => trivial

theorem sound_nil (n : Nat) : FC.nil.Sound n (fun _ => True) := fun _ _ _ _ _ _ _ => trivial

theorem sound_cons {α τ : Type} {name : Bytes} {f : FE α} {r : FC τ} {n : Nat} {P : α → Prop} {Q : τ → Prop} (hf : Sound f.dec n P)
    (hr : r.Sound n Q) : (FC.cons name f r).Sound n (fun t => P t.1 ∧ Q t.2) := by
  intro k v a a' hv h e
  simp only [FC.cons] at e
  split at e
  · cases hd : f.dec v a.1 with
    | error e' => rw [hd] at e; cases e
    | ok x => rw [hd] at e; cases e; exact ⟨hf _ _ _ hv h.1 hd, h.2⟩
  · cases hd : r.dec k v a.2 with
    | error e' => rw [hd] at e; cases e
    | ok x => rw [hd] at e; cases e; exact ⟨h.1, hr _ _ _ _ hv h.2 hd⟩

theorem sound_skip {α τ : Type} {z : α} {r : FC τ} {n : Nat} {Q : τ → Prop} (hr : r.Sound n Q) :
    (FC.skip z r).Sound n (fun t => Q t.2) := by
  intro k v a a' hv h e
  simp only [FC.skip] at e
  cases hd : r.dec k v a.2 with
  | error e' => rw [hd] at e; cases e
  | ok x => rw [hd] at e; cases e; exact hr _ _ _ _ hv h hd

theorem sound_all {τ : Type} {fc : FC τ} {n : Nat} {P : τ → Prop} (h : fc.Sound n P) : ∀ vs a a', (∀ m ∈ vs, Val n m.2) → P a →
    fc.decAll vs a = .ok a' → P a'
  | [], a, a', _, ha, e => by cases e; exact ha
  | (k, v) :: vs, a, a', hv, ha, e => by
    simp only [FC.decAll] at e
    cases hd : fc.dec k v a with
    | error e' => rw [hd] at e; cases e
    | ok x =>
      rw [hd] at e
      exact sound_all h vs x a' (fun m hm => hv m (List.mem_cons_of_mem _ hm)) (h _ _ _ _ (hv (k, v) (by simp)) ha hd) e

theorem sound_struct {σ τ : Type} {to : σ → τ} {of : τ → σ} {fc : FC τ} {n : Nat} {P : τ → Prop} {Q : σ → Prop} (h : fc.Sound n P)
    (h1 : ∀ s, Q s → P (to s)) (h2 : ∀ t, P t → Q (of t)) : Sound (JC.struct to of fc).dec n Q := by
  intro v a a' hv ha e
  cases v with
  | obj vs =>
    simp only [JC.struct] at e
    cases hd : fc.decAll vs (to a) with
    | error e' => rw [hd] at e; cases e
    | ok x => rw [hd] at e; cases e; exact h2 _ (sound_all h _ _ _ (fun m hm => (hv.member m hm).2) (h1 _ ha) hd)
  | null => cases e; exact ha
  | _ => cases e

theorem sound_default {σ : Type} {c : JC σ} {d : σ} {n : Nat} {Q : σ → Prop} (h : Sound c.dec n Q) (hd : Q d) :
    Sound (c.withDefault d).dec n Q := fun v _ a' hv _ e => h v d a' hv hd e

/-! ### Pointers, slices, arrays, maps -/

theorem sound_ptr {α : Type} {c : JC α} {n : Nat} {P : α → Prop} (h : Sound c.dec n P) (hz : P c.zero) :
    Sound (JC.ptr c).dec n (fun o => ∀ a ∈ o, P a) := by
  intro v o o' hv ho e
  have hc : P (o.getD c.zero) := by
    cases o with
    | none => exact hz
    | some a => exact ho a rfl
  have hn : (c.dec v (o.getD c.zero)).map some = .ok o' → ∀ a ∈ o', P a := by
    intro e a ea
    cases hd : c.dec v (o.getD c.zero) with
    | error e' => rw [hd] at e; cases e
    | ok x => rw [hd] at e; cases e; cases ea; exact h _ _ _ hv hc hd
  cases v with
  | null => cases e; intro a ea; cases ea
  | _ => exact hn e

theorem sound_decList {α : Type} {c : JC α} {n : Nat} {P : α → Prop} (h : Sound c.dec n P) (hz : P c.zero) : ∀ vs l l',
    (∀ v ∈ vs, Val n v) → (∀ a ∈ l, P a) → decList c vs l = .ok l' → ∀ a ∈ l', P a
  | [], l, l', _, _, e => by cases e; simp
  | v :: vs, l, l', hv, hl, e => by
    have hk : ∃ cur curs, P cur ∧ (∀ a ∈ curs, P a) ∧ (do
        let a ← c.dec v cur
        let l ← decList c vs curs
        return a :: l) = Except.ok l' := by
      cases l with
      | nil => exact ⟨c.zero, [], hz, by simp, e⟩
      | cons cur curs => exact ⟨cur, curs, hl _ (by simp), fun a ha => hl a (by simp [ha]), e⟩
    obtain ⟨cur, curs, hc, hcs, e⟩ := hk
    cases h1 : c.dec v cur with
    | error e' => rw [h1] at e; cases e
    | ok a =>
      cases h2 : decList c vs curs with
      | error e' => rw [h1, h2] at e; cases e
      | ok as =>
        rw [h1, h2] at e
        cases e
        intro b hb
        rcases List.mem_cons.1 hb with rfl | hb
        · exact h _ _ _ (hv v (by simp)) hc h1
        · exact sound_decList h hz vs curs as (fun v hm => hv v (List.mem_cons_of_mem _ hm)) hcs h2 b hb

theorem sound_list {α : Type} {c : JC α} {n : Nat} {P : α → Prop} (h : Sound c.dec n P) (hz : P c.zero) :
    Sound (JC.list c).dec n (fun l => ∀ a ∈ l, P a) := by
  intro v l l' hv hl e
  cases v with
  | arr vs => exact sound_decList h hz vs l l' hv.mem hl e
  | null => cases e; simp
  | _ => cases e

theorem sound_slice {α : Type} {c : JC α} {n : Nat} {P : α → Prop} (h : Sound c.dec n P) (hz : P c.zero) :
    Sound (JC.slice c).dec n (fun o => ∀ l ∈ o, ∀ a ∈ l, P a) := by
  intro v o o' hv ho e
  cases v with
  | arr vs =>
    simp only [JC.slice] at e
    cases hd : decList c vs (o.getD []) with
    | error e' => rw [hd] at e; cases e
    | ok l =>
      rw [hd] at e
      cases e
      intro l' hl'
      cases hl'
      refine sound_decList h hz vs _ l hv.mem ?_ hd
      cases o with
      | none => simp
      | some l0 => exact ho l0 rfl
  | null => cases e; intro l hl; cases hl
  | _ => cases e

theorem sound_decArray {α : Type} {c : JC α} {n : Nat} {P : α → Prop} (h : Sound c.dec n P) (hz : P c.zero) : ∀ cur vs l,
    (∀ v ∈ vs, Val n v) → (∀ a ∈ cur, P a) → decArray c cur vs = .ok l → ∀ a ∈ l, P a
  | [], _, l, _, _, e => by cases e; simp
  | x :: cur, [], l, hv, hc, e => by
    simp only [decArray] at e
    cases h' : decArray c cur [] with
    | error e' => rw [h'] at e; cases e
    | ok l' =>
      rw [h'] at e
      cases e
      exact List.forall_mem_cons.2 ⟨hz, sound_decArray h hz cur [] l' (by simp) (fun a ha => hc a (List.mem_cons_of_mem _ ha)) h'⟩
  | x :: cur, v :: vs, l, hv, hc, e => by
    simp only [decArray] at e
    cases h1 : c.dec v x with
    | error e' => rw [h1] at e; cases e
    | ok a =>
      cases h' : decArray c cur vs with
      | error e' => rw [h1, h'] at e; cases e
      | ok l' =>
        rw [h1, h'] at e
        cases e
        exact List.forall_mem_cons.2 ⟨h _ _ _ (hv v (by simp)) (hc x (by simp)) h1,
          sound_decArray h hz cur vs l' (fun v hm => hv v (List.mem_cons_of_mem _ hm)) (fun a ha => hc a (List.mem_cons_of_mem _ ha)) h'⟩

theorem withResult_map {α β : Type} {x : Except Err α} {f : { a // x = .ok a } → β} {b : β} (h : (withResult x).map f = .ok b) :
    ∃ a, ∃ hx : x = .ok a, b = f ⟨a, hx⟩ := by
  cases x with
  | error e => cases h
  | ok a => cases h; exact ⟨a, rfl, rfl⟩

theorem sound_array {α : Type} {c : JC α} {n : Nat} {P : α → Prop} (h : Sound c.dec n P) (hz : P c.zero) (k : Nat) :
    Sound (JC.array k c).dec n (fun a => ∀ x ∈ a.toList, P x) := by
  intro v a a' hv ha e
  cases v with
  | arr vs =>
    obtain ⟨l, hl, rfl⟩ := withResult_map e
    exact sound_decArray h hz _ _ _ hv.mem ha hl
  | null => cases e; exact ha
  | _ => cases e

/-! ### Maps -/

theorem lt_of_not {a b : Bytes} (h1 : a ≠ b) (h2 : bytesLt a b = false) : b < a := by
  apply Classical.byContradiction
  intro h
  refine h1 (List.le_antisymm (List.not_lt.1 h) (List.not_lt.1 fun h' => ?_))
  rw [(bytesLt_iff a b).2 h'] at h2
  cases h2

theorem mapInsert_member {α : Type} {k : Bytes} {a : α} : ∀ {m : List (Bytes × α)} {p : Bytes × α}, p ∈ mapInsert k a m → p = (k, a) ∨ p ∈ m
  | [], p, h => by simpa [mapInsert] using h
  | (k', a') :: m, p, h => by
    unfold mapInsert at h
    split at h
    · rcases List.mem_cons.1 h with h | h
      · exact .inl h
      · exact .inr (List.mem_cons_of_mem _ h)
    · split at h
      · exact List.mem_cons.1 h
      · rcases List.mem_cons.1 h with h | h
        · exact .inr (by simp [h])
        · rcases mapInsert_member h with h | h
          · exact .inl h
          · exact .inr (List.mem_cons_of_mem _ h)

theorem mapInsert_pairwise {α : Type} {k : Bytes} {a : α} : ∀ {m : List (Bytes × α)}, m.Pairwise (fun a b => a.1 < b.1) →
    (mapInsert k a m).Pairwise (fun a b => a.1 < b.1)
  | [], _ => by simp [mapInsert]
  | (k', a') :: m, h => by
    obtain ⟨h1, h2⟩ := List.pairwise_cons.1 h
    unfold mapInsert
    split
    · rename_i hk
      subst hk
      exact List.pairwise_cons.2 ⟨h1, h2⟩
    · rename_i hk
      split
      · rename_i hb
        have hlt := (bytesLt_iff k k').1 hb
        refine List.pairwise_cons.2 ⟨fun p hp => ?_, h⟩
        rcases List.mem_cons.1 hp with rfl | hp
        · exact hlt
        · exact List.lt_trans hlt (h1 p hp)
      · rename_i hb
        have hlt := lt_of_not hk (by simpa using hb)
        refine List.pairwise_cons.2 ⟨fun p hp => ?_, mapInsert_pairwise h2⟩
        rcases mapInsert_member hp with rfl | hp
        · exact hlt
        · exact h1 p hp

theorem mapInsert_isMap {α : Type} {k : Bytes} {a : α} {m : List (Bytes × α)} (h : IsMap m) (hk : IsUtf8 k) : IsMap (mapInsert k a m) :=
  ⟨mapInsert_pairwise h.sorted, fun p hp => by
    rcases mapInsert_member hp with rfl | hp
    · exact hk
    · exact h.utf8 p hp⟩

theorem isMap_nil {α : Type} : IsMap ([] : List (Bytes × α)) := ⟨.nil, by simp⟩

theorem sound_decMap {α : Type} {c : JC α} {n : Nat} {P : α → Prop} (h : Sound c.dec n P) (hz : P c.zero) : ∀ vs m m',
    (∀ v ∈ vs, IsUtf8 v.1 ∧ Val n v.2) → (IsMap m ∧ ∀ p ∈ m, P p.2) → decMap c vs m = .ok m' → IsMap m' ∧ ∀ p ∈ m', P p.2
  | [], m, m', _, hm, e => by cases e; exact hm
  | (k, v) :: vs, m, m', hv, hm, e => by
    simp only [decMap] at e
    cases hd : c.dec v c.zero with
    | error e' => rw [hd] at e; cases e
    | ok a =>
      rw [hd] at e
      obtain ⟨hk, hv1⟩ := hv (k, v) (by simp)
      refine sound_decMap h hz vs _ m' (fun x hx => hv x (List.mem_cons_of_mem _ hx)) ⟨mapInsert_isMap hm.1 hk, fun p hp => ?_⟩ e
      rcases mapInsert_member hp with rfl | hp
      · exact h _ _ _ hv1 hz hd
      · exact hm.2 p hp

theorem sound_map {α : Type} {c : JC α} {n : Nat} {P : α → Prop} (h : Sound c.dec n P) (hz : P c.zero) :
    Sound (JC.map c).dec n (fun o => ∀ m ∈ o, IsMap m ∧ ∀ p ∈ m, P p.2) := by
  intro v o o' hv ho e
  cases v with
  | obj vs =>
    simp only [JC.map] at e
    cases hd : decMap c vs (o.getD []) with
    | error e' => rw [hd] at e; cases e
    | ok m =>
      rw [hd] at e
      cases e
      intro l' hl'
      cases hl'
      refine sound_decMap h hz vs _ m hv.member ?_ hd
      cases o with
      | none => exact ⟨isMap_nil, by simp⟩
      | some l0 => exact ho l0 rfl
  | null => cases e; intro l hl; cases hl
  | _ => cases e

/-! ### Scalars -/

theorem sound_int (n : Nat) : Sound JC.int.dec n IntOk := by
  intro v a a' _ ha e
  simp only [JC.int] at e
  split at e
  · split at e
    · split at e
      · rename_i hx
        cases e; exact hx
      · cases e
    · cases e
  · cases e; exact ha
  · cases e

theorem sound_float {io : FloatIO} (h : FiniteParse io) (n : Nat) : Sound (JC.float io).dec n (fun x => x.finite = true) := by
  intro v a a' _ ha e
  simp only [JC.float] at e
  split at e
  · split at e
    · rename_i hx
      cases e; exact h _ _ hx
    · cases e
  · cases e; exact ha
  · cases e

theorem sound_string (n : Nat) : Sound JC.string.dec n IsUtf8 := by
  intro v a a' hv ha e
  cases v with
  | str s =>
    cases e
    cases hv.ok with
    | str _ h => exact h
  | null => cases e; exact ha
  | _ => cases e

theorem sound_enumNum {α : Type} {size : Nat} {zero : α} {toCode : α → Nat} {ofCode : Nat → α} {P : α → Prop} (h : ∀ k, P (ofCode k)) (n : Nat) :
    Sound (JC.enumNum size zero toCode ofCode).dec n P := by
  intro v a a' _ _ e
  simp only [JC.enumNum] at e
  cases hd : decUint size v 0 with
  | error e' => rw [hd] at e; cases e
  | ok k => rw [hd] at e; cases e; exact h k

theorem sound_enumStr {α : Type} {zero : α} {toCode : α → Bytes} {ofCode : Bytes → Except Err α} {P : α → Prop}
    (h : ∀ s a, ofCode s = .ok a → P a) (n : Nat) : Sound (JC.enumStr zero toCode ofCode).dec n P := by
  intro v a a' _ _ e
  simp only [JC.enumStr] at e
  cases hd : JC.string.dec v [] with
  | error e' => rw [hd] at e; cases e
  | ok k => rw [hd] at e; exact h k a' e

/-! ### Values of type any -/

mutual
theorem sound_anyDec {io : FloatIO} (h : FiniteParse io) : (v : JVal) → ∀ n a, Val n v → GoAny.dec io v = .ok a → AnyOk n a
  | .null, n, a, _, e => by cases e; exact .null n
  | .bool b, n, a, _, e => by cases e; exact .bool n b
  | .num lit, n, a, hv, e => by
    simp only [GoAny.dec] at e
    cases hd : (JC.float io).dec (.num lit) ⟨0⟩ with
    | error e' => rw [hd] at e; cases e
    | ok x => rw [hd] at e; cases e; exact .num n x (sound_float h n _ _ _ hv (by decide) hd)
  | .str s, n, a, hv, e => by
    cases e
    cases hv.ok with
    | str _ h => exact .str n s h
  | .arr l, n, a, hv, e => by
    simp only [GoAny.dec] at e
    cases hd : GoAny.decList io l with
    | error e' => rw [hd] at e; cases e
    | ok as =>
      rw [hd] at e
      cases e
      cases hv.ok with
      | arr _ h1 =>
        cases hv.depth with
        | arr m _ h2 => exact .arr m as (sound_anyList h l m as (fun v hm => ⟨h1 v hm, h2 v hm⟩) hd)
  | .obj l, n, a, hv, e => by
    simp only [GoAny.dec] at e
    cases hd : GoAny.decMap io l [] with
    | error e' => rw [hd] at e; cases e
    | ok as =>
      rw [hd] at e
      cases e
      cases hv.ok with
      | obj _ hk h1 =>
        cases hv.depth with
        | obj m _ h2 =>
          have := sound_anyMap h l m [] as (fun v hm => ⟨hk v hm, h1 v hm, h2 v hm⟩) ⟨isMap_nil, by simp⟩ hd
          exact .obj m as this.1 this.2
theorem sound_anyList {io : FloatIO} (h : FiniteParse io) : (l : List JVal) → ∀ n as, (∀ v ∈ l, Val n v) → GoAny.decList io l = .ok as →
    ∀ a ∈ as, AnyOk n a
  | [], n, as, _, e => by cases e; simp
  | v :: l, n, as, hv, e => by
    simp only [GoAny.decList] at e
    cases h1 : GoAny.dec io v with
    | error e' => rw [h1] at e; cases e
    | ok a =>
      cases h2 : GoAny.decList io l with
      | error e' => rw [h1, h2] at e; cases e
      | ok as' =>
        rw [h1, h2] at e
        cases e
        exact List.forall_mem_cons.2 ⟨sound_anyDec h v n a (hv v (by simp)) h1,
          sound_anyList h l n as' (fun v hm => hv v (List.mem_cons_of_mem _ hm)) h2⟩
theorem sound_anyMap {io : FloatIO} (h : FiniteParse io) : (l : List (Bytes × JVal)) → ∀ n m m', (∀ v ∈ l, IsUtf8 v.1 ∧ Val n v.2) →
    (IsMap m ∧ ∀ p ∈ m, AnyOk n p.2) → GoAny.decMap io l m = .ok m' → IsMap m' ∧ ∀ p ∈ m', AnyOk n p.2
  | [], n, m, m', _, hm, e => by cases e; exact hm
  | (k, v) :: l, n, m, m', hv, hm, e => by
    simp only [GoAny.decMap] at e
    cases h1 : GoAny.dec io v with
    | error e' => rw [h1] at e; cases e
    | ok a =>
      rw [h1] at e
      obtain ⟨hk, hv1⟩ := hv (k, v) (by simp)
      refine sound_anyMap h l n _ m' (fun x hx => hv x (List.mem_cons_of_mem _ hx)) ⟨mapInsert_isMap hm.1 hk, fun p hp => ?_⟩ e
      rcases mapInsert_member hp with rfl | hp
      · exact sound_anyDec h v n a hv1 h1
      · exact hm.2 p hp
end

theorem sound_any {io : FloatIO} (h : FiniteParse io) (n : Nat) : Sound (JC.any io).dec n (AnyOk n) :=
  fun v _ a' hv _ e => sound_anyDec h v n a' hv e

/-! ### Extensions -/

/-- The payload of an extension is written as JSON that decodes to the same. -/
def Settled (r : Registry) (n : Nat) (k : Bytes) (x : ExtVal) : Prop :=
  ∃ v, x.enc = .ok v ∧ JsonOk v ∧ DepthLe n v ∧ r.decode k v = x

/-- Settled payloads: what is not registered is kept, and registered types are lawful. -/
theorem settled {r : Registry} {n : Nat} (hr : LawfulRegistry r n) (k : Bytes) (v : JVal) (hv : Val n v) : Settled r n k (r.decode k v) := by
  unfold Registry.decode
  cases hq : r.query k with
  | none =>
    refine ⟨v, rfl, hv.ok, hv.depth, ?_⟩
    unfold Registry.decode
    rw [hq]
  | some f =>
    simp only
    cases hf : f v with
    | error e =>
      refine ⟨v, rfl, hv.ok, hv.depth, ?_⟩
      unfold Registry.decode
      rw [hq]
      simp only [hf]
    | ok x =>
      obtain ⟨w, rfl, h1, h2, h3⟩ := hr k f hq v hv.ok hv.depth x hf
      refine ⟨w, rfl, h1, h2, ?_⟩
      unfold Registry.decode
      rw [hq]
      simp only [h3]

theorem sound_decExtensions {r : Registry} {n : Nat} (hr : LawfulRegistry r n) : ∀ vs m,
    (∀ v ∈ vs, IsUtf8 v.1 ∧ Val n v.2) → ExtOk r n m → ExtOk r n (decExtensions r vs m)
  | [], m, _, hm => hm
  | (k, v) :: vs, m, hv, hm => by
    obtain ⟨hk, hv1⟩ := hv (k, v) (by simp)
    refine sound_decExtensions hr vs _ (fun x hx => hv x (List.mem_cons_of_mem _ hx)) ⟨mapInsert_isMap hm.keys hk, fun p hp => ?_⟩
    rcases mapInsert_member hp with rfl | hp
    · exact settled hr k v hv1
    · exact hm.payload p hp

theorem sound_extensions {r : Registry} {n : Nat} (hr : LawfulRegistry r n) :
    Sound (JC.extensions r).dec n (ExtOk r n) := by
  intro v m m' hv hm e
  cases v with
  | obj vs => cases e; exact sound_decExtensions hr vs m hv.member hm
  | null => cases e; exact hm
  | _ => cases e

end Gltf
