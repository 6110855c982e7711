/-
Property C50: which files `Decode` takes without a panic.
-/
import Verif.Spec.Harmless
import Verif.Lemmas.TextFile
import Verif.Lemmas.Schema

namespace Gltf

open Spec

/-! ### Names -/

theorem foldKey_cons (c : UInt8) (s : Bytes) (h : c < 128) :
    foldKey (c :: s) = (if 97 ≤ c ∧ c ≤ 122 then c - 32 else c) :: foldKey s := by
  rw [foldKey]
  · intro _ e; subst e; exact absurd h (by decide)
  · intro _ e; subst e; exact absurd h (by decide)

theorem fold_cases (c d : UInt8) (h : (if 97 ≤ c ∧ c ≤ 122 then c - 32 else c) = (if 97 ≤ d ∧ d ≤ 122 then d - 32 else d)) :
    c = d ∨ (97 ≤ d ∧ d ≤ 122 ∧ c = d - 32) ∨ (65 ≤ d ∧ d ≤ 90 ∧ c = d + 32) := by
  simp only [UInt8.le_iff_toNat_le, ← UInt8.toNat_inj, apply_ite UInt8.toNat, UInt8.toNat_sub, UInt8.toNat_add] at h ⊢
  have := c.toNat_lt
  have := d.toNat_lt
  simp only [UInt8.reduceToNat] at h ⊢
  split at h <;> split at h <;> omega

theorem fold_same {c d : UInt8} {k n : Bytes} (hk : SameName k n)
    (h : (if 97 ≤ c ∧ c ≤ 122 then c - 32 else c) = (if 97 ≤ d ∧ d ≤ 122 then d - 32 else d)) : SameName (c :: k) (d :: n) := by
  rcases fold_cases c d h with rfl | ⟨h1, h2, rfl⟩ | ⟨h1, h2, rfl⟩
  · exact .same hk
  · exact .upper h1 h2 hk
  · exact .lower h1 h2 hk

theorem fold_letter {d e : UInt8} (h : e = (if 97 ≤ d ∧ d ≤ 122 then d - 32 else d)) (he : 65 ≤ e ∧ e ≤ 90) : d = e ∨ d = e + 32 := by
  simp only [UInt8.le_iff_toNat_le, ← UInt8.toNat_inj, apply_ite UInt8.toNat, UInt8.toNat_sub, UInt8.toNat_add] at h he ⊢
  have := e.toNat_lt
  have := d.toNat_lt
  simp only [UInt8.reduceToNat] at h he ⊢
  split at h <;> omega

theorem foldKey_same (k n : Bytes) (hn : ∀ c ∈ n, c < 128) (e : foldKey k = foldKey n) : SameName k n := by
  fun_induction foldKey k generalizing n with
  | case1 s ih =>
    cases n with
    | nil => cases e
    | cons d n =>
      rw [foldKey_cons _ _ (hn d (by simp))] at e
      obtain ⟨e1, e2⟩ := List.cons.inj e
      exact .kelvin (fold_letter e1 (by decide)) (ih n (fun c hc => hn c (by simp [hc])) e2)
  | case2 s ih =>
    cases n with
    | nil => cases e
    | cons d n =>
      rw [foldKey_cons _ _ (hn d (by simp))] at e
      obtain ⟨e1, e2⟩ := List.cons.inj e
      exact .longS (fold_letter e1 (by decide)) (ih n (fun c hc => hn c (by simp [hc])) e2)
  | case3 c s h1 h2 ih =>
    cases n with
    | nil => cases e
    | cons d n =>
      rw [foldKey_cons _ _ (hn d (by simp))] at e
      obtain ⟨e1, e2⟩ := List.cons.inj e
      exact fold_same (ih n (fun c hc => hn c (by simp [hc])) e2) e1
  | case4 =>
    cases n with
    | nil => exact .nil
    | cons d n => rw [foldKey_cons _ _ (hn d (by simp))] at e; cases e

/-! ### Decoding with a condition on the JSON -/

/-- Decoding a member keeps a predicate if the member meets a condition. -/
def FC.Given {τ : Type} (fc : FC τ) (M : Bytes → JVal → Prop) (P : τ → Prop) : Prop :=
  ∀ k v a a', M k v → P a → fc.dec k v a = .ok a' → P a'

theorem given_true {τ : Type} (fc : FC τ) (M : Bytes → JVal → Prop) : fc.Given M (fun _ => True) := fun _ _ _ _ _ _ _ => trivial

theorem given_cons {α τ : Type} {name : Bytes} {f : FE α} {r : FC τ} {M : Bytes → JVal → Prop} {P : α → Prop} {Q : τ → Prop}
    (hf : ∀ k v a a', M k v → foldKey k = foldKey name → P a → f.dec v a = .ok a' → P a') (hr : r.Given M Q) :
    (FC.cons name f r).Given M (fun t => P t.1 ∧ Q t.2) := by
  intro k v a a' hm h e
  simp only [FC.cons] at e
  split at e
  · rename_i hk
    cases hd : f.dec v a.1 with
    | error e' => rw [hd] at e; cases e
    | ok x => rw [hd] at e; cases e; exact ⟨hf _ _ _ _ hm hk h.1 hd, h.2⟩
  · cases hd : r.dec k v a.2 with
    | error e' => rw [hd] at e; cases e
    | ok x => rw [hd] at e; cases e; exact ⟨h.1, hr _ _ _ _ hm h.2 hd⟩

theorem given_other {α τ : Type} {name : Bytes} {f : FE α} {r : FC τ} {M : Bytes → JVal → Prop} {Q : τ → Prop} (hr : r.Given M Q) :
    (FC.cons name f r).Given M (fun t => Q t.2) := fun k v a a' hm h e =>
  (given_cons (P := fun _ => True) (fun _ _ _ _ _ _ _ _ => trivial) hr k v a a' hm ⟨trivial, h⟩ e).2

theorem given_all {τ : Type} {fc : FC τ} {M : Bytes → JVal → Prop} {P : τ → Prop} (h : fc.Given M P) : ∀ vs a a',
    (∀ m ∈ vs, M m.1 m.2) → P a → fc.decAll vs a = .ok a' → P a'
  | [], a, a', _, ha, e => by cases e; exact ha
  | (k, v) :: vs, a, a', hv, ha, e => by
    simp only [FC.decAll] at e
    cases hd : fc.dec k v a with
    | error e' => rw [hd] at e; cases e
    | ok x =>
      rw [hd] at e
      exact given_all h vs x a' (fun m hm => hv m (List.mem_cons_of_mem _ hm)) (h _ _ _ _ (hv (k, v) (by simp)) ha hd) e

theorem given_struct {σ τ : Type} {to : σ → τ} {of : τ → σ} {fc : FC τ} {M : Bytes → JVal → Prop} {P : τ → Prop} {Q : σ → Prop}
    (h : fc.Given M P) (h1 : ∀ s, Q s → P (to s)) (h2 : ∀ t, P t → Q (of t)) {v : JVal} {a a' : σ}
    (hm : ∀ ms, v = .obj ms → ∀ m ∈ ms, M m.1 m.2) (ha : Q a) (e : (JC.struct to of fc).dec v a = .ok a') : Q a' := by
  cases v with
  | obj vs =>
    simp only [JC.struct] at e
    cases hd : fc.decAll vs (to a) with
    | error e' => rw [hd] at e; cases e
    | ok x => rw [hd] at e; cases e; exact h2 _ (given_all h vs _ _ (hm vs rfl) (h1 _ ha) hd)
  | null => cases e; exact ha
  | _ => cases e

/-- A list of pointers that is read from values that are not null. -/
theorem given_list {α : Type} {c : JC α} {V : JVal → Prop} {P : α → Prop}
    (h : ∀ v a a', V v → P a → c.dec v a = .ok a' → P a') (hz : P c.zero) : ∀ vs l l', (∀ v ∈ vs, v ≠ .null ∧ V v) →
    (∀ o ∈ l, ∃ a, o = some a ∧ P a) → decList (JC.ptr c) vs l = .ok l' → ∀ o ∈ l', ∃ a, o = some a ∧ P a
  | [], l, l', _, _, e => by cases e; simp
  | v :: vs, l, l', hv, hl, e => by
    have hk : ∃ cur curs, (∀ a, cur = some a → P a) ∧ (∀ o ∈ curs, ∃ a, o = some a ∧ P a) ∧ (do
        let a ← (JC.ptr c).dec v cur
        let l ← decList (JC.ptr c) vs curs
        return a :: l) = Except.ok l' := by
      cases l with
      | nil => exact ⟨none, [], by simp, by simp, e⟩
      | cons cur curs =>
        refine ⟨cur, curs, ?_, fun a ha => hl a (by simp [ha]), e⟩
        rintro a rfl
        obtain ⟨b, hb, hp⟩ := hl (some a) (by simp)
        cases hb
        exact hp
    obtain ⟨cur, curs, hc, hcs, e⟩ := hk
    obtain ⟨hn, hV⟩ := hv v (by simp)
    cases h1 : (JC.ptr c).dec v cur with
    | error e' => rw [h1] at e; cases e
    | ok a =>
      cases h2 : decList (JC.ptr c) vs curs with
      | error e' => rw [h1, h2] at e; cases e
      | ok as =>
        rw [h1, h2] at e
        cases e
        intro b hb
        rcases List.mem_cons.1 hb with rfl | hb
        · have hc' : P (cur.getD c.zero) := by
            cases cur with
            | none => exact hz
            | some x => exact hc x rfl
          have h1' : (c.dec v (cur.getD c.zero)).map some = .ok b := by
            cases v with
            | null => exact absurd rfl hn
            | _ => exact h1
          cases hd : c.dec v (cur.getD c.zero) with
          | error e' => rw [hd] at h1'; cases h1'
          | ok x => rw [hd] at h1'; cases h1'; exact ⟨x, rfl, h _ _ _ hV hc' hd⟩
        · exact given_list h hz vs curs as (fun w hw => hv w (by simp [hw])) hcs h2 b hb

/-! ### Documents -/

theorem readInt_some {lit : Bytes} {n : Int} (h : readInt lit = some n) : IntLit lit n := by
  have hd : ∀ {s : Bytes} {k : Nat}, readNat s = some k → IsDigits s ∧ k = decimalOf s := by
    intro s k h
    unfold readNat at h
    split at h
    · rename_i hs
      cases h
      exact ⟨⟨hs.1, by simpa using hs.2⟩, (decimalOf_eq s).symm⟩
    · cases h
  unfold readInt at h
  split at h
  · rename_i hh
    cases lit with
    | nil => cases hh
    | cons c t =>
      cases hh
      cases hr : readNat t with
      | none => simp only [List.drop_succ_cons, List.drop_zero, hr] at h; cases h
      | some k =>
        simp only [List.drop_succ_cons, List.drop_zero, hr] at h
        obtain ⟨h1, h2⟩ := hd hr
        cases h
        exact ⟨t, h1, .inr ⟨rfl, by rw [h2]⟩⟩
  · cases hr : readNat lit with
    | none => simp only [hr] at h; cases h
    | some k =>
      simp only [hr] at h
      obtain ⟨h1, h2⟩ := hd hr
      cases h
      exact ⟨lit, h1, .inl ⟨rfl, by rw [h2]⟩⟩

theorem harmless_buffer (E : Env) {v : JVal} {a a' : Buffer}
    (hv : ∀ lit n, Member v b!"byteLength" (.num lit) → IntLit lit n → 0 ≤ n ∧ n ≤ 2 ^ 48)
    (ha : 0 ≤ a.byteLength ∧ a.byteLength ≤ 2 ^ 48) (e : (bufferC E).dec v a = .ok a') : 0 ≤ a'.byteLength ∧ a'.byteLength ≤ 2 ^ 48 := by
  refine given_struct (M := fun k x => SameName k b!"byteLength" → ∀ lit n, x = .num lit → IntLit lit n → 0 ≤ n ∧ n ≤ 2 ^ 48)
    (P := fun t => (0 ≤ t.2.2.2.2.1 ∧ t.2.2.2.2.1 ≤ 2 ^ 48) ∧ True) (Q := fun b : Buffer => 0 ≤ b.byteLength ∧ b.byteLength ≤ 2 ^ 48)
    (given_other <| given_other <| given_other <| given_other <| given_cons (P := fun n : Int => 0 ≤ n ∧ n ≤ 2 ^ 48) ?_ (given_true _ _))
    (fun s h => ⟨h, trivial⟩) (fun t h => h.1) ?_ ha e
  · intro k x n n' hm hk hn e
    cases x with
    | num lit =>
      simp only [JC.always, JC.int] at e
      cases hr : readInt lit with
      | none => rw [hr] at e; cases e
      | some i =>
        rw [hr] at e
        simp only at e
        split at e
        · cases e
          exact hm (foldKey_same _ _ (by decide) hk) lit _ rfl (readInt_some hr)
        · cases e
    | null => cases e; exact hn
    | _ => cases e
  · rintro ms rfl ⟨k, x⟩ hm hk lit n rfl hl
    exact hv lit n ⟨ms, k, rfl, hm, hk⟩ hl

theorem harmless_doc (E : Env) {v : JVal} {d : Document} (hv : Harmless v) (e : (documentC E).dec v {} = .ok d) :
    (∀ o ∈ d.buffers, ∃ b, o = some b ∧ 0 ≤ b.byteLength ∧ b.byteLength ≤ 2 ^ 48) ∧ (∀ o ∈ d.images, ∃ i : Image, o = some i ∧ True) := by
  refine given_struct
    (M := fun k x => (SameName k b!"buffers" → ∀ l, x = .arr l → ∀ b ∈ l, b ≠ .null ∧
        ∀ lit n, Member b b!"byteLength" (.num lit) → IntLit lit n → 0 ≤ n ∧ n ≤ 2 ^ 48) ∧
      (SameName k b!"images" → ∀ l, x = .arr l → ∀ b ∈ l, b ≠ .null ∧ True))
    (P := fun t => (∀ o ∈ t.1, ∃ b : Buffer, o = some b ∧ 0 ≤ b.byteLength ∧ b.byteLength ≤ 2 ^ 48) ∧
      (∀ o ∈ t.2.2.2.2.2.2.2.2.2.2.1, ∃ i : Image, o = some i ∧ True) ∧ True)
    (Q := fun d : Document => (∀ o ∈ d.buffers, ∃ b, o = some b ∧ 0 ≤ b.byteLength ∧ b.byteLength ≤ 2 ^ 48) ∧
      (∀ o ∈ d.images, ∃ i : Image, o = some i ∧ True))
    (given_cons (P := fun l : List (Option Buffer) => ∀ o ∈ l, ∃ b, o = some b ∧ 0 ≤ b.byteLength ∧ b.byteLength ≤ 2 ^ 48) ?_ <|
      given_other <| given_other <| given_other <| given_other <| given_other <| given_other <| given_other <| given_other <| given_other <|
      given_cons (P := fun l : List (Option Image) => ∀ o ∈ l, ∃ i, o = some i ∧ True) ?_ (given_true _ _))
    (fun s h => ⟨h.1, h.2, trivial⟩) (fun t h => ⟨h.1, h.2.1⟩) ?_ ⟨by simp, by simp⟩ e
  · intro k x l l' hm hk hl e
    cases x with
    | arr vs =>
      exact given_list (fun v a a' hV => harmless_buffer E hV) (show (0 : Int) ≤ 0 ∧ (0 : Int) ≤ 2 ^ 48 by decide) vs l l'
        (hm.1 (foldKey_same _ _ (by decide) hk) vs rfl) hl e
    | null => cases e; simp
    | _ => cases e
  · intro k x l l' hm hk hl e
    cases x with
    | arr vs =>
      exact given_list (V := fun _ => True) (fun _ _ _ _ _ _ => trivial) trivial vs l l'
        (hm.2 (foldKey_same _ _ (by decide) hk) vs rfl) hl e
    | null => cases e; simp
    | _ => cases e
  · rintro ms rfl ⟨k, x⟩ hm
    refine ⟨?_, ?_⟩
    · rintro hk l rfl b hb
      have he : Element (.obj ms) b!"buffers" b := ⟨l, ⟨ms, k, rfl, hm, hk⟩, hb⟩
      exact ⟨by rintro rfl; exact hv.buffer he, fun lit n => hv.length b lit n he⟩
    · rintro hk l rfl b hb
      have he : Element (.obj ms) b!"images" b := ⟨l, ⟨ms, k, rfl, hm, hk⟩, hb⟩
      exact ⟨by rintro rfl; exact hv.image he, trivial⟩

/-! ### C50 Decode never panics -/

/-- C50 in part: if the JSON of the file has no null buffers and images, and no lengths of buffers outside the range
from 0 to 2^48, then `Decode` does not panic. The hypothesis holds of every file that is not JSON, of every file whose
JSON stops early, and of every JSON without buffers and images. Missing: other JSON, see `C50_full_fails`. -/
theorem C50_no_panic_partial (E : DecEnv) (s : Source) (h : ∀ v, StartsWith true v (jsonPart s.data) → Harmless v) :
    (decodeSource E s).result.isPanic = false := by
  refine decode_noPanic E s fun isBinary d e => ?_
  unfold docOf at e
  cases hh : headerOf s.data with
  | err e' => rw [hh] at e; cases e
  | panic w => rw [hh] at e; cases e
  | ok hd' =>
    rw [hh] at e
    simp only at e
    cases hv : valueOf (jsonStream s.data hd') (jsonFin s.data s.fin hd') with
    | err e' => rw [hv] at e; cases e
    | panic w => rw [hv] at e; cases e
    | ok v =>
      rw [hv] at e
      simp only at e
      cases hj : (documentC E.json).dec v {} with
      | error e' => rw [hj] at e; cases e
      | ok d' =>
        rw [hj] at e
        cases e
        have hs : jsonOf s = .ok v := by unfold jsonOf; rw [hh]; exact hv
        obtain ⟨hb, hi⟩ := harmless_doc E.json (h v (jsonOf_sound hs)) hj
        refine ⟨fun hn => ?_, fun hn => ?_, fun b hm => ?_⟩
        · obtain ⟨b, e, -⟩ := hb _ hn; cases e
        · obtain ⟨b, e, -⟩ := hi _ hn; cases e
        · obtain ⟨b', e, h'⟩ := hb _ hm
          cases e
          exact h'

/-! ### A file that meets the hypothesis -/

theorem chars_strict {s t : Bytes} (h : Chars true s t) (hp : ∀ b ∈ t, b < 128 ∧ b ≠ 92) : Chars false s t := by
  induction h with
  | nil => exact .nil
  | char c h1 h2 h3 _ ih => exact .char c h1 h2 h3 (ih fun b hb => hp b (by simp [hb]))
  | short h _ ih => exact .short h (ih fun b hb => hp b (by simp [hb]))
  | hex c h _ ih => exact .hex c h (ih fun b hb => hp b (by simp [hb]))
  | pair c h1 h2 h3 h4 h5 _ ih => exact .pair c h1 h2 h3 h4 h5 (ih fun b hb => hp b (by simp [hb]))
  | half => exact absurd rfl (hp 92 (by simp)).2
  | stray _ h => exact absurd h (UInt8.not_le.2 (hp _ List.mem_cons_self).1)

theorem text_strict {i : Item} {t : Bytes} (h : Text true i t) (hp : ∀ b ∈ t, b < 128 ∧ b ≠ 92) : Text false i t := by
  induction h with
  | null => exact .null
  | true => exact .true
  | false => exact .false
  | num h => exact .num h
  | str h => exact .str (chars_strict h fun b hb => hp b (by simp [hb]))
  | arrNil h => exact .arrNil h
  | arr _ ih => exact .arr (ih fun b hb => hp b (by simp [hb]))
  | objNil h => exact .objNil h
  | obj _ ih => exact .obj (ih fun b hb => hp b (by simp [hb]))
  | elem h1 h2 _ ih => exact .elem h1 h2 (ih fun b hb => hp b (by simp [hb]))
  | elems h1 h2 _ _ ih1 ih2 => exact .elems h1 h2 (ih1 fun b hb => hp b (by simp [hb])) (ih2 fun b hb => hp b (by simp [hb]))
  | member h1 h2 h3 h4 hk _ ih =>
    exact .member h1 h2 h3 h4 (chars_strict hk fun b hb => hp b (by simp [hb])) (ih fun b hb => hp b (by simp [hb]))
  | members h1 h2 h3 h4 hk _ _ ih1 ih2 =>
    exact .members h1 h2 h3 h4 (chars_strict hk fun b hb => hp b (by simp [hb])) (ih1 fun b hb => hp b (by simp [hb]))
      (ih2 fun b hb => hp b (by simp [hb]))

/-- A text of plain characters stands for the value that the parser finds. -/
theorem startsWith_parse {data rest : Bytes} {v v0 : JVal} (hp : data.all (fun b => b < 128 && b != 92) = true) (hl : data.length ≤ 10000)
    (h0 : parseTop data = .ok v0 rest) (h : StartsWith true v data) : v = v0 ∨ ((∀ l, v ≠ .obj l) ∧ ∀ l, v ≠ .arr l) := by
  by_cases he : (∃ l, v = .obj l) ∨ (∃ l, v = .arr l)
  · obtain ⟨w, t, r, hw, ht, rfl⟩ := h
    have hp' : ∀ b ∈ t, b < 128 ∧ b ≠ 92 := fun b hb => by
      have := List.all_eq_true.1 hp b (by simp [hb])
      simpa using this
    have hd : DepthLe maxDepth v := depthLe_mono (text_depth ht) (by simp only [List.length_append] at hl; show _ ≤ 10000; omega)
    rw [parseTop_text hw (text_strict ht hp') hd r he] at h0
    cases h0
    exact .inl rfl
  · exact .inr ⟨fun l e => he (.inl ⟨l, e⟩), fun l e => he (.inr ⟨l, e⟩)⟩

theorem fold_upper {c : UInt8} (h1 : 97 ≤ c) (h2 : c ≤ 122) : c - 32 < 128 ∧ ¬ (97 ≤ c - 32 ∧ c - 32 ≤ 122) := by
  simp only [UInt8.le_iff_toNat_le, UInt8.lt_iff_toNat_lt, UInt8.toNat_sub] at *
  simp only [UInt8.reduceToNat] at *
  omega

theorem fold_lower {c : UInt8} (h1 : 65 ≤ c) (h2 : c ≤ 90) : c + 32 < 128 ∧ (97 ≤ c + 32 ∧ c + 32 ≤ 122) ∧ c + 32 - 32 = c ∧
    ¬ (97 ≤ c ∧ c ≤ 122) := by
  simp only [UInt8.le_iff_toNat_le, UInt8.lt_iff_toNat_lt, ← UInt8.toNat_inj, UInt8.toNat_add, UInt8.toNat_sub] at *
  simp only [UInt8.reduceToNat] at *
  omega

theorem sameName_fold {k n : Bytes} (h : SameName k n) : (∀ c ∈ n, c < 128) → foldKey k = foldKey n := by
  induction h with
  | nil => intro _; rfl
  | same h ih =>
    intro hn
    rw [foldKey_cons _ _ (hn _ (by simp)), foldKey_cons _ _ (hn _ (by simp)), ih fun c hc => hn c (by simp [hc])]
  | upper h1 h2 h ih =>
    intro hn
    rw [foldKey_cons _ _ (fold_upper h1 h2).1, foldKey_cons _ _ (hn _ (by simp)), ih fun c hc => hn c (by simp [hc]),
      if_neg (fold_upper h1 h2).2, if_pos ⟨h1, h2⟩]
  | lower h1 h2 h ih =>
    intro hn
    obtain ⟨l1, l2, l3, l4⟩ := fold_lower h1 h2
    rw [foldKey_cons _ _ l1, foldKey_cons _ _ (hn _ (by simp)), ih fun c hc => hn c (by simp [hc]), if_pos l2, if_neg l4, l3]
  | kelvin hc h ih =>
    intro hn
    rw [foldKey, ih fun c hc => hn c (by simp [hc]), foldKey_cons _ _ (hn _ List.mem_cons_self)]
    rcases hc with rfl | rfl <;> rfl
  | longS hc h ih =>
    intro hn
    rw [foldKey, ih fun c hc => hn c (by simp [hc]), foldKey_cons _ _ (hn _ List.mem_cons_self)]
    rcases hc with rfl | rfl <;> rfl

/-- What a value has under a name. -/
def membersOf (v : JVal) (name : Bytes) : List JVal :=
  match v with
  | .obj ms => (ms.filter fun m => foldKey m.1 == foldKey name).map (·.2)
  | _ => []

theorem member_mem {v x : JVal} {name : Bytes} (hn : ∀ c ∈ name, c < 128) (h : Member v name x) : x ∈ membersOf v name := by
  obtain ⟨ms, k, rfl, hm, hk⟩ := h
  exact List.mem_map.2 ⟨(k, x), List.mem_filter.2 ⟨hm, by simpa using sameName_fold hk hn⟩, rfl⟩

/-- The elements of the lists that a value has under a name. -/
def elementsOf (v : JVal) (name : Bytes) : List JVal :=
  (membersOf v name).flatMap fun x => match x with
    | .arr l => l
    | _ => []

theorem element_mem {v x : JVal} {name : Bytes} (hn : ∀ c ∈ name, c < 128) (h : Element v name x) : x ∈ elementsOf v name := by
  obtain ⟨l, hm, hx⟩ := h
  exact List.mem_flatMap.2 ⟨.arr l, member_mem hn hm, hx⟩

/-- A test for harmless values. -/
def harmless (v : JVal) : Bool :=
  (elementsOf v b!"images").all (fun x => match x with
    | .null => false
    | _ => true) &&
  (elementsOf v b!"buffers").all fun x => match x with
    | .null => false
    | _ => (membersOf x b!"byteLength").all fun y => match y with
      | .num lit => match readInt lit with
        | some n => decide (0 ≤ n ∧ n ≤ 2 ^ 48)
        | none => true
      | _ => true

theorem harmless_sound {v : JVal} (h : harmless v = true) : Harmless v := by
  simp only [harmless, Bool.and_eq_true, List.all_eq_true] at h
  refine ⟨fun hb => ?_, fun hi => ?_, fun b lit n hb hm hl => ?_⟩
  · cases h.2 _ (element_mem (by decide) hb)
  · cases h.1 _ (element_mem (by decide) hi)
  · have h1 := h.2 _ (element_mem (by decide) hb)
    have hm' := member_mem (by decide) hm
    cases b with
    | obj ms =>
      have h2 := List.all_eq_true.1 h1 _ hm'
      simp only [readInt_lit hl, decide_eq_true_eq] at h2
      exact h2
    | _ => cases hm'

theorem harmless_scalar {v : JVal} (h : ∀ l, v ≠ .obj l) : Harmless v := by
  refine ⟨?_, ?_, ?_⟩
  · rintro ⟨l, ⟨ms, k, e, -⟩, -⟩; exact h _ e
  · rintro ⟨l, ⟨ms, k, e, -⟩, -⟩; exact h _ e
  · rintro b lit n ⟨l, ⟨ms, k, e, -⟩, -⟩; exact absurd e (h _)

/-- A document with an image and buffers of two kinds meets the hypothesis, and is decoded. -/
example : let s : Source := { data := b!"{\"Buffers\":[{\"byteLength\":4,\"uri\":\"a\"},{\"byteLength\":1,\"uri\":\"data:application/octet-stream;base64,AA==\"}],\"images\":[{}]}" }
    (∀ v, StartsWith true v (jsonPart s.data) → Harmless v) ∧ (decodeSource witnessDec s).result.isErr = false := by
  intro s
  refine ⟨fun v hv => ?_, by decide +kernel⟩
  have hg : jsonPart s.data = s.data := if_neg (by decide +kernel)
  rw [hg] at hv
  have hp : (match parseTop s.data with
      | .ok v _ => harmless v
      | _ => false) = true := by decide +kernel
  obtain ⟨v0, r, h0, hh⟩ : ∃ v0 r, parseTop s.data = .ok v0 r ∧ harmless v0 = true := by
    cases h : parseTop s.data with
    | ok v r => rw [h] at hp; exact ⟨v, r, rfl, hp⟩
    | _ => rw [h] at hp; cases hp
  rcases startsWith_parse (by decide +kernel) (by decide +kernel) h0 hv with rfl | h
  · exact harmless_sound hh
  · exact harmless_scalar h.1

end Gltf
