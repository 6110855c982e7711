/-
The codecs accept exactly the values of a kind, and do not look at what the kind does not describe.
-/
import Verif.Spec.JKind
import Verif.Lemmas.Schema
import Verif.Lemmas.Number
import Verif.Model.JsonDoc
import Verif.Model.GoFloat

namespace Gltf

open Spec

/-- The decoder accepts exactly the values of the kind, and gives the same for values that are alike. -/
structure Follows {α : Type} (dec : JVal → α → Except Err α) (s : JKind) : Prop where
  ok : ∀ v, JsonOk v → ∀ cur, (∃ a, dec v cur = .ok a) ↔ Fits s v
  alike : ∀ v w cur, Alike SameFold s v w → dec v cur = dec w cur

/-- The same for the members of a struct. -/
structure FC.Follows {τ : Type} (fc : FC τ) (fs : List (Bytes × JKind)) : Prop where
  ok : ∀ f ∈ fs, ∀ k, foldKey k = foldKey f.1 → ∀ v, JsonOk v → ∀ t, (∃ t', fc.dec k v t = .ok t') ↔ Fits f.2 v
  alike : ∀ f ∈ fs, ∀ k k', foldKey k = foldKey f.1 → foldKey k' = foldKey f.1 → ∀ v w t, Alike SameFold f.2 v w → fc.dec k v t = fc.dec k' w t
  other : ∀ k, (∀ f ∈ fs, foldKey k ≠ foldKey f.1) → ∀ v t, fc.dec k v t = .ok t

theorem map_ok_iff {α β : Type} {x : Except Err α} {f : α → β} : (∃ b, x.map f = .ok b) ↔ ∃ a, x = .ok a := by
  cases x with
  | ok a => exact ⟨fun _ => ⟨a, rfl⟩, fun _ => ⟨f a, rfl⟩⟩
  | error e => exact ⟨fun ⟨_, h⟩ => (nomatch h), fun ⟨_, h⟩ => (nomatch h)⟩

theorem alike_null {s : JKind} {w : JVal} (h : Alike SameFold s .null w) : w = .null := by cases h; rfl
theorem alike_null' {s : JKind} {v : JVal} (h : Alike SameFold s v .null) : v = .null := by cases h; rfl

theorem mismatch_no {α : Type} {P : Prop} (h : ¬ P) : (∃ a, (mismatch : Except Err α) = .ok a) ↔ P :=
  ⟨fun ⟨_, h⟩ => (nomatch h), fun h' => absurd h' h⟩

theorem ok_yes {α : Type} {a : α} {P : Prop} (h : P) : (∃ b, (Except.ok a : Except Err α) = .ok b) ↔ P := ⟨fun _ => h, fun _ => ⟨a, rfl⟩⟩

/-! ### Scalars -/

theorem readNat_iff {s : Bytes} {n : Nat} : readNat s = some n ↔ IsDigits s ∧ n = decimalOf s := by
  constructor
  · intro h
    have hd : IsDigits s := by
      unfold readNat at h
      split at h
      · next hs => exact ⟨hs.1, by simpa using hs.2⟩
      · cases h
    rw [readNat_digits hd] at h
    exact ⟨hd, by injection h with h; exact h.symm⟩
  · rintro ⟨hd, rfl⟩
    exact readNat_digits hd

theorem readInt_iff {s : Bytes} {n : Int} : readInt s = some n ↔ IntLit s n := by
  refine ⟨fun h => ?_, readInt_lit⟩
  unfold readInt at h
  split at h
  · next hs =>
    cases s with
    | nil => cases hs
    | cons c ds =>
      simp only [List.head?_cons, Option.some.injEq] at hs
      subst hs
      simp only [List.drop_succ_cons, List.drop_zero] at h
      cases hr : readNat ds with
      | none => rw [hr] at h; cases h
      | some k =>
        rw [hr] at h
        cases h
        obtain ⟨hd, rfl⟩ := readNat_iff.1 hr
        exact ⟨ds, hd, .inr ⟨rfl, rfl⟩⟩
  · cases hr : readNat s with
    | none => rw [hr] at h; cases h
    | some k =>
      rw [hr] at h
      cases h
      obtain ⟨hd, rfl⟩ := readNat_iff.1 hr
      exact ⟨s, hd, .inl ⟨rfl, rfl⟩⟩

theorem int_follows : Follows JC.int.dec .int where
  ok v _ cur := by
    cases v with
    | num lit =>
      simp only [JC.int]
      cases hr : readInt lit with
      | none =>
        refine mismatch_no fun h => ?_
        cases h with
        | int _ n hl => rw [readInt_iff.2 hl] at hr; cases hr
      | some n =>
        simp only
        split
        · next h => exact ok_yes (.int _ _ (readInt_iff.1 hr) h)
        · next h =>
          refine mismatch_no fun h' => ?_
          cases h' with
          | int _ n hl hn =>
            rw [readInt_iff.2 hl] at hr
            cases hr
            exact h hn
    | null => exact ok_yes (.null _ (by intro t; exact nofun))
    | bool b => exact mismatch_no nofun
    | str s => exact mismatch_no nofun
    | arr l => exact mismatch_no nofun
    | obj l => exact mismatch_no nofun
  alike v w cur h := by cases h; rfl

theorem decUint_follows (size : Nat) : Follows (decUint size) (.code size) where
  ok v _ cur := by
    cases v with
    | num lit =>
      simp only [decUint]
      cases hr : readNat lit with
      | none =>
        refine mismatch_no fun h => ?_
        cases h with
        | code _ _ hd => rw [readNat_digits hd] at hr; cases hr
      | some n =>
        obtain ⟨hd, rfl⟩ := readNat_iff.1 hr
        simp only
        split
        · next h => exact ok_yes (.code _ _ hd h)
        · next h =>
          refine mismatch_no fun h' => ?_
          cases h' with
          | code _ _ _ hn => exact h hn
    | null => exact ok_yes (.null _ (by intro t; exact nofun))
    | bool b => exact mismatch_no nofun
    | str s => exact mismatch_no nofun
    | arr l => exact mismatch_no nofun
    | obj l => exact mismatch_no nofun
  alike v w cur h := by cases h; rfl

theorem uint16_follows : Follows JC.uint16.dec (.code 65536) where
  ok v hv cur := map_ok_iff.trans ((decUint_follows _).ok v hv _)
  alike v w cur h := by simp only [JC.uint16]; rw [(decUint_follows _).alike v w _ h]

theorem enumNum_follows {α : Type} (size : Nat) (zero : α) (toCode : α → Nat) (ofCode : Nat → α) :
    Follows (JC.enumNum size zero toCode ofCode).dec (.code size) where
  ok v hv cur := map_ok_iff.trans ((decUint_follows _).ok v hv _)
  alike v w cur h := by simp only [JC.enumNum]; rw [(decUint_follows _).alike v w _ h]

theorem bool_follows : Follows JC.bool.dec .bool where
  ok v _ cur := by
    cases v with
    | bool b => exact ok_yes (.bool b)
    | null => exact ok_yes (.null _ (by intro t; exact nofun))
    | num b => exact mismatch_no nofun
    | str s => exact mismatch_no nofun
    | arr l => exact mismatch_no nofun
    | obj l => exact mismatch_no nofun
  alike v w cur h := by cases h; rfl

theorem string_follows : Follows JC.string.dec .str where
  ok v _ cur := by
    cases v with
    | str b => exact ok_yes (.str b)
    | null => exact ok_yes (.null _ (by intro t; exact nofun))
    | num b => exact mismatch_no nofun
    | bool s => exact mismatch_no nofun
    | arr l => exact mismatch_no nofun
    | obj l => exact mismatch_no nofun
  alike v w cur h := by cases h; rfl

theorem enumStr_follows {α : Type} (zero : α) (toCode : α → Bytes) (ofCode : Bytes → α) :
    Follows (JC.enumStr zero toCode fun s => .ok (ofCode s)).dec .str where
  ok v hv cur := by
    rw [← string_follows.ok v hv []]
    simp only [JC.enumStr]
    cases JC.string.dec v [] with
    | ok a => exact ⟨fun _ => ⟨a, rfl⟩, fun _ => ⟨ofCode a, rfl⟩⟩
    | error e => exact ⟨fun ⟨_, h⟩ => (nomatch h), fun ⟨_, h⟩ => (nomatch h)⟩
  alike v w cur h := by simp only [JC.enumStr]; rw [string_follows.alike v w _ h]

theorem names_follows {α : Type} (zero : α) (toCode : α → Bytes) (ofCode : Bytes → Except Err α) (table : List Bytes)
    (h : ∀ s, (∃ a, ofCode s = .ok a) ↔ s ∈ table) (h0 : [] ∉ table) : Follows (JC.enumStr zero toCode ofCode).dec (.names table) where
  ok v _ cur := by
    cases v with
    | str b =>
      refine (h b).trans ⟨fun hb => .names _ _ hb, fun hf => ?_⟩
      cases hf with
      | names _ _ hb => exact hb
    | null =>
      refine (h []).trans ⟨fun hb => absurd hb h0, fun hf => ?_⟩
      cases hf with
      | null _ hn => exact absurd rfl (hn table)
    | num b => exact mismatch_no nofun
    | bool s => exact mismatch_no nofun
    | arr l => exact mismatch_no nofun
    | obj l => exact mismatch_no nofun
  alike v w cur h := by cases h; rfl

/-- The reader of numbers accepts those that have a nearest float64. -/
def ReadsNumbers (io : FloatIO) : Prop := ∀ lit, IsNumber lit → ((∃ x, io.parse lit = some x) ↔ NumOk lit)

theorem go_numbers : ReadsNumbers goFloatIO := by
  intro lit hl
  show (∃ x, parseFloat lit = some x) ↔ _
  constructor
  · rintro ⟨x, hx⟩
    obtain ⟨neg, q, hq⟩ := litValue_exists hl
    refine ⟨neg, q, hq, ?_⟩
    rw [parseFloat_lit hq] at hx
    split at hx
    · next h => exact (magOf_lt_inf (litValue_nonneg hq)).1 h
    · cases hx
  · rintro ⟨neg, q, hq, h⟩
    rw [parseFloat_lit hq, if_pos ((magOf_lt_inf (litValue_nonneg hq)).2 h)]
    exact ⟨_, rfl⟩

theorem float_ok {io : FloatIO} (hio : ReadsNumbers io) {lit : Bytes} (hl : IsNumber lit) (cur : F64) :
    (∃ a, (JC.float io).dec (.num lit) cur = .ok a) ↔ NumOk lit := by
  rw [← hio lit hl]
  simp only [JC.float]
  cases io.parse lit with
  | none => exact mismatch_no nofun
  | some x => exact ok_yes ⟨x, rfl⟩

theorem float_follows {io : FloatIO} (hio : ReadsNumbers io) : Follows (JC.float io).dec .num where
  ok v hv cur := by
    cases v with
    | num lit =>
      cases hv with
      | num _ hl =>
        refine (float_ok hio hl cur).trans ⟨fun h => .num _ h, fun h => ?_⟩
        cases h with
        | num _ h => exact h
    | null => exact ok_yes (.null _ (by intro t; exact nofun))
    | bool b => exact mismatch_no nofun
    | str s => exact mismatch_no nofun
    | arr l => exact mismatch_no nofun
    | obj l => exact mismatch_no nofun
  alike v w cur h := by cases h; rfl

theorem bind_ok_iff {α β : Type} {x : Except Err α} {f : α → Except Err β} {P Q : Prop} (hx : (∃ a, x = .ok a) ↔ P)
    (hf : ∀ a, (∃ b, f a = .ok b) ↔ Q) : (∃ b, (x >>= f) = .ok b) ↔ P ∧ Q := by
  cases x with
  | ok a =>
    show (∃ b, f a = .ok b) ↔ _
    rw [hf a]
    exact ⟨fun h => ⟨hx.1 ⟨a, rfl⟩, h⟩, fun h => h.2⟩
  | error e => exact ⟨fun ⟨_, h⟩ => (nomatch h), fun h => (by obtain ⟨_, h⟩ := hx.2 h.1; exact nomatch h)⟩

theorem return_ok {α : Type} {a : α} : (∃ b, (pure a : Except Err α) = .ok b) ↔ True := ok_yes trivial

mutual
theorem any_ok {io : FloatIO} (hio : ReadsNumbers io) : ∀ (v : JVal), JsonOk v → ((∃ a, GoAny.dec io v = .ok a) ↔ NumbersOk v)
  | .null, _ => ok_yes .null
  | .bool b, _ => ok_yes (.bool b)
  | .str s, _ => ok_yes (.str s)
  | .num lit, h => by
    cases h with
    | num _ hl =>
      simp only [GoAny.dec]
      refine (map_ok_iff.trans (float_ok hio hl _)).trans ⟨fun h => .num _ h, fun h => ?_⟩
      cases h with
      | num _ h => exact h
  | .arr l, h => by
    simp only [GoAny.dec]
    cases h with
    | arr _ h =>
      refine (map_ok_iff.trans (any_list_ok hio l h)).trans ⟨fun h => .arr _ h, fun h => ?_⟩
      cases h with
      | arr _ h => exact h
  | .obj l, h => by
    simp only [GoAny.dec]
    cases h with
    | obj _ _ h =>
      refine (map_ok_iff.trans (any_map_ok hio l h [])).trans ⟨fun h => .obj _ h, fun h => ?_⟩
      cases h with
      | obj _ h => exact h
theorem any_list_ok {io : FloatIO} (hio : ReadsNumbers io) : ∀ (l : List JVal), (∀ v ∈ l, JsonOk v) →
    ((∃ a, GoAny.decList io l = .ok a) ↔ ∀ v ∈ l, NumbersOk v)
  | [], _ => by simp [GoAny.decList]
  | v :: l, h => by
    simp only [GoAny.decList]
    rw [bind_ok_iff (any_ok hio v (h v (by simp))) fun a => ?_, List.forall_mem_cons]
    rw [bind_ok_iff (any_list_ok hio l fun w hw => h w (by simp [hw])) fun a => return_ok]
    simp
theorem any_map_ok {io : FloatIO} (hio : ReadsNumbers io) : ∀ (l : List (Bytes × JVal)), (∀ m ∈ l, JsonOk m.2) → ∀ cur,
    ((∃ a, GoAny.decMap io l cur = .ok a) ↔ ∀ m ∈ l, NumbersOk m.2)
  | [], _, cur => by simp [GoAny.decMap]
  | (k, v) :: l, h, cur => by
    simp only [GoAny.decMap]
    rw [bind_ok_iff (any_ok hio v (h (k, v) (by simp))) fun a => any_map_ok hio l (fun w hw => h w (by simp [hw])) _, List.forall_mem_cons]
end

theorem any_follows {io : FloatIO} (hio : ReadsNumbers io) : Follows (JC.any io).dec .any where
  ok v hv cur := by
    refine (any_ok hio v hv).trans ⟨fun h => .any _ h, fun h => ?_⟩
    cases h with
    | null => exact .null
    | any _ h => exact h
  alike v w cur h := by cases h; rfl

theorem extensions_follows (r : Registry) : Follows (JC.extensions r).dec .extensions where
  ok v _ cur := by
    cases v with
    | obj l => exact ok_yes (.extensions l)
    | null => exact ok_yes (.null _ (by intro t; exact nofun))
    | bool b => exact mismatch_no nofun
    | num b => exact mismatch_no nofun
    | str s => exact mismatch_no nofun
    | arr l => exact mismatch_no nofun
  alike v w cur h := by cases h; rfl

/-! ### Pointers, lists, arrays, maps -/

/-- `null` is of the kind. -/
def Spec.JKind.Nullable (s : JKind) : Prop := ∀ table, s ≠ .names table

theorem ptr_follows {α : Type} {c : JC α} {s : JKind} (h : Follows c.dec s) (hn : s.Nullable) : Follows (JC.ptr c).dec s where
  ok v hv cur := by
    simp only [JC.ptr]
    split
    · exact ok_yes (.null _ hn)
    · exact map_ok_iff.trans (h.ok v hv _)
  alike v w cur ha := by
    simp only [JC.ptr]
    by_cases hv : v = .null
    · subst hv
      rw [alike_null ha]
    · have hw : w ≠ .null := fun hw => hv (alike_null' (hw ▸ ha))
      split
      · exact absurd rfl hv
      · exact congrArg _ (h.alike _ _ _ ha)

theorem decList_ok {α : Type} {c : JC α} {s : JKind} (h : Follows c.dec s) : ∀ (vs : List JVal), (∀ v ∈ vs, JsonOk v) → ∀ cur,
    ((∃ l, decList c vs cur = .ok l) ↔ ∀ v ∈ vs, Fits s v)
  | [], _, cur => by simp [decList]
  | v :: vs, hv, [] => by
    simp only [decList]
    rw [bind_ok_iff (h.ok v (hv v (by simp)) _) fun a => bind_ok_iff (decList_ok h vs (fun w hw => hv w (by simp [hw])) []) fun a => return_ok,
      List.forall_mem_cons, and_true]
  | v :: vs, hv, cur :: curs => by
    simp only [decList]
    rw [bind_ok_iff (h.ok v (hv v (by simp)) _) fun a => bind_ok_iff (decList_ok h vs (fun w hw => hv w (by simp [hw])) curs) fun a => return_ok,
      List.forall_mem_cons, and_true]

theorem decList_alike {α : Type} {c : JC α} {s : JKind} (h : Follows c.dec s) : ∀ (vs ws : List JVal) (cur : List α), vs.length = ws.length →
    (∀ (i : Nat) (v w : JVal), vs[i]? = some v → ws[i]? = some w → Alike SameFold s v w) → decList c vs cur = decList c ws cur
  | [], [], _, _, _ => rfl
  | v :: vs, w :: ws, [], hl, ha => by
    simp only [decList]
    rw [h.alike v w _ (ha 0 v w rfl rfl), decList_alike h vs ws [] (by simpa using hl) fun i => ha (i + 1)]
  | v :: vs, w :: ws, cur :: curs, hl, ha => by
    simp only [decList]
    rw [h.alike v w _ (ha 0 v w rfl rfl), decList_alike h vs ws curs (by simpa using hl) fun i => ha (i + 1)]
  | [], _ :: _, _, hl, _ => by cases hl
  | _ :: _, [], _, hl, _ => by cases hl

theorem fits_list {s : JKind} {vs : List JVal} : Fits (.list s) (.arr vs) ↔ ∀ v ∈ vs, Fits s v :=
  ⟨fun h => by cases h with | list _ _ h => exact h, fun h => .list _ _ h⟩

theorem arr_ok {l : List JVal} (h : JsonOk (.arr l)) : ∀ v ∈ l, JsonOk v := by cases h with | arr _ h => exact h

theorem obj_ok {l : List (Bytes × JVal)} (h : JsonOk (.obj l)) : ∀ m ∈ l, JsonOk m.2 := by cases h with | obj _ _ h => exact h

theorem slice_follows {α : Type} {c : JC α} {s : JKind} (h : Follows c.dec s) : Follows (JC.slice c).dec (.list s) where
  ok v hv cur := by
    cases v with
    | arr l => exact (map_ok_iff.trans (decList_ok h l (arr_ok hv) _)).trans fits_list.symm
    | null => exact ok_yes (.null _ (by intro t; exact nofun))
    | bool b => exact mismatch_no nofun
    | num b => exact mismatch_no nofun
    | str s => exact mismatch_no nofun
    | obj l => exact mismatch_no nofun
  alike v w cur ha := by
    cases ha with
    | refl => rfl
    | list _ vs ws hl ha => simp only [JC.slice]; rw [decList_alike h vs ws _ hl ha]

theorem list_follows {α : Type} {c : JC α} {s : JKind} (h : Follows c.dec s) : Follows (JC.list c).dec (.list s) where
  ok v hv cur := by
    cases v with
    | arr l => exact (decList_ok h l (arr_ok hv) _).trans fits_list.symm
    | null => exact ok_yes (.null _ (by intro t; exact nofun))
    | bool b => exact mismatch_no nofun
    | num b => exact mismatch_no nofun
    | str s => exact mismatch_no nofun
    | obj l => exact mismatch_no nofun
  alike v w cur ha := by
    cases ha with
    | refl => rfl
    | list _ vs ws hl ha => simp only [JC.list]; rw [decList_alike h vs ws _ hl ha]

theorem decArray_ok {α : Type} {c : JC α} {s : JKind} (h : Follows c.dec s) : ∀ (curs : List α) (vs : List JVal), (∀ v ∈ vs, JsonOk v) →
    ((∃ l, decArray c curs vs = .ok l) ↔ ∀ v ∈ vs.take curs.length, Fits s v)
  | [], vs, _ => by simp [decArray]
  | cur :: curs, [], _ => by
    simp only [decArray]
    rw [bind_ok_iff (decArray_ok h curs [] (by simp)) fun a => return_ok]
    simp
  | cur :: curs, v :: vs, hv => by
    simp only [decArray]
    rw [bind_ok_iff (h.ok v (hv v (by simp)) _) fun a => bind_ok_iff (decArray_ok h curs vs (fun w hw => hv w (by simp [hw]))) fun a => return_ok,
      List.length_cons, List.take_succ_cons, List.forall_mem_cons, and_true]

theorem decArray_alike {α : Type} {c : JC α} {s : JKind} (h : Follows c.dec s) : ∀ (curs : List α) (vs ws : List JVal),
    (vs.take curs.length).length = (ws.take curs.length).length →
    (∀ (i : Nat) (v w : JVal), (vs.take curs.length)[i]? = some v → (ws.take curs.length)[i]? = some w → Alike SameFold s v w) →
    decArray c curs vs = decArray c curs ws
  | [], _, _, _, _ => by simp only [decArray]
  | cur :: curs, [], [], _, _ => rfl
  | cur :: curs, v :: vs, w :: ws, hl, ha => by
    simp only [decArray]
    rw [h.alike v w _ (ha 0 v w rfl rfl), decArray_alike h curs vs ws (by simpa using hl) fun i v w hv hw => ha (i + 1) v w (by simpa using hv) (by simpa using hw)]
  | _ :: _, [], _ :: _, hl, _ => by simp at hl
  | _ :: _, _ :: _, [], hl, _ => by simp at hl

theorem withResult_some {α : Type} {x : Except Err α} : (∃ a, withResult x = .ok a) ↔ ∃ a, x = .ok a := by
  cases x with
  | ok a => exact ⟨fun _ => ⟨a, rfl⟩, fun _ => ⟨⟨a, rfl⟩, rfl⟩⟩
  | error e => exact ⟨fun ⟨_, h⟩ => (nomatch h), fun ⟨_, h⟩ => (nomatch h)⟩

theorem vector_congr {α : Type} {n : Nat} {x y : Except Err (List α)} (h : x = y) (hx : ∀ l : { a // x = .ok a }, l.1.toArray.size = n)
    (hy : ∀ l : { a // y = .ok a }, l.1.toArray.size = n) :
    (withResult x).map (fun l => (⟨l.1.toArray, hx l⟩ : Vector α n)) = (withResult y).map fun l => ⟨l.1.toArray, hy l⟩ := by
  subst h; rfl

theorem fits_vec {s : JKind} {n : Nat} {vs : List JVal} : Fits (.vec n s) (.arr vs) ↔ ∀ v ∈ vs.take n, Fits s v :=
  ⟨fun h => by cases h with | vec _ _ _ h => exact h, fun h => .vec _ _ _ h⟩

theorem array_follows {α : Type} {c : JC α} {s : JKind} (n : Nat) (h : Follows c.dec s) : Follows (JC.array n c).dec (.vec n s) where
  ok v hv cur := by
    cases v with
    | arr l =>
      have := decArray_ok h cur.toList l (arr_ok hv)
      rw [show cur.toList.length = n by simp] at this
      exact (map_ok_iff.trans (withResult_some.trans this)).trans fits_vec.symm
    | null => exact ok_yes (.null _ (by intro t; exact nofun))
    | bool b => exact mismatch_no nofun
    | num b => exact mismatch_no nofun
    | str s => exact mismatch_no nofun
    | obj l => exact mismatch_no nofun
  alike v w cur ha := by
    cases ha with
    | refl => rfl
    | vec _ _ vs ws hl ha =>
      have hn : cur.toList.length = n := by simp
      have := decArray_alike h cur.toList vs ws (by rw [hn]; exact hl) (by rw [hn]; exact ha)
      exact vector_congr this _ _

theorem decMap_ok {α : Type} {c : JC α} {s : JKind} (h : Follows c.dec s) : ∀ (ms : List (Bytes × JVal)), (∀ m ∈ ms, JsonOk m.2) → ∀ cur,
    ((∃ l, decMap c ms cur = .ok l) ↔ ∀ m ∈ ms, Fits s m.2)
  | [], _, cur => by simp [decMap]
  | (k, v) :: ms, hv, cur => by
    simp only [decMap]
    rw [bind_ok_iff (h.ok v (hv (k, v) (by simp)) _) fun a => decMap_ok h ms (fun w hw => hv w (by simp [hw])) _, List.forall_mem_cons]

theorem decMap_alike {α : Type} {c : JC α} {s : JKind} (h : Follows c.dec s) : ∀ (ms ns : List (Bytes × JVal)) (cur : List (Bytes × α)),
    ms.map Prod.fst = ns.map Prod.fst →
    (∀ (i : Nat) (m n : Bytes × JVal), ms[i]? = some m → ns[i]? = some n → Alike SameFold s m.2 n.2) → decMap c ms cur = decMap c ns cur
  | [], [], _, _, _ => rfl
  | (k, v) :: ms, (k', w) :: ns, cur, hk, ha => by
    obtain ⟨rfl, hk'⟩ : k = k' ∧ ms.map Prod.fst = ns.map Prod.fst := by simpa using hk
    simp only [decMap]
    rw [h.alike v w _ (ha 0 (k, v) (k, w) rfl rfl)]
    congr 1
    funext a
    exact decMap_alike h ms ns _ hk' fun i => ha (i + 1)
  | [], _ :: _, _, hl, _ => by cases hl
  | _ :: _, [], _, hl, _ => by cases hl

theorem fits_map {s : JKind} {ms : List (Bytes × JVal)} : Fits (.map s) (.obj ms) ↔ ∀ m ∈ ms, Fits s m.2 :=
  ⟨fun h => by cases h with | map _ _ h => exact h, fun h => .map _ _ h⟩

theorem map_follows {α : Type} {c : JC α} {s : JKind} (h : Follows c.dec s) : Follows (JC.map c).dec (.map s) where
  ok v hv cur := by
    cases v with
    | obj l => exact (map_ok_iff.trans (decMap_ok h l (obj_ok hv) _)).trans fits_map.symm
    | null => exact ok_yes (.null _ (by intro t; exact nofun))
    | bool b => exact mismatch_no nofun
    | num b => exact mismatch_no nofun
    | str s => exact mismatch_no nofun
    | arr l => exact mismatch_no nofun
  alike v w cur ha := by
    cases ha with
    | refl => rfl
    | map _ ms ns hk ha => simp only [JC.map]; rw [decMap_alike h ms ns _ hk ha]

/-! ### Structs -/

theorem nil_follows : FC.nil.Follows [] where
  ok f hf := absurd hf (by simp)
  alike f hf := absurd hf (by simp)
  other k _ v t := rfl

theorem cons_follows {α τ : Type} {name : Bytes} {f : FE α} {s : JKind} {r : FC τ} {fs : List (Bytes × JKind)} (hf : Follows f.dec s)
    (hn : foldKey name ∉ fs.map (foldKey ·.1)) (hr : r.Follows fs) : (FC.cons name f r).Follows ((name, s) :: fs) where
  ok g hg k hk v hv t := by
    simp only [FC.cons]
    rcases List.mem_cons.1 hg with rfl | hg
    · rw [if_pos hk]
      exact map_ok_iff.trans (hf.ok v hv _)
    · rw [if_neg fun e => hn (by rw [← e, hk]; exact List.mem_map_of_mem (f := (foldKey ·.1)) hg)]
      exact map_ok_iff.trans (hr.ok g hg k hk v hv _)
  alike g hg k k' hk hk' v w t ha := by
    simp only [FC.cons]
    rcases List.mem_cons.1 hg with rfl | hg
    · rw [if_pos hk, if_pos hk', hf.alike v w _ ha]
    · have hne : foldKey g.1 ≠ foldKey name := fun e => hn (by rw [← e]; exact List.mem_map_of_mem (f := (foldKey ·.1)) hg)
      rw [if_neg (hk ▸ hne), if_neg (hk' ▸ hne), hr.alike g hg k k' hk hk' v w _ ha]
  other k hk v t := by
    simp only [FC.cons]
    rw [if_neg (hk _ (.head _)), hr.other k fun f hf => hk f (.tail _ hf)]
    rfl

theorem skip_follows {α τ : Type} {z : α} {r : FC τ} {fs : List (Bytes × JKind)} (hr : r.Follows fs) : (FC.skip z r).Follows fs where
  ok g hg k hk v hv t := map_ok_iff.trans (hr.ok g hg k hk v hv _)
  alike g hg k k' hk hk' v w t ha := by simp only [FC.skip]; rw [hr.alike g hg k k' hk hk' v w _ ha]
  other k hk v t := by simp only [FC.skip]; rw [hr.other k hk]; rfl

/-- The order of the fields does not matter. -/
theorem FC.Follows.order {τ : Type} {fc : FC τ} {fs gs : List (Bytes × JKind)} (h : fc.Follows fs) (he : ∀ f, f ∈ fs ↔ f ∈ gs) : fc.Follows gs where
  ok f hf := h.ok f ((he f).2 hf)
  alike f hf := h.alike f ((he f).2 hf)
  other k hk := h.other k fun f hf => hk f ((he f).1 hf)

theorem decAll_ok {τ : Type} {fc : FC τ} {fs : List (Bytes × JKind)} (h : fc.Follows fs) : ∀ (ms : List (Bytes × JVal)), (∀ m ∈ ms, JsonOk m.2) → ∀ t,
    ((∃ t', fc.decAll ms t = .ok t') ↔ ∀ m ∈ ms, ∀ f ∈ fs, foldKey m.1 = foldKey f.1 → Fits f.2 m.2)
  | [], _, t => by simp [FC.decAll]
  | (k, v) :: ms, hv, t => by
    simp only [FC.decAll]
    rw [bind_ok_iff ?_ fun a => decAll_ok h ms (fun w hw => hv w (by simp [hw])) a, List.forall_mem_cons]
    have hv' := hv (k, v) (by simp)
    by_cases hk : ∃ f ∈ fs, foldKey k = foldKey f.1
    · obtain ⟨f, hf, hk⟩ := hk
      constructor
      · intro ho g hg hkg
        exact (h.ok g hg k hkg v hv' t).1 ho
      · intro hall
        exact (h.ok f hf k hk v hv' t).2 (hall f hf hk)
    · rw [h.other k (fun f hf e => hk ⟨f, hf, e⟩)]
      exact ok_yes fun f hf e => absurd ⟨f, hf, e⟩ hk

theorem decAll_alike {τ : Type} {fc : FC τ} {fs : List (Bytes × JKind)} (h : fc.Follows fs) {ms ns : List (Bytes × JVal)}
    (ha : Alike SameFold (.obj fs) (.obj ms) (.obj ns)) (t : τ) : fc.decAll ms t = fc.decAll ns t := by
  generalize hs : JKind.obj fs = s at ha
  generalize hv : JVal.obj ms = v at ha
  generalize hw : JVal.obj ns = w at ha
  induction ha generalizing ms ns t with
  | refl s v => rw [← hw] at hv; cases hv; rfl
  | list => cases hs
  | vec => cases hs
  | map => cases hs
  | left fs' m ms' ns' hn _ ih =>
    cases hs; cases hv; cases hw
    obtain ⟨k, v⟩ := m
    simp only [FC.decAll]
    rw [h.other k hn]
    exact ih t rfl rfl rfl
  | right fs' m ms' ns' hn _ ih =>
    cases hs; cases hv; cases hw
    obtain ⟨k, v⟩ := m
    simp only [FC.decAll]
    rw [h.other k hn]
    exact ih t rfl rfl rfl
  | both fs' f m n ms' ns' hf hm hn hmn _ _ ih =>
    cases hs; cases hv; cases hw
    obtain ⟨k, v⟩ := m
    obtain ⟨k', v'⟩ := n
    simp only [FC.decAll]
    rw [h.alike f hf k k' hm hn v v' t hmn]
    congr 1
    funext t'
    exact ih t' rfl rfl rfl

theorem fits_obj {fs : List (Bytes × JKind)} {ms : List (Bytes × JVal)} :
    Fits (.obj fs) (.obj ms) ↔ ∀ m ∈ ms, ∀ f ∈ fs, foldKey m.1 = foldKey f.1 → Fits f.2 m.2 :=
  ⟨fun h => by cases h with | obj _ _ h => exact h, fun h => .obj _ _ h⟩

theorem alike_obj {fs : List (Bytes × JKind)} {v w : JVal} (h : Alike SameFold (.obj fs) v w) : v = w ∨ ∃ ms ns, v = .obj ms ∧ w = .obj ns := by
  cases h with
  | refl => exact .inl rfl
  | left => exact .inr ⟨_, _, rfl, rfl⟩
  | right => exact .inr ⟨_, _, rfl, rfl⟩
  | both => exact .inr ⟨_, _, rfl, rfl⟩

theorem struct_follows {σ τ : Type} {f : σ → τ} {g : τ → σ} {fc : FC τ} {fs : List (Bytes × JKind)} (h : fc.Follows fs) :
    Follows (JC.struct f g fc).dec (.obj fs) where
  ok v hv cur := by
    cases v with
    | obj l => exact (map_ok_iff.trans (decAll_ok h l (obj_ok hv) _)).trans fits_obj.symm
    | null => exact ok_yes (.null _ (by intro t; exact nofun))
    | bool b => exact mismatch_no nofun
    | num b => exact mismatch_no nofun
    | str s => exact mismatch_no nofun
    | arr l => exact mismatch_no nofun
  alike v w cur ha := by
    rcases alike_obj ha with rfl | ⟨ms, ns, rfl, rfl⟩
    · rfl
    · simp only [JC.struct]; rw [decAll_alike h ha]

theorem withDefault_follows {σ : Type} {c : JC σ} {s : JKind} (h : Follows c.dec s) (d : σ) : Follows (c.withDefault d).dec s where
  ok v hv _ := h.ok v hv d
  alike v w _ ha := h.alike v w d ha

theorem always_follows {α : Type} {c : JC α} {s : JKind} (h : Follows c.dec s) : Follows c.always.dec s := h
theorem omitIf_follows {α : Type} {c : JC α} {s : JKind} {p : α → Bool} (h : Follows c.dec s) : Follows (c.omitIf p).dec s := h

end Gltf
