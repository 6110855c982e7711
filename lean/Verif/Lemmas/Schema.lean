/-
The JSON codecs follow the tables of `Spec/Schema.lean`: what encoding writes stands for the value, and decoding reads
everything that stands for a value.
-/
import Verif.Lemmas.JsonField
import Verif.Lemmas.JsonSound
import Verif.Spec.Schema

namespace Gltf

open Spec

/-- What is written stands for the value. -/
def JC.EncTo {α : Type} (c : JC α) (T : Typ α) : Prop := ∀ a v, T.ready a → c.enc a = .ok v → T.rel a v

/-- Whatever stands for some value can be read, and stands for the value read. -/
def JC.DecTo {α : Type} (c : JC α) (T : Typ α) (start : α) : Prop := ∀ v, (∃ a, T.rel a v) → ∃ a, c.dec v start = .ok a ∧ T.rel a v

/-- No value is shown as null. -/
def Spec.Typ.NonNull {α : Type} (T : Typ α) : Prop := ∀ a, ¬ T.rel a .null

/-! ### Scalars -/

theorem decimalOf_eq (ds : Bytes) : decimalOf ds = digitsValue ds := by
  unfold decimalOf digitsValue
  congr 1
  funext k c
  omega

theorem readNat_digits {ds : Bytes} (h : IsDigits ds) : readNat ds = some (decimalOf ds) := by
  unfold readNat
  rw [if_pos ⟨h.1, by simpa using h.2⟩, decimalOf_eq]

theorem digits_not_minus {ds : Bytes} (h : IsDigits ds) : ds.head? ≠ some 45 := by
  intro he
  match ds, h with
  | c :: l, h =>
    simp only [List.head?_cons, Option.some.injEq] at he
    have := h.2 c (by simp)
    rw [he] at this
    exact absurd this.1 (by decide)

theorem readInt_lit {lit : Bytes} {n : Int} (h : IntLit lit n) : readInt lit = some n := by
  obtain ⟨ds, hd, ⟨rfl, rfl⟩ | ⟨rfl, rfl⟩⟩ := h
  · unfold readInt
    rw [if_neg (digits_not_minus hd), readNat_digits hd]; rfl
  · unfold readInt
    rw [if_pos (show (b!"-" ++ ds).head? = some 45 from rfl)]
    show Option.map _ (readNat ds >>= _) = _
    rw [readNat_digits hd]; rfl

theorem decimalOf_printNat (n : Nat) : decimalOf (printNat n) = n := by
  have := readNat_digits (printNat_digits n)
  rw [readNat_printNat] at this
  injection this with this
  exact this.symm

theorem printNat_lit (n : Nat) : IntLit (printNat n) n := by
  refine ⟨printNat n, printNat_digits n, .inl ⟨rfl, ?_⟩⟩
  rw [decimalOf_printNat]

theorem printInt_lit (n : Int) : IntLit (printInt n) n := by
  cases n with
  | ofNat n => exact printNat_lit n
  | negSucc n =>
    refine ⟨printNat (n + 1), printNat_digits _, .inr ⟨rfl, ?_⟩⟩
    rw [decimalOf_printNat]; rfl

theorem int_enc : JC.int.EncTo intT := by
  intro n v hn h
  cases h
  exact ⟨hn, _, rfl, printInt_lit n⟩

theorem int_dec (start : Int) : JC.int.DecTo intT start := by
  rintro v ⟨n, hn, lit, rfl, hl⟩
  refine ⟨n, ?_, hn, lit, rfl, hl⟩
  simp only [JC.int, readInt_lit hl]
  exact if_pos hn

theorem intT_nonNull : intT.NonNull := by
  rintro a ⟨_, lit, h, _⟩; cases h

theorem float_enc {io : FloatIO} (hf : FloatLaws io) : (JC.float io).EncTo (numT io) := by
  intro x v hx h
  simp only [JC.float, show x.finite = true from hx, if_true] at h
  cases h
  exact ⟨_, rfl, hf.parse_fmt x hx⟩

theorem float_dec (io : FloatIO) (start : F64) : (JC.float io).DecTo (numT io) start := by
  rintro v ⟨x, lit, rfl, hl⟩
  exact ⟨x, by simp [JC.float, hl], lit, rfl, hl⟩

theorem numT_nonNull (io : FloatIO) : (numT io).NonNull := by
  rintro a ⟨lit, h, _⟩; cases h

theorem bool_enc : JC.bool.EncTo boolT := by intro b v _ h; cases h; rfl

theorem bool_dec (start : Bool) : JC.bool.DecTo boolT start := by
  rintro v ⟨b, rfl⟩; exact ⟨b, rfl, rfl⟩

theorem string_enc : JC.string.EncTo strT := by intro b v _ h; cases h; rfl

theorem string_dec (start : Bytes) : JC.string.DecTo strT start := by
  rintro v ⟨b, rfl⟩; exact ⟨b, rfl, rfl⟩

theorem enumNum_enc {α : Type} {size : Nat} {zero : α} {toCode : α → Nat} {ofCode : Nat → α} {table : List (α × Nat)}
    (h : ∀ p ∈ table, toCode p.1 = p.2) : (JC.enumNum size zero toCode ofCode).EncTo (codeT table) := by
  rintro a v ⟨n, hn⟩ he
  cases he
  exact ⟨_, rfl, printNat_digits _, by rw [decimalOf_printNat, h _ hn]; exact hn⟩

theorem enumNum_dec {α : Type} {size : Nat} {zero : α} {toCode : α → Nat} {ofCode : Nat → α} {table : List (α × Nat)} (start : α)
    (h : ∀ p ∈ table, p.2 < size ∧ ofCode p.2 = p.1) : (JC.enumNum size zero toCode ofCode).DecTo (codeT table) start := by
  rintro v ⟨a, lit, rfl, hd, ht⟩
  obtain ⟨h1, h2⟩ := h _ ht
  refine ⟨a, ?_, lit, rfl, hd, ht⟩
  simp only [JC.enumNum, decUint, readNat_digits hd, if_pos h1, Except.map, h2]

theorem uint16_enc {table : List (UInt16 × Nat)} (h : ∀ p ∈ table, p.1.toNat = p.2) : JC.uint16.EncTo (codeT table) := by
  rintro a v ⟨n, hn⟩ he
  cases he
  exact ⟨_, rfl, printNat_digits _, by rw [decimalOf_printNat, h _ hn]; exact hn⟩

theorem uint16_dec {table : List (UInt16 × Nat)} (start : UInt16) (h : ∀ p ∈ table, p.2 < 65536 ∧ UInt16.ofNat p.2 = p.1) :
    JC.uint16.DecTo (codeT table) start := by
  rintro v ⟨a, lit, rfl, hd, ht⟩
  obtain ⟨h1, h2⟩ := h _ ht
  refine ⟨a, ?_, lit, rfl, hd, ht⟩
  simp only [JC.uint16, decUint, readNat_digits hd, if_pos h1, Except.map]
  exact congrArg _ h2

theorem enumStr_enc {α : Type} {zero : α} {toCode : α → Bytes} {ofCode : Bytes → Except Err α} {table : List (α × Bytes)}
    (h : ∀ p ∈ table, toCode p.1 = p.2) : (JC.enumStr zero toCode ofCode).EncTo (nameT table) := by
  rintro a v ⟨n, hn⟩ he
  cases he
  exact ⟨n, hn, by rw [h _ hn]⟩

theorem enumStr_dec {α : Type} {zero : α} {toCode : α → Bytes} {ofCode : Bytes → Except Err α} {table : List (α × Bytes)} (start : α)
    (h : ∀ p ∈ table, ofCode p.2 = .ok p.1) : (JC.enumStr zero toCode ofCode).DecTo (nameT table) start := by
  rintro v ⟨a, s, ht, rfl⟩
  refine ⟨a, ?_, s, ht, rfl⟩
  simp only [JC.enumStr, JC.string]
  exact h _ ht

/-! ### Pointers, lists, arrays -/

theorem ptr_enc {α : Type} {c : JC α} {T : Typ α} (h : c.EncTo T) : (JC.ptr c).EncTo (ptrT T) := by
  rintro o v ⟨a, rfl, ha⟩ he
  exact ⟨a, rfl, h a v ha he⟩

theorem ptr_dec {α : Type} {c : JC α} {T : Typ α} (start : Option α) (hn : T.NonNull) (h : c.DecTo T (start.getD c.zero)) :
    (JC.ptr c).DecTo (ptrT T) start := by
  rintro v ⟨o, a, rfl, ha⟩
  obtain ⟨b, h1, h2⟩ := h v ⟨a, ha⟩
  refine ⟨some b, ?_, b, rfl, h2⟩
  have hv : v ≠ .null := by rintro rfl; exact hn _ ha
  have : (JC.ptr c).dec v start = (c.dec v (start.getD c.zero)).map some := by
    cases v <;> first | exact absurd rfl hv | rfl
  rw [this, h1]; rfl

theorem ptrT_nonNull {α : Type} {T : Typ α} (h : T.NonNull) : (ptrT T).NonNull := by
  rintro o ⟨a, _, ha⟩; exact h a ha

theorem each_nil {α β : Type} (R : α → β → Prop) : Each R [] [] := ⟨rfl, by simp⟩

theorem each_cons {α β : Type} {R : α → β → Prop} {a : α} {b : β} {l : List α} {m : List β} (h : R a b) (ht : Each R l m) :
    Each R (a :: l) (b :: m) := by
  refine ⟨by simp [ht.1], ?_⟩
  intro i x y hx hy
  cases i with
  | zero => simp at hx hy; subst hx hy; exact h
  | succ i => exact ht.2 i x y (by simpa using hx) (by simpa using hy)

theorem each_cons_inv {α β : Type} {R : α → β → Prop} {a : α} {b : β} {l : List α} {m : List β} (h : Each R (a :: l) (b :: m)) :
    R a b ∧ Each R l m :=
  ⟨h.2 0 a b rfl rfl, by simpa using h.1, fun i x y hx hy => h.2 (i + 1) x y (by simpa using hx) (by simpa using hy)⟩

theorem encList_to {α : Type} {c : JC α} {T : Typ α} (h : c.EncTo T) : ∀ (l : List α) (vs : List JVal), (∀ a ∈ l, T.ready a) →
    encList c l = .ok vs → Each T.rel l vs
  | [], vs, _, he => by cases he; exact each_nil _
  | a :: l, vs, hl, he => by
    simp only [encList] at he
    cases h1 : c.enc a with
    | error e => rw [h1] at he; cases he
    | ok v =>
      cases h2 : encList c l with
      | error e => rw [h1, h2] at he; cases he
      | ok vs' =>
        rw [h1, h2] at he
        cases he
        exact each_cons (h a v (hl a (by simp)) h1) (encList_to h l vs' (fun b hb => hl b (by simp [hb])) h2)

theorem list_enc {α : Type} {c : JC α} {T : Typ α} (h : c.EncTo T) : (JC.list c).EncTo (listT T) := by
  intro l v hl he
  simp only [JC.list] at he
  cases h1 : encList c l with
  | error e => rw [h1] at he; cases he
  | ok vs => rw [h1] at he; cases he; exact ⟨vs, rfl, encList_to h l vs hl h1⟩

theorem slice_enc {α : Type} {c : JC α} {T : Typ α} (h : c.EncTo T) : (JC.slice c).EncTo (ptrT (listT T)) := by
  rintro o v ⟨l, rfl, hl⟩ he
  exact ⟨l, rfl, list_enc h l v hl he⟩

theorem vec_enc {α : Type} {n : Nat} {c : JC α} {T : Typ α} (h : c.EncTo T) : (JC.array n c).EncTo (vecT n T) :=
  fun m v hm he => list_enc h m.toList v hm he

theorem decList_to {α : Type} {c : JC α} {T : Typ α} (h : c.DecTo T c.zero) : ∀ (vs : List JVal) (l : List α), Each T.rel l vs →
    ∃ l', decList c vs [] = .ok l' ∧ Each T.rel l' vs
  | [], _, _ => ⟨[], rfl, each_nil _⟩
  | v :: vs, [], h1 => by cases h1.1
  | v :: vs, a :: l, h1 => by
    obtain ⟨ha, hl⟩ := each_cons_inv h1
    obtain ⟨b, h2, h3⟩ := h v ⟨a, ha⟩
    obtain ⟨l', h4, h5⟩ := decList_to h vs l hl
    refine ⟨b :: l', ?_, each_cons h3 h5⟩
    simp only [decList, h2, h4]; rfl

theorem list_dec {α : Type} {c : JC α} {T : Typ α} (h : c.DecTo T c.zero) : (JC.list c).DecTo (listT T) [] := by
  rintro v ⟨l, vs, rfl, hl⟩
  obtain ⟨l', h1, h2⟩ := decList_to h vs l hl
  exact ⟨l', h1, vs, rfl, h2⟩

theorem slice_dec {α : Type} {c : JC α} {T : Typ α} (h : c.DecTo T c.zero) : (JC.slice c).DecTo (ptrT (listT T)) none := by
  rintro v ⟨_, l, rfl, vs, rfl, hl⟩
  obtain ⟨l', h1, h2⟩ := decList_to h vs l hl
  refine ⟨some l', ?_, l', rfl, vs, rfl, h2⟩
  simp only [JC.slice, Option.getD_none, h1]; rfl

theorem decArray_to {α : Type} {c : JC α} {T : Typ α} (h : ∀ s, c.DecTo T s) : ∀ (curs : List α) (vs : List JVal) (l : List α),
    curs.length = vs.length → Each T.rel l vs → ∃ l', decArray c curs vs = .ok l' ∧ Each T.rel l' vs
  | [], [], _, _, _ => ⟨[], rfl, each_nil _⟩
  | _ :: _, [], _, h0, _ => by cases h0
  | [], _ :: _, _, h0, _ => by cases h0
  | _ :: _, _ :: _, [], _, h1 => by cases h1.1
  | cur :: curs, v :: vs, a :: l, h0, h1 => by
    obtain ⟨ha, hl⟩ := each_cons_inv h1
    obtain ⟨b, h2, h3⟩ := h cur v ⟨a, ha⟩
    obtain ⟨l', h4, h5⟩ := decArray_to h curs vs l (by simpa using h0) hl
    refine ⟨b :: l', ?_, each_cons h3 h5⟩
    simp only [decArray, h2, h4]; rfl

theorem array_dec {α : Type} {n : Nat} {c : JC α} {T : Typ α} (h : ∀ s, c.DecTo T s) (start : Vector α n) :
    (JC.array n c).DecTo (vecT n T) start := by
  rintro v ⟨m, vs, rfl, hm⟩
  obtain ⟨l', h1, h2⟩ := decArray_to h start.toList vs m.toList (by rw [← hm.1]; simp) hm
  simp only [JC.array]
  rw [withResult_ok h1]
  exact ⟨_, rfl, vs, rfl, h2⟩

theorem listT_nonNull {α : Type} (T : Typ α) : (listT T).NonNull := by
  rintro a ⟨vs, h, _⟩; cases h

theorem vecT_nonNull {α : Type} (n : Nat) (T : Typ α) : (vecT n T).NonNull := by
  rintro a ⟨vs, h, _⟩; cases h

theorem mapT_nonNull {α : Type} (T : Typ α) : (mapT T).NonNull := by
  rintro a ⟨vs, h, _⟩; cases h

theorem objT_nonNull {σ : Type} (b : Bool) (fs : List (Field σ)) : (objT b fs).NonNull := by
  rintro a ⟨vs, h, _⟩; cases h

/-! ### Maps -/

theorem encMap_to {α : Type} {c : JC α} {R : Bytes → α → JVal → Prop} : ∀ (m : List (Bytes × α)) (vs : List (Bytes × JVal)),
    (∀ p ∈ m, ∀ v, c.enc p.2 = .ok v → R p.1 p.2 v) → encMap c m = .ok vs →
    vs.map Prod.fst = m.map Prod.fst ∧ Each (fun p q => p.1 = q.1 ∧ R p.1 p.2 q.2) m vs
  | [], vs, _, he => by cases he; exact ⟨rfl, each_nil _⟩
  | (k, a) :: m, vs, hl, he => by
    simp only [encMap] at he
    cases h1 : c.enc a with
    | error e => rw [h1] at he; cases he
    | ok v =>
      cases h2 : encMap c m with
      | error e => rw [h1, h2] at he; cases he
      | ok vs' =>
        rw [h1, h2] at he
        cases he
        obtain ⟨i1, i2⟩ := encMap_to m vs' (fun b hb => hl b (by simp [hb])) h2
        exact ⟨by simp [i1], each_cons ⟨rfl, hl (k, a) (by simp) v h1⟩ i2⟩

theorem nodup_index {α : Type} {l : List α} (h : l.Nodup) {i j : Nat} (hi : i < l.length) (hj : j < l.length) (he : l[i] = l[j]) : i = j := by
  have := List.pairwise_iff_getElem.1 h
  rcases Nat.lt_trichotomy i j with hlt | heq | hgt
  · exact absurd he (this i j hi hj hlt)
  · exact heq
  · exact absurd he.symm (this j i hj hi hgt)

theorem nodup_getElem {α : Type} {m : List (Bytes × α)} (h : (m.map Prod.fst).Nodup) {i j : Nat} {p q : Bytes × α} (hi : m[i]? = some p)
    (hj : m[j]? = some q) (he : p.1 = q.1) : i = j := by
  have h1 : (m.map Prod.fst)[i]? = some p.1 := by simp [hi]
  have h2 : (m.map Prod.fst)[j]? = some p.1 := by simp [hj, he]
  obtain ⟨a1, a2⟩ := List.getElem?_eq_some_iff.1 h1
  obtain ⟨b1, b2⟩ := List.getElem?_eq_some_iff.1 h2
  exact nodup_index h a1 b1 (a2.trans b2.symm)

theorem each_sameKeys {α : Type} {R : Bytes → α → JVal → Prop} {m : List (Bytes × α)} {vs : List (Bytes × JVal)}
    (hk : vs.map Prod.fst = m.map Prod.fst) (he : Each (fun p q => p.1 = q.1 ∧ R p.1 p.2 q.2) m vs) (hn : (m.map Prod.fst).Nodup) :
    SameKeys R m vs := by
  refine ⟨hn, hk ▸ hn, fun k => by rw [hk], ?_⟩
  intro k a v ha hv
  obtain ⟨i, hi⟩ := List.mem_iff_getElem?.1 ha
  obtain ⟨j, hj⟩ := List.mem_iff_getElem?.1 hv
  have hij : ∃ w, vs[i]? = some w := by
    have : i < vs.length := by rw [← he.1]; exact (List.getElem?_eq_some_iff.1 hi).1
    exact ⟨vs[i], List.getElem?_eq_getElem this⟩
  obtain ⟨w, hw⟩ := hij
  have hr := he.2 i (k, a) w hi hw
  have := nodup_getElem (hk ▸ hn) hw hj hr.1.symm
  subst this
  rw [hj] at hw; cases hw
  exact hr.2

theorem map_enc {α : Type} {c : JC α} {T : Typ α} (h : c.EncTo T) : (JC.map c).EncTo (ptrT (mapT T)) := by
  rintro o v ⟨m, rfl, hn, hm⟩ he
  simp only [JC.map] at he
  cases h1 : encMap c m with
  | error e => rw [h1] at he; cases he
  | ok vs =>
    rw [h1] at he
    cases he
    obtain ⟨i1, i2⟩ := encMap_to (R := fun _ => T.rel) m vs (fun p hp v hv => h _ _ (hm p hp) hv) h1
    exact ⟨m, rfl, vs, rfl, each_sameKeys i1 i2 hn⟩

theorem ext_enc (reg : Registry) : (JC.extensions reg).EncTo (extT reg) := by
  intro m v hn he
  simp only [JC.extensions] at he
  cases h1 : encMap (⟨.raw .null, ExtVal.enc, fun _ c => .ok c⟩ : JC ExtVal) m with
  | error e => rw [h1] at he; cases he
  | ok vs =>
    rw [h1] at he
    cases he
    obtain ⟨i1, i2⟩ := encMap_to (R := ExtRel reg) m vs (fun p hp v hv => by
      cases hx : p.2 with
      | raw w => rw [hx] at hv; cases hv; rfl
      | typed n => rw [hx] at hv; exact .inl hv) h1
    exact ⟨vs, rfl, each_sameKeys i1 i2 hn⟩

theorem mem_mapInsert {α : Type} {k : Bytes} {a : α} : ∀ {m : List (Bytes × α)}, m.Pairwise (fun a b => a.1 < b.1) →
    ∀ p, p ∈ mapInsert k a m ↔ p = (k, a) ∨ (p ∈ m ∧ p.1 ≠ k)
  | [], _, p => by simp [mapInsert]
  | (k', a') :: m, h, p => by
    obtain ⟨h1, h2⟩ := List.pairwise_cons.1 h
    have hgt : ∀ q ∈ m, q.1 ≠ k' := by
      intro q hq e; have := h1 q hq; rw [e] at this; exact List.lt_irrefl _ this
    unfold mapInsert
    split
    · next e =>
      subst e
      simp only [List.mem_cons]
      constructor
      · rintro (h | h)
        · exact .inl h
        · exact .inr ⟨.inr h, hgt p h⟩
      · rintro (h | ⟨rfl | h, h'⟩)
        · exact .inl h
        · exact absurd rfl h'
        · exact .inr h
    · next e =>
      split
      · next hlt =>
        have hlt := (bytesLt_iff _ _).1 hlt
        simp only [List.mem_cons]
        constructor
        · rintro (h | rfl | h)
          · exact .inl h
          · exact .inr ⟨.inl rfl, fun h => e h.symm⟩
          · refine .inr ⟨.inr h, fun he => ?_⟩
            have := h1 p h
            rw [he] at this
            exact List.lt_asymm hlt this
        · rintro (h | ⟨h, _⟩)
          · exact .inl h
          · exact .inr h
      · simp only [List.mem_cons, mem_mapInsert h2 p]
        constructor
        · rintro (rfl | h | ⟨h, h'⟩)
          · exact .inr ⟨.inl rfl, fun h => e h.symm⟩
          · exact .inl h
          · exact .inr ⟨.inr h, h'⟩
        · rintro (h | ⟨h | h, h'⟩)
          · exact .inr (.inl h)
          · exact .inl h
          · exact .inr (.inr ⟨h, h'⟩)

theorem pairwise_nodup {α : Type} {m : List (Bytes × α)} (h : m.Pairwise (fun a b => a.1 < b.1)) : (m.map Prod.fst).Nodup := by
  unfold List.Nodup
  rw [List.pairwise_map]
  exact h.imp fun h e => by rw [e] at h; exact List.lt_irrefl _ h

/-- Members with distinct keys are decoded one by one. -/
theorem fold_members {α : Type} {dec : Bytes → JVal → Except Err α} {R : Bytes → α → JVal → Prop}
    {all : List (Bytes × JVal) → List (Bytes × α) → Except Err (List (Bytes × α))}
    (hnil : ∀ cur, all [] cur = .ok cur)
    (hcons : ∀ k v vs cur a, dec k v = .ok a → all ((k, v) :: vs) cur = all vs (mapInsert k a cur)) :
    ∀ (vs : List (Bytes × JVal)) (cur : List (Bytes × α)), (vs.map Prod.fst).Nodup → cur.Pairwise (fun a b => a.1 < b.1) →
      (∀ p ∈ vs, ∃ a, dec p.1 p.2 = .ok a ∧ R p.1 a p.2) →
      ∃ m, all vs cur = .ok m ∧ m.Pairwise (fun a b => a.1 < b.1) ∧
        (∀ k, k ∈ m.map Prod.fst ↔ k ∈ vs.map Prod.fst ∨ k ∈ cur.map Prod.fst) ∧
        (∀ p ∈ cur, p.1 ∉ vs.map Prod.fst → p ∈ m) ∧
        ∀ k a v, (k, a) ∈ m → (k, v) ∈ vs → R k a v
  | [], cur, _, hc, _ => ⟨cur, hnil cur, hc, by simp, fun p hp _ => hp, by simp⟩
  | (k, v) :: vs, cur, hn, hc, hv => by
    obtain ⟨a, ha, hr⟩ := hv (k, v) (by simp)
    simp only [List.map_cons, List.nodup_cons] at hn
    obtain ⟨m, h1, h2, h3, h4, h5⟩ := fold_members hnil hcons vs (mapInsert k a cur) hn.2 (mapInsert_pairwise hc) fun p hp => hv p (by simp [hp])
    have hk : (k, a) ∈ m := h4 (k, a) ((mem_mapInsert hc _).2 (.inl rfl)) hn.1
    refine ⟨m, by rw [hcons k v vs cur a ha, h1], h2, fun k' => ?_, fun p hp hpn => ?_, ?_⟩
    · rw [h3 k']
      simp only [List.map_cons, List.mem_cons, List.mem_map, Prod.exists, exists_and_right, exists_eq_right]
      constructor
      · rintro (h | ⟨b, h⟩)
        · exact .inl (.inr h)
        · rcases (mem_mapInsert hc _).1 h with h | h
          · cases h; exact .inl (.inl rfl)
          · exact .inr ⟨b, h.1⟩
      · rintro ((h | h) | ⟨b, h⟩)
        · subst h; exact .inr ⟨a, (mem_mapInsert hc _).2 (.inl rfl)⟩
        · exact .inl h
        · by_cases e : k' = k
          · subst e; exact .inr ⟨a, (mem_mapInsert hc _).2 (.inl rfl)⟩
          · exact .inr ⟨b, (mem_mapInsert hc _).2 (.inr ⟨h, e⟩)⟩
    · simp only [List.map_cons, List.mem_cons, not_or] at hpn
      exact h4 p ((mem_mapInsert hc _).2 (.inr ⟨hp, hpn.1⟩)) hpn.2
    · intro k' a' v' hm hv'
      rcases List.mem_cons.1 hv' with h | h
      · cases h
        obtain ⟨i, hi⟩ := List.mem_iff_getElem?.1 hm
        obtain ⟨j, hj⟩ := List.mem_iff_getElem?.1 hk
        have := nodup_getElem (pairwise_nodup h2) hi hj rfl
        subst this
        rw [hi] at hj; cases hj
        exact hr
      · exact h5 k' a' v' hm h

theorem map_dec {α : Type} {c : JC α} {T : Typ α} (h : c.DecTo T c.zero) : (JC.map c).DecTo (ptrT (mapT T)) none := by
  rintro v ⟨_, m, rfl, vs, rfl, hs⟩
  obtain ⟨m', h1, h2, h3, _, h5⟩ := fold_members (dec := fun _ v => c.dec v c.zero) (R := fun _ => T.rel) (all := decMap c)
    (fun _ => rfl) (fun k v vs cur a ha => by simp only [decMap, ha]; rfl) vs [] hs.right .nil (by
      rintro ⟨k, v⟩ hp
      obtain ⟨⟨k', a⟩, ha, rfl⟩ := List.mem_map.1 ((hs.keys k).2 (List.mem_map_of_mem hp))
      exact h v ⟨a, hs.values _ _ _ ha hp⟩)
  refine ⟨some m', ?_, m', rfl, vs, rfl, pairwise_nodup h2, hs.right, by simpa using h3, h5⟩
  simp only [JC.map, Option.getD_none, h1]; rfl

theorem ext_dec (reg : Registry) : (JC.extensions reg).DecTo (extT reg) [] := by
  rintro v ⟨m, vs, rfl, hs⟩
  obtain ⟨m', h1, h2, h3, _, h5⟩ := fold_members (dec := fun k v => .ok (reg.decode k v)) (R := ExtRel reg)
    (all := fun vs cur => .ok (decExtensions reg vs cur))
    (fun _ => rfl) (fun k v vs cur a ha => by cases ha; rfl) vs [] hs.right .nil (by
      rintro ⟨k, v⟩ hp
      refine ⟨_, rfl, ?_⟩
      unfold Registry.decode
      simp only
      cases hq : reg.query k with
      | none => rfl
      | some f =>
        simp only
        cases hf : f v with
        | error e => rfl
        | ok n => exact .inr ⟨f, hq, hf⟩)
  exact ⟨m', h1, vs, rfl, pairwise_nodup h2, hs.right, by simpa using h3, h5⟩

/-! ### Values of type any -/

mutual
theorem any_enc {io : FloatIO} (hf : FloatLaws io) : (a : GoAny) → ∀ n v, AnyOk n a → a.enc io = .ok v → AnyRel io a v
  | .null, n, v, _, he => by cases he; exact .null
  | .bool b, n, v, _, he => by cases he; exact .bool b
  | .num x, n, v, ha, he => by
    cases ha with
    | num _ _ hx =>
      obtain ⟨lit, rfl, hl⟩ := float_enc hf x v hx he
      exact .num x lit hl
  | .str s, n, v, _, he => by cases he; exact .str s
  | .arr l, n, v, ha, he => by
    cases ha with
    | arr n _ hl =>
      simp only [GoAny.enc] at he
      cases h1 : GoAny.encList io l with
      | error e => rw [h1] at he; cases he
      | ok vs =>
        rw [h1] at he; cases he
        have := anyList_enc hf l n vs hl h1
        exact .arr l vs this.1 this.2
  | .obj m, n, v, ha, he => by
    cases ha with
    | obj n _ hm hl =>
      simp only [GoAny.enc] at he
      cases h1 : GoAny.encMap io m with
      | error e => rw [h1] at he; cases he
      | ok vs =>
        rw [h1] at he; cases he
        obtain ⟨i1, i2⟩ := anyMap_enc hf m n vs hl h1
        have := each_sameKeys (R := fun _ => AnyRel io) i1 i2 (pairwise_nodup hm.sorted)
        exact .obj m vs this.left this.right this.keys this.values
theorem anyList_enc {io : FloatIO} (hf : FloatLaws io) : (l : List GoAny) → ∀ n vs, (∀ a ∈ l, AnyOk n a) →
    GoAny.encList io l = .ok vs → Each (AnyRel io) l vs
  | [], n, vs, _, he => by cases he; exact each_nil _
  | a :: l, n, vs, hl, he => by
    simp only [GoAny.encList] at he
    cases h1 : a.enc io with
    | error e => rw [h1] at he; cases he
    | ok v =>
      cases h2 : GoAny.encList io l with
      | error e => rw [h1, h2] at he; cases he
      | ok vs' =>
        rw [h1, h2] at he
        cases he
        exact each_cons (any_enc hf a n v (hl a (by simp)) h1) (anyList_enc hf l n vs' (fun b hb => hl b (by simp [hb])) h2)
theorem anyMap_enc {io : FloatIO} (hf : FloatLaws io) : (m : List (Bytes × GoAny)) → ∀ n vs, (∀ p ∈ m, AnyOk n p.2) →
    GoAny.encMap io m = .ok vs → vs.map Prod.fst = m.map Prod.fst ∧ Each (fun p q => p.1 = q.1 ∧ AnyRel io p.2 q.2) m vs
  | [], n, vs, _, he => by cases he; exact ⟨rfl, each_nil _⟩
  | (k, a) :: m, n, vs, hl, he => by
    simp only [GoAny.encMap] at he
    cases h1 : a.enc io with
    | error e => rw [h1] at he; cases he
    | ok v =>
      cases h2 : GoAny.encMap io m with
      | error e => rw [h1, h2] at he; cases he
      | ok vs' =>
        rw [h1, h2] at he
        cases he
        obtain ⟨i1, i2⟩ := anyMap_enc hf m n vs' (fun b hb => hl b (by simp [hb])) h2
        exact ⟨by simp [i1], each_cons ⟨rfl, any_enc hf a n v (hl (k, a) (by simp)) h1⟩ i2⟩
end

theorem anyDecList {io : FloatIO} : ∀ (l : List GoAny) (vs : List JVal), l.length = vs.length →
    (∀ (i : Nat) (a : GoAny) (v : JVal), l[i]? = some a → vs[i]? = some v → ∃ a', GoAny.dec io v = .ok a' ∧ AnyRel io a' v) →
    ∃ l', GoAny.decList io vs = .ok l' ∧ Each (AnyRel io) l' vs
  | [], [], _, _ => ⟨[], by simp [GoAny.decList], each_nil _⟩
  | [], _ :: _, h, _ => by cases h
  | _ :: _, [], h, _ => by cases h
  | a :: l, v :: vs, h, hi => by
    obtain ⟨a', h1, h2⟩ := hi 0 a v rfl rfl
    obtain ⟨l', h3, h4⟩ := anyDecList l vs (by simpa using h) fun i x y hx hy => hi (i + 1) x y (by simpa using hx) (by simpa using hy)
    refine ⟨a' :: l', ?_, each_cons h2 h4⟩
    simp only [GoAny.decList, h1, h3]; rfl

theorem any_read {io : FloatIO} {a : GoAny} {v : JVal} (h : AnyRel io a v) : ∃ a', GoAny.dec io v = .ok a' ∧ AnyRel io a' v := by
  induction h with
  | null => exact ⟨.null, by simp [GoAny.dec], .null⟩
  | bool b => exact ⟨.bool b, by simp [GoAny.dec], .bool b⟩
  | num x lit hl => exact ⟨.num x, by simp [GoAny.dec, JC.float, hl, Except.map], .num x lit hl⟩
  | str s => exact ⟨.str s, by simp [GoAny.dec], .str s⟩
  | arr l vs hl _ ih =>
    obtain ⟨l', h1, h2⟩ := anyDecList l vs hl ih
    exact ⟨.arr l', by simp [GoAny.dec, h1, Except.map], .arr l' vs h2.1 h2.2⟩
  | obj m vs hm hv hk _ ih =>
    obtain ⟨m', h1, h2, h3, _, h5⟩ := fold_members (dec := fun _ v => GoAny.dec io v) (R := fun _ => AnyRel io) (all := GoAny.decMap io)
      (fun _ => by simp [GoAny.decMap]) (fun k v vs cur a ha => by simp only [GoAny.decMap, ha]; rfl) vs [] hv .nil (by
        rintro ⟨k, v⟩ hp
        obtain ⟨⟨k', a⟩, ha, rfl⟩ := List.mem_map.1 ((hk k).2 (List.mem_map_of_mem hp))
        exact ih _ _ _ ha hp)
    exact ⟨.obj m', by simp [GoAny.dec, h1, Except.map], .obj m' vs (pairwise_nodup h2) hv (by simpa using h3) h5⟩

theorem any_encTo {io : FloatIO} (hf : FloatLaws io) : (JC.any io).EncTo (anyT io) :=
  fun a v ⟨n, hn⟩ he => any_enc hf a n v hn he

theorem any_dec (io : FloatIO) (start : GoAny) : (JC.any io).DecTo (anyT io) start := fun _ ⟨_, ha⟩ => any_read ha

/-! ### Structs -/

/-- A row of a table seen from a struct that contains the value. -/
def Spec.Field.pull {σ τ : Type} (g : σ → τ) (f : Field τ) : Field σ :=
  ⟨f.name, fun s v => f.rel (g s) v, fun s => f.absent (g s), fun s => f.ready (g s)⟩

/-- What a field writes agrees with its row. -/
def FE.EncTo {α : Type} (f : FE α) (row : Field α) : Prop :=
  ∀ a o, row.ready a → f.enc a = .ok o → match o with
    | none => row.absent a
    | some v => row.rel a v

/-- A field can read what its row allows; a variable with the start value agrees with an absent member unless the
member is required. -/
structure FE.DecTo {α : Type} (f : FE α) (row : Field α) (start : α) : Prop where
  read : ∀ v, (∃ a, row.rel a v) → ∃ a, f.dec v start = .ok a ∧ row.rel a v
  start : row.absent start ∨ ∀ a, ¬ row.absent a

theorem req_enc {α : Type} {c : JC α} {T : Typ α} {name : Bytes} (h : c.EncTo T) : c.always.EncTo (req name id T) := by
  intro a o ha he
  simp only [JC.always] at he
  cases h1 : c.enc a with
  | error e => rw [h1] at he; cases he
  | ok v => rw [h1] at he; cases he; exact h a v ha h1

theorem req_dec {α : Type} {c : JC α} {T : Typ α} {name : Bytes} {start : α} (h : c.DecTo T start) :
    c.always.DecTo (req name id T) start := ⟨h, .inr fun _ h => h⟩

theorem opt_enc {α : Type} {c : JC α} {T : Typ α} {name : Bytes} {p : α → Bool} {absent : α → Prop} (h : c.EncTo T)
    (hp : ∀ a, T.ready a ∨ absent a → (p a = true ↔ absent a)) : (c.omitIf p).EncTo (opt name id T absent) := by
  intro a o ha he
  have ha' : absent a ∨ T.ready a := ha
  simp only [JC.omitIf] at he
  cases hpa : p a with
  | true => rw [hpa, if_pos rfl] at he; cases he; exact (hp a ha'.symm).1 hpa
  | false =>
    rw [hpa, if_neg (by decide)] at he
    have hr : T.ready a := by
      rcases ha' with h | h
      · have := (hp a (.inr h)).2 h; rw [hpa] at this; cases this
      · exact h
    cases h1 : c.enc a with
    | error e => rw [h1] at he; cases he
    | ok v => rw [h1] at he; cases he; exact h a v hr h1

theorem opt_dec {α : Type} {c : JC α} {T : Typ α} {name : Bytes} {p : α → Bool} {absent : α → Prop} {start : α} (h : c.DecTo T start)
    (hs : absent start) : (c.omitIf p).DecTo (opt name id T absent) start := ⟨h, .inl hs⟩

/-- A required member of a type that Go may leave out. -/
theorem reqOmit_enc {α : Type} {c : JC α} {T : Typ α} {name : Bytes} {p : α → Bool} (h : c.EncTo T)
    (hp : ∀ a, T.ready a → p a = false) : (c.omitIf p).EncTo (req name id T) := by
  intro a o ha he
  simp only [JC.omitIf, hp a ha] at he
  rw [if_neg (by decide)] at he
  cases h1 : c.enc a with
  | error e => rw [h1] at he; cases he
  | ok v => rw [h1] at he; cases he; exact h a v ha h1

theorem reqOmit_dec {α : Type} {c : JC α} {T : Typ α} {name : Bytes} {p : α → Bool} {start : α} (h : c.DecTo T start) :
    (c.omitIf p).DecTo (req name id T) start := ⟨h, .inr fun _ h => h⟩

/-- What the fields write agrees with the table. -/
def FC.EncTo {τ : Type} (fc : FC τ) (fs : List (Field τ)) : Prop :=
  fs.map (·.name) = fc.names ∧ ∀ t ms, (∀ f ∈ fs, f.ready t) → fc.enc t = .ok ms →
    (ms.map Prod.fst).Sublist fc.names ∧ (∀ f ∈ fs, ∀ v, (f.name, v) ∈ ms → f.rel t v) ∧
    (∀ f ∈ fs, f.name ∉ ms.map Prod.fst → f.absent t)

theorem nil_enc : FC.nil.EncTo [] := ⟨rfl, fun t ms _ he => by cases he; exact ⟨by simp [FC.nil], by simp, by simp⟩⟩

theorem fields_enc {α τ : Type} {name : Bytes} {f : FE α} {r : FC τ} {row : Field α} {fs : List (Field τ)} (hn : name ∉ r.names)
    (hname : row.name = name) (hf : f.EncTo row) (hr : r.EncTo fs) :
    (FC.cons name f r).EncTo (row.pull Prod.fst :: fs.map (Field.pull Prod.snd)) := by
  subst hname
  have hnames : fs.map (·.name) = r.names := hr.1
  refine ⟨?_, ?_⟩
  · show row.name :: (fs.map (Field.pull Prod.snd)).map (·.name) = row.name :: r.names
    rw [← hnames, List.map_map]; rfl
  · rintro ⟨a, t⟩ ms hready he
    simp only [FC.cons] at he
    cases h1 : f.enc a with
    | error e => rw [h1] at he; cases he
    | ok o =>
      cases h2 : r.enc t with
      | error e => rw [h1, h2] at he; cases he
      | ok ms' =>
        rw [h1, h2] at he
        obtain ⟨i1, i2, i3⟩ := hr.2 t ms' (fun g hg => hready (g.pull Prod.snd) (List.mem_cons_of_mem _ (List.mem_map_of_mem hg))) h2
        have hf' := hf a o (hready (row.pull Prod.fst) (by simp)) h1
        have hmem : ∀ m ∈ ms', m.1 ∈ r.names := fun m hm => i1.subset (List.mem_map_of_mem hm)
        have hne : ∀ g ∈ fs, g.name ≠ row.name := by
          intro g hg e
          exact hn (hnames ▸ e ▸ List.mem_map_of_mem hg)
        cases o with
        | none =>
          cases he
          refine ⟨i1.trans (List.sublist_cons_self _ _), ?_, ?_⟩
          · intro g hg v hv
            rcases List.mem_cons.1 hg with rfl | hg
            · exact absurd (hmem _ hv) hn
            · obtain ⟨g, hgf, rfl⟩ := List.mem_map.1 hg
              exact i2 g hgf v hv
          · intro g hg hnm
            rcases List.mem_cons.1 hg with rfl | hg
            · exact hf'
            · obtain ⟨g, hgf, rfl⟩ := List.mem_map.1 hg
              exact i3 g hgf hnm
        | some w =>
          cases he
          refine ⟨by simpa [FC.cons] using i1, ?_, ?_⟩
          · intro g hg v hv
            rcases List.mem_cons.1 hg with rfl | hg
            · rcases List.mem_cons.1 hv with hv | hv
              · cases hv; exact hf'
              · exact absurd (hmem _ hv) hn
            · obtain ⟨g, hgf, rfl⟩ := List.mem_map.1 hg
              rcases List.mem_cons.1 hv with hv | hv
              · injection hv with hv _
                exact absurd hv (hne g hgf)
              · exact i2 g hgf v hv
          · intro g hg hnm
            simp only [List.map_cons, List.mem_cons, not_or] at hnm
            rcases List.mem_cons.1 hg with rfl | hg
            · exact absurd rfl hnm.1
            · obtain ⟨g, hgf, rfl⟩ := List.mem_map.1 hg
              exact i3 g hgf hnm.2

theorem skip_enc {α τ : Type} {zero : α} {r : FC τ} {fs : List (Field τ)} (hr : r.EncTo fs) :
    (FC.skip zero r).EncTo (fs.map (Field.pull Prod.snd)) := by
  refine ⟨?_, ?_⟩
  · rw [List.map_map]; exact hr.1
  · rintro ⟨a, t⟩ ms hready he
    obtain ⟨i1, i2, i3⟩ := hr.2 t ms (fun g hg => hready (g.pull Prod.snd) (List.mem_map_of_mem hg)) he
    refine ⟨i1, ?_, ?_⟩
    · intro g hg v hv
      obtain ⟨g, hgf, rfl⟩ := List.mem_map.1 hg
      exact i2 g hgf v hv
    · intro g hg hnm
      obtain ⟨g, hgf, rfl⟩ := List.mem_map.1 hg
      exact i3 g hgf hnm

theorem fold_inj {names : List Bytes} (hn : (names.map foldKey).Nodup) {a b : Bytes} (ha : a ∈ names) (hb : b ∈ names)
    (h : foldKey a = foldKey b) : a = b := by
  obtain ⟨i, hi, rfl⟩ := List.mem_iff_getElem.1 ha
  obtain ⟨j, hj, rfl⟩ := List.mem_iff_getElem.1 hb
  have : i = j := by
    refine nodup_index hn (by simpa using hi) (by simpa using hj) ?_
    simpa using h
  subst this; rfl

theorem nodup_of_map {names : List Bytes} (hn : (names.map foldKey).Nodup) : names.Nodup := by
  unfold List.Nodup at hn ⊢
  rw [List.pairwise_map] at hn
  exact hn.imp fun h e => h (by rw [e])

/-- A list of members that agrees with a table. -/
theorem objRel_of {σ : Type} {b : Bool} {fs : List (Field σ)} {s : σ} {ms : List (Bytes × JVal)} (hn : ((fs.map (·.name)).map foldKey).Nodup)
    (h1 : (ms.map Prod.fst).Nodup) (h2 : ∀ m ∈ ms, m.1 ∈ fs.map (·.name)) (h3 : ∀ f ∈ fs, ∀ v, (f.name, v) ∈ ms → f.rel s v)
    (h4 : ∀ f ∈ fs, f.name ∉ ms.map Prod.fst → f.absent s) : ObjRel b fs s ms :=
  ⟨h1, fun _ m hm => List.mem_map.1 (h2 m hm),
    fun m hm f hf e => fold_inj hn (h2 m hm) (List.mem_map_of_mem hf) e, h3, h4⟩

theorem struct_enc {σ τ : Type} {to : σ → τ} {of : τ → σ} {fc : FC τ} {fs : List (Field τ)} {rows : List (Field σ)} {b : Bool}
    (hf : fc.EncTo fs) (hn : (fc.names.map foldKey).Nodup) (hrows : rows = fs.map (Field.pull to)) :
    (JC.struct to of fc).EncTo (objT b rows) := by
  subst hrows
  intro s v hready he
  simp only [JC.struct] at he
  cases h1 : fc.enc (to s) with
  | error e => rw [h1] at he; cases he
  | ok ms =>
    rw [h1] at he
    cases he
    obtain ⟨i1, i2, i3⟩ := hf.2 (to s) ms (fun g hg => hready (g.pull to) (List.mem_map_of_mem hg)) h1
    have hnames : (fs.map (Field.pull to)).map (·.name) = fc.names := by rw [List.map_map]; exact hf.1
    refine ⟨ms, rfl, objRel_of (hnames ▸ hn) (i1.nodup (nodup_of_map hn)) (fun m hm => hnames ▸ i1.subset (List.mem_map_of_mem hm)) ?_ ?_⟩
    · intro g hg v hv
      obtain ⟨g, hgf, rfl⟩ := List.mem_map.1 hg
      exact i2 g hgf v hv
    · intro g hg hnm
      obtain ⟨g, hgf, rfl⟩ := List.mem_map.1 hg
      exact i3 g hgf hnm

/-- The fields can read what the table allows. -/
def FC.DecTo {τ : Type} (fc : FC τ) (fs : List (Field τ)) (start : τ) : Prop :=
  fs.map (·.name) = fc.names ∧ ∀ ms : List (Bytes × JVal), (ms.map Prod.fst).Nodup →
    (∀ m ∈ ms, ∀ f ∈ fs, foldKey m.1 = foldKey f.name → m.1 = f.name ∧ ∃ t, f.rel t m.2) →
    ∃ t, fc.decAll ms start = .ok t ∧ (∀ f ∈ fs, ∀ v, (f.name, v) ∈ ms → f.rel t v) ∧
      (∀ f ∈ fs, f.name ∉ ms.map Prod.fst → f.absent t ∨ ∀ t, ¬ f.absent t)

theorem nil_decAll : ∀ (ms : List (Bytes × JVal)) (t : Unit), FC.nil.decAll ms t = .ok t
  | [], _ => rfl
  | (_, _) :: ms, t => nil_decAll ms t

theorem nil_dec : FC.nil.DecTo [] () := ⟨rfl, fun ms _ _ => ⟨(), nil_decAll ms (), by simp, by simp⟩⟩

theorem decAll_append {τ : Type} (fc : FC τ) : ∀ (l m : List (Bytes × JVal)) (t : τ), fc.decAll (l ++ m) t = fc.decAll l t >>= fc.decAll m
  | [], m, t => rfl
  | (k, v) :: l, m, t => by
    simp only [List.cons_append, FC.decAll]
    cases h : fc.dec k v t with
    | error e => rfl
    | ok t' => exact decAll_append fc l m t'

/-- The member of a field and the members of the others are read independently. -/
theorem decAll_split {α τ : Type} {name : Bytes} {f : FE α} {r : FC τ} {a a' : α} {v : JVal} {t t' : τ} {pre post : List (Bytes × JVal)} {k : Bytes}
    (hpre : ∀ m ∈ pre, foldKey m.1 ≠ foldKey name) (hpost : ∀ m ∈ post, foldKey m.1 ≠ foldKey name) (hk : foldKey k = foldKey name)
    (hv : f.dec v a = .ok a') (hr : r.decAll (pre ++ post) t = .ok t') :
    (FC.cons name f r).decAll (pre ++ (k, v) :: post) (a, t) = .ok (a', t') := by
  rw [decAll_append] at hr
  cases h1 : r.decAll pre t with
  | error e => rw [h1] at hr; cases hr
  | ok t1 =>
    rw [h1] at hr
    rw [decAll_append, decAll_cons_other a pre t hpre, h1]
    show (FC.cons name f r).decAll ((k, v) :: post) (a, t1) = _
    simp only [FC.decAll]
    have : (FC.cons name f r).dec k v (a, t1) = .ok (a', t1) := by
      simp only [FC.cons, if_pos hk, hv]; rfl
    rw [this]
    show (FC.cons name f r).decAll post (a', t1) = _
    rw [decAll_cons_other a' post t1 hpost]
    have hr : r.decAll post t1 = .ok t' := hr
    rw [hr]; rfl

theorem nodup_mem_eq {α : Type} {m : List (Bytes × α)} (h : (m.map Prod.fst).Nodup) {k : Bytes} {a b : α} (ha : (k, a) ∈ m) (hb : (k, b) ∈ m) :
    a = b := by
  obtain ⟨i, hi⟩ := List.mem_iff_getElem?.1 ha
  obtain ⟨j, hj⟩ := List.mem_iff_getElem?.1 hb
  have := nodup_getElem h hi hj rfl
  subst this
  rw [hi] at hj; cases hj; rfl

theorem cons_dec {α τ : Type} {name : Bytes} {f : FE α} {r : FC τ} {row : Field α} {fs : List (Field τ)} {start : α} {starts : τ}
    (hn : foldKey name ∉ r.names.map foldKey) (hname : row.name = name) (hf : f.DecTo row start) (hr : r.DecTo fs starts) :
    (FC.cons name f r).DecTo (row.pull Prod.fst :: fs.map (Field.pull Prod.snd)) (start, starts) := by
  subst hname
  have hnames : fs.map (·.name) = r.names := hr.1
  refine ⟨?_, ?_⟩
  · show row.name :: (fs.map (Field.pull Prod.snd)).map (·.name) = row.name :: r.names
    rw [← hnames, List.map_map]; rfl
  rw [← hnames] at hn
  replace hr := hr.2
  intro ms hnd hms
  have hne : ∀ g ∈ fs, foldKey g.name ≠ foldKey row.name := by
    intro g hg e
    exact hn (e ▸ List.mem_map_of_mem (List.mem_map_of_mem hg))
  have hrow : ∀ m ∈ ms, foldKey m.1 = foldKey row.name → m.1 = row.name ∧ ∃ a, row.rel a m.2 := by
    intro m hm e
    obtain ⟨h1, ⟨a, t⟩, h2⟩ := hms m hm (row.pull Prod.fst) (by simp) e
    exact ⟨h1, a, h2⟩
  have hrest : ∀ m ∈ ms, ∀ g ∈ fs, foldKey m.1 = foldKey g.name → m.1 = g.name ∧ ∃ t, g.rel t m.2 := by
    intro m hm g hg e
    obtain ⟨h1, ⟨a, t⟩, h2⟩ := hms m hm (g.pull Prod.snd) (List.mem_cons_of_mem _ (List.mem_map_of_mem hg)) e
    exact ⟨h1, t, h2⟩
  by_cases hex : ∃ m ∈ ms, foldKey m.1 = foldKey row.name
  · obtain ⟨⟨k, v⟩, hm, hk⟩ := hex
    obtain ⟨hkn, ha⟩ := hrow _ hm hk
    simp only at hkn ha
    subst hkn
    obtain ⟨a', hd, hrel⟩ := hf.read v ha
    obtain ⟨pre, post, rfl⟩ := List.append_of_mem hm
    have hnd' : ((pre ++ post).map Prod.fst).Nodup := by
      refine hnd.sublist (List.Sublist.map _ ?_)
      exact List.Sublist.append (List.Sublist.refl _) (List.sublist_cons_self _ _)
    have hother : ∀ m ∈ pre ++ post, foldKey m.1 ≠ foldKey row.name := by
      intro m hm' e
      have hm2 : m ∈ pre ++ (row.name, v) :: post := by
        rcases List.mem_append.1 hm' with h | h
        · exact List.mem_append_left _ h
        · exact List.mem_append_right _ (List.mem_cons_of_mem _ h)
      have h1 := (hrow m hm2 e).1
      simp only [List.map_append, List.map_cons] at hnd
      have h2 := (List.nodup_append.1 hnd)
      rcases List.mem_append.1 hm' with h | h
      · exact h2.2.2 _ (List.mem_map_of_mem h) _ (by simp) h1
      · have := (List.nodup_cons.1 h2.2.1).1
        exact this (h1 ▸ List.mem_map_of_mem h)
    have hsub : ∀ m ∈ pre ++ post, m ∈ pre ++ (row.name, v) :: post := by
      intro m hm'
      rcases List.mem_append.1 hm' with h | h
      · exact List.mem_append_left _ h
      · exact List.mem_append_right _ (List.mem_cons_of_mem _ h)
    obtain ⟨t', i1, i2, i3⟩ := hr (pre ++ post) hnd' fun m hm' g hg e => hrest m (hsub m hm') g hg e
    refine ⟨(a', t'), decAll_split (fun m h => hother m (List.mem_append_left _ h)) (fun m h => hother m (List.mem_append_right _ h)) rfl hd i1, ?_, ?_⟩
    · intro g hg w hw
      rcases List.mem_cons.1 hg with rfl | hg
      · have : w = v := nodup_mem_eq hnd hw hm
        subst this
        exact hrel
      · obtain ⟨g, hgf, rfl⟩ := List.mem_map.1 hg
        refine i2 g hgf w ?_
        rcases List.mem_append.1 hw with h | h
        · exact List.mem_append_left _ h
        · rcases List.mem_cons.1 h with h | h
          · injection h with h _
            exact absurd (congrArg foldKey h) (hne g hgf)
          · exact List.mem_append_right _ h
    · intro g hg hnm
      rcases List.mem_cons.1 hg with rfl | hg
      · exact absurd (List.mem_map_of_mem hm) hnm
      · obtain ⟨g, hgf, rfl⟩ := List.mem_map.1 hg
        rcases i3 g hgf fun h => hnm (by
          obtain ⟨m, hm', e⟩ := List.mem_map.1 h
          exact List.mem_map.2 ⟨m, hsub m hm', e⟩) with h | h
        · exact .inl h
        · exact .inr fun t => h t.2
  · have hother : ∀ m ∈ ms, foldKey m.1 ≠ foldKey row.name := fun m hm e => hex ⟨m, hm, e⟩
    obtain ⟨t', i1, i2, i3⟩ := hr ms hnd hrest
    refine ⟨(start, t'), by rw [decAll_cons_other start ms starts hother, i1]; rfl, ?_, ?_⟩
    · intro g hg w hw
      rcases List.mem_cons.1 hg with rfl | hg
      · exact absurd rfl (hother _ hw)
      · obtain ⟨g, hgf, rfl⟩ := List.mem_map.1 hg
        exact i2 g hgf w hw
    · intro g hg hnm
      rcases List.mem_cons.1 hg with rfl | hg
      · rcases hf.start with h | h
        · exact .inl h
        · exact .inr fun t => h t.1
      · obtain ⟨g, hgf, rfl⟩ := List.mem_map.1 hg
        rcases i3 g hgf hnm with h | h
        · exact .inl h
        · exact .inr fun t => h t.2

theorem skip_decAll {α τ : Type} {zero : α} {r : FC τ} (a : α) : ∀ (ms : List (Bytes × JVal)) (t : τ),
    (FC.skip zero r).decAll ms (a, t) = (r.decAll ms t).map fun t => (a, t)
  | [], _ => rfl
  | (k, v) :: ms, t => by
    simp only [FC.decAll, FC.skip]
    cases hr : r.dec k v t with
    | error e => rfl
    | ok t' => exact skip_decAll a ms t'

theorem skip_dec {α τ : Type} {zero start : α} {r : FC τ} {fs : List (Field τ)} {starts : τ} (hr : r.DecTo fs starts) :
    (FC.skip zero r).DecTo (fs.map (Field.pull Prod.snd)) (start, starts) := by
  refine ⟨by rw [List.map_map]; exact hr.1, ?_⟩
  intro ms hnd hms
  obtain ⟨t', i1, i2, i3⟩ := hr.2 ms hnd fun m hm g hg e => by
    obtain ⟨h1, ⟨a, t⟩, h2⟩ := hms m hm (g.pull Prod.snd) (List.mem_map_of_mem hg) e
    exact ⟨h1, t, h2⟩
  refine ⟨(start, t'), by rw [skip_decAll, i1]; rfl, ?_, ?_⟩
  · intro g hg w hw
    obtain ⟨g, hgf, rfl⟩ := List.mem_map.1 hg
    exact i2 g hgf w hw
  · intro g hg hnm
    obtain ⟨g, hgf, rfl⟩ := List.mem_map.1 hg
    rcases i3 g hgf hnm with h | h
    · exact .inl h
    · exact .inr fun t => h t.2

theorem struct_dec {σ τ : Type} {to : σ → τ} {of : τ → σ} {fc : FC τ} {fs : List (Field τ)} {rows : List (Field σ)} {start : σ} {starts : τ}
    (hf : fc.DecTo fs starts) (hs : to start = starts) (hto : ∀ t, to (of t) = t) (hrows : rows = fs.map (Field.pull to)) :
    (JC.struct to of fc).DecTo (objT false rows) start := by
  subst hrows
  rintro v ⟨s, ms, rfl, h⟩
  obtain ⟨t, i1, i2, i3⟩ := hf.2 ms h.distinct fun m hm g hg e => by
    have hg' : g.pull to ∈ fs.map (Field.pull to) := List.mem_map_of_mem hg
    have := h.exactly m hm (g.pull to) hg' e
    refine ⟨this, to s, ?_⟩
    refine h.present (g.pull to) hg' m.2 ?_
    rw [← this]; exact hm
  refine ⟨of t, ?_, ms, rfl, h.distinct, (fun h => nomatch h), h.exactly, ?_, ?_⟩
  · simp only [JC.struct, hs, i1]; rfl
  · intro g hg w hw
    obtain ⟨g, hgf, rfl⟩ := List.mem_map.1 hg
    show g.rel (to (of t)) w
    rw [hto]; exact i2 g hgf w hw
  · intro g hg hnm
    have habs := h.absent g hg hnm
    obtain ⟨g, hgf, rfl⟩ := List.mem_map.1 hg
    show g.absent (to (of t))
    rw [hto]
    rcases i3 g hgf hnm with h | h
    · exact h
    · exact absurd habs (h (to s))

end Gltf
