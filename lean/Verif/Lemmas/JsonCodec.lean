/-
Round trip laws of the JSON codecs.
-/
import Verif.Spec.DocJson
import Verif.Model.JsonDoc

namespace Gltf

open Spec

/-- Values that satisfy `ok` are encoded as well-formed JSON, and decoding that into a variable with value
`start` gives `norm a`. -/
def JC.Law {α : Type} (c : JC α) (D : Nat) (start : α) (ok : α → Prop) (norm : α → α) : Prop :=
  ∀ a, ok a → ∃ v, c.enc a = .ok v ∧ JsonOk v ∧ DepthLe D v ∧ c.dec v start = .ok (norm a)

/-- The same for a field, which may be omitted. -/
def FE.Law {α : Type} (f : FE α) (D : Nat) (start : α) (ok : α → Prop) (norm : α → α) : Prop :=
  ∀ a, ok a → (f.enc a = .ok none ∧ norm a = start) ∨
    ∃ v, f.enc a = .ok (some v) ∧ JsonOk v ∧ DepthLe D v ∧ f.dec v start = .ok (norm a)

/-- The same for the fields of a struct. -/
def FC.Law {τ : Type} (fc : FC τ) (D : Nat) (start : τ) (ok : τ → Prop) (norm : τ → τ) : Prop :=
  ∀ t, ok t → ∃ ms, fc.enc t = .ok ms ∧ (∀ m ∈ ms, m.1 ∈ fc.names) ∧ (∀ m ∈ ms, JsonOk m.2) ∧
    (∀ m ∈ ms, DepthLe D m.2) ∧ fc.decAll ms start = .ok (norm t)

/-- The encoding is never null. -/
def JC.NonNull {α : Type} (c : JC α) : Prop := ∀ a v, c.enc a = .ok v → v ≠ .null

theorem depthLe_mono {n m : Nat} {v : JVal} (h : DepthLe n v) : n ≤ m → DepthLe m v := by
  induction h generalizing m with
  | null n => exact fun _ => .null m
  | bool n b => exact fun _ => .bool m b
  | num n l => exact fun _ => .num m l
  | str n s => exact fun _ => .str m s
  | arr n l _ ih =>
    intro h
    match m, h with
    | m + 1, h => exact .arr m l fun v hv => ih v hv (Nat.le_of_succ_le_succ h)
  | obj n l _ ih =>
    intro h
    match m, h with
    | m + 1, h => exact .obj m l fun v hv => ih v hv (Nat.le_of_succ_le_succ h)

/-! ### Numbers -/

theorem printNat_spec : ∀ f n, n < f → (∀ c ∈ digitsFuel f n, 48 ≤ c ∧ c ≤ 57) ∧ digitsFuel f n ≠ [] ∧
    digitsValue (digitsFuel f n) = n ∧ (n ≠ 0 → (digitsFuel f n).head? ≠ some 48) := by
  intro f
  induction f with
  | zero => intro n h; omega
  | succ f ih =>
    intro n hn
    have key : ∀ d, d < 10 → (48 ≤ UInt8.ofNat (48 + d) ∧ UInt8.ofNat (48 + d) ≤ 57) ∧ (UInt8.ofNat (48 + d)).toNat - 48 = d ∧
        (d ≠ 0 → UInt8.ofNat (48 + d) ≠ 48) := by decide
    unfold digitsFuel
    split
    · next h =>
      obtain ⟨h1, h2, h3⟩ := key n h
      refine ⟨by simpa using h1, by simp, by simpa [digitsValue] using h2, fun h0 => ?_⟩
      simpa using h3 h0
    · next h =>
      obtain ⟨h1, h2, h3⟩ := key (n % 10) (Nat.mod_lt _ (by omega))
      obtain ⟨i1, i2, i3, i4⟩ := ih (n / 10) (by omega)
      refine ⟨?_, by simp, ?_, fun _ => ?_⟩
      · intro c hc
        rcases List.mem_append.1 hc with hc | hc
        · exact i1 c hc
        · simp only [List.mem_singleton] at hc; subst hc; exact h1
      · unfold digitsValue at i3 ⊢
        rw [List.foldl_append, i3]
        simp only [List.foldl_cons, List.foldl_nil, h2]
        omega
      · have := i4 (by omega)
        match hd : digitsFuel f (n / 10), i2 with
        | c :: l, _ => rw [hd] at this; exact this

theorem readNat_printNat (n : Nat) : readNat (printNat n) = some n := by
  obtain ⟨h1, h2, h3, _⟩ := printNat_spec (n + 1) n (by omega)
  unfold readNat printNat
  rw [if_pos ⟨h2, by simpa using h1⟩, h3]

theorem printNat_digits (n : Nat) : IsDigits (printNat n) := by
  obtain ⟨h1, h2, _⟩ := printNat_spec (n + 1) n (by omega)
  exact ⟨h2, h1⟩

theorem printNat_int (n : Nat) : printNat n = b!"0" ∨ (IsDigits (printNat n) ∧ (printNat n).head? ≠ some 48) := by
  rcases Nat.eq_zero_or_pos n with rfl | h
  · exact .inl rfl
  · exact .inr ⟨printNat_digits n, (printNat_spec (n + 1) n (by omega)).2.2.2 (by omega)⟩

theorem printNat_number (n : Nat) : IsNumber (printNat n) :=
  ⟨[], printNat n, [], [], by simp, .inl rfl, printNat_int n, .inl rfl, .inl rfl⟩

theorem printInt_number (n : Int) : IsNumber (printInt n) := by
  cases n with
  | ofNat n => exact printNat_number n
  | negSucc n => exact ⟨b!"-", printNat (n + 1), [], [], by simp [printInt], .inr rfl, printNat_int _, .inl rfl, .inl rfl⟩

theorem readInt_printInt (n : Int) : readInt (printInt n) = some n := by
  cases n with
  | ofNat n =>
    have hd := printNat_digits n
    have : (printNat n).head? ≠ some 45 := by
      intro h
      match hp : printNat n with
      | [] => rw [hp] at h; cases h
      | c :: l =>
        rw [hp] at h
        simp only [List.head?_cons, Option.some.injEq] at h
        have := hd.2 c (by rw [hp]; simp)
        rw [h] at this
        exact absurd this.1 (by decide)
    show readInt (printNat n) = _
    unfold readInt
    rw [if_neg this, readNat_printNat]
    rfl
  | negSucc n =>
    show readInt (45 :: printNat (n + 1)) = _
    unfold readInt
    rw [if_pos (show (45 :: printNat (n + 1)).head? = some 45 from rfl)]
    show Option.map _ (readNat (printNat (n + 1)) >>= _) = _
    rw [readNat_printNat]
    rfl

theorem int_law (D : Nat) (start : Int) : JC.int.Law D start IntOk id := by
  intro n hn
  refine ⟨_, rfl, .num _ (printInt_number n), .num _ _, ?_⟩
  simp only [JC.int, readInt_printInt]
  exact if_pos hn

theorem decUint_print {size n : Nat} (h : n < size) (cur : Nat) : decUint size (.num (printNat n)) cur = .ok n := by
  simp only [decUint, readNat_printNat, if_pos h]

theorem uint16_law (D : Nat) (start : UInt16) : JC.uint16.Law D start (fun _ => True) id := by
  intro n _
  refine ⟨_, rfl, .num _ (printNat_number _), .num _ _, ?_⟩
  simp only [JC.uint16, decUint_print (UInt16.toNat_lt n)]
  simp [Except.map]

theorem float_law {io : FloatIO} (h : FloatLaws io) (D : Nat) (start : F64) :
    (JC.float io).Law D start (fun x => x.finite = true) id := by
  intro x hx
  refine ⟨.num (io.fmt x), by simp [JC.float, hx], .num _ (h.number x hx), .num _ _, ?_⟩
  simp [JC.float, h.parse_fmt x hx]

theorem bool_law (D : Nat) (start : Bool) : JC.bool.Law D start (fun _ => True) id :=
  fun b _ => ⟨_, rfl, .bool b, .bool _ _, rfl⟩

theorem string_law (D : Nat) (start : Bytes) : JC.string.Law D start IsUtf8 id :=
  fun s h => ⟨_, rfl, .str s h, .str _ _, rfl⟩

theorem enumNum_law {α : Type} {size : Nat} {zero : α} {toCode : α → Nat} {ofCode : Nat → α} (D : Nat) (start : α) (ok : α → Prop)
    (h : ∀ a, ok a → toCode a < size ∧ ofCode (toCode a) = a) :
    (JC.enumNum size zero toCode ofCode).Law D start ok id := by
  intro a ha
  refine ⟨_, rfl, .num _ (printNat_number _), .num _ _, ?_⟩
  simp only [JC.enumNum, decUint_print (h a ha).1, Except.map, (h a ha).2]
  rfl

theorem enumStr_law {α : Type} {zero : α} {toCode : α → Bytes} {ofCode : Bytes → Except Err α} (D : Nat) (start : α) (ok : α → Prop)
    (h : ∀ a, ok a → IsUtf8 (toCode a) ∧ ofCode (toCode a) = .ok a) :
    (JC.enumStr zero toCode ofCode).Law D start ok id := by
  intro a ha
  refine ⟨_, rfl, .str _ (h a ha).1, .str _ _, ?_⟩
  simp only [JC.enumStr, JC.string]
  exact (h a ha).2

/-! ### Pointers, slices, arrays, maps -/

theorem ptr_law {α : Type} {c : JC α} {D : Nat} {ok : α → Prop} {norm : α → α} (start : Option α)
    (hn : c.NonNull) (h : c.Law D (start.getD c.zero) ok norm) :
    (JC.ptr c).Law D start (fun o => ∀ a ∈ o, ok a) (Option.map norm) := by
  intro o ho
  cases o with
  | none => exact ⟨.null, rfl, .null, .null _, rfl⟩
  | some a =>
    obtain ⟨v, h1, h2, h3, h4⟩ := h a (ho a rfl)
    refine ⟨v, h1, h2, h3, ?_⟩
    have hv := hn a v h1
    have : (JC.ptr c).dec v start = (c.dec v (start.getD c.zero)).map some := by
      cases v <;> first | exact absurd rfl hv | rfl
    rw [this, h4]
    rfl

theorem encList_law {α : Type} {c : JC α} {D : Nat} {ok : α → Prop} {norm : α → α} (h : c.Law D c.zero ok norm) :
    ∀ l : List α, (∀ a ∈ l, ok a) → ∃ vs, encList c l = .ok vs ∧ (∀ v ∈ vs, JsonOk v) ∧ (∀ v ∈ vs, DepthLe D v) ∧
      decList c vs [] = .ok (l.map norm) := by
  intro l
  induction l with
  | nil => intro _; exact ⟨[], rfl, by simp, by simp, rfl⟩
  | cons a l ih =>
    intro hl
    obtain ⟨v, h1, h2, h3, h4⟩ := h a (hl a (by simp))
    obtain ⟨vs, i1, i2, i3, i4⟩ := ih fun b hb => hl b (by simp [hb])
    refine ⟨v :: vs, ?_, ?_, ?_, ?_⟩
    · simp only [encList, h1, i1]; rfl
    · exact List.forall_mem_cons.2 ⟨h2, i2⟩
    · exact List.forall_mem_cons.2 ⟨h3, i3⟩
    · simp only [decList, h4, i4]; rfl

theorem list_law {α : Type} {c : JC α} {D : Nat} {ok : α → Prop} {norm : α → α} (h : c.Law D c.zero ok norm) :
    (JC.list c).Law (D + 1) [] (fun l => ∀ a ∈ l, ok a) (List.map norm) := by
  intro l hl
  obtain ⟨vs, h1, h2, h3, h4⟩ := encList_law h l hl
  refine ⟨.arr vs, ?_, .arr vs h2, .arr D vs h3, h4⟩
  simp only [JC.list, h1]; rfl

theorem slice_law {α : Type} {c : JC α} {D : Nat} {ok : α → Prop} {norm : α → α} (h : c.Law D c.zero ok norm) :
    (JC.slice c).Law (D + 1) none (fun o => ∀ l ∈ o, ∀ a ∈ l, ok a) (Option.map (List.map norm)) := by
  intro o ho
  cases o with
  | none => exact ⟨.null, rfl, .null, .null _, rfl⟩
  | some l =>
    obtain ⟨vs, h1, h2, h3, h4⟩ := encList_law h l (ho l rfl)
    refine ⟨.arr vs, ?_, .arr vs h2, .arr D vs h3, ?_⟩
    · simp only [JC.slice, h1]; rfl
    · simp only [JC.slice, Option.getD_none, h4]; rfl

theorem decArray_law {α : Type} {c : JC α} {D : Nat} {ok : α → Prop} (h : ∀ s, c.Law D s ok id) :
    ∀ l : List α, (∀ a ∈ l, ok a) → ∃ vs, encList c l = .ok vs ∧ (∀ v ∈ vs, JsonOk v) ∧ (∀ v ∈ vs, DepthLe D v) ∧
      ∀ curs : List α, curs.length = l.length → decArray c curs vs = .ok l := by
  intro l
  induction l with
  | nil =>
    intro _
    refine ⟨[], rfl, by simp, by simp, fun curs hc => ?_⟩
    rw [List.length_eq_zero_iff.1 hc]; rfl
  | cons a l ih =>
    intro hl
    obtain ⟨vs, i1, i2, i3, i4⟩ := ih fun b hb => hl b (by simp [hb])
    obtain ⟨v, h1, h2, h3, _⟩ := h a a (hl a (by simp))
    refine ⟨v :: vs, ?_, ?_, ?_, ?_⟩
    · simp only [encList, h1, i1]; rfl
    · exact List.forall_mem_cons.2 ⟨h2, i2⟩
    · exact List.forall_mem_cons.2 ⟨h3, i3⟩
    · intro curs hc
      match curs, hc with
      | cur :: curs, hc =>
        obtain ⟨v', h1', _, _, h4'⟩ := h cur a (hl a (by simp))
        rw [h1] at h1'; cases h1'
        simp only [decArray, h4', i4 curs (by simpa using hc)]; rfl

theorem withResult_ok {α : Type} {x : Except Err α} {a : α} (h : x = .ok a) : withResult x = .ok ⟨a, h⟩ := by
  subst h; rfl

theorem array_law {α : Type} {n : Nat} {c : JC α} {D : Nat} {ok : α → Prop} (h : ∀ s, c.Law D s ok id) (start : Vector α n) :
    (JC.array n c).Law (D + 1) start (fun a => ∀ x ∈ a.toList, ok x) id := by
  intro a ha
  obtain ⟨vs, h1, h2, h3, h4⟩ := decArray_law h a.toList ha
  refine ⟨.arr vs, ?_, .arr vs h2, .arr D vs h3, ?_⟩
  · simp only [JC.array, h1]; rfl
  · have := h4 start.toList (by simp)
    simp only [JC.array]
    rw [withResult_ok this]
    refine congrArg Except.ok (Vector.toArray_inj.1 ?_)
    show a.toList.toArray = a.toArray
    rw [Vector.toList, Array.toArray_toList]

theorem bytesLt_iff : ∀ a b : Bytes, bytesLt a b = true ↔ a < b
  | [], [] => by simp [bytesLt]
  | [], b :: t => by simp [bytesLt]
  | a :: s, [] => by simp [bytesLt]
  | a :: s, b :: t => by
    rw [List.cons_lt_cons_iff, ← bytesLt_iff s t, bytesLt]
    generalize bytesLt s t = x
    split
    · next h => simp [h]
    · next h =>
      split
      · next h' =>
        refine ⟨fun h => (by cases h), fun h'' => ?_⟩
        rcases h'' with h'' | ⟨rfl, _⟩
        · exact absurd h'' h
        · exact absurd h' (by simp)
      · next h' =>
        have : a = b := by
          apply UInt8.toNat_inj.1
          rw [UInt8.lt_iff_toNat_lt] at h h'
          omega
        simp [this]

theorem mapInsert_last {α : Type} {k : Bytes} {a : α} : ∀ {m : List (Bytes × α)}, (∀ p ∈ m, p.1 < k) → mapInsert k a m = m ++ [(k, a)]
  | [], _ => rfl
  | (k', a') :: m, h => by
    have hk := h (k', a') (by simp)
    unfold mapInsert
    have hne : k ≠ k' := by rintro rfl; exact List.lt_irrefl _ hk
    have hlt : bytesLt k k' = false := by
      cases hb : bytesLt k k' with
      | false => rfl
      | true => exact absurd hk (List.lt_asymm ((bytesLt_iff _ _).1 hb))
    rw [if_neg hne, hlt, mapInsert_last fun p hp => h p (by simp [hp])]
    rfl

theorem encMap_law {α : Type} {c : JC α} {D : Nat} {ok : α → Prop} (h : c.Law D c.zero ok id) :
    ∀ m : List (Bytes × α), IsMap m → (∀ p ∈ m, ok p.2) → ∃ vs, encMap c m = .ok vs ∧ (∀ v ∈ vs, IsUtf8 v.1) ∧
      (∀ v ∈ vs, JsonOk v.2) ∧ (∀ v ∈ vs, DepthLe D v.2) ∧
      ∀ pre, (∀ p ∈ pre, ∀ q ∈ m, p.1 < q.1) → decMap c vs pre = .ok (pre ++ m) := by
  intro m
  induction m with
  | nil => intro _ _; exact ⟨[], rfl, by simp, by simp, by simp, fun pre _ => by simp [decMap]⟩
  | cons p m ih =>
    obtain ⟨k, a⟩ := p
    intro hm hl
    have hs := List.pairwise_cons.1 hm.sorted
    obtain ⟨v, h1, h2, h3, h4⟩ := h a (hl (k, a) (by simp))
    obtain ⟨vs, i1, i0, i2, i3, i4⟩ := ih ⟨hs.2, fun p hp => hm.utf8 p (by simp [hp])⟩ fun b hb => hl b (by simp [hb])
    refine ⟨(k, v) :: vs, ?_, ?_, ?_, ?_, ?_⟩
    · simp only [encMap, h1, i1]; rfl
    · exact List.forall_mem_cons.2 ⟨hm.utf8 (k, a) (by simp), i0⟩
    · exact List.forall_mem_cons.2 ⟨h2, i2⟩
    · exact List.forall_mem_cons.2 ⟨h3, i3⟩
    · intro pre hpre
      simp only [decMap, h4]
      show decMap c vs (mapInsert k a pre) = _
      rw [mapInsert_last fun p hp => hpre p hp (k, a) (by simp), i4]
      · simp
      · intro p hp q hq
        rcases List.mem_append.1 hp with hp | hp
        · exact hpre p hp q (by simp [hq])
        · simp only [List.mem_singleton] at hp; subst hp; exact hs.1 q hq

theorem map_law {α : Type} {c : JC α} {D : Nat} {ok : α → Prop} (h : c.Law D c.zero ok id) :
    (JC.map c).Law (D + 1) none (fun o => ∀ m ∈ o, IsMap m ∧ ∀ p ∈ m, ok p.2) id := by
  intro o ho
  cases o with
  | none => exact ⟨.null, rfl, .null, .null _, rfl⟩
  | some m =>
    obtain ⟨vs, h1, h0, h2, h3, h4⟩ := encMap_law h m (ho m rfl).1 (ho m rfl).2
    refine ⟨.obj vs, ?_, .obj vs h0 h2, .obj D vs h3, ?_⟩
    · simp only [JC.map, h1]; rfl
    · simp only [JC.map, Option.getD_none, h4 [] (by simp)]; rfl

/-! ### Values of type any -/

mutual
theorem any_law {io : FloatIO} (h : FloatLaws io) : (a : GoAny) → ∀ D, AnyOk D a →
    ∃ v, a.enc io = .ok v ∧ JsonOk v ∧ DepthLe D v ∧ GoAny.dec io v = .ok a
  | .null, D, _ => ⟨.null, rfl, .null, .null _, rfl⟩
  | .bool b, D, _ => ⟨.bool b, rfl, .bool b, .bool _ _, rfl⟩
  | .num x, D, hx => by
    cases hx with
    | num _ _ hx =>
      refine ⟨.num (io.fmt x), by simp [GoAny.enc, JC.float, hx], .num _ (h.number x hx), .num _ _, ?_⟩
      simp [GoAny.dec, JC.float, h.parse_fmt x hx, Except.map]
  | .str s, D, hx => by
    cases hx with
    | str _ _ hx => exact ⟨.str s, rfl, .str s hx, .str _ _, rfl⟩
  | .arr l, D, hx => by
    cases hx with
    | arr D _ hx =>
      obtain ⟨vs, h1, h2, h3, h4⟩ := anyList_law h l D hx
      exact ⟨.arr vs, by simp [GoAny.enc, h1, Except.map], .arr vs h2, .arr D vs h3, by simp [GoAny.dec, h4, Except.map]⟩
  | .obj m, D, hx => by
    cases hx with
    | obj D _ hm hx =>
      obtain ⟨vs, h1, h0, h2, h3, h4⟩ := anyMap_law h m D hm hx
      refine ⟨.obj vs, by simp [GoAny.enc, h1, Except.map], .obj vs h0 h2, .obj D vs h3, ?_⟩
      simp [GoAny.dec, h4 [] (by simp), Except.map]
theorem anyList_law {io : FloatIO} (h : FloatLaws io) : (l : List GoAny) → ∀ D, (∀ a ∈ l, AnyOk D a) →
    ∃ vs, GoAny.encList io l = .ok vs ∧ (∀ v ∈ vs, JsonOk v) ∧ (∀ v ∈ vs, DepthLe D v) ∧ GoAny.decList io vs = .ok l
  | [], D, _ => ⟨[], rfl, by simp, by simp, rfl⟩
  | a :: l, D, hl => by
    obtain ⟨v, h1, h2, h3, h4⟩ := any_law h a D (hl a (by simp))
    obtain ⟨vs, i1, i2, i3, i4⟩ := anyList_law h l D fun b hb => hl b (by simp [hb])
    refine ⟨v :: vs, ?_, ?_, ?_, ?_⟩
    · simp only [GoAny.encList, h1, i1]; rfl
    · exact List.forall_mem_cons.2 ⟨h2, i2⟩
    · exact List.forall_mem_cons.2 ⟨h3, i3⟩
    · simp only [GoAny.decList, h4, i4]; rfl
theorem anyMap_law {io : FloatIO} (h : FloatLaws io) : (m : List (Bytes × GoAny)) → ∀ D, IsMap m → (∀ p ∈ m, AnyOk D p.2) →
    ∃ vs, GoAny.encMap io m = .ok vs ∧ (∀ v ∈ vs, IsUtf8 v.1) ∧ (∀ v ∈ vs, JsonOk v.2) ∧ (∀ v ∈ vs, DepthLe D v.2) ∧
      ∀ pre, (∀ p ∈ pre, ∀ q ∈ m, p.1 < q.1) → GoAny.decMap io vs pre = .ok (pre ++ m)
  | [], D, _, _ => ⟨[], rfl, by simp, by simp, by simp, fun pre _ => by simp [GoAny.decMap]⟩
  | (k, a) :: m, D, hm, hl => by
    have hs := List.pairwise_cons.1 hm.sorted
    obtain ⟨v, h1, h2, h3, h4⟩ := any_law h a D (hl (k, a) (by simp))
    obtain ⟨vs, i1, i0, i2, i3, i4⟩ := anyMap_law h m D ⟨hs.2, fun p hp => hm.utf8 p (by simp [hp])⟩ fun b hb => hl b (by simp [hb])
    refine ⟨(k, v) :: vs, ?_, ?_, ?_, ?_, ?_⟩
    · simp only [GoAny.encMap, h1, i1]; rfl
    · exact List.forall_mem_cons.2 ⟨hm.utf8 (k, a) (by simp), i0⟩
    · exact List.forall_mem_cons.2 ⟨h2, i2⟩
    · exact List.forall_mem_cons.2 ⟨h3, i3⟩
    · intro pre hpre
      simp only [GoAny.decMap, h4]
      show GoAny.decMap io vs (mapInsert k a pre) = _
      rw [mapInsert_last fun p hp => hpre p hp (k, a) (by simp), i4]
      · simp
      · intro p hp q hq
        rcases List.mem_append.1 hp with hp | hp
        · exact hpre p hp q (by simp [hq])
        · simp only [List.mem_singleton] at hp; subst hp; exact hs.1 q hq
end

/-! ### Extensions -/

theorem extensions_law {r : Registry} (D : Nat) : (JC.extensions r).Law (D + 1) [] (ExtOk r D) id := by
  have key : ∀ m : Extensions, ExtOk r D m → ∃ vs, encMap ⟨.raw .null, ExtVal.enc, fun _ c => .ok c⟩ m = .ok vs ∧
      (∀ v ∈ vs, IsUtf8 v.1) ∧ (∀ v ∈ vs, JsonOk v.2) ∧ (∀ v ∈ vs, DepthLe D v.2) ∧
      ∀ pre, (∀ p ∈ pre, ∀ q ∈ m, p.1 < q.1) → decExtensions r vs pre = pre ++ m := by
    intro m
    induction m with
    | nil => intro _; exact ⟨[], rfl, by simp, by simp, by simp, fun pre _ => by simp [decExtensions]⟩
    | cons p m ih =>
      obtain ⟨k, a⟩ := p
      intro hm
      have hs := List.pairwise_cons.1 hm.keys.sorted
      obtain ⟨v, h1, h2, h3, h4⟩ := hm.payload (k, a) (by simp)
      obtain ⟨vs, i1, i0, i2, i3, i4⟩ := ih ⟨⟨hs.2, fun p hp => hm.keys.utf8 p (by simp [hp])⟩, fun b hb => hm.payload b (by simp [hb])⟩
      refine ⟨(k, v) :: vs, ?_, ?_, ?_, ?_, ?_⟩
      · simp only [encMap, i1]; rw [h1]; rfl
      · exact List.forall_mem_cons.2 ⟨hm.keys.utf8 (k, a) (by simp), i0⟩
      · exact List.forall_mem_cons.2 ⟨h2, i2⟩
      · exact List.forall_mem_cons.2 ⟨h3, i3⟩
      · intro pre hpre
        simp only [decExtensions]
        rw [h4, mapInsert_last fun p hp => hpre p hp (k, a) (by simp), i4]
        · simp
        · intro p hp q hq
          rcases List.mem_append.1 hp with hp | hp
          · exact hpre p hp q (by simp [hq])
          · simp only [List.mem_singleton] at hp; subst hp; exact hs.1 q hq
  intro m hm
  obtain ⟨vs, h1, h0, h2, h3, h4⟩ := key m hm
  refine ⟨.obj vs, ?_, .obj vs h0 h2, .obj D vs h3, ?_⟩
  · simp only [JC.extensions, h1]; rfl
  · simp only [JC.extensions]
    have := h4 [] (by simp)
    rw [this]; rfl

/-! ### Structs -/

theorem always_law {α : Type} {c : JC α} {D : Nat} {start : α} {ok : α → Prop} {norm : α → α}
    (h : c.Law D start ok norm) : c.always.Law D start ok norm := by
  intro a ha
  obtain ⟨v, h1, h2, h3, h4⟩ := h a ha
  exact .inr ⟨v, by simp [JC.always, h1, Except.map], h2, h3, h4⟩

theorem omitIf_law {α : Type} {c : JC α} {p : α → Bool} {D : Nat} {start : α} {ok ok' : α → Prop} {norm norm' : α → α}
    (h : c.Law D start ok' norm') (h1 : ∀ a, ok a → p a = true → norm a = start)
    (h2 : ∀ a, ok a → p a = false → ok' a ∧ norm a = norm' a) :
    (c.omitIf p).Law D start ok norm := by
  intro a ha
  cases hp : p a with
  | true => exact .inl ⟨by simp [JC.omitIf, hp], h1 a ha hp⟩
  | false =>
    obtain ⟨hok, hn⟩ := h2 a ha hp
    obtain ⟨v, h1, h2, h3, h4⟩ := h a hok
    exact .inr ⟨v, by simp [JC.omitIf, hp, h1, Except.map], h2, h3, by rw [hn]; exact h4⟩

theorem FE.Law.mono {α : Type} {f : FE α} {D D' : Nat} {start : α} {ok : α → Prop} {norm : α → α}
    (h : f.Law D start ok norm) (hd : D ≤ D') : f.Law D' start ok norm := by
  intro a ha
  rcases h a ha with h | ⟨v, h1, h2, h3, h4⟩
  · exact .inl h
  · exact .inr ⟨v, h1, h2, depthLe_mono h3 hd, h4⟩

theorem JC.Law.mono {α : Type} {c : JC α} {D D' : Nat} {start : α} {ok : α → Prop} {norm : α → α}
    (h : c.Law D start ok norm) (hd : D ≤ D') : c.Law D' start ok norm := by
  intro a ha
  obtain ⟨v, h1, h2, h3, h4⟩ := h a ha
  exact ⟨v, h1, h2, depthLe_mono h3 hd, h4⟩

theorem nil_law (D : Nat) : FC.nil.Law D () (fun _ => True) id :=
  fun _ _ => ⟨[], rfl, by simp, by simp, by simp, rfl⟩

/-- Members for other fields do not touch the first field. -/
theorem decAll_cons_other {α τ : Type} {name : Bytes} {f : FE α} {r : FC τ} (a : α) :
    ∀ (ms : List (Bytes × JVal)) (t : τ), (∀ m ∈ ms, foldKey m.1 ≠ foldKey name) →
      (FC.cons name f r).decAll ms (a, t) = (r.decAll ms t).map fun t => (a, t) := by
  intro ms
  induction ms with
  | nil => intro t _; rfl
  | cons m ms ih =>
    obtain ⟨k, v⟩ := m
    intro t h
    have hk := h (k, v) (by simp)
    simp only [FC.decAll, FC.cons, if_neg hk]
    cases hr : r.dec k v t with
    | error e => rfl
    | ok t' => exact ih t' fun m hm => h m (by simp [hm])

theorem cons_law {α τ : Type} {name : Bytes} {f : FE α} {r : FC τ} {D : Nat} {start : α} {starts : τ} {ok : α → Prop}
    {oks : τ → Prop} {norm : α → α} {norms : τ → τ} (hn : foldKey name ∉ r.names.map foldKey)
    (hf : f.Law D start ok norm) (hr : r.Law D starts oks norms) :
    (FC.cons name f r).Law D (start, starts) (fun t => ok t.1 ∧ oks t.2) (fun t => (norm t.1, norms t.2)) := by
  rintro ⟨a, t⟩ ⟨ha, ht⟩
  obtain ⟨ms, i1, i2, i3, i4, i5⟩ := hr t ht
  have hother : ∀ m ∈ ms, foldKey m.1 ≠ foldKey name := by
    intro m hm he
    exact hn (he ▸ List.mem_map_of_mem (i2 m hm))
  rcases hf a ha with ⟨h1, h2⟩ | ⟨v, h1, h2, h3, h4⟩
  · refine ⟨ms, ?_, fun m hm => List.mem_cons_of_mem _ (i2 m hm), i3, i4, ?_⟩
    · simp only [FC.cons, h1, i1]; rfl
    · rw [decAll_cons_other start ms starts hother, i5, ← h2]; rfl
  · refine ⟨(name, v) :: ms, ?_, ?_, ?_, ?_, ?_⟩
    · simp only [FC.cons, h1, i1]; rfl
    · exact List.forall_mem_cons.2 ⟨by simp [FC.cons], fun m hm => List.mem_cons_of_mem _ (i2 m hm)⟩
    · exact List.forall_mem_cons.2 ⟨h2, i3⟩
    · exact List.forall_mem_cons.2 ⟨h3, i4⟩
    · have : (FC.cons name f r).dec name v (start, starts) = .ok (norm a, starts) := by
        simp only [FC.cons, if_true, h4]; rfl
      simp only [FC.decAll, this]
      show (FC.cons name f r).decAll ms (norm a, starts) = _
      rw [decAll_cons_other _ ms starts hother, i5]; rfl

theorem skip_law {α τ : Type} {zero : α} {r : FC τ} {D : Nat} (start : α) {starts : τ} {oks : τ → Prop} {norms : τ → τ}
    (hr : r.Law D starts oks norms) :
    (FC.skip zero r).Law D (start, starts) (fun t => oks t.2) (fun t => (start, norms t.2)) := by
  rintro ⟨a, t⟩ ht
  obtain ⟨ms, i1, i2, i3, i4, i5⟩ := hr t ht
  have key : ∀ (ms : List (Bytes × JVal)) (t : τ), (FC.skip zero r).decAll ms (start, t) = (r.decAll ms t).map fun t => (start, t) := by
    intro ms
    induction ms with
    | nil => intro t; rfl
    | cons m ms ih =>
      obtain ⟨k, v⟩ := m
      intro t
      simp only [FC.decAll, FC.skip]
      cases hr : r.dec k v t with
      | error e => rfl
      | ok t' => exact ih t'
  refine ⟨ms, i1, i2, i3, i4, ?_⟩
  rw [key, i5]; rfl

/-- ASCII text is UTF-8. -/
theorem utf8_ascii {s : Bytes} (h : ∀ c ∈ s, c < 128) : IsUtf8 s := by
  refine ⟨s.map fun c => Char.ofNat c.toNat, ?_⟩
  induction s with
  | nil => rfl
  | cons c s ih =>
    rw [List.map_cons, List.flatMap_cons, ← ih fun d hd => h d (by simp [hd])]
    have hc : c.toNat < 128 := UInt8.lt_iff_toNat_lt.1 (h c (by simp))
    have : String.utf8EncodeChar (Char.ofNat c.toNat) = [c] := by
      have hv : (Char.ofNat c.toNat).val.toNat = c.toNat := by
        have : c.toNat.isValidChar := .inl (by omega)
        simp only [Char.ofNat, dif_pos this, Char.ofNatAux]
        rfl
      unfold String.utf8EncodeChar
      simp only [hv]
      rw [if_pos (by omega), UInt8.ofNat_toNat]
    rw [this]; rfl

theorem struct_law {σ τ : Type} {to : σ → τ} {of : τ → σ} {fc : FC τ} {D : Nat} {start : σ} {starts : τ}
    {ok : σ → Prop} {oks : τ → Prop} {norm : σ → σ} {norms : τ → τ} (hf : fc.Law D starts oks norms)
    (hu : fc.names.all (fun n => n.all (· < 128)) = true)
    (hs : to start = starts) (hok : ∀ s, ok s → oks (to s)) (hnorm : ∀ s, of (norms (to s)) = norm s) :
    (JC.struct to of fc).Law (D + 1) start ok norm := by
  intro s h
  obtain ⟨ms, i1, i2, i3, i4, i5⟩ := hf (to s) (hok s h)
  refine ⟨.obj ms, ?_, .obj ms (fun m hm => ?_) i3, .obj D ms i4, ?_⟩
  · simp only [JC.struct, i1]; rfl
  · apply utf8_ascii
    have := List.all_eq_true.1 hu _ (i2 m hm)
    simpa using this
  · simp only [JC.struct, hs, i5, ← hnorm]; rfl

theorem withDefault_law {σ : Type} {c : JC σ} {D : Nat} {d : σ} {ok : σ → Prop} {norm : σ → σ} (h : c.Law D d ok norm) (start : σ) :
    (c.withDefault d).Law D start ok norm := h

theorem struct_nonNull {σ τ : Type} (to : σ → τ) (of : τ → σ) (fc : FC τ) : (JC.struct to of fc).NonNull := by
  intro a v h
  simp only [JC.struct] at h
  cases he : fc.enc (to a) with
  | error e => rw [he] at h; cases h
  | ok ms => rw [he] at h; cases h; intro h; cases h

theorem withDefault_nonNull {σ : Type} {c : JC σ} {d : σ} (h : c.NonNull) : (c.withDefault d).NonNull := h

theorem int_nonNull : JC.int.NonNull := by intro a v h; cases h; intro h; cases h

theorem float_nonNull (io : FloatIO) : (JC.float io).NonNull := by
  intro a v h
  simp only [JC.float] at h
  split at h <;> cases h
  intro h; cases h

theorem array_nonNull {α : Type} (n : Nat) (c : JC α) : (JC.array n c).NonNull := by
  intro a v h
  simp only [JC.array] at h
  cases he : encList c a.toList with
  | error e => rw [he] at h; cases h
  | ok ms => rw [he] at h; cases h; intro h; cases h

end Gltf
