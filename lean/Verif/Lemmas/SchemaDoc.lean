/-
The codecs of the structs follow the tables of `Spec/Schema.lean`.
-/
import Verif.Lemmas.Schema

namespace Gltf

open Spec

/-! ### Rows -/

theorem eq_row {α : Type} [BEq α] [LawfulBEq α] {c : JC α} {T : Typ α} {name : Bytes} {d : α} (h : c.EncTo T) :
    (c.omitIf (· == d)).EncTo (opt name id T (· = d)) := opt_enc h fun _ _ => beq_iff_eq

theorem list_row {α : Type} {c : JC α} {T : Typ α} {name : Bytes} (h : c.EncTo T) :
    ((JC.list c).omitIf List.isEmpty).EncTo (opt name id (listT T) (· = [])) := opt_enc (list_enc h) fun _ _ => List.isEmpty_iff

theorem object_row {α : Type} {c : JC α} {T : Typ α} {name : Bytes} (h : c.EncTo T) :
    ((JC.ptr c).omitIf Option.isNone).EncTo (opt name id (ptrT T) (· = none)) := opt_enc (ptr_enc h) fun _ _ => Option.isNone_iff_eq_none

theorem ptr_written {α : Type} {T : Typ α} : ∀ o, (ptrT T).ready o → o.isNone = false := by
  rintro o ⟨a, rfl, _⟩; rfl

theorem string_row {name : Bytes} : omitString.EncTo (opt name id strT (· = [])) := opt_enc string_enc fun _ _ => List.isEmpty_iff
theorem int_row {name : Bytes} : omitInt.EncTo (opt name id intT (· = 0)) := eq_row int_enc
theorem bool_row {name : Bytes} : omitBool.EncTo (opt name id boolT (· = false)) := opt_enc bool_enc fun a _ => by cases a <;> simp
theorem index_row {name : Bytes} : omitIndex.EncTo (opt name id (ptrT intT) (· = none)) := object_row int_enc
theorem ints_row {name : Bytes} : omitInts.EncTo (opt name id (listT intT) (· = [])) := list_row int_enc
theorem strings_row {name : Bytes} : omitStrings.EncTo (opt name id (listT strT) (· = [])) := list_row string_enc

theorem ext_row {E : Env} (_ : Registry) : E.ext.EncTo (opt b!"extensions" id (extT E.reg) (· = [])) :=
  opt_enc (ext_enc E.reg) fun _ _ => List.isEmpty_iff

variable {E : Env}

theorem extras_row (hf : FloatLaws E.io) : E.extras.EncTo (opt b!"extras" id (anyT E.io) (· = .null)) :=
  opt_enc (any_encTo hf) fun a _ => by cases a <;> simp [GoAny.isNull]

theorem floats_row (hf : FloatLaws E.io) {name : Bytes} : E.floats.EncTo (opt name id (listT (numT E.io)) (· = [])) := list_row (float_enc hf)
theorem float_row (hf : FloatLaws E.io) {name : Bytes} : E.omitFloat.EncTo (opt name id (ptrT (numT E.io)) (· = none)) := object_row (float_enc hf)

theorem same_finite {x y : F64} (h : Same x y) (hy : y.finite = true) : x.finite = true := by
  rcases h with rfl | ⟨h, _⟩
  · exact hy
  · unfold F64.finite
    have := (isZero_iff x).1 h
    rw [this]; decide

theorem sameAll_finite {n : Nat} {a d : Vector F64 n} (h : SameAll a d) (hd : ∀ x ∈ d.toList, x.finite = true) : ∀ x ∈ a.toList, x.finite = true := by
  intro x hx
  obtain ⟨i, hi, rfl⟩ := List.mem_iff_getElem.1 hx
  have hi' : i < n := by simpa using hi
  have := h ⟨i, hi'⟩
  simp only [Fin.getElem_fin] at this
  rw [Vector.getElem_toList]
  exact same_finite this (hd _ (by simp))

theorem factor_row (hf : FloatLaws E.io) {name : Bytes} (d : F64) (hd : d.finite = true) :
    (E.omitFloatIf d).EncTo (opt name id (ptrT (numT E.io)) fun x => ∀ y ∈ x, Same y d) := by
  refine opt_enc (ptr_enc (float_enc hf)) fun o ho => ?_
  cases o with
  | none => simp
  | some x =>
    have hx : x.finite = true := by
      rcases ho with ⟨a, h, ha⟩ | h
      · cases h; exact ha
      · exact same_finite (h x rfl) hd
    rw [Option.all_some, feq_iff hx hd]
    simp

theorem default_row (hf : FloatLaws E.io) {n : Nat} {name : Bytes} {d e d' : Vector F64 n} (hd : d = d') (he : e = zeros)
    (hfin : (∀ x ∈ d'.toList, x.finite = true) ∧ (∀ x ∈ (zeros (n := n)).toList, x.finite = true)) :
    ((JC.array n E.float).omitIf fun m => arrayEq m d || arrayEq m e).EncTo
      (opt name id (vecT n (numT E.io)) fun m => SameAll m d' ∨ SameAll m zeros) := by
  subst hd he
  refine opt_enc (vec_enc (float_enc hf)) fun a ha => ?_
  have hx : ∀ x ∈ a.toList, x.finite = true := by
    rcases ha with h | h | h
    · exact h
    · exact sameAll_finite h hfin.1
    · exact sameAll_finite h hfin.2
  rw [Bool.or_eq_true, arrayEq_iff hx hfin.1, arrayEq_iff hx hfin.2]

theorem zeros_row (hf : FloatLaws E.io) {n : Nat} {name : Bytes} {d : Vector F64 n} (hd : d = zeros ∧ ∀ x ∈ (zeros (n := n)).toList, x.finite = true) :
    ((JC.array n E.float).omitIf fun m => arrayEq m d).EncTo (opt name id (vecT n (numT E.io)) fun m => SameAll m zeros) := by
  obtain ⟨rfl, hfin⟩ := hd
  refine opt_enc (vec_enc (float_enc hf)) fun a ha => ?_
  have hx : ∀ x ∈ a.toList, x.finite = true := by
    rcases ha with h | h
    · exact h
    · exact sameAll_finite h hfin
  rw [arrayEq_iff hx hfin]

theorem color_row (hf : FloatLaws E.io) {name : Bytes} : ((JC.ptr (JC.array 4 E.float)).omitIf fun m => m.all (arrayEq · white)).EncTo
    (opt name id (ptrT (vecT 4 (numT E.io))) fun x => ∀ y ∈ x, SameAll y ones) := by
  have hw : white = ones := by decide +kernel
  have hfin : ∀ x ∈ (ones (n := 4)).toList, x.finite = true := by decide +kernel
  refine opt_enc (ptr_enc (vec_enc (float_enc hf))) fun o ho => ?_
  cases o with
  | none => simp
  | some x =>
    have hx : ∀ y ∈ x.toList, y.finite = true := by
      rcases ho with ⟨a, h, ha⟩ | h
      · cases h; exact ha
      · exact sameAll_finite (h x rfl) hfin
    rw [Option.all_some, hw, arrayEq_iff hx hfin]
    simp

theorem list_rowD {α : Type} {c : JC α} {T : Typ α} {name : Bytes} (h : c.DecTo T c.zero) :
    ((JC.list c).omitIf List.isEmpty).DecTo (opt name id (listT T) (· = [])) [] := opt_dec (list_dec h) rfl

theorem object_rowD {α : Type} {c : JC α} {T : Typ α} {name : Bytes} (hn : T.NonNull) (h : c.DecTo T c.zero) :
    ((JC.ptr c).omitIf Option.isNone).DecTo (opt name id (ptrT T) (· = none)) none := opt_dec (ptr_dec none hn h) rfl

theorem string_rowD {name : Bytes} : omitString.DecTo (opt name id strT (· = [])) [] := opt_dec (string_dec _) rfl
theorem int_rowD {name : Bytes} : omitInt.DecTo (opt name id intT (· = 0)) 0 := opt_dec (int_dec _) rfl
theorem bool_rowD {name : Bytes} : omitBool.DecTo (opt name id boolT (· = false)) false := opt_dec (bool_dec _) rfl
theorem index_rowD {name : Bytes} : omitIndex.DecTo (opt name id (ptrT intT) (· = none)) none := object_rowD intT_nonNull (int_dec _)
theorem ints_rowD {name : Bytes} : omitInts.DecTo (opt name id (listT intT) (· = [])) [] := list_rowD (int_dec _)
theorem strings_rowD {name : Bytes} : omitStrings.DecTo (opt name id (listT strT) (· = [])) [] := list_rowD (string_dec _)

theorem ext_rowD (_ : Registry) : E.ext.DecTo (opt b!"extensions" id (extT E.reg) (· = [])) [] := opt_dec (ext_dec E.reg) rfl
theorem extras_rowD (_ : FloatIO) : E.extras.DecTo (opt b!"extras" id (anyT E.io) (· = .null)) .null := opt_dec (any_dec E.io _) rfl

theorem floats_rowD (E : Env) {name : Bytes} : E.floats.DecTo (opt name id (listT (numT E.io)) (· = [])) [] := list_rowD (float_dec _ _)
theorem float_rowD (E : Env) {name : Bytes} : E.omitFloat.DecTo (opt name id (ptrT (numT E.io)) (· = none)) none :=
  object_rowD (numT_nonNull _) (float_dec _ _)

theorem factor_rowD (E : Env) {name : Bytes} (d e : F64) (h : Same d e) :
    (E.omitFloatIf d).DecTo (opt name id (ptrT (numT E.io)) fun x => ∀ y ∈ x, Same y e) (some d) :=
  opt_dec (ptr_dec _ (numT_nonNull _) (float_dec _ _)) (by simpa using h)

theorem array_rowD (E : Env) {n : Nat} {name : Bytes} {p : Vector F64 n → Bool} {absent : Vector F64 n → Prop} {d : Vector F64 n} (h : absent d) :
    ((JC.array n E.float).omitIf p).DecTo (opt name id (vecT n (numT E.io)) absent) d := opt_dec (array_dec (fun s => float_dec _ s) d) h

theorem color_rowD (E : Env) {name : Bytes} {p : Option (Vector F64 4) → Bool} : ((JC.ptr (JC.array 4 E.float)).omitIf p).DecTo
    (opt name id (ptrT (vecT 4 (numT E.io))) fun x => ∀ y ∈ x, SameAll y ones) (some white) :=
  opt_dec (ptr_dec _ (vecT_nonNull _ _) (array_dec (fun s => float_dec _ s) _)) (by
    intro y hy; cases hy; decide +kernel)

theorem names_ok {α : Type} [DecidableEq α] {table : List (α × Bytes)} {f : Bytes → Except Err α} (h : ∀ p ∈ table, (f p.2).toOption = some p.1) :
    ∀ p ∈ table, f p.2 = .ok p.1 := by
  intro p hp
  have := h p hp
  cases hf : f p.2 with
  | error e => rw [hf] at this; cases this
  | ok a => rw [hf] at this; cases this; rfl

theorem enumStrOk_dec {α : Type} {zero : α} {toCode : α → Bytes} {ofCode : Bytes → α} {table : List (α × Bytes)} (start : α)
    (h : ∀ p ∈ table, ofCode p.2 = p.1) : (JC.enumStr zero toCode fun s => .ok (ofCode s)).DecTo (nameT table) start :=
  enumStr_dec start fun p hp => congrArg _ (h p hp)

/-! ### Structs -/

/-- A list of members that agrees with one table agrees with a table that asks for less. -/
theorem objRel_mono {σ : Type} {b : Bool} {fs gs : List (Field σ)} {s : σ} {ms : List (Bytes × JVal)} (h : ObjRel b gs s ms)
    (h1 : ∀ f ∈ fs, ∃ g ∈ gs, g.name = f.name ∧ (∀ v, g.rel s v → f.rel s v) ∧ (g.absent s → f.absent s))
    (h2 : ∀ g ∈ gs, ∃ f ∈ fs, f.name = g.name) : ObjRel b fs s ms := by
  refine ⟨h.distinct, fun hb m hm => ?_, fun m hm f hf e => ?_, fun f hf v hv => ?_, fun f hf hn => ?_⟩
  · obtain ⟨g, hg, e⟩ := h.known hb m hm
    obtain ⟨f, hf, e'⟩ := h2 g hg
    exact ⟨f, hf, e'.trans e⟩
  · obtain ⟨g, hg, e1, _, _⟩ := h1 f hf
    rw [← e1] at e ⊢
    exact h.exactly m hm g hg e
  · obtain ⟨g, hg, e1, e2, _⟩ := h1 f hf
    exact e2 v (h.present g hg v (e1 ▸ hv))
  · obtain ⟨g, hg, e1, _, e3⟩ := h1 f hf
    exact e3 (h.absent g hg (e1 ▸ hn))

theorem version_enc : JC.string.EncTo versionT := by intro s v _ h; cases h; exact .inl rfl

theorem version_dec (start : Bytes) : JC.string.DecTo versionT start := by
  rintro v ⟨s, rfl | ⟨rfl, rfl⟩⟩
  · exact ⟨s, rfl, .inl rfl⟩
  · exact ⟨_, rfl, .inl rfl⟩

theorem assetC'_enc (hf : FloatLaws E.io) (b : Bool) : (assetC' E).EncTo (objT b (assetF E.io E.reg)) :=
  struct_enc (fc := _) (b := b) (
      fields_enc (by by_names) rfl (ext_row E.reg) <|
      fields_enc (by by_names) rfl (extras_row hf) <|
      fields_enc (by by_names) rfl (string_row) <|
      fields_enc (by by_names) rfl (string_row) <|
      fields_enc (by by_names) rfl (req_enc version_enc) <|
      fields_enc (by by_names) rfl (string_row) <|
      nil_enc) (by by_names) rfl

/-- The table of an asset without version. -/
def assetF0 (io : FloatIO) (reg : Registry) : List (Field Asset) :=
  [req b!"version" (fun _ => b!"2.0") strT,
   extF reg (·.extensions),
   extrasF io (·.extras),
   opt b!"copyright" (·.copyright) strT (· = []),
   opt b!"generator" (·.generator) strT (· = []),
   opt b!"minVersion" (·.minVersion) strT (· = [])]

/-- An asset without version as a struct. -/
def assetC0 (E : Env) : JC Asset :=
  .struct (fun a => (b!"2.0", a.extensions, a.extras, a.copyright, a.generator, a.minVersion, ()))
    (fun _ => {})
    (FC.cons b!"version" JC.string.always <|
     FC.cons b!"extensions" E.ext <|
     FC.cons b!"extras" E.extras <|
     FC.cons b!"copyright" omitString <|
     FC.cons b!"generator" omitString <|
     FC.cons b!"minVersion" omitString <|
     FC.nil)

theorem assetC0_enc (hf : FloatLaws E.io) (b : Bool) : (assetC0 E).EncTo (objT b (assetF0 E.io E.reg)) :=
  struct_enc (fc := _) (b := b) (
      fields_enc (by by_names) rfl (req_enc string_enc) <|
      fields_enc (by by_names) rfl (ext_row E.reg) <|
      fields_enc (by by_names) rfl (extras_row hf) <|
      fields_enc (by by_names) rfl (string_row) <|
      fields_enc (by by_names) rfl (string_row) <|
      fields_enc (by by_names) rfl (string_row) <|
      nil_enc) (by by_names) rfl

theorem assetC_enc (hf : FloatLaws E.io) (b : Bool) : (assetC E).EncTo (objT b (assetF E.io E.reg)) := by
  intro a v hr he
  have he : (if a.version.isEmpty then (assetMembers E a).map .obj else (assetC' E).enc a) = .ok v := he
  split at he
  · next h0 =>
    have h0 : a.version = [] := List.isEmpty_iff.1 h0
    have hr : ∀ f ∈ assetF E.io E.reg, f.ready a := hr
    obtain ⟨ms, rfl, h⟩ := assetC0_enc hf b a v (by
      intro f hf
      simp only [assetF0, List.mem_cons, List.not_mem_nil, or_false] at hf
      rcases hf with rfl | rfl | rfl | rfl | rfl | rfl
      · trivial
      all_goals exact hr _ (by simp [assetF])) he
    refine ⟨ms, rfl, objRel_mono h ?_ ?_⟩
    · intro f hf
      simp only [assetF, List.mem_cons, List.not_mem_nil, or_false] at hf
      rcases hf with rfl | rfl | rfl | rfl | rfl | rfl
      · exact ⟨_, .tail _ (.head _), rfl, fun _ h => h, fun h => h⟩
      · exact ⟨_, .tail _ (.tail _ (.head _)), rfl, fun _ h => h, fun h => h⟩
      · exact ⟨_, .tail _ (.tail _ (.tail _ (.head _))), rfl, fun _ h => h, fun h => h⟩
      · exact ⟨_, .tail _ (.tail _ (.tail _ (.tail _ (.head _)))), rfl, fun _ h => h, fun h => h⟩
      · exact ⟨_, .head _, rfl, fun _ h => .inr ⟨h0, h⟩, fun h => h⟩
      · exact ⟨_, .tail _ (.tail _ (.tail _ (.tail _ (.tail _ (.head _))))), rfl, fun _ h => h, fun h => h⟩
    · intro g hg
      simp only [assetF0, List.mem_cons, List.not_mem_nil, or_false] at hg
      rcases hg with rfl | rfl | rfl | rfl | rfl | rfl
      · exact ⟨_, .tail _ (.tail _ (.tail _ (.tail _ (.head _)))), rfl⟩
      · exact ⟨_, .head _, rfl⟩
      · exact ⟨_, .tail _ (.head _), rfl⟩
      · exact ⟨_, .tail _ (.tail _ (.head _)), rfl⟩
      · exact ⟨_, .tail _ (.tail _ (.tail _ (.head _))), rfl⟩
      · exact ⟨_, .tail _ (.tail _ (.tail _ (.tail _ (.tail _ (.head _))))), rfl⟩
  · exact assetC'_enc hf b a v hr he

theorem assetC_dec (E : Env) {start : Asset} : (assetC E).DecTo (objT false (assetF E.io E.reg)) start :=
  show (assetC' E).DecTo _ { version := b!"2.0" } from
  struct_dec (
      cons_dec (by by_names) rfl (ext_rowD E.reg) <|
      cons_dec (by by_names) rfl (extras_rowD E.io) <|
      cons_dec (by by_names) rfl (string_rowD) <|
      cons_dec (by by_names) rfl (string_rowD) <|
      cons_dec (by by_names) rfl (req_dec (version_dec _)) <|
      cons_dec (by by_names) rfl (string_rowD) <|
      nil_dec) rfl (fun _ => rfl) rfl

theorem sparseIndicesC_enc (hf : FloatLaws E.io) (b : Bool) : (sparseIndicesC E).EncTo (objT b (sparseIndicesF E.io E.reg)) :=
  struct_enc (fc := _) (b := b) (
      fields_enc (by by_names) rfl (ext_row E.reg) <|
      fields_enc (by by_names) rfl (extras_row hf) <|
      fields_enc (by by_names) rfl (req_enc int_enc) <|
      fields_enc (by by_names) rfl (int_row) <|
      fields_enc (by by_names) rfl (req_enc (enumNum_enc (by decide +kernel))) <|
      nil_enc) (by by_names) rfl

theorem sparseIndicesC_dec (E : Env) : (sparseIndicesC E).DecTo (objT false (sparseIndicesF E.io E.reg)) {} :=
  struct_dec (
      cons_dec (by by_names) rfl (ext_rowD E.reg) <|
      cons_dec (by by_names) rfl (extras_rowD E.io) <|
      cons_dec (by by_names) rfl (req_dec (int_dec _)) <|
      cons_dec (by by_names) rfl (int_rowD) <|
      cons_dec (by by_names) rfl (req_dec (enumNum_dec _ (by decide +kernel))) <|
      nil_dec) rfl (fun _ => rfl) rfl

theorem sparseValuesC_enc (hf : FloatLaws E.io) (b : Bool) : (sparseValuesC E).EncTo (objT b (sparseValuesF E.io E.reg)) :=
  struct_enc (fc := _) (b := b) (
      fields_enc (by by_names) rfl (ext_row E.reg) <|
      fields_enc (by by_names) rfl (extras_row hf) <|
      fields_enc (by by_names) rfl (req_enc int_enc) <|
      fields_enc (by by_names) rfl (int_row) <|
      nil_enc) (by by_names) rfl

theorem sparseValuesC_dec (E : Env) : (sparseValuesC E).DecTo (objT false (sparseValuesF E.io E.reg)) {} :=
  struct_dec (
      cons_dec (by by_names) rfl (ext_rowD E.reg) <|
      cons_dec (by by_names) rfl (extras_rowD E.io) <|
      cons_dec (by by_names) rfl (req_dec (int_dec _)) <|
      cons_dec (by by_names) rfl (int_rowD) <|
      nil_dec) rfl (fun _ => rfl) rfl

theorem sparseC_enc (hf : FloatLaws E.io) (b : Bool) : (sparseC E).EncTo (objT b (sparseF b E.io E.reg)) :=
  struct_enc (fc := _) (b := b) (
      fields_enc (by by_names) rfl (ext_row E.reg) <|
      fields_enc (by by_names) rfl (extras_row hf) <|
      fields_enc (by by_names) rfl (req_enc int_enc) <|
      fields_enc (by by_names) rfl (req_enc (sparseIndicesC_enc hf b)) <|
      fields_enc (by by_names) rfl (req_enc (sparseValuesC_enc hf b)) <|
      nil_enc) (by by_names) rfl

theorem sparseC_dec (E : Env) : (sparseC E).DecTo (objT false (sparseF false E.io E.reg)) {} :=
  struct_dec (
      cons_dec (by by_names) rfl (ext_rowD E.reg) <|
      cons_dec (by by_names) rfl (extras_rowD E.io) <|
      cons_dec (by by_names) rfl (req_dec (int_dec _)) <|
      cons_dec (by by_names) rfl (req_dec (sparseIndicesC_dec E)) <|
      cons_dec (by by_names) rfl (req_dec (sparseValuesC_dec E)) <|
      nil_dec) rfl (fun _ => rfl) rfl

theorem accessorC_enc (hf : FloatLaws E.io) (b : Bool) : (accessorC E).EncTo (objT b (accessorF b E.io E.reg)) :=
  struct_enc (fc := _) (b := b) (
      fields_enc (by by_names) rfl (ext_row E.reg) <|
      fields_enc (by by_names) rfl (extras_row hf) <|
      fields_enc (by by_names) rfl (string_row) <|
      fields_enc (by by_names) rfl (index_row) <|
      fields_enc (by by_names) rfl (int_row) <|
      fields_enc (by by_names) rfl (req_enc (enumNum_enc (by decide +kernel))) <|
      fields_enc (by by_names) rfl (bool_row) <|
      fields_enc (by by_names) rfl (req_enc int_enc) <|
      fields_enc (by by_names) rfl (req_enc (enumStr_enc (by decide +kernel))) <|
      fields_enc (by by_names) rfl (floats_row hf) <|
      fields_enc (by by_names) rfl (floats_row hf) <|
      fields_enc (by by_names) rfl (object_row (sparseC_enc hf b)) <|
      nil_enc) (by by_names) rfl

theorem accessorC_dec (E : Env) : (accessorC E).DecTo (objT false (accessorF false E.io E.reg)) {} :=
  struct_dec (
      cons_dec (by by_names) rfl (ext_rowD E.reg) <|
      cons_dec (by by_names) rfl (extras_rowD E.io) <|
      cons_dec (by by_names) rfl (string_rowD) <|
      cons_dec (by by_names) rfl (index_rowD) <|
      cons_dec (by by_names) rfl (int_rowD) <|
      cons_dec (by by_names) rfl (req_dec (enumNum_dec _ (by decide +kernel))) <|
      cons_dec (by by_names) rfl (bool_rowD) <|
      cons_dec (by by_names) rfl (req_dec (int_dec _)) <|
      cons_dec (by by_names) rfl (req_dec (enumStr_dec _ (names_ok (by decide +kernel)))) <|
      cons_dec (by by_names) rfl (floats_rowD E) <|
      cons_dec (by by_names) rfl (floats_rowD E) <|
      cons_dec (by by_names) rfl (object_rowD (objT_nonNull _ _) (sparseC_dec E)) <|
      nil_dec) rfl (fun _ => rfl) rfl

theorem bufferC_enc (hf : FloatLaws E.io) (b : Bool) : (bufferC E).EncTo (objT b (bufferF E.io E.reg)) :=
  struct_enc (fc := _) (b := b) (
      fields_enc (by by_names) rfl (ext_row E.reg) <|
      fields_enc (by by_names) rfl (extras_row hf) <|
      fields_enc (by by_names) rfl (string_row) <|
      fields_enc (by by_names) rfl (string_row) <|
      fields_enc (by by_names) rfl (req_enc int_enc) <|
      skip_enc <|
      nil_enc) (by by_names) rfl

theorem bufferC_dec (E : Env) : (bufferC E).DecTo (objT false (bufferF E.io E.reg)) {} :=
  struct_dec (
      cons_dec (by by_names) rfl (ext_rowD E.reg) <|
      cons_dec (by by_names) rfl (extras_rowD E.io) <|
      cons_dec (by by_names) rfl (string_rowD) <|
      cons_dec (by by_names) rfl (string_rowD) <|
      cons_dec (by by_names) rfl (req_dec (int_dec _)) <|
      skip_dec <|
      nil_dec) rfl (fun _ => rfl) rfl

theorem bufferViewC_enc (hf : FloatLaws E.io) (b : Bool) : (bufferViewC E).EncTo (objT b (bufferViewF E.io E.reg)) :=
  struct_enc (fc := _) (b := b) (
      fields_enc (by by_names) rfl (ext_row E.reg) <|
      fields_enc (by by_names) rfl (extras_row hf) <|
      fields_enc (by by_names) rfl (req_enc int_enc) <|
      fields_enc (by by_names) rfl (int_row) <|
      fields_enc (by by_names) rfl (req_enc int_enc) <|
      fields_enc (by by_names) rfl (int_row) <|
      fields_enc (by by_names) rfl (eq_row (uint16_enc (by decide +kernel))) <|
      fields_enc (by by_names) rfl (string_row) <|
      nil_enc) (by by_names) rfl

theorem bufferViewC_dec (E : Env) : (bufferViewC E).DecTo (objT false (bufferViewF E.io E.reg)) {} :=
  struct_dec (
      cons_dec (by by_names) rfl (ext_rowD E.reg) <|
      cons_dec (by by_names) rfl (extras_rowD E.io) <|
      cons_dec (by by_names) rfl (req_dec (int_dec _)) <|
      cons_dec (by by_names) rfl (int_rowD) <|
      cons_dec (by by_names) rfl (req_dec (int_dec _)) <|
      cons_dec (by by_names) rfl (int_rowD) <|
      cons_dec (by by_names) rfl (opt_dec (T := codeT targetCodes) (absent := (· = 0)) (uint16_dec _ (by decide +kernel)) rfl) <|
      cons_dec (by by_names) rfl (string_rowD) <|
      nil_dec) rfl (fun _ => rfl) rfl

theorem sceneC_enc (hf : FloatLaws E.io) (b : Bool) : (sceneC E).EncTo (objT b (sceneF E.io E.reg)) :=
  struct_enc (fc := _) (b := b) (
      fields_enc (by by_names) rfl (ext_row E.reg) <|
      fields_enc (by by_names) rfl (extras_row hf) <|
      fields_enc (by by_names) rfl (string_row) <|
      fields_enc (by by_names) rfl (ints_row) <|
      nil_enc) (by by_names) rfl

theorem sceneC_dec (E : Env) : (sceneC E).DecTo (objT false (sceneF E.io E.reg)) {} :=
  struct_dec (
      cons_dec (by by_names) rfl (ext_rowD E.reg) <|
      cons_dec (by by_names) rfl (extras_rowD E.io) <|
      cons_dec (by by_names) rfl (string_rowD) <|
      cons_dec (by by_names) rfl (ints_rowD) <|
      nil_dec) rfl (fun _ => rfl) rfl

theorem nodeC_enc (hf : FloatLaws E.io) (b : Bool) : (nodeC E).EncTo (objT b (nodeF E.io E.reg)) :=
  show (nodeC' E).EncTo _ from
  struct_enc (fc := _) (b := b) (
      fields_enc (by by_names) rfl (default_row hf (d' := identity) (by decide +kernel) (by decide +kernel) (by decide +kernel)) <|
      fields_enc (by by_names) rfl (default_row hf (d' := unitRotation) (by decide +kernel) (by decide +kernel) (by decide +kernel)) <|
      fields_enc (by by_names) rfl (default_row hf (d' := ones) (by decide +kernel) (by decide +kernel) (by decide +kernel)) <|
      fields_enc (by by_names) rfl (zeros_row hf (by decide +kernel)) <|
      fields_enc (by by_names) rfl (ext_row E.reg) <|
      fields_enc (by by_names) rfl (extras_row hf) <|
      fields_enc (by by_names) rfl (string_row) <|
      fields_enc (by by_names) rfl (index_row) <|
      fields_enc (by by_names) rfl (ints_row) <|
      fields_enc (by by_names) rfl (index_row) <|
      fields_enc (by by_names) rfl (index_row) <|
      fields_enc (by by_names) rfl (floats_row hf) <|
      nil_enc) (by by_names) rfl

theorem nodeC_dec (E : Env) {start : Node} : (nodeC E).DecTo (objT false (nodeF E.io E.reg)) start :=
  show (nodeC' E).DecTo _ { «matrix» := defaultMatrix, rotation := defaultRotation, scale := defaultScale } from
  struct_dec (
      cons_dec (by by_names) rfl (array_rowD E (absent := fun m => SameAll m identity ∨ SameAll m zeros) (by decide +kernel)) <|
      cons_dec (by by_names) rfl (array_rowD E (absent := fun m => SameAll m unitRotation ∨ SameAll m zeros) (by decide +kernel)) <|
      cons_dec (by by_names) rfl (array_rowD E (absent := fun m => SameAll m ones ∨ SameAll m zeros) (by decide +kernel)) <|
      cons_dec (by by_names) rfl (array_rowD E (absent := fun m => SameAll m zeros) (by decide +kernel)) <|
      cons_dec (by by_names) rfl (ext_rowD E.reg) <|
      cons_dec (by by_names) rfl (extras_rowD E.io) <|
      cons_dec (by by_names) rfl (string_rowD) <|
      cons_dec (by by_names) rfl (index_rowD) <|
      cons_dec (by by_names) rfl (ints_rowD) <|
      cons_dec (by by_names) rfl (index_rowD) <|
      cons_dec (by by_names) rfl (index_rowD) <|
      cons_dec (by by_names) rfl (floats_rowD E) <|
      nil_dec) rfl (fun _ => rfl) rfl

theorem skinC_enc (hf : FloatLaws E.io) (b : Bool) : (skinC E).EncTo (objT b (skinF E.io E.reg)) :=
  struct_enc (fc := _) (b := b) (
      fields_enc (by by_names) rfl (ext_row E.reg) <|
      fields_enc (by by_names) rfl (extras_row hf) <|
      fields_enc (by by_names) rfl (string_row) <|
      fields_enc (by by_names) rfl (index_row) <|
      fields_enc (by by_names) rfl (index_row) <|
      fields_enc (by by_names) rfl (req_enc (slice_enc int_enc)) <|
      nil_enc) (by by_names) rfl

theorem skinC_dec (E : Env) : (skinC E).DecTo (objT false (skinF E.io E.reg)) {} :=
  struct_dec (
      cons_dec (by by_names) rfl (ext_rowD E.reg) <|
      cons_dec (by by_names) rfl (extras_rowD E.io) <|
      cons_dec (by by_names) rfl (string_rowD) <|
      cons_dec (by by_names) rfl (index_rowD) <|
      cons_dec (by by_names) rfl (index_rowD) <|
      cons_dec (by by_names) rfl (req_dec (slice_dec (int_dec _))) <|
      nil_dec) rfl (fun _ => rfl) rfl

theorem orthographicC_enc (hf : FloatLaws E.io) (b : Bool) : (orthographicC E).EncTo (objT b (orthographicF E.io E.reg)) :=
  struct_enc (fc := _) (b := b) (
      fields_enc (by by_names) rfl (ext_row E.reg) <|
      fields_enc (by by_names) rfl (extras_row hf) <|
      fields_enc (by by_names) rfl (req_enc (float_enc hf)) <|
      fields_enc (by by_names) rfl (req_enc (float_enc hf)) <|
      fields_enc (by by_names) rfl (req_enc (float_enc hf)) <|
      fields_enc (by by_names) rfl (req_enc (float_enc hf)) <|
      nil_enc) (by by_names) rfl

theorem orthographicC_dec (E : Env) : (orthographicC E).DecTo (objT false (orthographicF E.io E.reg)) {} :=
  struct_dec (
      cons_dec (by by_names) rfl (ext_rowD E.reg) <|
      cons_dec (by by_names) rfl (extras_rowD E.io) <|
      cons_dec (by by_names) rfl (req_dec (float_dec _ _)) <|
      cons_dec (by by_names) rfl (req_dec (float_dec _ _)) <|
      cons_dec (by by_names) rfl (req_dec (float_dec _ _)) <|
      cons_dec (by by_names) rfl (req_dec (float_dec _ _)) <|
      nil_dec) rfl (fun _ => rfl) rfl

theorem perspectiveC_enc (hf : FloatLaws E.io) (b : Bool) : (perspectiveC E).EncTo (objT b (perspectiveF E.io E.reg)) :=
  struct_enc (fc := _) (b := b) (
      fields_enc (by by_names) rfl (ext_row E.reg) <|
      fields_enc (by by_names) rfl (extras_row hf) <|
      fields_enc (by by_names) rfl (float_row hf) <|
      fields_enc (by by_names) rfl (req_enc (float_enc hf)) <|
      fields_enc (by by_names) rfl (float_row hf) <|
      fields_enc (by by_names) rfl (req_enc (float_enc hf)) <|
      nil_enc) (by by_names) rfl

theorem perspectiveC_dec (E : Env) : (perspectiveC E).DecTo (objT false (perspectiveF E.io E.reg)) {} :=
  struct_dec (
      cons_dec (by by_names) rfl (ext_rowD E.reg) <|
      cons_dec (by by_names) rfl (extras_rowD E.io) <|
      cons_dec (by by_names) rfl (float_rowD E) <|
      cons_dec (by by_names) rfl (req_dec (float_dec _ _)) <|
      cons_dec (by by_names) rfl (float_rowD E) <|
      cons_dec (by by_names) rfl (req_dec (float_dec _ _)) <|
      nil_dec) rfl (fun _ => rfl) rfl

/-- As `struct_enc`, saying moreover that no unknown member is written. -/
theorem struct_enc_strict {σ τ : Type} {to : σ → τ} {of : τ → σ} {fc : FC τ} {fs : List (Field τ)} {rows : List (Field σ)}
    (hf : fc.EncTo fs) (hn : (fc.names.map foldKey).Nodup) (hrows : rows = fs.map (Field.pull to)) :
    (JC.struct to of fc).EncTo (objT true rows) := struct_enc hf hn hrows

theorem cameraC'_enc (hf : FloatLaws E.io) (b : Bool) : (cameraC' E).EncTo (objT true (cameraF b E.io E.reg).tail) :=
  struct_enc_strict (fc := _) (
      fields_enc (by by_names) rfl (ext_row E.reg) <|
      fields_enc (by by_names) rfl (extras_row hf) <|
      fields_enc (by by_names) rfl (string_row) <|
      fields_enc (by by_names) rfl (object_row (orthographicC_enc hf b)) <|
      fields_enc (by by_names) rfl (object_row (perspectiveC_enc hf b)) <|
      nil_enc) (by by_names) rfl

theorem cameraC'_dec (E : Env) : (cameraC' E).DecTo (objT false (cameraF false E.io E.reg).tail) {} :=
  struct_dec (
      cons_dec (by by_names) rfl (ext_rowD E.reg) <|
      cons_dec (by by_names) rfl (extras_rowD E.io) <|
      cons_dec (by by_names) rfl (string_rowD) <|
      cons_dec (by by_names) rfl (object_rowD (objT_nonNull _ _) (orthographicC_dec E)) <|
      cons_dec (by by_names) rfl (object_rowD (objT_nonNull _ _) (perspectiveC_dec E)) <|
      nil_dec) rfl (fun _ => rfl) rfl

theorem camera_names (b : Bool) (io : FloatIO) (reg : Registry) : (cameraF b io reg).map (·.name) =
    [b!"type", b!"extensions", b!"extras", b!"name", b!"orthographic", b!"perspective"] := rfl

theorem cameraType_enc (hf : FloatLaws E.io) (b : Bool) {c : Camera} {v : JVal} {t : Bytes} (hr : (objT b (cameraF b E.io E.reg)).ready c)
    (he : ((cameraC' E).enc c).map (withType t) = .ok v) (ht : cameraTypeF.rel c (.str t)) : (objT b (cameraF b E.io E.reg)).rel c v := by
  cases h1 : (cameraC' E).enc c with
  | error e => rw [h1] at he; cases he
  | ok w =>
    rw [h1] at he
    obtain ⟨ms, rfl, h⟩ := cameraC'_enc hf b c w (fun f hf' => hr f (List.mem_of_mem_tail hf')) h1
    cases he
    have hkeys : ∀ m ∈ ms, m.1 ∈ (cameraF b E.io E.reg).tail.map (·.name) := fun m hm => List.mem_map.2 (h.known rfl m hm)
    have hty : ∀ f ∈ (cameraF b E.io E.reg).tail, f.name ≠ b!"type" := by
      intro f hf' e
      have := List.mem_map_of_mem (f := fun g : Field Camera => g.name) hf'
      rw [e, List.map_tail, camera_names] at this
      exact absurd this (by decide +kernel)
    refine ⟨_, rfl, objRel_of ?_ ?_ ?_ ?_ ?_⟩
    · rw [camera_names]; decide +kernel
    · refine List.nodup_cons.2 ⟨fun hm => ?_, h.distinct⟩
      obtain ⟨m, hm, e⟩ := List.mem_map.1 hm
      obtain ⟨f, hf', e'⟩ := h.known rfl m hm
      exact hty f hf' (e'.trans e)
    · intro m hm
      rcases List.mem_cons.1 hm with rfl | hm
      · exact .head _
      · exact .tail _ (hkeys m hm)
    · intro f hf' v hv
      rcases List.mem_cons.1 hf' with rfl | hf'
      · rcases List.mem_cons.1 hv with hv | hv
        · cases hv; exact ht
        · obtain ⟨g, hg, e⟩ := h.known rfl _ hv
          exact absurd e (hty g hg)
      · rcases List.mem_cons.1 hv with hv | hv
        · exact absurd (Prod.mk.inj hv).1 (hty f hf')
        · exact h.present f hf' v hv
    · intro f hf' hnm
      rcases List.mem_cons.1 hf' with rfl | hf'
      · exact absurd (.head _) hnm
      · exact h.absent f hf' fun hm => hnm (.tail _ hm)

theorem cameraC_enc (hf : FloatLaws E.io) (b : Bool) : (cameraC E).EncTo (objT b (cameraF b E.io E.reg)) := by
  intro c v hr he
  have he : (if c.perspective.isSome then ((cameraC' E).enc c).map (withType b!"perspective")
      else if c.orthographic.isSome then ((cameraC' E).enc c).map (withType b!"orthographic")
      else .error (.msg "gltf: camera must defined either the perspective or orthographic property")) = .ok v := he
  split at he
  · next h0 => exact cameraType_enc hf b hr he (.inl ⟨rfl, fun h => by rw [h] at h0; cases h0⟩)
  · next h0 =>
    split at he
    · next h1 =>
      refine cameraType_enc hf b hr he (.inr ⟨rfl, ?_, fun h => by rw [h] at h1; cases h1⟩)
      cases hp : c.perspective with
      | none => rfl
      | some p => rw [hp] at h0; exact absurd rfl h0
    · cases he

/-- Whether a camera has a projection can be read off its members. -/
theorem camera_member {b : Bool} {c : Camera} {ms : List (Bytes × JVal)} (h : ObjRel b (cameraF b E.io E.reg).tail c ms) :
    (c.perspective ≠ none ↔ b!"perspective" ∈ ms.map Prod.fst) ∧ (c.orthographic ≠ none ↔ b!"orthographic" ∈ ms.map Prod.fst) := by
  constructor
  · constructor
    · intro hp
      refine Classical.byContradiction fun hn => hp ?_
      exact h.absent _ (.tail _ (.tail _ (.tail _ (.tail _ (.head _))))) hn
    · intro hm e
      obtain ⟨⟨k, v⟩, hm, rfl⟩ := List.mem_map.1 hm
      obtain ⟨a, ha, _⟩ := h.present _ (.tail _ (.tail _ (.tail _ (.tail _ (.head _))))) v hm
      exact nomatch e.symm.trans ha
  · constructor
    · intro hp
      refine Classical.byContradiction fun hn => hp ?_
      exact h.absent _ (.tail _ (.tail _ (.tail _ (.head _)))) hn
    · intro hm e
      obtain ⟨⟨k, v⟩, hm, rfl⟩ := List.mem_map.1 hm
      obtain ⟨a, ha, _⟩ := h.present _ (.tail _ (.tail _ (.tail _ (.head _)))) v hm
      exact nomatch e.symm.trans ha

theorem cameraC_dec (E : Env) : (cameraC E).DecTo (objT false (cameraF false E.io E.reg)) {} := by
  rintro v ⟨c0, ms, rfl, h⟩
  have h0 : ObjRel false (cameraF false E.io E.reg).tail c0 ms :=
    ⟨h.distinct, (fun h => nomatch h), fun m hm f hf => h.exactly m hm f (List.mem_of_mem_tail hf),
      fun f hf => h.present f (List.mem_of_mem_tail hf), fun f hf => h.absent f (List.mem_of_mem_tail hf)⟩
  obtain ⟨c, hd, ms', he, h'⟩ := cameraC'_dec E (.obj ms) ⟨c0, ms, rfl, h0⟩
  cases he
  refine ⟨c, hd, ms, rfl, h.distinct, (fun h => nomatch h), h.exactly, ?_, ?_⟩
  · intro f hf v hv
    rcases List.mem_cons.1 hf with rfl | hf
    · have e1 := (camera_member h').1.trans (camera_member h0).1.symm
      have e2 := (camera_member h').2.trans (camera_member h0).2.symm
      rcases h.present _ (.head _) v hv with ⟨hv, hp⟩ | ⟨hv, hp, ho⟩
      · exact .inl ⟨hv, e1.2 hp⟩
      · exact .inr ⟨hv, Classical.byContradiction fun hn => e1.1 hn hp, e2.2 ho⟩
    · exact h'.present f hf v hv
  · intro f hf hn
    rcases List.mem_cons.1 hf with rfl | hf
    · exact h.absent _ (.head _) hn
    · exact h'.absent f hf hn

theorem primitiveC_enc (hf : FloatLaws E.io) (b : Bool) : (primitiveC E).EncTo (objT b (primitiveF E.io E.reg)) :=
  struct_enc (fc := _) (b := b) (
      fields_enc (by by_names) rfl (ext_row E.reg) <|
      fields_enc (by by_names) rfl (extras_row hf) <|
      fields_enc (by by_names) rfl (req_enc (map_enc int_enc)) <|
      fields_enc (by by_names) rfl (index_row) <|
      fields_enc (by by_names) rfl (index_row) <|
      fields_enc (by by_names) rfl (eq_row (T := codeT primitiveModeCodes) (enumNum_enc (by decide +kernel))) <|
      fields_enc (by by_names) rfl (list_row (map_enc int_enc)) <|
      nil_enc) (by by_names) rfl

theorem primitiveC_dec (E : Env) : (primitiveC E).DecTo (objT false (primitiveF E.io E.reg)) {} :=
  struct_dec (
      cons_dec (by by_names) rfl (ext_rowD E.reg) <|
      cons_dec (by by_names) rfl (extras_rowD E.io) <|
      cons_dec (by by_names) rfl (req_dec (map_dec (int_dec _))) <|
      cons_dec (by by_names) rfl (index_rowD) <|
      cons_dec (by by_names) rfl (index_rowD) <|
      cons_dec (by by_names) rfl (opt_dec (T := codeT primitiveModeCodes) (absent := (· = .triangles)) (enumNum_dec _ (by decide +kernel)) rfl) <|
      cons_dec (by by_names) rfl (list_rowD (map_dec (int_dec _))) <|
      nil_dec) rfl (fun _ => rfl) rfl

theorem meshC_enc (hf : FloatLaws E.io) (b : Bool) : (meshC E).EncTo (objT b (meshF b E.io E.reg)) :=
  struct_enc (fc := _) (b := b) (
      fields_enc (by by_names) rfl (ext_row E.reg) <|
      fields_enc (by by_names) rfl (extras_row hf) <|
      fields_enc (by by_names) rfl (string_row) <|
      fields_enc (by by_names) rfl (req_enc (slice_enc (ptr_enc (primitiveC_enc hf b)))) <|
      fields_enc (by by_names) rfl (floats_row hf) <|
      nil_enc) (by by_names) rfl

theorem meshC_dec (E : Env) : (meshC E).DecTo (objT false (meshF false E.io E.reg)) {} :=
  struct_dec (
      cons_dec (by by_names) rfl (ext_rowD E.reg) <|
      cons_dec (by by_names) rfl (extras_rowD E.io) <|
      cons_dec (by by_names) rfl (string_rowD) <|
      cons_dec (by by_names) rfl (req_dec (slice_dec (ptr_dec none (objT_nonNull _ _) (primitiveC_dec E)))) <|
      cons_dec (by by_names) rfl (floats_rowD E) <|
      nil_dec) rfl (fun _ => rfl) rfl

theorem normalTextureC_enc (hf : FloatLaws E.io) (b : Bool) : (normalTextureC E).EncTo (objT b (normalTextureF E.io E.reg)) :=
  show (normalTextureC' E).EncTo _ from
  struct_enc (fc := _) (b := b) (
      fields_enc (by by_names) rfl (ext_row E.reg) <|
      fields_enc (by by_names) rfl (extras_row hf) <|
      fields_enc (by by_names) rfl (reqOmit_enc (ptr_enc int_enc) ptr_written) <|
      fields_enc (by by_names) rfl (int_row) <|
      fields_enc (by by_names) rfl (factor_row hf _ (by decide +kernel)) <|
      nil_enc) (by by_names) rfl

theorem normalTextureC_dec (E : Env) {start : NormalTexture} : (normalTextureC E).DecTo (objT false (normalTextureF E.io E.reg)) start :=
  show (normalTextureC' E).DecTo _ { scale := some f64one } from
  struct_dec (
      cons_dec (by by_names) rfl (ext_rowD E.reg) <|
      cons_dec (by by_names) rfl (extras_rowD E.io) <|
      cons_dec (by by_names) rfl (reqOmit_dec (ptr_dec none intT_nonNull (int_dec _))) <|
      cons_dec (by by_names) rfl (int_rowD) <|
      cons_dec (by by_names) rfl (factor_rowD E _ one (by decide +kernel)) <|
      nil_dec) rfl (fun _ => rfl) rfl

theorem occlusionTextureC_enc (hf : FloatLaws E.io) (b : Bool) : (occlusionTextureC E).EncTo (objT b (occlusionTextureF E.io E.reg)) :=
  show (occlusionTextureC' E).EncTo _ from
  struct_enc (fc := _) (b := b) (
      fields_enc (by by_names) rfl (ext_row E.reg) <|
      fields_enc (by by_names) rfl (extras_row hf) <|
      fields_enc (by by_names) rfl (reqOmit_enc (ptr_enc int_enc) ptr_written) <|
      fields_enc (by by_names) rfl (int_row) <|
      fields_enc (by by_names) rfl (factor_row hf _ (by decide +kernel)) <|
      nil_enc) (by by_names) rfl

theorem occlusionTextureC_dec (E : Env) {start : OcclusionTexture} : (occlusionTextureC E).DecTo (objT false (occlusionTextureF E.io E.reg)) start :=
  show (occlusionTextureC' E).DecTo _ { strength := some f64one } from
  struct_dec (
      cons_dec (by by_names) rfl (ext_rowD E.reg) <|
      cons_dec (by by_names) rfl (extras_rowD E.io) <|
      cons_dec (by by_names) rfl (reqOmit_dec (ptr_dec none intT_nonNull (int_dec _))) <|
      cons_dec (by by_names) rfl (int_rowD) <|
      cons_dec (by by_names) rfl (factor_rowD E _ one (by decide +kernel)) <|
      nil_dec) rfl (fun _ => rfl) rfl

theorem textureInfoC_enc (hf : FloatLaws E.io) (b : Bool) : (textureInfoC E).EncTo (objT b (textureInfoF E.io E.reg)) :=
  struct_enc (fc := _) (b := b) (
      fields_enc (by by_names) rfl (ext_row E.reg) <|
      fields_enc (by by_names) rfl (extras_row hf) <|
      fields_enc (by by_names) rfl (req_enc int_enc) <|
      fields_enc (by by_names) rfl (int_row) <|
      nil_enc) (by by_names) rfl

theorem textureInfoC_dec (E : Env) : (textureInfoC E).DecTo (objT false (textureInfoF E.io E.reg)) {} :=
  struct_dec (
      cons_dec (by by_names) rfl (ext_rowD E.reg) <|
      cons_dec (by by_names) rfl (extras_rowD E.io) <|
      cons_dec (by by_names) rfl (req_dec (int_dec _)) <|
      cons_dec (by by_names) rfl (int_rowD) <|
      nil_dec) rfl (fun _ => rfl) rfl

theorem pbrC_enc (hf : FloatLaws E.io) (b : Bool) : (pbrC E).EncTo (objT b (pbrF b E.io E.reg)) :=
  show (pbrC' E).EncTo _ from
  struct_enc (fc := _) (b := b) (
      fields_enc (by by_names) rfl (ext_row E.reg) <|
      fields_enc (by by_names) rfl (extras_row hf) <|
      fields_enc (by by_names) rfl (color_row hf) <|
      fields_enc (by by_names) rfl (object_row (textureInfoC_enc hf b)) <|
      fields_enc (by by_names) rfl (factor_row hf _ (by decide +kernel)) <|
      fields_enc (by by_names) rfl (factor_row hf _ (by decide +kernel)) <|
      fields_enc (by by_names) rfl (object_row (textureInfoC_enc hf b)) <|
      nil_enc) (by by_names) rfl

theorem pbrC_dec (E : Env) {start : PBRMetallicRoughness} : (pbrC E).DecTo (objT false (pbrF false E.io E.reg)) start :=
  show (pbrC' E).DecTo _ { baseColorFactor := some white, metallicFactor := some f64one, roughnessFactor := some f64one } from
  struct_dec (
      cons_dec (by by_names) rfl (ext_rowD E.reg) <|
      cons_dec (by by_names) rfl (extras_rowD E.io) <|
      cons_dec (by by_names) rfl (color_rowD E) <|
      cons_dec (by by_names) rfl (object_rowD (objT_nonNull _ _) (textureInfoC_dec E)) <|
      cons_dec (by by_names) rfl (factor_rowD E _ one (by decide +kernel)) <|
      cons_dec (by by_names) rfl (factor_rowD E _ one (by decide +kernel)) <|
      cons_dec (by by_names) rfl (object_rowD (objT_nonNull _ _) (textureInfoC_dec E)) <|
      nil_dec) rfl (fun _ => rfl) rfl

theorem materialC_enc (hf : FloatLaws E.io) (b : Bool) : (materialC E).EncTo (objT b (materialF b E.io E.reg)) :=
  show (materialC' E).EncTo _ from
  struct_enc (fc := _) (b := b) (
      fields_enc (by by_names) rfl (zeros_row hf (by decide +kernel)) <|
      fields_enc (by by_names) rfl (factor_row hf _ (by decide +kernel)) <|
      fields_enc (by by_names) rfl (ext_row E.reg) <|
      fields_enc (by by_names) rfl (extras_row hf) <|
      fields_enc (by by_names) rfl (string_row) <|
      fields_enc (by by_names) rfl (object_row (pbrC_enc hf b)) <|
      fields_enc (by by_names) rfl (object_row (normalTextureC_enc hf b)) <|
      fields_enc (by by_names) rfl (object_row (occlusionTextureC_enc hf b)) <|
      fields_enc (by by_names) rfl (object_row (textureInfoC_enc hf b)) <|
      fields_enc (by by_names) rfl (eq_row (T := nameT alphaModeNames) (enumStr_enc (by decide +kernel))) <|
      fields_enc (by by_names) rfl (bool_row) <|
      nil_enc) (by by_names) rfl

theorem materialC_dec (E : Env) {start : Material} : (materialC E).DecTo (objT false (materialF false E.io E.reg)) start :=
  show (materialC' E).DecTo _ { alphaCutoff := some f64half } from
  struct_dec (
      cons_dec (by by_names) rfl (array_rowD E (absent := fun m => SameAll m zeros) (by decide +kernel)) <|
      cons_dec (by by_names) rfl (factor_rowD E _ half (by decide +kernel)) <|
      cons_dec (by by_names) rfl (ext_rowD E.reg) <|
      cons_dec (by by_names) rfl (extras_rowD E.io) <|
      cons_dec (by by_names) rfl (string_rowD) <|
      cons_dec (by by_names) rfl (object_rowD (objT_nonNull _ _) (pbrC_dec E)) <|
      cons_dec (by by_names) rfl (object_rowD (objT_nonNull _ _) (normalTextureC_dec E)) <|
      cons_dec (by by_names) rfl (object_rowD (objT_nonNull _ _) (occlusionTextureC_dec E)) <|
      cons_dec (by by_names) rfl (object_rowD (objT_nonNull _ _) (textureInfoC_dec E)) <|
      cons_dec (by by_names) rfl (opt_dec (T := nameT alphaModeNames) (absent := (· = .opaque)) (enumStrOk_dec _ (by decide +kernel)) rfl) <|
      cons_dec (by by_names) rfl (bool_rowD) <|
      nil_dec) rfl (fun _ => rfl) rfl

theorem textureC_enc (hf : FloatLaws E.io) (b : Bool) : (textureC E).EncTo (objT b (textureF E.io E.reg)) :=
  struct_enc (fc := _) (b := b) (
      fields_enc (by by_names) rfl (ext_row E.reg) <|
      fields_enc (by by_names) rfl (extras_row hf) <|
      fields_enc (by by_names) rfl (string_row) <|
      fields_enc (by by_names) rfl (index_row) <|
      fields_enc (by by_names) rfl (index_row) <|
      nil_enc) (by by_names) rfl

theorem textureC_dec (E : Env) : (textureC E).DecTo (objT false (textureF E.io E.reg)) {} :=
  struct_dec (
      cons_dec (by by_names) rfl (ext_rowD E.reg) <|
      cons_dec (by by_names) rfl (extras_rowD E.io) <|
      cons_dec (by by_names) rfl (string_rowD) <|
      cons_dec (by by_names) rfl (index_rowD) <|
      cons_dec (by by_names) rfl (index_rowD) <|
      nil_dec) rfl (fun _ => rfl) rfl

theorem samplerC_enc (hf : FloatLaws E.io) (b : Bool) : (samplerC E).EncTo (objT b (samplerF E.io E.reg)) :=
  struct_enc (fc := _) (b := b) (
      fields_enc (by by_names) rfl (ext_row E.reg) <|
      fields_enc (by by_names) rfl (extras_row hf) <|
      fields_enc (by by_names) rfl (string_row) <|
      fields_enc (by by_names) rfl (eq_row (T := codeT (magFilterCodes.drop 1)) (enumNum_enc (by decide +kernel))) <|
      fields_enc (by by_names) rfl (eq_row (T := codeT (minFilterCodes.drop 1)) (enumNum_enc (by decide +kernel))) <|
      fields_enc (by by_names) rfl (eq_row (T := codeT wrappingModeCodes) (enumNum_enc (by decide +kernel))) <|
      fields_enc (by by_names) rfl (eq_row (T := codeT wrappingModeCodes) (enumNum_enc (by decide +kernel))) <|
      nil_enc) (by by_names) rfl

theorem samplerC_dec (E : Env) : (samplerC E).DecTo (objT false (samplerF E.io E.reg)) {} :=
  struct_dec (
      cons_dec (by by_names) rfl (ext_rowD E.reg) <|
      cons_dec (by by_names) rfl (extras_rowD E.io) <|
      cons_dec (by by_names) rfl (string_rowD) <|
      cons_dec (by by_names) rfl (opt_dec (T := codeT (magFilterCodes.drop 1)) (absent := (· = .undefined)) (enumNum_dec _ (by decide +kernel)) rfl) <|
      cons_dec (by by_names) rfl (opt_dec (T := codeT (minFilterCodes.drop 1)) (absent := (· = .undefined)) (enumNum_dec _ (by decide +kernel)) rfl) <|
      cons_dec (by by_names) rfl (opt_dec (T := codeT wrappingModeCodes) (absent := (· = .repeated)) (enumNum_dec _ (by decide +kernel)) rfl) <|
      cons_dec (by by_names) rfl (opt_dec (T := codeT wrappingModeCodes) (absent := (· = .repeated)) (enumNum_dec _ (by decide +kernel)) rfl) <|
      nil_dec) rfl (fun _ => rfl) rfl

theorem imageC_enc (hf : FloatLaws E.io) (b : Bool) : (imageC E).EncTo (objT b (imageF E.io E.reg)) :=
  struct_enc (fc := _) (b := b) (
      fields_enc (by by_names) rfl (ext_row E.reg) <|
      fields_enc (by by_names) rfl (extras_row hf) <|
      fields_enc (by by_names) rfl (string_row) <|
      fields_enc (by by_names) rfl (string_row) <|
      fields_enc (by by_names) rfl (string_row) <|
      fields_enc (by by_names) rfl (index_row) <|
      nil_enc) (by by_names) rfl

theorem imageC_dec (E : Env) : (imageC E).DecTo (objT false (imageF E.io E.reg)) {} :=
  struct_dec (
      cons_dec (by by_names) rfl (ext_rowD E.reg) <|
      cons_dec (by by_names) rfl (extras_rowD E.io) <|
      cons_dec (by by_names) rfl (string_rowD) <|
      cons_dec (by by_names) rfl (string_rowD) <|
      cons_dec (by by_names) rfl (string_rowD) <|
      cons_dec (by by_names) rfl (index_rowD) <|
      nil_dec) rfl (fun _ => rfl) rfl

theorem animationSamplerC_enc (hf : FloatLaws E.io) (b : Bool) : (animationSamplerC E).EncTo (objT b (animationSamplerF E.io E.reg)) :=
  struct_enc (fc := _) (b := b) (
      fields_enc (by by_names) rfl (ext_row E.reg) <|
      fields_enc (by by_names) rfl (extras_row hf) <|
      fields_enc (by by_names) rfl (req_enc int_enc) <|
      fields_enc (by by_names) rfl (eq_row (T := nameT interpolationNames) (enumStr_enc (by decide +kernel))) <|
      fields_enc (by by_names) rfl (req_enc int_enc) <|
      nil_enc) (by by_names) rfl

theorem animationSamplerC_dec (E : Env) : (animationSamplerC E).DecTo (objT false (animationSamplerF E.io E.reg)) {} :=
  struct_dec (
      cons_dec (by by_names) rfl (ext_rowD E.reg) <|
      cons_dec (by by_names) rfl (extras_rowD E.io) <|
      cons_dec (by by_names) rfl (req_dec (int_dec _)) <|
      cons_dec (by by_names) rfl (opt_dec (T := nameT interpolationNames) (absent := (· = .linear)) (enumStrOk_dec _ (by decide +kernel)) rfl) <|
      cons_dec (by by_names) rfl (req_dec (int_dec _)) <|
      nil_dec) rfl (fun _ => rfl) rfl

theorem animationChannelTargetC_enc (hf : FloatLaws E.io) (b : Bool) : (animationChannelTargetC E).EncTo (objT b (animationTargetF E.io E.reg)) :=
  struct_enc (fc := _) (b := b) (
      fields_enc (by by_names) rfl (ext_row E.reg) <|
      fields_enc (by by_names) rfl (extras_row hf) <|
      fields_enc (by by_names) rfl (index_row) <|
      fields_enc (by by_names) rfl (req_enc (enumStr_enc (by decide +kernel))) <|
      nil_enc) (by by_names) rfl

theorem animationChannelTargetC_dec (E : Env) : (animationChannelTargetC E).DecTo (objT false (animationTargetF E.io E.reg)) {} :=
  struct_dec (
      cons_dec (by by_names) rfl (ext_rowD E.reg) <|
      cons_dec (by by_names) rfl (extras_rowD E.io) <|
      cons_dec (by by_names) rfl (index_rowD) <|
      cons_dec (by by_names) rfl (req_dec (T := nameT trsPropertyNames) (enumStrOk_dec _ (by decide +kernel))) <|
      nil_dec) rfl (fun _ => rfl) rfl

theorem animationChannelC_enc (hf : FloatLaws E.io) (b : Bool) : (animationChannelC E).EncTo (objT b (animationChannelF b E.io E.reg)) :=
  struct_enc (fc := _) (b := b) (
      fields_enc (by by_names) rfl (ext_row E.reg) <|
      fields_enc (by by_names) rfl (extras_row hf) <|
      fields_enc (by by_names) rfl (req_enc int_enc) <|
      fields_enc (by by_names) rfl (req_enc (animationChannelTargetC_enc hf b)) <|
      nil_enc) (by by_names) rfl

theorem animationChannelC_dec (E : Env) : (animationChannelC E).DecTo (objT false (animationChannelF false E.io E.reg)) {} :=
  struct_dec (
      cons_dec (by by_names) rfl (ext_rowD E.reg) <|
      cons_dec (by by_names) rfl (extras_rowD E.io) <|
      cons_dec (by by_names) rfl (req_dec (int_dec _)) <|
      cons_dec (by by_names) rfl (req_dec (animationChannelTargetC_dec E)) <|
      nil_dec) rfl (fun _ => rfl) rfl

theorem animationC_enc (hf : FloatLaws E.io) (b : Bool) : (animationC E).EncTo (objT b (animationF b E.io E.reg)) :=
  struct_enc (fc := _) (b := b) (
      fields_enc (by by_names) rfl (ext_row E.reg) <|
      fields_enc (by by_names) rfl (extras_row hf) <|
      fields_enc (by by_names) rfl (string_row) <|
      fields_enc (by by_names) rfl (req_enc (slice_enc (ptr_enc (animationChannelC_enc hf b)))) <|
      fields_enc (by by_names) rfl (req_enc (slice_enc (ptr_enc (animationSamplerC_enc hf b)))) <|
      nil_enc) (by by_names) rfl

theorem animationC_dec (E : Env) : (animationC E).DecTo (objT false (animationF false E.io E.reg)) {} :=
  struct_dec (
      cons_dec (by by_names) rfl (ext_rowD E.reg) <|
      cons_dec (by by_names) rfl (extras_rowD E.io) <|
      cons_dec (by by_names) rfl (string_rowD) <|
      cons_dec (by by_names) rfl (req_dec (slice_dec (ptr_dec none (objT_nonNull _ _) (animationChannelC_dec E)))) <|
      cons_dec (by by_names) rfl (req_dec (slice_dec (ptr_dec none (objT_nonNull _ _) (animationSamplerC_dec E)))) <|
      nil_dec) rfl (fun _ => rfl) rfl

set_option maxHeartbeats 2000000 in
theorem documentC_enc (hf : FloatLaws E.io) (b : Bool) : (documentC E).EncTo (objT b (documentF b E.io E.reg)) :=
  struct_enc (fc := _) (b := b) (
      fields_enc (by by_names) rfl (list_row (ptr_enc (bufferC_enc hf b))) <|
      fields_enc (by by_names) rfl (ext_row E.reg) <|
      fields_enc (by by_names) rfl (extras_row hf) <|
      fields_enc (by by_names) rfl (strings_row) <|
      fields_enc (by by_names) rfl (strings_row) <|
      fields_enc (by by_names) rfl (list_row (ptr_enc (accessorC_enc hf b))) <|
      fields_enc (by by_names) rfl (list_row (ptr_enc (animationC_enc hf b))) <|
      fields_enc (by by_names) rfl (req_enc (assetC_enc hf b)) <|
      fields_enc (by by_names) rfl (list_row (ptr_enc (bufferViewC_enc hf b))) <|
      fields_enc (by by_names) rfl (list_row (ptr_enc (cameraC_enc hf b))) <|
      fields_enc (by by_names) rfl (list_row (ptr_enc (imageC_enc hf b))) <|
      fields_enc (by by_names) rfl (list_row (ptr_enc (materialC_enc hf b))) <|
      fields_enc (by by_names) rfl (list_row (ptr_enc (meshC_enc hf b))) <|
      fields_enc (by by_names) rfl (list_row (ptr_enc (nodeC_enc hf b))) <|
      fields_enc (by by_names) rfl (list_row (ptr_enc (samplerC_enc hf b))) <|
      fields_enc (by by_names) rfl (index_row) <|
      fields_enc (by by_names) rfl (list_row (ptr_enc (sceneC_enc hf b))) <|
      fields_enc (by by_names) rfl (list_row (ptr_enc (skinC_enc hf b))) <|
      fields_enc (by by_names) rfl (list_row (ptr_enc (textureC_enc hf b))) <|
      nil_enc) (by by_names) rfl

set_option maxHeartbeats 2000000 in
theorem documentC_dec (E : Env) : (documentC E).DecTo (objT false (documentF false E.io E.reg)) {} :=
  struct_dec (
      cons_dec (by by_names) rfl (list_rowD (ptr_dec none (objT_nonNull _ _) (bufferC_dec E))) <|
      cons_dec (by by_names) rfl (ext_rowD E.reg) <|
      cons_dec (by by_names) rfl (extras_rowD E.io) <|
      cons_dec (by by_names) rfl (strings_rowD) <|
      cons_dec (by by_names) rfl (strings_rowD) <|
      cons_dec (by by_names) rfl (list_rowD (ptr_dec none (objT_nonNull _ _) (accessorC_dec E))) <|
      cons_dec (by by_names) rfl (list_rowD (ptr_dec none (objT_nonNull _ _) (animationC_dec E))) <|
      cons_dec (by by_names) rfl (req_dec (assetC_dec E)) <|
      cons_dec (by by_names) rfl (list_rowD (ptr_dec none (objT_nonNull _ _) (bufferViewC_dec E))) <|
      cons_dec (by by_names) rfl (list_rowD (ptr_dec none (objT_nonNull _ _) (cameraC_dec E))) <|
      cons_dec (by by_names) rfl (list_rowD (ptr_dec none (objT_nonNull _ _) (imageC_dec E))) <|
      cons_dec (by by_names) rfl (list_rowD (ptr_dec none (objT_nonNull _ _) (materialC_dec E))) <|
      cons_dec (by by_names) rfl (list_rowD (ptr_dec none (objT_nonNull _ _) (meshC_dec E))) <|
      cons_dec (by by_names) rfl (list_rowD (ptr_dec none (objT_nonNull _ _) (nodeC_dec E))) <|
      cons_dec (by by_names) rfl (list_rowD (ptr_dec none (objT_nonNull _ _) (samplerC_dec E))) <|
      cons_dec (by by_names) rfl (index_rowD) <|
      cons_dec (by by_names) rfl (list_rowD (ptr_dec none (objT_nonNull _ _) (sceneC_dec E))) <|
      cons_dec (by by_names) rfl (list_rowD (ptr_dec none (objT_nonNull _ _) (skinC_dec E))) <|
      cons_dec (by by_names) rfl (list_rowD (ptr_dec none (objT_nonNull _ _) (textureC_dec E))) <|
      nil_dec) rfl (fun _ => rfl) rfl


end Gltf
