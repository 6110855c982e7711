/-
Round trip laws of the fields of the structs of gltf.go.
-/
import Verif.Lemmas.JsonCodec
import Verif.Spec.DocValid
import Verif.Spec.DocNorm

namespace Gltf

open Spec

theorem isEmpty_nil {α : Type} {l : List α} (h : l.isEmpty = true) : l = [] := List.isEmpty_iff.1 h

theorem isNone_none {α : Type} {o : Option α} (h : o.isNone = true) : o = none := Option.isNone_iff_eq_none.1 h

theorem JC.Law.congr {α : Type} {c : JC α} {D : Nat} {start : α} {ok : α → Prop} {norm norm' : α → α}
    (h : c.Law D start ok norm) (hn : ∀ a, norm a = norm' a) : c.Law D start ok norm' := by
  intro a ha
  obtain ⟨v, h1, h2, h3, h4⟩ := h a ha
  exact ⟨v, h1, h2, h3, by rw [← hn]; exact h4⟩

/-- Omission of the value the variable starts with. -/
theorem omitZero_law {α : Type} {c : JC α} {p : α → Bool} {D : Nat} {start : α} {ok : α → Prop} {norm : α → α}
    (h : c.Law D start ok norm) (h1 : ∀ a, p a = true → norm a = start) : (c.omitIf p).Law D start ok norm :=
  omitIf_law h (fun a _ hp => h1 a hp) fun _ ha _ => ⟨ha, rfl⟩

theorem map_id_list {α : Type} (l : List α) : l.map id = id l := by simp

theorem map_id_option {α : Type} (o : Option α) : o.map id = id o := by cases o <;> rfl

theorem map_id_ptrs {α : Type} (l : List (Option α)) : l.map (Option.map id) = id l := by simp

theorem names_cons {α τ : Type} (name : Bytes) (f : FE α) (r : FC τ) : (FC.cons name f r).names = name :: r.names := rfl

theorem names_skip {α τ : Type} (zero : α) (r : FC τ) : (FC.skip zero r).names = r.names := rfl

theorem names_nil : FC.nil.names = [] := rfl

/-- Facts about the names of the fields of a struct. -/
macro "by_names" : tactic => `(tactic| (simp only [names_cons, names_skip, names_nil]; decide +kernel))

/-! ### Shapes -/

theorem opt_fe {α : Type} {c : JC α} {D : Nat} {ok : α → Prop} {norm : α → α} (hn : c.NonNull) (h : c.Law D c.zero ok norm) :
    ((JC.ptr c).omitIf Option.isNone).Law D none (fun o => ∀ a ∈ o, ok a) (Option.map norm) :=
  omitZero_law (ptr_law none hn h) fun a ha => by rw [isNone_none ha]; rfl

theorem opt_fe_id {α : Type} {c : JC α} {D : Nat} {ok : α → Prop} (hn : c.NonNull) (h : c.Law D c.zero ok id) :
    ((JC.ptr c).omitIf Option.isNone).Law D none (fun o => ∀ a ∈ o, ok a) id :=
  omitZero_law ((ptr_law none hn h).congr map_id_option) fun _ ha => isNone_none ha

theorem ptrs_fe {α : Type} {c : JC α} {D : Nat} {ok : α → Prop} {norm : α → α} (hn : c.NonNull) (h : c.Law D c.zero ok norm) :
    ((JC.list (JC.ptr c)).omitIf List.isEmpty).Law (D + 1) [] (fun l => ∀ o ∈ l, ∀ a ∈ o, ok a) (List.map (Option.map norm)) :=
  omitZero_law (list_law (ptr_law none hn h)) fun a ha => by rw [isEmpty_nil ha]; rfl

theorem ptrs_fe_id {α : Type} {c : JC α} {D : Nat} {ok : α → Prop} (hn : c.NonNull) (h : c.Law D c.zero ok id) :
    ((JC.list (JC.ptr c)).omitIf List.isEmpty).Law (D + 1) [] (fun l => ∀ o ∈ l, ∀ a ∈ o, ok a) id :=
  omitZero_law ((list_law (ptr_law none hn h)).congr map_id_ptrs) fun _ ha => isEmpty_nil ha

theorem slice_fe_id {α : Type} {c : JC α} {D : Nat} {ok : α → Prop} (hn : c.NonNull) (h : c.Law D c.zero ok id) :
    ((JC.slice (JC.ptr c)).always).Law (D + 1) none (fun s => ∀ l ∈ s, ∀ o ∈ l, ∀ a ∈ o, ok a) id :=
  always_law ((slice_law (ptr_law none hn h)).congr fun s => by cases s <;> simp)

/-! ### Fields -/

theorem omitString_fe : omitString.Law 0 [] IsUtf8 id :=
  omitZero_law (string_law 0 []) fun _ ha => isEmpty_nil ha

theorem omitInt_fe : omitInt.Law 0 0 IntOk id :=
  omitZero_law (int_law 0 0) fun _ ha => by simpa using ha

theorem omitBool_fe : omitBool.Law 0 false (fun _ => True) id :=
  omitZero_law (bool_law 0 false) fun _ ha => by simpa using ha

theorem target_fe : (JC.uint16.omitIf (· == 0)).Law 0 0 (fun _ => True) id :=
  omitZero_law (uint16_law 0 0) fun _ ha => by simpa using ha

theorem omitIndex_fe : omitIndex.Law 0 none (fun o => ∀ i ∈ o, IntOk i) id := opt_fe_id int_nonNull (int_law 0 _)

theorem omitInts_fe : omitInts.Law 1 [] (fun l => ∀ i ∈ l, IntOk i) id :=
  omitZero_law ((list_law (int_law 0 _)).congr map_id_list) fun _ ha => isEmpty_nil ha

theorem sliceInt_fe : ((JC.slice JC.int).always).Law 1 none (fun s => ∀ l ∈ s, ∀ i ∈ l, IntOk i) id :=
  always_law ((slice_law (int_law 0 _)).congr fun s => by cases s <;> simp)

theorem omitStrings_fe : omitStrings.Law 1 [] (fun l => ∀ i ∈ l, IsUtf8 i) id :=
  omitZero_law ((list_law (string_law 0 _)).congr map_id_list) fun _ ha => isEmpty_nil ha

theorem attrs_law : (JC.map JC.int).Law 1 none (fun o => ∀ m ∈ o, IsMap m ∧ ∀ p ∈ m, IntOk p.2) id := map_law (int_law 0 _)

theorem targets_fe : ((JC.list (JC.map JC.int)).omitIf List.isEmpty).Law 2 []
    (fun l => ∀ o ∈ l, ∀ m ∈ o, IsMap m ∧ ∀ p ∈ m, IntOk p.2) id :=
  omitZero_law ((list_law attrs_law).congr map_id_list) fun _ ha => isEmpty_nil ha

theorem ext_fe (E : Env) (n : Nat) : E.ext.Law (n + 1) [] (ExtOk E.reg n) id :=
  omitZero_law (extensions_law n) fun _ ha => isEmpty_nil ha

variable {E : Env}

theorem extras_fe (hf : FloatLaws E.io) (n : Nat) : E.extras.Law n .null (AnyOk n) id := by
  refine omitZero_law (fun a ha => ?_) fun a ha => ?_
  · exact any_law hf a n ha
  · cases a <;> first | rfl | cases ha

theorem floats_fe (hf : FloatLaws E.io) : E.floats.Law 1 [] (fun l => ∀ x ∈ l, x.finite = true) id :=
  omitZero_law ((list_law (float_law hf 0 _)).congr map_id_list) fun _ ha => isEmpty_nil ha

theorem omitFloat_fe (hf : FloatLaws E.io) : E.omitFloat.Law 0 none (fun o => ∀ x ∈ o, x.finite = true) id :=
  opt_fe_id (float_nonNull _) (float_law hf 0 _)

/-! ### Defaults -/

theorem isZero_iff (x : F64) : IsZero x ↔ x.mag = 0 := by
  have hx := x.bits.toNat_lt
  unfold IsZero F64.mag
  rw [← UInt64.toNat_inj, ← UInt64.toNat_inj]
  show x.bits.toNat = 0 ∨ x.bits.toNat = 9223372036854775808 ↔ _
  omega

theorem finite_not_nan {x : F64} (h : x.finite = true) : x.isNaN = false := by
  unfold F64.finite at h
  unfold F64.isNaN
  simp at h ⊢
  omega

/-- On finite numbers Go's comparison is equality of numbers. -/
theorem feq_iff {x y : F64} (hx : x.finite = true) (hy : y.finite = true) : x.feq y = true ↔ Same x y := by
  unfold F64.feq Same
  rw [finite_not_nan hx, finite_not_nan hy, isZero_iff, isZero_iff]
  simp

theorem arrayEq_iff {n : Nat} {a b : Vector F64 n} (ha : ∀ x ∈ a.toList, x.finite = true) (hb : ∀ x ∈ b.toList, x.finite = true) :
    arrayEq a b = true ↔ SameAll a b := by
  unfold arrayEq SameAll
  rw [List.all_eq_true]
  constructor
  · intro h i
    have := h (a[i], b[i]) (by
      rw [List.mem_iff_getElem]
      refine ⟨i.val, by simp, by simp⟩)
    exact (feq_iff (ha _ (by simp)) (hb _ (by simp))).1 this
  · rintro h ⟨x, y⟩ hp
    rw [List.mem_iff_getElem] at hp
    obtain ⟨i, hi, he⟩ := hp
    have hi' : i < n := by simpa using hi
    simp only [List.getElem_zip, Vector.getElem_toList, Prod.mk.injEq] at he
    have := h ⟨i, hi'⟩
    simp only [Fin.getElem_fin, he.1, he.2] at this
    refine (feq_iff (ha _ ?_) (hb _ ?_)).2 this
    · rw [← he.1]; simp
    · rw [← he.2]; simp

theorem array_float_law (hf : FloatLaws E.io) (n : Nat) (start : Vector F64 n) :
    (JC.array n E.float).Law 1 start (fun a => ∀ x ∈ a.toList, x.finite = true) id := array_law (fun s => float_law hf 0 s) start

theorem orDefault_fe {n : Nat} (hf : FloatLaws E.io) {d e d' : Vector F64 n} (hd : d = d') (he : e = zeros)
    (hdf : ∀ x ∈ d'.toList, x.finite = true) (hzf : ∀ x ∈ (zeros (n := n)).toList, x.finite = true) :
    ((JC.array n E.float).omitIf fun m => arrayEq m d || arrayEq m e).Law 1 d (fun a => ∀ x ∈ a.toList, x.finite = true) (orDefault d') := by
  subst hd he
  refine omitIf_law (array_float_law hf n d) (fun a ha hp => ?_) (fun a ha hp => ⟨ha, ?_⟩)
  · rw [Bool.or_eq_true, arrayEq_iff ha hdf, arrayEq_iff ha hzf] at hp
    exact if_pos hp
  · rw [← Bool.not_eq_true, Bool.or_eq_true, arrayEq_iff ha hdf, arrayEq_iff ha hzf] at hp
    exact if_neg hp

theorem orZeros_fe {n : Nat} (hf : FloatLaws E.io) {d : Vector F64 n} (hd : d = zeros)
    (hzf : ∀ x ∈ (zeros (n := n)).toList, x.finite = true) :
    ((JC.array n E.float).omitIf fun m => arrayEq m d).Law 1 d (fun a => ∀ x ∈ a.toList, x.finite = true) orZeros := by
  subst hd
  refine omitIf_law (array_float_law hf n zeros) (fun a ha hp => ?_) (fun a ha hp => ⟨ha, ?_⟩)
  · rw [arrayEq_iff ha hzf] at hp
    exact if_pos hp
  · rw [← Bool.not_eq_true, arrayEq_iff ha hzf] at hp
    exact if_neg hp

theorem matrix_fe (hf : FloatLaws E.io) : ((JC.array 16 E.float).omitIf fun m => arrayEq m defaultMatrix || arrayEq m emptyMatrix).Law 1
    defaultMatrix (fun a => ∀ x ∈ a.toList, x.finite = true) (orDefault identity) :=
  orDefault_fe hf (by decide +kernel) (by decide +kernel) (by decide +kernel) (by decide +kernel)

theorem rotation_fe (hf : FloatLaws E.io) : ((JC.array 4 E.float).omitIf fun m => arrayEq m defaultRotation || arrayEq m emptyRotation).Law 1
    defaultRotation (fun a => ∀ x ∈ a.toList, x.finite = true) (orDefault unitRotation) :=
  orDefault_fe hf (by decide +kernel) (by decide +kernel) (by decide +kernel) (by decide +kernel)

theorem scale_fe (hf : FloatLaws E.io) : ((JC.array 3 E.float).omitIf fun m => arrayEq m defaultScale || arrayEq m emptyScale).Law 1
    defaultScale (fun a => ∀ x ∈ a.toList, x.finite = true) (orDefault ones) :=
  orDefault_fe hf (by decide +kernel) (by decide +kernel) (by decide +kernel) (by decide +kernel)

theorem translation_fe (hf : FloatLaws E.io) : ((JC.array 3 E.float).omitIf fun m => arrayEq m defaultTranslation).Law 1
    (Vector.replicate 3 ⟨0⟩) (fun a => ∀ x ∈ a.toList, x.finite = true) orZeros :=
  orZeros_fe hf (d := defaultTranslation) (by decide +kernel) (by decide +kernel)

theorem emissiveFactor_fe (hf : FloatLaws E.io) : ((JC.array 3 E.float).omitIf (arrayEq · defaultTranslation)).Law 1
    (Vector.replicate 3 ⟨0⟩) (fun a => ∀ x ∈ a.toList, x.finite = true) orZeros :=
  translation_fe hf

/-- A number that is not zero has one representation. -/
theorem same_eq {x d : F64} (h : Same x d) (hd : d.mag ≠ 0) : x = d := by
  rcases h with h | h
  · exact h
  · exact absurd ((isZero_iff d).1 h.2) hd

theorem omitFloatIf_fe (hf : FloatLaws E.io) (d : F64) (h0 : d.mag ≠ 0) (hd : d.finite = true) :
    (E.omitFloatIf d).Law 0 (some d) (fun o => ∀ x ∈ o, x.finite = true) (fun o => some (o.getD d)) := by
  refine omitIf_law (ptr_law (some d) (float_nonNull _) (float_law hf 0 _)) (fun o ho hp => ?_) (fun o ho hp => ⟨ho, ?_⟩)
  · cases o with
    | none => rfl
    | some x =>
      rw [Option.all_some, feq_iff (ho x rfl) hd] at hp
      rw [same_eq hp h0]; rfl
  · cases o with
    | none => cases hp
    | some x => rfl

theorem omitOne_fe (hf : FloatLaws E.io) :
    (E.omitFloatIf f64one).Law 0 (some f64one) (fun o => ∀ x ∈ o, x.finite = true) (fun o => some (o.getD one)) :=
  omitFloatIf_fe hf f64one (by decide +kernel) (by decide +kernel)

theorem omitHalf_fe (hf : FloatLaws E.io) :
    (E.omitFloatIf f64half).Law 0 (some f64half) (fun o => ∀ x ∈ o, x.finite = true) (fun o => some (o.getD half)) :=
  omitFloatIf_fe hf f64half (by decide +kernel) (by decide +kernel)

theorem baseColorFactor_fe (hf : FloatLaws E.io) :
    ((JC.ptr (JC.array 4 E.float)).omitIf fun m => m.all (arrayEq · white)).Law 1 (some white)
      (fun o => ∀ a ∈ o, ∀ x ∈ a.toList, x.finite = true) (fun o => some (o.getD ones)) := by
  have hw : white = ones := by decide +kernel
  refine omitIf_law (ptr_law (some white) (array_nonNull _ _) (array_float_law hf 4 _)) (fun o ho hp => ?_) (fun o ho hp => ⟨ho, ?_⟩)
  · cases o with
    | none => rw [hw]; rfl
    | some a =>
      rw [Option.all_some, arrayEq_iff (ho a rfl) (by decide +kernel)] at hp
      have : a = white := by
        ext i hi
        have h1 : white[i] = f64one := by
          rw [hw]; simp [ones]; rfl
        exact same_eq (hp ⟨i, hi⟩) (by rw [h1]; decide +kernel)
      rw [this]; rfl
  · cases o with
    | none => cases hp
    | some a => rfl

/-! ### Enumerations -/

theorem componentType_law (D : Nat) (start : ComponentType) : componentTypeC.Law D start (fun a => ∀ k, a ≠ .unknown k) id :=
  enumNum_law D start _ fun a h => by cases a <;> first | exact absurd rfl (h _) | decide +kernel

theorem primitiveMode_law (D : Nat) (start : PrimitiveMode) : primitiveModeC.Law D start (fun a => ∀ k, a ≠ .unknown k) id :=
  enumNum_law D start _ fun a h => by cases a <;> first | exact absurd rfl (h _) | decide +kernel

theorem primitiveMode_fe : (primitiveModeC.omitIf (· == .triangles)).Law 0 .triangles (fun a => ∀ k, a ≠ .unknown k) id :=
  omitZero_law (primitiveMode_law 0 _) fun a ha => by simpa using ha

theorem magFilter_law (D : Nat) (start : MagFilter) : magFilterC.Law D start (fun a => ∀ k, a ≠ .unknown k) id :=
  enumNum_law D start _ fun a h => by cases a <;> first | exact absurd rfl (h _) | decide +kernel

theorem magFilter_fe : (magFilterC.omitIf (· == .undefined)).Law 0 .undefined (fun a => ∀ k, a ≠ .unknown k) id :=
  omitZero_law (magFilter_law 0 _) fun a ha => by simpa using ha

theorem minFilter_law (D : Nat) (start : MinFilter) : minFilterC.Law D start (fun a => ∀ k, a ≠ .unknown k) id :=
  enumNum_law D start _ fun a h => by cases a <;> first | exact absurd rfl (h _) | decide +kernel

theorem minFilter_fe : (minFilterC.omitIf (· == .undefined)).Law 0 .undefined (fun a => ∀ k, a ≠ .unknown k) id :=
  omitZero_law (minFilter_law 0 _) fun a ha => by simpa using ha

theorem wrappingMode_law (D : Nat) (start : WrappingMode) : wrappingModeC.Law D start (fun a => ∀ k, a ≠ .unknown k) id :=
  enumNum_law D start _ fun a h => by cases a <;> first | exact absurd rfl (h _) | decide +kernel

theorem wrappingMode_fe : (wrappingModeC.omitIf (· == .repeated)).Law 0 .repeated (fun a => ∀ k, a ≠ .unknown k) id :=
  omitZero_law (wrappingMode_law 0 _) fun a ha => by simpa using ha

theorem accessorType_law (D : Nat) (start : AccessorType) : accessorTypeC.Law D start (fun a => ∀ k, a ≠ .unknown k) id :=
  enumStr_law D start _ fun a h => by
    cases a <;> first | exact absurd rfl (h _) | exact ⟨utf8_ascii (by decide +kernel), rfl⟩

theorem alphaMode_law (D : Nat) (start : AlphaMode) : alphaModeC.Law D start (fun a => ∀ k, a ≠ .unknown k) id :=
  enumStr_law D start _ fun a h => by
    cases a <;> first | exact absurd rfl (h _) | exact ⟨utf8_ascii (by decide +kernel), rfl⟩

theorem alphaMode_fe : (alphaModeC.omitIf (· == .opaque)).Law 0 .opaque (fun a => ∀ k, a ≠ .unknown k) id :=
  omitZero_law (alphaMode_law 0 _) fun a ha => by simpa using ha

theorem interpolation_law (D : Nat) (start : Interpolation) : interpolationC.Law D start (fun a => ∀ k, a ≠ .unknown k) id :=
  enumStr_law D start _ fun a h => by
    cases a <;> first | exact absurd rfl (h _) | exact ⟨utf8_ascii (by decide +kernel), rfl⟩

theorem interpolation_fe : (interpolationC.omitIf (· == .linear)).Law 0 .linear (fun a => ∀ k, a ≠ .unknown k) id :=
  omitZero_law (interpolation_law 0 _) fun a ha => by simpa using ha

theorem trsProperty_law (D : Nat) (start : TRSProperty) : trsPropertyC.Law D start (fun a => ∀ k, a ≠ .unknown k) id :=
  enumStr_law D start _ fun a h => by
    cases a <;> first | exact absurd rfl (h _) | exact ⟨utf8_ascii (by decide +kernel), rfl⟩

end Gltf
