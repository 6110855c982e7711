/-
Property C92: when the packages for extensions take over an extension.
-/
import Verif.Spec.ExtKind
import Verif.Props.Kinds
import Verif.Props.Standard

namespace Gltf

open Spec

variable {E : Env}

theorem spot_follows (hio : ReadsNumbers E.io) : Follows (spotC E).dec (.obj [(b!"innerConeAngle", .num), (b!"outerConeAngle", .num)]) := by
  refine withDefault_follows (c := spotC' E) (struct_follows ?_) _
  kind_members hio

theorem light_follows (hio : ReadsNumbers E.io) : Follows (lightC E).dec lightS := by
  refine withDefault_follows (c := lightC' E) (struct_follows ?_) _
  kind_members hio
  exact ptr_follows (spot_follows hio) nullable_obj

theorem envelop_follows (hio : ReadsNumbers E.io) : Follows (envelopC E).dec (.obj [(b!"Lights", .list lightS), (b!"Light", .int)]) := by
  refine struct_follows ?_
  kind_members hio
  exact slice_follows (ptr_follows (light_follows hio) nullable_obj)

/-- The fields of the envelope have no names of their own for JSON, those in the schema differ in case. -/
theorem punctual_fits {v : JVal} : Fits (.obj [(b!"Lights", .list lightS), (b!"Light", .int)]) v ↔ Fits punctualS v := by
  have hf : ∀ ms : List (Bytes × JVal), (∀ m ∈ ms, ∀ f ∈ [(b!"Lights", JKind.list lightS), (b!"Light", JKind.int)], foldKey m.1 = foldKey f.1 → Fits f.2 m.2) ↔
      ∀ m ∈ ms, ∀ f ∈ [(b!"lights", JKind.list lightS), (b!"light", JKind.int)], foldKey m.1 = foldKey f.1 → Fits f.2 m.2 := by
    intro ms
    have e1 : foldKey b!"Lights" = foldKey b!"lights" := by decide
    have e2 : foldKey b!"Light" = foldKey b!"light" := by decide
    simp only [List.forall_mem_cons, List.not_mem_nil, false_implies, implies_true, and_true, e1, e2]
  constructor
  · intro h
    cases h with
    | null => exact .null _ fun _ => nofun
    | obj _ ms h => exact .obj _ _ ((hf ms).1 h)
  · intro h
    cases h with
    | null => exact .null _ fun _ => nofun
    | obj _ ms h => exact .obj _ _ ((hf ms).2 h)

theorem punctual_alike {v w : JVal} (h : Alike SameFold punctualS v w) : Alike SameFold (.obj [(b!"Lights", .list lightS), (b!"Light", .int)]) v w := by
  generalize hk : punctualS = k at h
  have e1 : foldKey b!"Lights" = foldKey b!"lights" := by decide
  have e2 : foldKey b!"Light" = foldKey b!"light" := by decide
  have hother : ∀ n : Bytes, (∀ f ∈ [(b!"lights", JKind.list lightS), (b!"light", JKind.int)], ¬ SameFold n f.1) →
      ∀ f ∈ [(b!"Lights", JKind.list lightS), (b!"Light", JKind.int)], ¬ SameFold n f.1 := by
    intro n
    simp only [SameFold, List.forall_mem_cons, List.not_mem_nil, false_implies, implies_true, and_true, e1, e2]
    exact id
  induction h with
  | refl => exact .refl _ _
  | list => cases hk
  | vec => cases hk
  | map => cases hk
  | left fs m ms ns hm _ ih => cases hk; exact .left _ _ _ _ (hother _ hm) (ih rfl)
  | right fs m ms ns hm _ ih => cases hk; exact .right _ _ _ _ (hother _ hm) (ih rfl)
  | both fs f m n ms ns hf h1 h2 h3 _ _ ih =>
    cases hk
    simp only [List.mem_cons, List.not_mem_nil, or_false] at hf
    rcases hf with rfl | rfl
    · exact .both _ (b!"Lights", .list lightS) _ _ _ _ (.head _) (h1.trans e1.symm) (h2.trans e1.symm) h3 (ih rfl)
    · exact .both _ (b!"Light", .int) _ _ _ _ (.tail _ (.head _)) (h1.trans e2.symm) (h2.trans e2.symm) h3 (ih rfl)

theorem lights_ok (hio : ReadsNumbers E.io) {v : JVal} (hv : JsonOk v) : (∃ n, lightsExt E v = .ok n) ↔ Fits punctualS v := by
  unfold lightsExt lightsDec
  rw [map_ok_iff, bind_ok_iff ((envelop_follows hio).ok v hv _) (Q := True) fun env => ?_, and_true, punctual_fits]
  split
  · exact return_ok
  · exact return_ok

theorem specular_follows (hio : ReadsNumbers E.io) : Follows (specularC' E).dec specularS := by
  refine struct_follows ?_
  kind_members hio
  · exact ptr_follows (textureInfo_follows hio) nullable_obj
  · exact ptr_follows (textureInfo_follows hio) nullable_obj

theorem specular_ok (hio : ReadsNumbers E.io) {v : JVal} (hv : JsonOk v) : (∃ n, specularExt E v = .ok n) ↔ Fits specularS v :=
  map_ok_iff.trans ((specular_follows hio).ok v hv _)

theorem transform_follows (hio : ReadsNumbers E.io) : Follows (transformC' E).dec transformS := by
  refine struct_follows ?_
  kind_members hio

theorem transform_ok (hio : ReadsNumbers E.io) {v : JVal} (hv : JsonOk v) : (∃ n, transformExt E v = .ok n) ↔ Fits transformS v :=
  map_ok_iff.trans ((transform_follows hio).ok v hv _)

theorem unlit_ok {v : JVal} : (∃ n, unlitExt v = .ok n) ↔ Fits .extensions v := by
  cases v with
  | obj l => exact ok_yes (.extensions l)
  | null => exact ok_yes (.null _ (by intro t; exact nofun))
  | bool b => exact mismatch_no nofun
  | num b => exact mismatch_no nofun
  | str s => exact mismatch_no nofun
  | arr l => exact mismatch_no nofun

/-- The functions of the packages accept exactly the values of the right kinds. -/
theorem package_ok (hio : ReadsNumbers E.io) {key : Bytes} {f : ExtFun} {k : JKind} (hf : (key, f) ∈ packages E) (hk : (key, k) ∈ extensionKinds)
    {v : JVal} (hv : JsonOk v) : (∃ n, f v = .ok n) ↔ Fits k v := by
  simp only [packages, extensionKinds, List.mem_cons, Prod.mk.injEq, List.not_mem_nil, or_false] at hf hk
  rcases hf with ⟨rfl, rfl⟩ | ⟨rfl, rfl⟩ | ⟨rfl, rfl⟩ | ⟨rfl, rfl⟩ <;>
    rcases hk with ⟨h, rfl⟩ | ⟨h, rfl⟩ | ⟨h, rfl⟩ | ⟨h, rfl⟩ <;> first | exact absurd h (by decide) | skip
  · exact lights_ok hio hv
  · exact specular_ok hio hv
  · exact transform_ok hio hv
  · exact unlit_ok

/-- They do not tell apart values that are alike. -/
theorem package_alike (hio : ReadsNumbers E.io) {key : Bytes} {f : ExtFun} {k : JKind} (hf : (key, f) ∈ packages E) (hk : (key, k) ∈ extensionKinds)
    {v w : JVal} (ha : Alike SameFold k v w) : f v = f w := by
  simp only [packages, extensionKinds, List.mem_cons, Prod.mk.injEq, List.not_mem_nil, or_false] at hf hk
  rcases hf with ⟨rfl, rfl⟩ | ⟨rfl, rfl⟩ | ⟨rfl, rfl⟩ | ⟨rfl, rfl⟩ <;>
    rcases hk with ⟨h, rfl⟩ | ⟨h, rfl⟩ | ⟨h, rfl⟩ | ⟨h, rfl⟩ <;> first | exact absurd h (by decide) | skip
  · unfold lightsExt lightsDec
    rw [(envelop_follows hio).alike _ _ _ (punctual_alike ha)]
  · unfold specularExt specularDec
    rw [(specular_follows hio).alike _ _ _ ha]
  · unfold transformExt transformDec
    rw [(transform_follows hio).alike _ _ _ ha]
  · cases ha
    rfl

theorem imported_mem {h : List (Bytes × ExtFun)} (hs : Imported E h) {p : Bytes × ExtFun} (hm : p ∈ h) : p ∈ packages E := by
  obtain ⟨l, hl, hsub⟩ := hs
  exact hsub.subset (hl.symm.subset hm)

/-- C92: an extension whose package is imported, together with any other packages in any order, is decoded by the package if and only if
all its values are of the right kinds; otherwise its JSON is kept as it is. -/
theorem C92_packages (E : Env) (hio : E.io = goFloatIO) (h : List (Bytes × ExtFun)) (hs : Imported E h) (key : Bytes) (f : ExtFun)
    (hm : (key, f) ∈ h) (k : JKind) (hk : (key, k) ∈ extensionKinds) (v : JVal) (hv : JsonOk v) :
    (Fits k v → ∃ n, (registerAll h).decode key v = .typed n) ∧ (¬ Fits k v → (registerAll h).decode key v = .raw v) := by
  have ho := package_ok (json_numbers hio) (imported_mem hs hm) hk hv
  rcases (C75_by_name E h hs key v).1 f hm with ⟨n, h1, h2⟩ | ⟨⟨e, h1⟩, h2⟩
  · exact ⟨fun _ => ⟨n, h2⟩, fun hn => absurd (ho.1 ⟨n, h1⟩) hn⟩
  · refine ⟨fun hf => ?_, fun _ => h2⟩
    obtain ⟨n, h3⟩ := ho.2 hf
    rw [h1] at h3
    cases h3

/-- C92: the package decodes two extensions as the same value, which is written in the same way, if they differ only in members whose
names are not in the schema of the extension. -/
theorem C92_ignored (E : Env) (hio : E.io = goFloatIO) (h : List (Bytes × ExtFun)) (hs : Imported E h) (key : Bytes) (f : ExtFun)
    (hm : (key, f) ∈ h) (k : JKind) (hk : (key, k) ∈ extensionKinds) (v w : JVal) (hv : JsonOk v) (hf : Fits k v) (ha : Alike SameFold k v w) :
    ∃ n, (registerAll h).decode key v = .typed n ∧ (registerAll h).decode key w = .typed n := by
  obtain ⟨n, h1⟩ := (package_ok (json_numbers hio) (imported_mem hs hm) hk hv).2 hf
  have h2 := package_alike (json_numbers hio) (imported_mem hs hm) hk ha
  refine ⟨n, ?_, ?_⟩
  · rcases (C75_by_name E h hs key v).1 f hm with ⟨n', h3, h4⟩ | ⟨⟨e, h3⟩, -⟩ <;> rw [h1] at h3 <;> cases h3
    exact h4
  · rcases (C75_by_name E h hs key w).1 f hm with ⟨n', h3, h4⟩ | ⟨⟨e, h3⟩, -⟩ <;> rw [← h2, h1] at h3 <;> cases h3
    exact h4

/-- A transform with a member that is not in its schema, and one whose rotation is a string. -/
example : (b!"KHR_texture_transform", transformExt goDec.json) ∈ packages goDec.json ∧
    (b!"KHR_texture_transform", transformS) ∈ extensionKinds ∧ Fits transformS (.obj [(b!"rotation", .null), (b!"other", .num b!"1e999")]) ∧
    ¬ Fits transformS (.obj [(b!"rotation", .str b!"1")]) ∧ Imported goDec.json [(b!"KHR_texture_transform", transformExt goDec.json)] := by
  refine ⟨by simp [packages], by simp [extensionKinds], .obj _ _ ?_, ?_, ?_⟩
  · have h2 : ∀ k ∈ [b!"offset", b!"rotation", b!"scale", b!"texCoord"], foldKey b!"other" ≠ foldKey k := by decide
    intro m hm f hf e
    simp only [List.mem_cons, List.not_mem_nil, or_false] at hm
    rcases hm with rfl | rfl
    · simp only [List.mem_cons, List.not_mem_nil, or_false] at hf
      rcases hf with rfl | rfl | rfl | rfl <;> exact .null _ fun _ => nofun
    · exact absurd e (h2 f.1 (List.mem_map_of_mem (f := Prod.fst) hf))
  · intro h
    exact nomatch fits_obj.1 h _ (.head _) (b!"rotation", .num) (by simp) rfl
  · exact ⟨_, .refl _, .cons _ (.cons _ (.cons_cons _ (.cons _ .slnil)))⟩

/-- Lights with and without a member that is not in the schema. -/
example : Fits punctualS (.obj [(b!"light", .num b!"1")]) ∧
    Alike SameFold punctualS (.obj [(b!"light", .num b!"1")]) (.obj [(b!"other", .bool true), (b!"light", .num b!"1")]) := by
  refine ⟨?_, .right _ _ _ _ ?_ (.refl _ _)⟩
  · refine .obj _ _ fun m hm f hf e => ?_
    have h1 : foldKey b!"light" ≠ foldKey b!"lights" := by decide
    simp only [List.mem_cons, List.not_mem_nil, or_false] at hm hf
    subst hm
    rcases hf with rfl | rfl
    · exact absurd e h1
    · exact .int _ 1 ⟨b!"1", by unfold IsDigits; decide, .inl ⟨rfl, by decide⟩⟩ (by unfold IntOk; omega)
  · have h2 : ∀ k ∈ [b!"lights", b!"light"], foldKey b!"other" ≠ foldKey k := by decide
    exact fun f hf e => absurd e (h2 f.1 (List.mem_map_of_mem (f := Prod.fst) hf))

end Gltf
