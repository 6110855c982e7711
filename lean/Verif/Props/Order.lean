/-
Property C109: the order of the members does not matter.
-/
import Verif.Props.Duplicate
import Verif.Props.SplitExact
import Verif.Lemmas.Order
import Verif.Model.Ext

namespace Gltf

open Spec

/-! ### C109 -/

theorem text_reordered (E : DecEnv) (s s' : Source) (l l' : List (Bytes × JVal)) (h1 : StartsWith false (.obj l) s.data)
    (h2 : StartsWith false (.obj l') s'.data) (hd : DepthLe 10000 (.obj l)) (hr : Reordered (.obj l) (.obj l')) (d : Document)
    (h : (decodeSource E s).result = .ok d) :
    (decodeSource E s').result = .ok d ∧ (decodeSource E s').opened = (decodeSource E s).opened := by
  obtain ⟨_, r1, -, -, e1⟩ := decode_value E (headerOf_text (startsWith_notGlb h1)) (jsonOf_file (.inl h1) hd (.inl ⟨_, rfl⟩))
  obtain ⟨_, r2, -, -, e2⟩ := decode_value E (headerOf_text (startsWith_notGlb h2)) (jsonOf_file (.inl h2) (depth_reordered hr _ hd) (.inl ⟨_, rfl⟩))
  cases hx : (documentC E.json).dec (.obj l) {} with
  | error e =>
    rw [hx] at e1
    rw [e1] at h
    cases h
  | ok d1 =>
    rw [hx] at e1
    rw [(document_reordered E.json hr _ _).1 hx] at e2
    rw [← h, e1, e2]
    have := decodeRest_unused E (doc := d1) (isBinary := false) (fun l _ => by cases l <;> rfl) r1 r2
    exact ⟨this.1.symm, this.2.symm⟩

/-- C109 for text files: reading files whose values differ in the order of members gives the same document, and opens the same
files if there is one. -/
theorem C109_text (E : DecEnv) (s s' : Source) (l l' : List (Bytes × JVal)) (h1 : StartsWith false (.obj l) s.data)
    (h2 : StartsWith false (.obj l') s'.data) (hd : DepthLe 10000 (.obj l)) (hr : Reordered (.obj l) (.obj l')) (d : Document) :
    ((decodeSource E s).result = .ok d ↔ (decodeSource E s').result = .ok d) ∧
    ((decodeSource E s).result = .ok d → (decodeSource E s').opened = (decodeSource E s).opened) :=
  ⟨⟨fun h => (text_reordered E s s' l l' h1 h2 hd hr d h).1,
    fun h => (text_reordered E s' s l' l h2 h1 (depth_reordered hr _ hd) (reordered_symm hr) d h).1⟩,
    fun h => (text_reordered E s s' l l' h1 h2 hd hr d h).2⟩

theorem glb_reordered (E : DecEnv) (s s' : Source) (l l' : List (Bytes × JVal)) (bin : Option Bytes) (w t w' t' : Bytes)
    (hw : IsBlank w) (hw' : IsBlank w') (ht : Text false (.value (.obj l)) t) (ht' : Text false (.value (.obj l')) t')
    (h1 : IsGlb (w ++ t) bin s.data) (h2 : IsGlb (w' ++ t') bin s'.data) (hf : s.fin = s'.fin)
    (ha : s.Aligned ∨ (w ++ t).length % 4 = 0) (ha' : s'.Aligned ∨ (w' ++ t').length % 4 = 0) (hd : DepthLe 10000 (.obj l))
    (hr : Reordered (.obj l) (.obj l')) (d : Document) (h : (decodeSource E s).result = .ok d) :
    (decodeSource E s').result = .ok d ∧ (decodeSource E s').opened = (decodeSource E s).opened := by
  obtain ⟨r1, c1, i1, q1, f1, hc1, e1⟩ := decode_glb_json E hd hw ht h1 ha
  obtain ⟨r2, c2, i2, q2, f2, hc2, e2⟩ := decode_glb_json E (depth_reordered hr _ hd) hw' ht' h2 ha'
  have hc : c1 = c2 := by
    cases bin with
    | none => exact hc1.trans hc2.symm
    | some data => exact isChunk_inj hc1 hc2
  cases hx : (documentC E.json).dec (.obj l) {} with
  | error e =>
    rw [hx] at e1
    rw [e1] at h
    cases h
  | ok d1 =>
    rw [hx] at e1
    rw [(document_reordered E.json hr _ _).1 hx] at e2
    rw [← h, e1, e2]
    have := decodeRest_congr ⟨q1.trans (hc.trans q2.symm), f1.trans (hf.trans f2.symm), i1, i2⟩ E true d1
    exact ⟨this.1.symm, this.2.1.symm⟩

/-- C109 for GLB files in part. Missing: files whose JSON text does not fill its chunk and readers that end a read within the padding
(see C32), for which this is false (`C109_full_fails`). -/
theorem C109_glb_partial (E : DecEnv) (s s' : Source) (l l' : List (Bytes × JVal)) (bin : Option Bytes) (w t w' t' : Bytes)
    (hw : IsBlank w) (hw' : IsBlank w') (ht : Text false (.value (.obj l)) t) (ht' : Text false (.value (.obj l')) t')
    (h1 : IsGlb (w ++ t) bin s.data) (h2 : IsGlb (w' ++ t') bin s'.data) (hf : s.fin = s'.fin)
    (ha : s.Aligned ∨ (w ++ t).length % 4 = 0) (ha' : s'.Aligned ∨ (w' ++ t').length % 4 = 0) (hd : DepthLe 10000 (.obj l))
    (hr : Reordered (.obj l) (.obj l')) (d : Document) :
    ((decodeSource E s).result = .ok d ↔ (decodeSource E s').result = .ok d) ∧
    ((decodeSource E s).result = .ok d → (decodeSource E s').opened = (decodeSource E s).opened) :=
  ⟨⟨fun h => (glb_reordered E s s' l l' bin w t w' t' hw hw' ht ht' h1 h2 hf ha ha' hd hr d h).1,
    fun h => (glb_reordered E s' s l' l bin w' t' w t hw' hw ht' ht h2 h1 hf.symm ha' ha (depth_reordered hr _ hd) (reordered_symm hr) d h).1⟩,
    fun h => (glb_reordered E s s' l l' bin w t w' t' hw hw' ht ht' h1 h2 hf ha ha' hd hr d h).2⟩

/-- For all GLB files and readers: the reordered file gives the same document, or else an error. -/
theorem C109_same_or_error (E : DecEnv) (s s' : Source) (l l' : List (Bytes × JVal)) (bin : Option Bytes) (w t w' t' : Bytes)
    (hw : IsBlank w) (hw' : IsBlank w') (ht : Text false (.value (.obj l)) t) (ht' : Text false (.value (.obj l')) t')
    (h1 : IsGlb (w ++ t) bin s.data) (h2 : IsGlb (w' ++ t') bin s'.data) (hf : s.fin = s'.fin) (hd : DepthLe 10000 (.obj l))
    (hr : Reordered (.obj l) (.obj l')) (d : Document) (h : (decodeSource E s).result = .ok d) :
    ((decodeSource E s').result = .ok d ∧ (decodeSource E s').opened = (decodeSource E s).opened) ∨
    ((decodeSource E s').result.isErr = true ∧ (decodeSource E s').opened = []) := by
  rcases C32_same_or_error E s l hd bin w t hw ht h1 with ⟨a1, a2⟩ | a
  · rcases C32_same_or_error E s' l' (depth_reordered hr _ hd) bin w' t' hw' ht' h2 with ⟨b1, b2⟩ | b
    · have k := glb_reordered E (atOnce s) (atOnce s') l l' bin w t w' t' hw hw' ht ht' h1 h2 hf (.inl ⟨glb_length h1, by simp [atOnce]⟩)
        (.inl ⟨glb_length h2, by simp [atOnce]⟩) hd hr d (a1 ▸ h)
      exact .inl ⟨b1.trans k.1, b2.trans (k.2.trans a2.symm)⟩
    · exact .inr b
  · rw [h] at a
    cases a.1

/-- C109 is false of GLB files whose padding is split by the reader, also if the order is the same. -/
theorem C109_full_fails : ∃ l l' bin w t w' t' sizes data data', Reordered (.obj l) (.obj l') ∧ IsBlank w ∧ IsBlank w' ∧
    Text false (.value (.obj l)) t ∧ Text false (.value (.obj l')) t' ∧ IsGlb (w ++ t) bin data ∧ IsGlb (w' ++ t') bin data' ∧
    firstData (decodeSource witnessDec { data := data, sizes := sizes }).result = some [77] ∧
    (decodeSource witnessDec { data := data', sizes := sizes }).result.isErr = true :=
  ⟨_, _, _, _, _, _, _, [(0, 49)], _, _, .refl _, by simp [IsBlank], by simp [IsBlank], filledGlb_text, paddedGlb_text, filledGlb_glb,
    paddedGlb_glb, by decide +kernel, by decide +kernel⟩

/-- Within the value of an extension that no function is registered for the order is part of the document. -/
theorem C109_extension_order :
    let s : Source := { data := b!"{\"extensions\":{\"X\":{\"a\":1,\"b\":2}}}" }
    let s' : Source := { data := b!"{\"extensions\":{\"X\":{\"b\":2,\"a\":1}}}" }
    ∃ d d', (decodeSource witnessDec s).result = .ok d ∧ (decodeSource witnessDec s').result = .ok d' ∧ d ≠ d' := by
  refine ⟨_, _, rfl, rfl, fun h => ?_⟩
  cases (congrArg Document.extensions h)

instance (E : Env) : E.omitZero.Unordered := by unfold Env.omitZero; infer_instance
instance (E : Env) : (transformC' E).Unordered := by unfold transformC'; infer_instance
instance (E : Env) : (specularC' E).Unordered := by unfold specularC'; infer_instance
instance (E : Env) : (spotC' E).Unordered := by unfold spotC'; infer_instance
instance (E : Env) : (spotC E).Unordered := by unfold spotC; infer_instance
instance (E : Env) : (lightC' E).Unordered := by unfold lightC'; infer_instance
instance (E : Env) : (lightC E).Unordered := by unfold lightC; infer_instance
instance (E : Env) : (lightsC E).Unordered := by unfold lightsC; infer_instance
instance (E : Env) : (envelopC E).Unordered := by unfold envelopC; infer_instance

theorem lights_reordered (E : Env) {v w : JVal} (h : Reordered v w) (x : PunctualExt) (e : lightsDec E v = .ok x) : lightsDec E w = .ok x := by
  simp only [lightsDec] at e ⊢
  cases hd : (envelopC E).dec v (none, none, ()) with
  | error _ => rw [hd] at e; cases e
  | ok t =>
    rw [hd] at e
    rw [(inferInstance : (envelopC E).Unordered).stable h _ _ hd]
    exact e

/-- C109 for the packages of extensions: the order does not matter within texture transforms, specular glossiness materials and lights. -/
theorem C109_packages (E : Env) (v w : JVal) (h : Reordered v w) :
    (∀ x, transformDec E v = .ok x ↔ transformDec E w = .ok x) ∧ (∀ x, specularDec E v = .ok x ↔ specularDec E w = .ok x) ∧
    (∀ x, lightsDec E v = .ok x ↔ lightsDec E w = .ok x) :=
  ⟨fun x => ⟨(inferInstance : (transformC' E).Unordered).stable h _ x, (inferInstance : (transformC' E).Unordered).stable (reordered_symm h) _ x⟩,
    fun x => ⟨(inferInstance : (specularC' E).Unordered).stable h _ x, (inferInstance : (specularC' E).Unordered).stable (reordered_symm h) _ x⟩,
    fun x => ⟨lights_reordered E h x, lights_reordered E (reordered_symm h) x⟩⟩

/-- A texture transform. -/
example : Reordered (.obj [(b!"rotation", .num b!"0"), (b!"texCoord", .num b!"1")]) (.obj [(b!"texCoord", .num b!"1"), (b!"rotation", .num b!"0")]) ∧
    (transformDec witnessDec.json (.obj [(b!"rotation", .num b!"0"), (b!"texCoord", .num b!"1")])).toBool = true :=
  ⟨.swap [] [] _ _ (by decide), by decide +kernel⟩

/-- A node whose mesh follows its name, before and after the list of scenes. -/
example : let x : Bytes × JVal := (b!"nodes", .arr [.obj [(b!"name", .str b!"a"), (b!"mesh", .num b!"1")]])
    let x' : Bytes × JVal := (b!"nodes", .arr [.obj [(b!"mesh", .num b!"1"), (b!"name", .str b!"a")]])
    let y : Bytes × JVal := (b!"scenes", .arr [])
    let s : Source := { data := b!"{\"nodes\":[{\"name\":\"a\",\"mesh\":1}],\"scenes\":[]}" }
    let s' : Source := { data := b!"{\"scenes\":[],\"nodes\":[{\"mesh\":1,\"name\":\"a\"}]}" }
    StartsWith false (.obj [x, y]) s.data ∧ StartsWith false (.obj [y, x']) s'.data ∧ DepthLe 10000 (.obj [x, y]) ∧
    Reordered (.obj [x, y]) (.obj [y, x']) ∧ (decodeSource witnessDec s).result.isErr = false := by
  intro x x' y s s'
  have hp : jsonOf s = .ok (.obj [x, y]) := rfl
  have hp' : jsonOf s' = .ok (.obj [y, x']) := rfl
  have hl : compact.Blank := ⟨fun _ => by simp [compact, IsBlank], by simp [compact, IsBlank]⟩
  have ht := print_text (L := compact) hl _ (jsonOf_valid hp).ok 0
  have ht' := print_text (L := compact) hl _ (jsonOf_valid hp').ok 0
  refine ⟨⟨[], _, [], by simp [IsBlank], ht, by decide +kernel⟩, ⟨[], _, [], by simp [IsBlank], ht', by decide +kernel⟩,
    (jsonOf_valid hp).depth, ?_, by decide +kernel⟩
  refine .trans (.swap [] [] x y (by decide)) (.member [y] [] b!"nodes" (by decide) (.element [] [] ?_))
  exact .swap [] [] (b!"name", .str b!"a") (b!"mesh", .num b!"1") (by decide)

end Gltf
