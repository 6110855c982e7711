/-
Property C75: the extensions of the packages lightspunctual, specular, texturetransform and unlit.
-/
import Verif.Props.Extensions
import Verif.Props.Unlit
import Verif.Props.Lights
import Verif.Props.Specular

namespace Gltf

open Spec

/-- The names of the extensions in the registry of glTF, with the functions of the packages that implement them. -/
def Spec.packages (E : Env) : List (Bytes × ExtFun) :=
  [(b!"KHR_lights_punctual", lightsExt E), (b!"KHR_materials_pbrSpecularGlossiness", specularExt E),
   (b!"KHR_texture_transform", transformExt E), (b!"KHR_materials_unlit", unlitExt)]

/-- The calls of `RegisterExtension` when some of the packages are imported; they are initialised in some order. -/
def Spec.Imported (E : Env) (h : List (Bytes × ExtFun)) : Prop := ∃ l : List (Bytes × ExtFun), l.Perm h ∧ l.Sublist (packages E)

/-- `x` is what the function makes of a payload: its value, or the payload if it fails. -/
def Spec.DecodedBy (f : ExtFun) (v : JVal) (x : ExtVal) : Prop :=
  (∃ n, f v = .ok n ∧ x = .typed n) ∨ (∃ e, f v = .error e) ∧ x = .raw v

theorem lastFor_of_nodup {α : Type} {h : List (Bytes × α)} (hn : (h.map (·.1)).Nodup) {key : Bytes} {a : α} (hm : (key, a) ∈ h) :
    LastFor h key a := by
  obtain ⟨x, y, rfl⟩ := List.append_of_mem hm
  refine ⟨x, y, rfl, fun p hp e => ?_⟩
  simp only [List.map_append, List.map_cons, List.nodup_append, List.nodup_cons] at hn
  exact hn.2.1.1 (by rw [← e]; exact List.mem_map_of_mem hp)

/-- C75: whatever subset of the packages is imported, and in whatever order they are initialised, an extension is decoded by
the package for its name if that one is imported, and otherwise kept as it is. -/
theorem C75_by_name (E : Env) (h : List (Bytes × ExtFun)) (hs : Imported E h) (key : Bytes) (v : JVal) :
    (∀ f, (key, f) ∈ h → DecodedBy f v ((registerAll h).decode key v)) ∧
    ((∀ f, (key, f) ∉ h) → (registerAll h).decode key v = .raw v) := by
  have hn : (h.map (·.1)).Nodup := by
    have h1 : ((packages E).map (·.1)).Nodup := by
      show List.Nodup [b!"KHR_lights_punctual", b!"KHR_materials_pbrSpecularGlossiness", b!"KHR_texture_transform", b!"KHR_materials_unlit"]
      decide
    obtain ⟨l, hp, hl⟩ := hs
    have h2 : (l.map (·.1)).Nodup := h1.sublist (hl.map _)
    exact (hp.map _).nodup_iff.1 h2
  have hd := decode_isDecoded h key v
  refine ⟨fun f hf => ?_, fun hf => ?_⟩
  · have hl := lastFor_of_nodup hn hf
    rcases hd with ⟨g, n, hg, h1, h2⟩ | ⟨h1, h2⟩
    · rw [lastFor_unique hg hl] at h1
      exact .inl ⟨n, h1, h2⟩
    · exact .inr ⟨h2 f hl, h1⟩
  · rcases hd with ⟨g, n, ⟨x, y, e, -⟩, -, -⟩ | ⟨h1, -⟩
    · exact absurd (by rw [e]; simp) (hf g)
    · exact h1

/-- C75: the registry of the other properties is the one with all four packages. -/
theorem C75_all_packages (E : Env) (key : Bytes) (v : JVal) :
    (∀ f, (key, f) ∈ packages E → DecodedBy f v ((standardExtensions E).decode key v)) ∧
    ((∀ f, (key, f) ∉ packages E) → (standardExtensions E).decode key v = .raw v) :=
  C75_by_name E (packages E) ⟨_, .refl _, .refl _⟩ key v

/-- C75: the text of a texture transform is decoded as the same transform when its package is imported. -/
theorem C75_texture_transform (E : Env) (hg : GoText E.io) (t : TextureTransform) (ht : TransformOk t) (h : List (Bytes × ExtFun))
    (hs : Imported E h) (hm : (b!"KHR_texture_transform", transformExt E) ∈ h) :
    ∃ text ms t' w, transformText E t = .ok text ∧ Text false (.value (.obj ms)) text ∧ SameTransform t t' ∧
      transformDec E (.obj ms) = .ok t' ∧ (transformText E t' >>= marshalled) = .ok w ∧
      (registerAll h).decode b!"KHR_texture_transform" (.obj ms) = .typed (.ok w) := by
  obtain ⟨text, ms, h1, h2, -, -, t', h3, h4, -⟩ := C45_round_trip E hg t ht
  have hx : transformExt E (.obj ms) = .ok (transformText E t' >>= marshalled) := by
    unfold transformExt
    rw [h3]
    rfl
  obtain ⟨w, h5, -⟩ := C45_decoded E hg _ _ hx
  refine ⟨text, ms, t', w, h1, h2, h4, h3, h5, ?_⟩
  rcases (C75_by_name E h hs _ (.obj ms)).1 _ hm with ⟨n, h6, h7⟩ | ⟨⟨e, h6⟩, -⟩
  · rw [hx] at h6
    cases h6
    rw [h7, h5]
  · rw [hx] at h6
    cases h6

/-- C75: the same for a material with specular and glossiness, for the textures of C46. -/
theorem C75_specular (E : Env) (hg : GoText E.io) (n : Nat) (p : Specular) (hp : SpecularOk E.reg n p) (ht : TexturesOk E p)
    (h : List (Bytes × ExtFun)) (hs : Imported E h) (hm : (b!"KHR_materials_pbrSpecularGlossiness", specularExt E) ∈ h) :
    ∃ text ms p', specularText E p = .ok text ∧ Text false (.value (.obj ms)) text ∧ SameSpecular p p' ∧
      specularDec E (.obj ms) = .ok p' ∧
      (registerAll h).decode b!"KHR_materials_pbrSpecularGlossiness" (.obj ms) = .typed (specularText E p' >>= marshalled) := by
  obtain ⟨text, ms, h1, h2, p', h3, h4⟩ := C46_round_trip_partial E hg n p hp ht
  have hx : specularExt E (.obj ms) = .ok (specularText E p' >>= marshalled) := by
    unfold specularExt
    rw [h3]
    rfl
  refine ⟨text, ms, p', h1, h2, h4, h3, ?_⟩
  rcases (C75_by_name E h hs _ (.obj ms)).1 _ hm with ⟨n, h6, h7⟩ | ⟨⟨e, h6⟩, -⟩
  · rw [hx] at h6
    cases h6
    exact h7
  · rw [hx] at h6
    cases h6

example (E : Env) : Imported E [(b!"KHR_materials_unlit", unlitExt), (b!"KHR_texture_transform", transformExt E)] :=
  ⟨[(b!"KHR_texture_transform", transformExt E), (b!"KHR_materials_unlit", unlitExt)], .swap _ _ _, by
    unfold packages
    exact .cons _ (.cons _ (.cons_cons _ (.cons_cons _ .slnil)))⟩

example (E : Env) : (standardExtensions E).decode b!"KHR_materials_unlit" (.obj []) = .typed (.ok (.obj [])) ∧
    (standardExtensions E).decode b!"KHR_xmp" (.obj []) = .raw (.obj []) := ⟨rfl, rfl⟩

end Gltf
