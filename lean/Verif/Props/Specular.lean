/-
Property C46: specular-glossiness materials.
-/
import Verif.Lemmas.Specular
import Verif.Props.TextureTransform

namespace Gltf
open Spec

namespace Spec

/-- The same material, with the defaults filled in. -/
structure SameSpecular (p p' : Specular) : Prop where
  diffuseFactor : p'.diffuseFactor = some (p.diffuseFactor.getD #v[one, one, one, one])
  diffuseTexture : p'.diffuseTexture = p.diffuseTexture
  specularFactor : p'.specularFactor = some (p.specularFactor.getD #v[one, one, one])
  glossinessFactor : p'.glossinessFactor = some (p.glossinessFactor.getD one)
  specularGlossinessTexture : p'.specularGlossinessTexture = p.specularGlossinessTexture

/-- A texture with an index and a set of coordinates only. -/
def Bare (a : TextureInfo) : Prop := a.extensions = [] ∧ a.extras = .null

end Spec

/-- C46, for textures whose JSON text does not contain the patterns that are searched for: the text of a material
is one JSON object and it reads back.

Missing: materials whose textures contain such a pattern, for which the claim is false; see `C46_full_fails`. -/
theorem C46_round_trip_partial (E : Env) (hg : GoText E.io) (n : Nat) (p : Specular) (h : SpecularOk E.reg n p)
    (ht : TexturesOk E p) :
    ∃ text ms, specularText E p = .ok text ∧ Text false (.value (.obj ms)) text ∧
      ∃ p', specularDec E (.obj ms) = .ok p' ∧ SameSpecular p p' := by
  obtain ⟨v, h1, h2, h3, h4⟩ := specularOut_law hg.laws n p h
  obtain ⟨ms, rfl⟩ : ∃ ms, v = .obj ms := by
    have h1 := h1
    simp only [specularOut, JC.struct] at h1
    cases hms : FC.enc _ ((fun s : Specular => (s.diffuseFactor, s.diffuseTexture, s.specularFactor, s.glossinessFactor,
        s.specularGlossinessTexture, ())) p) with
    | error e => rw [hms] at h1; cases h1
    | ok ms => rw [hms] at h1; cases h1; exact ⟨ms, rfl⟩
  have hp := print_text (L := compact) compact_blank _ h2 0
  refine ⟨_, ms, specular_text E hg h ht h1, hp, normSpecular p, (specularOut_dec E _).symm.trans h4, ?_⟩
  exact ⟨rfl, rfl, rfl, rfl, rfl⟩

/-- The text of a texture without extras and extensions. -/
theorem bare_text {E : Env} {a : TextureInfo} (h : Bare a) {v : JVal} (hv : (textureInfoC E).enc a = .ok v) :
    CleanText (v.print compact 0) ∧ ¬ glossPat <:+: v.print compact 0 ∧ ¬ specularPat <:+: v.print compact 0 := by
  obtain ⟨o, ho⟩ : ∃ o : Option JVal, omitInt.enc a.texCoord = .ok o ∧ ∀ w ∈ o, w = .num (printInt a.texCoord) := by
    simp only [omitInt, JC.omitIf]
    split
    · exact ⟨none, rfl, fun w hw => (nomatch hw)⟩
    · exact ⟨some (.num (printInt a.texCoord)), rfl, fun w hw => by cases hw; rfl⟩
  have h1 : E.ext.enc a.extensions = .ok none := by rw [h.1]; rfl
  have h2 : E.extras.enc a.extras = .ok none := by rw [h.2]; rfl
  have henc := cons_enc (name := b!"extensions") h1 (cons_enc (name := b!"extras") h2
    (cons_enc (name := b!"index") (f := JC.int.always) (a := a.index) (v := some (.num (printInt a.index))) rfl
    (cons_enc (name := b!"texCoord") ho.1 (t := ()) (r := FC.nil) rfl)))
  simp only [textureInfoC, JC.struct, henc] at hv
  cases hv
  have hs : ∀ p : Bytes, ∀ c : UInt8, (c ∉ printStr b!"index" ++ b!":" ∧ c ∉ printStr b!"texCoord" ++ b!":") → numChar c = false →
      c ∈ p.takeWhile (· ≠ 44) → ∀ x ∈ (optMember b!"index" (some (.num (printInt a.index))) ++ optMember b!"texCoord" o).map memberText,
      Solid x ∧ Avoids p x := by
    intro p c hk hc hp x hx
    simp only [List.map_append, List.mem_append] at hx
    rcases hx with hx | hx
    · rw [List.mem_singleton.1 hx]
      exact ⟨num_member_solid (by decide) (printInt_number _), num_member_avoids c hk.1 hc hp (printInt_number _)⟩
    · cases ho' : o with
      | none => rw [ho'] at hx; cases hx
      | some w =>
        rw [ho'] at hx
        rw [List.mem_singleton.1 hx, ho.2 w ho']
        exact ⟨num_member_solid (by decide) (printInt_number _), num_member_avoids c hk.2 hc hp (printInt_number _)⟩
  have hG := hs glossPat 103 (by decide) (by decide) (by decide)
  have hS := hs specularPat 112 (by decide) (by decide) (by decide)
  have hj := joinC_solid (l := (optMember b!"index" (some (.num (printInt a.index))) ++ optMember b!"texCoord" o).map memberText)
    (by simp [optMember]) (fun x hx => (hG x hx).1)
  have e : (JVal.obj (optMember b!"extensions" none ++ (optMember b!"extras" none ++ (optMember b!"index" (some (.num (printInt a.index))) ++
      (optMember b!"texCoord" o ++ []))))).print compact 0 =
      frame false ((optMember b!"index" (some (.num (printInt a.index))) ++ optMember b!"texCoord" o).map memberText) false := by
    rw [print_obj]
    simp [frame, optComma, optMember]
  rw [e]
  refine ⟨⟨frame_no_cc hj false false, ?_, ?_⟩, not_infix_frame rfl (by decide) (by decide) (fun x hx => (hG x hx).2) false false,
    not_infix_frame rfl (by decide) (by decide) (fun x hx => (hS x hx).2) false false⟩
  · intro hi
    unfold frame at hi
    generalize joinC _ = x at hj hi
    simp only [optComma, Bool.false_eq_true, if_false, List.nil_append, List.append_nil] at hi
    rcases List.infix_cons_iff.1 hi with hi | hi
    · have := prefix_singleton (List.cons_prefix_cons.1 hi).2
      have hn := hj.ne
      have hh := hj.head.1
      cases x with
      | nil => exact absurd rfl hn
      | cons c x => exact hh this
    · rcases pair_concat hi with hi | hi
      · exact hj.oc hi
      · exact absurd hi.1 (by decide)
  · intro hi
    unfold frame at hi
    generalize joinC _ = x at hj hi
    simp only [optComma, Bool.false_eq_true, if_false, List.nil_append, List.append_nil] at hi
    have hi := infix_skip (d := 44) rfl (by decide) hi
    rcases pair_concat hi with hi | hi
    · exact hj.co hi
    · exact hj.last.1 hi.2

/-- C46, for textures without extras and extensions. -/
theorem C46_bare_textures_partial (E : Env) (hg : GoText E.io) (p : Specular) (h : SpecularOk E.reg 0 p)
    (h1 : ∀ a ∈ p.diffuseTexture, Bare a) (h2 : ∀ a ∈ p.specularGlossinessTexture, Bare a) :
    ∃ text ms, specularText E p = .ok text ∧ Text false (.value (.obj ms)) text ∧
      ∃ p', specularDec E (.obj ms) = .ok p' ∧ SameSpecular p p' := by
  refine C46_round_trip_partial E hg 0 p h ⟨fun a ha v hv => ?_, fun a ha v hv => (bare_text (h2 a ha) hv).1⟩
  obtain ⟨k1, k2, k3⟩ := bare_text (h1 a ha) hv
  exact ⟨k1, fun _ => k2, fun _ => k3⟩

/-! ### The claim for all values is false -/

/-- A material with the default glossiness and with something in the extras of its texture. -/
def lostExtras (x : F64) : Specular :=
  { glossinessFactor := some f64one, diffuseTexture := some { extras := .obj [(b!"glossinessFactor", .num x)] } }

/-- The extras of the texture are removed in place of the glossiness, or what is written is not JSON. -/
theorem C46_texts :
    (specularText ⟨goFloatIO, []⟩ (lostExtras one)).toOption = some b!"{\"diffuseTexture\":{\"extras\":{},\"index\":0},\"glossinessFactor\":1}" ∧
    (specularText ⟨goFloatIO, []⟩ (lostExtras ⟨0x3FF8000000000000⟩)).toOption =
      some b!"{\"diffuseTexture\":{\"extras\":{.5},\"index\":0},\"glossinessFactor\":1}" := by
  decide +kernel

theorem lostExtras_ok (x : F64) (hx : x.finite = true) : SpecularOk [] 5 (lostExtras x) := by
  refine ⟨fun a ha => (nomatch ha), fun a ha => ?_, fun a ha => (nomatch ha), fun y hy => ?_, fun a ha => (nomatch ha)⟩
  · cases ha
    exact ⟨⟨⟨.nil, fun p hp => (nomatch hp)⟩, fun p hp => (nomatch hp)⟩,
      .obj 4 _ ⟨List.pairwise_singleton _ _, fun p hp => by
        rw [List.mem_singleton.1 hp]; exact (show IsUtf8 b!"glossinessFactor" from utf8_ascii (by decide +kernel))⟩
        (fun p hp => by rw [List.mem_singleton.1 hp]; exact .num _ _ hx),
      (show IntOk 0 by unfold IntOk; decide), (show IntOk 0 by unfold IntOk; decide)⟩
  · cases hy; rfl

/-- C46 is false for some values. -/
theorem C46_full_fails : ¬ ∀ p : Specular, SpecularOk [] 5 p →
    ∃ text ms, specularText ⟨goFloatIO, []⟩ p = .ok text ∧ Text false (.value (.obj ms)) text ∧
      ∃ p', specularDec ⟨goFloatIO, []⟩ (.obj ms) = .ok p' ∧ SameSpecular p p' := by
  intro h
  obtain ⟨text, ms, h1, h2, _⟩ := h _ (lostExtras_ok ⟨0x3FF8000000000000⟩ rfl)
  have h3 : specularText ⟨goFloatIO, []⟩ (lostExtras ⟨0x3FF8000000000000⟩) >>= marshalled = .ok (.obj ms) := by
    rw [h1]
    show marshalled text = _
    have hl : text.length ≤ 10000 := by
      have := C46_texts.2
      rw [h1] at this
      cases this
      decide
    have := parseTop_text (w := []) (by simp [IsBlank]) h2 (depthLe_mono (text_depth h2) hl) [] (.inl ⟨_, rfl⟩)
    rw [List.nil_append, List.append_nil] at this
    unfold marshalled
    rw [this]
  have h4 : ((specularText ⟨goFloatIO, []⟩ (lostExtras ⟨0x3FF8000000000000⟩) >>= marshalled).toOption).isNone = true := by decide +kernel
  rw [h3] at h4
  cases h4

/-! ### Examples -/

/-- A material with two textures and a default glossiness. -/
def glossyMaterial : Specular :=
  { diffuseFactor := some #v[half, one, one, one], diffuseTexture := some { index := 3, texCoord := 1 }, specularFactor := some #v[one, one, one],
    glossinessFactor := some one, specularGlossinessTexture := some { index := 4 } }

example : (∀ a ∈ glossyMaterial.diffuseTexture, Bare a) ∧ (∀ a ∈ glossyMaterial.specularGlossinessTexture, Bare a) :=
  ⟨fun a ha => by cases ha; exact ⟨rfl, rfl⟩, fun a ha => by cases ha; exact ⟨rfl, rfl⟩⟩

example : SpecularOk [] 0 glossyMaterial := by
  have e : ExtOk [] 0 [] := ⟨⟨.nil, fun p hp => (nomatch hp)⟩, fun p hp => (nomatch hp)⟩
  refine ⟨?_, ?_, ?_, ?_, ?_⟩
  · intro a ha; cases ha; decide +kernel
  · intro a ha; cases ha; exact ⟨e, .null _, by unfold IntOk; decide, by unfold IntOk; decide⟩
  · intro a ha; cases ha; decide +kernel
  · intro a ha; cases ha; decide +kernel
  · intro a ha; cases ha; exact ⟨e, .null _, by unfold IntOk; decide, by unfold IntOk; decide⟩

example : (specularText ⟨goFloatIO, []⟩ glossyMaterial).toOption =
    some b!"{\"diffuseFactor\":[0.5,1,1,1],\"diffuseTexture\":{\"index\":3,\"texCoord\":1},\"specularGlossinessTexture\":{\"index\":4}}" := by
  decide +kernel

end Gltf
