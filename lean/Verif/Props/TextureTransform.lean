/-
Property C45: texture transforms.
-/
import Verif.Lemmas.Transform
import Verif.Lemmas.Keeps
import Verif.Lemmas.TextPrint

namespace Gltf
open Spec

namespace Spec

/-- Offset and scale with which a texture transform does nothing. -/
def noOffset : Vector F64 2 := #v[zero, zero]
@[inherit_doc noOffset]
def noScale : Vector F64 2 := #v[one, one]

/-- The same texture transform, but for a scale of zero, which is read as one, and the sign of a rotation by zero. -/
structure SameTransform (t t' : TextureTransform) : Prop where
  offset : t'.offset = t.offset
  rotation : Same t.rotation t'.rotation
  scale : t'.scale = if t.scale = #v[zero, zero] then noScale else t.scale
  texCoord : t'.texCoord = t.texCoord

end Spec

theorem optMember_mem {k k' : Bytes} {o : Option JVal} : (∃ v, (k', v) ∈ optMember k o) ↔ k' = k ∧ o.isSome = true := by
  cases o with
  | none => simp [optMember]
  | some v => simp [optMember]

/-- C45: the text of a texture transform is one JSON object, it has no member for a default offset or scale, and
it reads back. -/
theorem C45_round_trip (E : Env) (hg : GoText E.io) (t : TextureTransform) (h : TransformOk t) :
    ∃ text ms, transformText E t = .ok text ∧ Text false (.value (.obj ms)) text ∧
      ((∃ v, (b!"offset", v) ∈ ms) ↔ t.offset ≠ noOffset) ∧
      ((∃ v, (b!"scale", v) ∈ ms) ↔ t.scale ≠ noScale ∧ t.scale ≠ #v[zero, zero]) ∧
      ∃ t', transformDec E (.obj ms) = .ok t' ∧ SameTransform t t' ∧ t'.scaleOrDefault = t.scaleOrDefault := by
  obtain ⟨v, h1, h2, h3, h4⟩ := transformOut_law hg.laws t h
  have hms := transformOut_enc E h
  rw [h1] at hms
  generalize hm : (optMember b!"offset" (if t.offset = emptyPair then none else some (.arr ((t.offset.toList.map E.io.fmt).map .num))) ++
    (optMember b!"rotation" (rotationVal E t.rotation) ++
    (optMember b!"scale" (if t.scale = transformScale ∨ t.scale = emptyPair then none else
      some (.arr ((t.scale.toList.map E.io.fmt).map .num))) ++
    (optMember b!"texCoord" (t.texCoord.map fun i => JVal.num (printInt i)) ++ [])))) = ms at hms
  cases hms
  have hp := print_text (L := compact) compact_blank _ h2 0
  refine ⟨_, ms, transform_text E hg h h1, hp, ?_, ?_, normTransform t, (transformOut_dec E _).symm.trans h4, ?_, ?_⟩
  · rw [← hm]
    simp only [List.mem_append, exists_or, optMember_mem]
    simp
    exact Iff.rfl
  · rw [← hm]
    simp only [List.mem_append, exists_or, optMember_mem]
    simp [-Vector.mk_eq, -Vector.eq_mk]
    exact Iff.rfl
  · refine ⟨rfl, ?_, rfl, rfl⟩
    show Same t.rotation (if t.rotation.feq f64zero then f64zero else t.rotation)
    split
    · rename_i hz
      exact (feq_iff h.rotation (by decide)).1 hz
    · exact .inl rfl
  · unfold TextureTransform.scaleOrDefault
    show (if arrayEq (if t.scale = emptyPair then transformScale else t.scale) emptyPair then transformScale else
      (if t.scale = emptyPair then transformScale else t.scale)) = _
    by_cases hz : t.scale = emptyPair
    · rw [if_pos hz, if_pos (show arrayEq t.scale emptyPair = true by rw [hz]; decide +kernel)]
      exact if_neg (by decide +kernel)
    · rw [if_neg hz]

/-! ### Decoded texture transforms -/

theorem keeps_float {io : FloatIO} (h : ∀ s x, io.parse s = some x → x.finite = true) : JC.Keeps (JC.float io).dec (fun x => x.finite = true) := by
  intro v a a' ha e
  simp only [JC.float] at e
  split at e
  · split at e
    · rename_i hx
      cases e; exact h _ _ hx
    · cases e
  · cases e; exact ha
  · cases e

theorem keeps_int : JC.Keeps JC.int.dec IntOk := by
  intro v a a' ha e
  simp only [JC.int] at e
  split at e
  · split at e
    · split at e
      · rename_i hx
        cases e; exact hx
      · cases e
    · cases e
  · cases e; exact ha
  · cases e

theorem keeps_decArray {α : Type} {c : JC α} {P : α → Prop} (h : JC.Keeps c.dec P) (hz : P c.zero) : ∀ (cur : List α) (vs : List JVal) (l : List α),
    (∀ a ∈ cur, P a) → decArray c cur vs = .ok l → ∀ a ∈ l, P a := by
  intro cur
  induction cur with
  | nil => intro vs l _ e; cases e; simp
  | cons x cur ih =>
    intro vs l hc e
    have hr := fun a ha => hc a (List.mem_cons_of_mem x ha)
    cases vs with
    | nil =>
      simp only [decArray] at e
      cases h' : decArray c cur [] with
      | error e' => rw [h'] at e; cases e
      | ok l' =>
        rw [h'] at e
        cases e
        exact List.forall_mem_cons.2 ⟨hz, ih _ _ hr h'⟩
    | cons v vs =>
      simp only [decArray] at e
      cases h1 : c.dec v x with
      | error e' => rw [h1] at e; cases e
      | ok a =>
        cases h' : decArray c cur vs with
        | error e' => rw [h1, h'] at e; cases e
        | ok l' =>
          rw [h1, h'] at e
          cases e
          exact List.forall_mem_cons.2 ⟨h _ _ _ (hc x (by simp)) h1, ih _ _ hr h'⟩

theorem keeps_array {α : Type} {n : Nat} {c : JC α} {P : α → Prop} (h : JC.Keeps c.dec P) (hz : P c.zero) :
    JC.Keeps (JC.array n c).dec (fun v => ∀ a ∈ v.toList, P a) := by
  intro v a a' ha e
  cases v with
  | arr vs =>
    simp only [JC.array] at e
    have key : ∀ (x : Except Err { l // decArray c a.toList vs = .ok l }),
        x.map (fun l => (⟨l.1.toArray, by simpa using decArray_length c _ _ _ l.2⟩ : Vector α n)) = .ok a' → ∀ b ∈ a'.toList, P b := by
      intro x hx
      cases x with
      | error e => cases hx
      | ok l =>
        cases hx
        intro b hb
        exact keeps_decArray h hz _ _ _ ha l.2 b (by simpa using hb)
    exact key _ e
  | null => cases e; exact ha
  | _ => cases e

theorem transformDec_ok {E : Env} (hg : GoText E.io) {v : JVal} {t : TextureTransform} (h : transformDec E v = .ok t) : TransformOk t := by
  have hf := keeps_float hg.finite
  have := JC.keeps_struct (to := fun s : TextureTransform => (s.offset, s.rotation, s.scale, s.texCoord, ()))
    (of := fun t => { offset := t.1, rotation := t.2.1, scale := t.2.2.1, texCoord := t.2.2.2.1 })
    (P := fun t => (∀ x ∈ t.1.toList, x.finite = true) ∧ t.2.1.finite = true ∧ (∀ x ∈ t.2.2.1.toList, x.finite = true) ∧
      (∀ i, t.2.2.2.1 = some i → IntOk i) ∧ True) (Q := TransformOk)
    (FC.keeps_cons (P := fun a : Vector F64 2 => ∀ x ∈ a.toList, x.finite = true) (f := (JC.array 2 E.float).always) (name := b!"offset")
      (keeps_array hf rfl) <|
     FC.keeps_cons (P := fun x : F64 => x.finite = true) (f := E.omitZero) (name := b!"rotation") hf <|
     FC.keeps_cons (P := fun a : Vector F64 2 => ∀ x ∈ a.toList, x.finite = true) (f := (JC.array 2 E.float).always) (name := b!"scale")
      (keeps_array hf rfl) <|
     FC.keeps_cons (P := fun o : Option Int => ∀ i, o = some i → IntOk i) (f := omitIndex) (name := b!"texCoord")
      (JC.keeps_ptr keeps_int (by show IntOk 0; unfold IntOk; omega)) (FC.keeps_true FC.nil))
    (fun s hs => ⟨hs.offset, hs.rotation, hs.scale, fun i hi => hs.texCoord i hi, trivial⟩)
    (fun t ht => ⟨ht.1, ht.2.1, ht.2.2.1, fun i hi => ht.2.2.2.1 i hi⟩)
  refine this v _ _ ?_ h
  exact ⟨by decide +kernel, by decide +kernel, by decide +kernel, by simp⟩

theorem normTransform_ok {t : TextureTransform} (h : TransformOk t) : TransformOk (normTransform t) where
  offset := h.offset
  rotation := by
    show F64.finite (if t.rotation.feq f64zero then f64zero else t.rotation) = true
    split
    · rfl
    · exact h.rotation
  scale := by
    show ∀ x ∈ (if t.scale = emptyPair then transformScale else t.scale).toList, x.finite = true
    split
    · decide +kernel
    · exact h.scale
  texCoord := h.texCoord

theorem normTransform_rotation (E : Env) (t : TextureTransform) : rotationVal E (normTransform t).rotation = rotationVal E t.rotation := by
  show rotationVal E (if t.rotation.feq f64zero then f64zero else t.rotation) = _
  by_cases h : t.rotation.feq f64zero = true
  · rw [if_pos h]
    unfold rotationVal
    rw [if_pos h, if_pos (by decide)]
  · rw [if_neg h]

theorem normTransform_scale (t : TextureTransform) (f : F64 → Bytes) :
    (if (normTransform t).scale = transformScale ∨ (normTransform t).scale = emptyPair then none else
      some (JVal.arr (((normTransform t).scale.toList.map f).map .num))) =
    if t.scale = transformScale ∨ t.scale = emptyPair then none else some (JVal.arr ((t.scale.toList.map f).map .num)) := by
  have hs : (normTransform t).scale = if t.scale = emptyPair then transformScale else t.scale := rfl
  rw [hs]
  by_cases h : t.scale = emptyPair
  · rw [if_pos h, if_pos (.inl rfl), if_pos (.inr h)]
  · rw [if_neg h]

theorem transformExt_stable {E : Env} (hg : GoText E.io) {v : JVal} {r : Except Err JVal} (h : transformExt E v = .ok r) :
    ∃ w, r = .ok w ∧ JsonOk w ∧ DepthLe 2 w ∧ transformExt E w = .ok (.ok w) := by
  unfold transformExt at h
  cases hd : transformDec E v with
  | error e => rw [hd] at h; cases h
  | ok t =>
    rw [hd] at h
    have ht := transformDec_ok hg hd
    obtain ⟨w, h1, h2, h3, h4⟩ := transformOut_law hg.laws t ht
    rw [transformOut_dec] at h4
    have hn := normTransform_ok ht
    have h1' : (transformOut E).enc (normTransform t) = .ok w := by
      rw [← h1, transformOut_enc E ht, transformOut_enc E hn, normTransform_rotation, normTransform_scale]
      rfl
    obtain ⟨ms, rfl⟩ : ∃ ms, w = .obj ms := by
      rw [transformOut_enc E ht] at h1
      cases h1; exact ⟨_, rfl⟩
    have hp := parseTop_print (L := compact) compact_blank h2 (depthLe_mono h3 (by decide)) 0 [] (.inl ⟨_, rfl⟩)
    rw [List.append_nil] at hp
    have hw : marshalled ((JVal.obj ms).print compact 0) = .ok (.obj ms) := by
      unfold marshalled
      rw [hp]
    have ht1 : (transformText E t >>= marshalled) = .ok (.obj ms) := by
      rw [transform_text E hg ht h1]; exact hw
    have ht2 : (transformText E (normTransform t) >>= marshalled) = .ok (.obj ms) := by
      rw [transform_text E hg hn h1']; exact hw
    refine ⟨.obj ms, ?_, h2, h3, ?_⟩
    · cases h; exact ht1
    · unfold transformExt
      rw [h4]
      show Except.ok (transformText E (normTransform t) >>= marshalled) = _
      rw [ht2]

/-- C45, for documents: a texture transform that was decoded can be written, and decoding what was written gives
the same again. -/
theorem C45_decoded (E : Env) (hg : GoText E.io) (v : JVal) (r : Except Err JVal) (h : transformExt E v = .ok r) :
    ∃ w, r = .ok w ∧ transformExt E w = .ok (.ok w) := by
  obtain ⟨w, h1, -, -, h2⟩ := transformExt_stable hg h
  exact ⟨w, h1, h2⟩

example : GoText goFloatIO := go_text

example : TransformOk { offset := #v[half, zero], rotation := one, scale := #v[one, one], texCoord := some 3 } :=
  ⟨by decide +kernel, by decide +kernel, by decide +kernel, by intro i hi; cases hi; unfold IntOk; omega⟩

example : (transformText ⟨goFloatIO, []⟩ { offset := #v[half, zero], rotation := one, scale := #v[one, one], texCoord := some 3 }).toOption =
    some b!"{\"offset\":[0.5,0],\"rotation\":1,\"texCoord\":3}" := by decide +kernel

example : (transformText ⟨goFloatIO, []⟩ { scale := #v[half, one] }).toOption = some b!"{\"scale\":[0.5,1]}" := by decide +kernel

example : (transformText ⟨goFloatIO, []⟩ {}).toOption = some b!"{}" := by decide +kernel

end Gltf
