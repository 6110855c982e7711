/-
The text of a texture transform.
-/
import Verif.Lemmas.Surgery2
import Verif.Lemmas.GoFloat
import Verif.Lemmas.JsonDoc
import Verif.Lemmas.Float

namespace Gltf
open Spec

/-- Negative zero. -/
def negZero : F64 := ⟨0x8000000000000000⟩

/-- Printing and reading of numbers, with the texts that the code searches for. -/
structure GoText (io : FloatIO) : Prop where
  laws : FloatLaws io
  one : io.fmt Spec.one = b!"1"
  zero : io.fmt Spec.zero = b!"0"
  negZero : io.fmt Gltf.negZero = b!"-0"
  finite : ∀ s x, io.parse s = some x → x.finite = true

theorem nearest_finite {neg : Bool} {m : Nat} {e : Int} {x : F64} (h : nearest neg m e = some x) : x.finite = true := by
  unfold nearest at h
  split at h
  all_goals
    dsimp only at h
    split at h
    · rename_i hm
      cases h
      simp only [F64.finite, (make64 hm).1, decide_eq_true_eq]
      exact hm
    · cases h

theorem go_text : GoText goFloatIO where
  laws := go_laws
  one := goFmt_one
  zero := goFmt_zero
  negZero := by decide +kernel
  finite s x h := by
    have h : parseFloat s = some x := h
    unfold parseFloat at h
    split at h <;> exact nearest_finite h

theorem encList_floats (E : Env) : ∀ {l : List F64}, (∀ x ∈ l, x.finite = true) → encList E.float l = .ok ((l.map E.io.fmt).map .num)
  | [], _ => rfl
  | x :: l, h => by
    have h1 : E.float.enc x = .ok (.num (E.io.fmt x)) := by simp [Env.float, JC.float, h x (by simp)]
    simp only [encList, h1, encList_floats E fun y hy => h y (List.mem_cons_of_mem x hy)]
    rfl

theorem array_enc (E : Env) {n : Nat} {v : Vector F64 n} (h : ∀ x ∈ v.toList, x.finite = true) :
    (JC.array n E.float).enc v = .ok (.arr ((v.toList.map E.io.fmt).map .num)) := by
  simp only [JC.array, encList_floats E h]
  rfl

/-- The text of a member whose value is an array of numbers. -/
theorem memberText_arr (k : Bytes) {l : List Bytes} (h : l ≠ []) :
    memberText (k, .arr (l.map .num)) = (printStr k ++ b!":[") ++ joinC l ++ b!"]" := by
  unfold memberText
  rw [print_arr l h]
  simp

theorem fmts_chars {io : FloatIO} (hf : FloatLaws io) {l : List F64} (h : ∀ x ∈ l, x.finite = true) :
    ∀ s ∈ l.map io.fmt, Plain s ∧ ∀ c ∈ s, numChar c = true := by
  intro s hs
  obtain ⟨x, hx, rfl⟩ := List.mem_map.1 hs
  have := hf.number x (h x hx)
  exact ⟨number_plain this, (number_chars this).2⟩

theorem array_member_solid {io : FloatIO} (hf : FloatLaws io) {k : Bytes} (hk : ∀ c ∈ printStr k ++ b!":[", c ≠ 44 ∧ c ≠ 123 ∧ c ≠ 125)
    {l : List F64} (h0 : l ≠ []) (h : ∀ x ∈ l, x.finite = true) : Solid (memberText (k, .arr ((l.map io.fmt).map .num))) := by
  rw [memberText_arr k (by simpa using h0)]
  exact solid_array (by decide) hk (by simpa using h0) fun s hs => (fmts_chars hf h s hs).1

theorem num_member_solid {k lit : Bytes} (hk : ∀ c ∈ printStr k ++ b!":", c ≠ 44 ∧ c ≠ 123 ∧ c ≠ 125) (h : IsNumber lit) :
    Solid (memberText (k, .num lit)) := by
  have := solid_of_plain (plain_append hk (number_plain h))
  have e : memberText (k, .num lit) = printStr k ++ b!":" ++ lit := by simp [memberText, JVal.print]
  rw [e]
  exact this

theorem array_member_avoids {io : FloatIO} (hf : FloatLaws io) {k p : Bytes} (c : UInt8) (hk : c ∉ printStr k ++ b!":[")
    (hc : c ∉ b!"]" ∧ c ≠ 44 ∧ numChar c = false) (hp : c ∈ p.takeWhile (· ≠ 44)) {l : List F64} (h0 : l ≠ [])
    (h : ∀ x ∈ l, x.finite = true) : Avoids p (memberText (k, .arr ((l.map io.fmt).map .num))) := by
  rw [memberText_arr k (by simpa using h0)]
  exact avoids_of_not_mem c (not_mem_array hk hc.1 hc.2.1 hc.2.2 fun s hs => (fmts_chars hf h s hs).2) hp

theorem num_member_avoids {k lit p : Bytes} (c : UInt8) (hk : c ∉ printStr k ++ b!":") (hc : numChar c = false)
    (hp : c ∈ p.takeWhile (· ≠ 44)) (h : IsNumber lit) : Avoids p (memberText (k, .num lit)) := by
  have e : memberText (k, .num lit) = printStr k ++ b!":" ++ lit := by simp [memberText, JVal.print]
  rw [e]
  refine avoids_of_not_mem c (fun hm => ?_) hp
  rcases List.mem_append.1 hm with hm | hm
  · exact hk hm
  · rw [(number_chars h).2 c hm] at hc; cases hc

/-! ### The codec whose text is written -/

/-- The members that stay. -/
def transformOut (E : Env) : JC TextureTransform :=
  .struct
    (fun s => (s.offset, s.rotation, s.scale, s.texCoord, ()))
    (fun t => { offset := t.1, rotation := t.2.1, scale := t.2.2.1, texCoord := t.2.2.2.1 })
    (.cons b!"offset" ((JC.array 2 E.float).omitIf (· == emptyPair)) <|
     .cons b!"rotation" E.omitZero <|
     .cons b!"scale" ((JC.array 2 E.float).omitIf fun s => s == transformScale || s == emptyPair) <|
     .cons b!"texCoord" omitIndex <|
     .nil)

/-- Values that can be printed. -/
structure TransformOk (t : TextureTransform) : Prop where
  offset : ∀ x ∈ t.offset.toList, x.finite = true
  rotation : t.rotation.finite = true
  scale : ∀ x ∈ t.scale.toList, x.finite = true
  texCoord : ∀ i ∈ t.texCoord, IntOk i

theorem same_zero {x : F64} (h : Same x Spec.zero) : x = Spec.zero ∨ x = negZero := by
  have : x.mag = 0 := by
    rcases h with h | h
    · subst h; decide
    · exact (isZero_iff x).1 h.1
  have := (isZero_iff x).2 this
  unfold IsZero at this
  rcases this with h | h
  · left; cases x; simp at h; subst h; rfl
  · right; cases x; simp at h; subst h; rfl

theorem pair_cases {v : Vector F64 2} (hv : ∀ x ∈ v.toList, x.finite = true) (h : arrayEq v emptyPair = true) :
    v = #v[Spec.zero, Spec.zero] ∨ v = #v[Spec.zero, negZero] ∨ v = #v[negZero, Spec.zero] ∨ v = #v[negZero, negZero] := by
  have h := (arrayEq_iff hv (by decide +kernel)).1 h
  have h0 := same_zero (h 0)
  have h1 := same_zero (h 1)
  have e : v = #v[v[0], v[1]] := by
    ext i hi
    match i, hi with
    | 0, _ => rfl
    | 1, _ => rfl
  rw [e]
  simp only [Fin.getElem_fin] at h0 h1
  have h0 : v[0] = Spec.zero ∨ v[0] = negZero := h0
  have h1 : v[1] = Spec.zero ∨ v[1] = negZero := h1
  rcases h0 with h0 | h0 <;> rcases h1 with h1 | h1 <;> rw [h0, h1] <;> simp

theorem pair_ones {v : Vector F64 2} (hv : ∀ x ∈ v.toList, x.finite = true) (h : arrayEq v transformScale = true) : v = transformScale := by
  have h := (arrayEq_iff hv (by decide +kernel)).1 h
  have h0 : v[0] = Spec.one := same_eq (h 0) (by decide +kernel)
  have h1 : v[1] = Spec.one := same_eq (h 1) (by decide +kernel)
  have e : v = #v[v[0], v[1]] := by
    ext i hi
    match i, hi with
    | 0, _ => rfl
    | 1, _ => rfl
  rw [e, h0, h1]
  rfl

/-- A field in the encoding of a texture transform. -/
def rotationVal (E : Env) (x : F64) : Option JVal := if x.feq f64zero then none else some (.num (E.io.fmt x))

theorem rotation_enc (E : Env) {x : F64} (h : x.finite = true) : E.omitZero.enc x = .ok (rotationVal E x) := by
  unfold Env.omitZero JC.omitIf rotationVal
  cases hx : x.feq f64zero with
  | true => simp [hx]
  | false => simp [hx, Env.float, JC.float, h, Except.map]

theorem texCoord_enc (o : Option Int) : omitIndex.enc o = .ok (o.map fun i => .num (printInt i)) := by
  cases o <;> rfl

theorem transform_enc (E : Env) {t : TextureTransform} (h : TransformOk t) : (transformC' E).enc t = .ok (.obj
    (optMember b!"offset" (some (.arr ((t.offset.toList.map E.io.fmt).map .num))) ++ (optMember b!"rotation" (rotationVal E t.rotation) ++
    (optMember b!"scale" (some (.arr ((t.scale.toList.map E.io.fmt).map .num))) ++
    (optMember b!"texCoord" (t.texCoord.map fun i => .num (printInt i)) ++ []))))) := by
  have h1 : ∀ v : Vector F64 2, (∀ x ∈ v.toList, x.finite = true) →
      (JC.array 2 E.float).always.enc v = .ok (some (.arr ((v.toList.map E.io.fmt).map .num))) := by
    intro v hv
    simp only [JC.always, array_enc E hv]
    rfl
  have := cons_enc (name := b!"offset") (h1 _ h.offset) (cons_enc (name := b!"rotation") (rotation_enc E h.rotation)
    (cons_enc (name := b!"scale") (h1 _ h.scale) (cons_enc (name := b!"texCoord") (texCoord_enc t.texCoord) (t := ()) (r := FC.nil) rfl)))
  simp only [transformC', JC.struct, this]
  rfl

theorem transformOut_enc (E : Env) {t : TextureTransform} (h : TransformOk t) : (transformOut E).enc t = .ok (.obj
    (optMember b!"offset" (if t.offset = emptyPair then none else some (.arr ((t.offset.toList.map E.io.fmt).map .num))) ++
    (optMember b!"rotation" (rotationVal E t.rotation) ++
    (optMember b!"scale" (if t.scale = transformScale ∨ t.scale = emptyPair then none else
      some (.arr ((t.scale.toList.map E.io.fmt).map .num))) ++
    (optMember b!"texCoord" (t.texCoord.map fun i => .num (printInt i)) ++ []))))) := by
  have h1 : ∀ (v : Vector F64 2) (p : Vector F64 2 → Bool) (P : Prop) [Decidable P], (p v = true ↔ P) → (∀ x ∈ v.toList, x.finite = true) →
      ((JC.array 2 E.float).omitIf p).enc v = .ok (if P then none else some (.arr ((v.toList.map E.io.fmt).map .num))) := by
    intro v p P _ hP hv
    by_cases hp : P
    · simp only [JC.omitIf, hP.2 hp, if_true, if_pos hp]
    · have : p v = false := by rw [← Bool.not_eq_true, hP]; exact hp
      simp only [JC.omitIf, this, if_neg hp, array_enc E hv]
      rfl
  have := cons_enc (name := b!"offset") (h1 _ (· == emptyPair) (t.offset = emptyPair) (by simp) h.offset)
    (cons_enc (name := b!"rotation") (rotation_enc E h.rotation)
    (cons_enc (name := b!"scale") (h1 _ (fun s => s == transformScale || s == emptyPair) (t.scale = transformScale ∨ t.scale = emptyPair) (by simp) h.scale)
      (cons_enc (name := b!"texCoord") (texCoord_enc t.texCoord) (t := ()) (r := FC.nil) rfl)))
  simp only [transformOut, JC.struct, this]
  rfl

/-- The pieces for a field that may be missing. -/
def optItem (k : Bytes) (o : Option JVal) : List Bytes := (optMember k o).map memberText

theorem optItem_some (k : Bytes) (v : JVal) : optItem k (some v) = [memberText (k, v)] := rfl

theorem optItem_none (k : Bytes) : optItem k none = [] := rfl

theorem rotation_item (E : Env) (hf : FloatLaws E.io) {x : F64} (h : x.finite = true) (p : Bytes) (c : UInt8)
    (hk : c ∉ printStr b!"rotation" ++ b!":") (hc : numChar c = false) (hp : c ∈ p.takeWhile (· ≠ 44)) :
    ∀ s ∈ optItem b!"rotation" (rotationVal E x), Solid s ∧ Avoids p s := by
  unfold rotationVal
  cases x.feq f64zero with
  | true => exact fun s hs => by cases hs
  | false =>
    intro s hs
    have hs : s ∈ [memberText (b!"rotation", .num (E.io.fmt x))] := hs
    rw [List.mem_singleton.1 hs]
    exact ⟨num_member_solid (by decide) (hf.number x h), num_member_avoids c hk hc hp (hf.number x h)⟩

theorem texCoord_item (o : Option Int) (p : Bytes) (c : UInt8) (hk : c ∉ printStr b!"texCoord" ++ b!":") (hc : numChar c = false)
    (hp : c ∈ p.takeWhile (· ≠ 44)) : ∀ s ∈ optItem b!"texCoord" (o.map fun i => .num (printInt i)), Solid s ∧ Avoids p s := by
  cases o with
  | none => exact fun s hs => by cases hs
  | some i =>
    intro s hs
    rw [List.mem_singleton.1 hs]
    exact ⟨num_member_solid (by decide) (printInt_number i), num_member_avoids c hk hc hp (printInt_number i)⟩

theorem pair_ne {v : Vector F64 2} : v.toList ≠ [] := by
  intro h
  have := congrArg List.length h
  simp at this

theorem transform_text (E : Env) (hg : GoText E.io) {t : TextureTransform} (h : TransformOk t) {v : JVal}
    (hv : (transformOut E).enc t = .ok v) : transformText E t = .ok (v.print compact 0) := by
  rw [transformOut_enc E h] at hv
  cases hv
  unfold transformText
  rw [transform_enc E h]
  generalize hR : rotationVal E t.rotation = oR
  generalize hT : (t.texCoord.map fun i => JVal.num (printInt i)) = oT
  generalize hO : JVal.arr ((t.offset.toList.map E.io.fmt).map .num) = vO
  generalize hS : JVal.arr ((t.scale.toList.map E.io.fmt).map .num) = vS
  have r1 := fun p => rotation_item E hg.laws h.rotation p
  have t1 := fun p => texCoord_item t.texCoord p
  rw [hR] at r1
  rw [hT] at t1
  have sO : Solid (memberText (b!"offset", vO)) := by
    rw [← hO]; exact array_member_solid hg.laws (by decide) pair_ne h.offset
  have sS : Solid (memberText (b!"scale", vS)) := by
    rw [← hS]; exact array_member_solid hg.laws (by decide) pair_ne h.scale
  have aO : ∀ p, 108 ∈ p.takeWhile (· ≠ 44) → Avoids p (memberText (b!"offset", vO)) := by
    intro p hp
    rw [← hO]; exact array_member_avoids hg.laws 108 (by decide) (by decide) hp pair_ne h.offset
  have aS : ∀ p, 102 ∈ p.takeWhile (· ≠ 44) → Avoids p (memberText (b!"scale", vS)) := by
    intro p hp
    rw [← hS]; exact array_member_avoids hg.laws 102 (by decide) (by decide) hp pair_ne h.scale
  show Except.ok (sanitizeJSON _) = _
  -- the text at first
  have f0 := print_framed (optMember b!"offset" (some vO) ++ (optMember b!"rotation" oR ++ (optMember b!"scale" (some vS) ++ (optMember b!"texCoord" oT ++ []))))
  generalize (JVal.obj (optMember b!"offset" (some vO) ++ (optMember b!"rotation" oR ++ (optMember b!"scale" (some vS) ++
    (optMember b!"texCoord" oT ++ []))))).print compact 0 = x0 at f0 ⊢
  simp only [List.map_append, List.append_nil] at f0
  -- the scale
  have f1 : Framed (optItem b!"offset" (some vO) ++ (optItem b!"rotation" oR ++ (optItem b!"scale" (if t.scale = transformScale ∨ t.scale = emptyPair then none else some vS)
      ++ optItem b!"texCoord" oT)))
      (if arrayEq t.scale transformScale then removeProperty b!"\"scale\":[1,1]" x0
       else if arrayEq t.scale emptyPair then removeProperty b!"\"scale\":[0,0]" x0 else x0) := by
    have remove : ∀ p, p.head? = some 34 → 108 ∈ p.takeWhile (· ≠ 44) → memberText (b!"scale", vS) = p →
        Framed (optItem b!"offset" (some vO) ++ (optItem b!"rotation" oR ++ (optItem b!"scale" none ++ optItem b!"texCoord" oT))) (removeProperty p x0) := by
      intro p h34 hp he
      have := remove_framed (p := p) (a := optItem b!"offset" (some vO) ++ optItem b!"rotation" oR) (b := optItem b!"texCoord" oT) (t := x0) h34 ?_ ?_ ?_
      · simpa [optItem_none] using this
      · intro x hx
        simp only [List.mem_append] at hx
        rcases hx with (hx | hx) | hx
        · rw [List.mem_singleton.1 hx]; exact sO
        · exact (r1 p 108 (by decide) (by decide) hp x hx).1
        · exact (t1 p 108 (by decide) (by decide) hp x hx).1
      · intro x hx
        simp only [List.mem_append] at hx
        rcases hx with hx | hx
        · rw [List.mem_singleton.1 hx]; exact aO p hp
        · exact (r1 p 108 (by decide) (by decide) hp x hx).2
      · rw [← he]
        simpa [optItem, optMember] using f0
    have keep : Framed (optItem b!"offset" (some vO) ++ (optItem b!"rotation" oR ++ (optItem b!"scale" (some vS) ++ optItem b!"texCoord" oT))) x0 := f0
    have miss : ∀ p, p.head? = some 34 → 108 ∈ p.takeWhile (· ≠ 44) → 125 ∉ p → p.getLast? ≠ some 44 → Avoids p (memberText (b!"scale", vS)) →
        removeProperty p x0 = x0 := by
      intro p h34 hp h1 h2 ha
      refine remove_miss h34 h1 h2 (by simp [optItem, optMember]) ?_ ?_ keep
      · intro x hx
        simp only [List.mem_append] at hx
        rcases hx with hx | hx | hx | hx
        · rw [List.mem_singleton.1 hx]; exact sO
        · exact (r1 p 108 (by decide) (by decide) hp x hx).1
        · rw [List.mem_singleton.1 hx]; exact sS
        · exact (t1 p 108 (by decide) (by decide) hp x hx).1
      · intro x hx
        simp only [List.mem_append] at hx
        rcases hx with hx | hx | hx | hx
        · rw [List.mem_singleton.1 hx]; exact aO p hp
        · exact (r1 p 108 (by decide) (by decide) hp x hx).2
        · rw [List.mem_singleton.1 hx]; exact ha
        · exact (t1 p 108 (by decide) (by decide) hp x hx).2
    by_cases c1 : arrayEq t.scale transformScale = true
    · have e := pair_ones h.scale c1
      rw [if_pos c1, if_pos (.inl e)]
      refine remove _ rfl (by decide) ?_
      rw [← hS, e]
      simp [transformScale, show E.io.fmt f64one = b!"1" from hg.one]
      rfl
    · rw [if_neg c1]
      have hne : t.scale ≠ transformScale := by
        intro e
        exact c1 (by rw [e]; decide +kernel)
      by_cases c2 : arrayEq t.scale emptyPair = true
      · rw [if_pos c2]
        rcases pair_cases h.scale c2 with e | e | e | e
        · rw [if_pos (.inr e)]
          refine remove _ rfl (by decide) ?_
          rw [← hS, e]
          simp [hg.zero]
          rfl
        all_goals
          rw [if_neg (by rw [e]; decide +kernel), miss _ rfl (by decide) (by decide) (by decide) ?_]
          · exact keep
          · rw [← hS, e]
            simp only [Vector.toList_mk, List.map_cons, List.map_nil, hg.zero, hg.negZero]
            exact avoids_of_check (by decide +kernel) (by decide +kernel)
      · rw [if_neg c2, if_neg]
        · exact keep
        · rintro (e | e)
          · exact hne e
          · exact c2 (by rw [e]; decide +kernel)
  generalize (if arrayEq t.scale transformScale then removeProperty b!"\"scale\":[1,1]" x0
       else if arrayEq t.scale emptyPair then removeProperty b!"\"scale\":[0,0]" x0 else x0) = x1 at f1
  have s1 : ∀ p, 102 ∈ p.takeWhile (· ≠ 44) → ∀ x ∈ optItem b!"scale" (if t.scale = transformScale ∨ t.scale = emptyPair then none else some vS),
      Solid x ∧ Avoids p x := by
    intro p hp x hx
    split at hx
    · cases hx
    · rw [List.mem_singleton.1 hx]; exact ⟨sS, aS p hp⟩
  generalize (if t.scale = transformScale ∨ t.scale = emptyPair then none else some vS) = oS at f1 s1 ⊢
  have rest : ∀ p, 102 ∈ p.takeWhile (· ≠ 44) → ∀ x ∈ optItem b!"rotation" oR ++ (optItem b!"scale" oS ++ optItem b!"texCoord" oT),
      Solid x ∧ Avoids p x := by
    intro p hp x hx
    simp only [List.mem_append] at hx
    rcases hx with hx | hx | hx
    · exact r1 p 102 (by decide) (by decide) hp x hx
    · exact s1 p hp x hx
    · exact t1 p 102 (by decide) (by decide) hp x hx
  generalize hL : optItem b!"rotation" oR ++ (optItem b!"scale" oS ++ optItem b!"texCoord" oT) = L at f1 rest
  have all1 : ∀ x ∈ optItem b!"offset" (some vO) ++ L, Solid x := by
    intro x hx
    rcases List.mem_append.1 hx with hx | hx
    · rw [List.mem_singleton.1 hx]; exact sO
    · exact (rest b!"\"offset\":[0,0]" (by decide) x hx).1
  -- the offset
  have f2 : Framed (optItem b!"offset" (if t.offset = emptyPair then none else some vO) ++ L)
      (if arrayEq t.offset emptyPair then removeProperty b!"\"offset\":[0,0]" x1 else x1) := by
    by_cases c : arrayEq t.offset emptyPair = true
    · rw [if_pos c]
      rcases pair_cases h.offset c with e | e | e | e
      · rw [if_pos (show t.offset = emptyPair from e)]
        refine remove_framed (a := []) (b := L) rfl (fun x hx => (rest b!"\"offset\":[0,0]" (by decide) x hx).1) (by simp) ?_
        have : memberText (b!"offset", vO) = b!"\"offset\":[0,0]" := by
          rw [← hO, e]
          simp [hg.zero]
          rfl
        rw [optItem_some, this] at f1
        exact f1
      all_goals
        rw [if_neg (by rw [e]; decide +kernel), remove_miss rfl (by decide) (by decide) (by simp [optItem, optMember]) all1 ?_ f1]
        · exact f1
        · intro x hx
          rcases List.mem_append.1 hx with hx | hx
          · rw [List.mem_singleton.1 hx, ← hO, e]
            simp only [Vector.toList_mk, List.map_cons, List.map_nil, hg.zero, hg.negZero]
            exact avoids_of_check (by decide +kernel) (by decide +kernel)
          · exact (rest _ (by decide) x hx).2
    · rw [if_neg c, if_neg]
      · exact f1
      · intro e
        exact c (by rw [e]; decide +kernel)
  rw [sanitize_framed ?_ f2, print_obj]
  · rw [← hL]
    simp [optItem]
  · intro x hx
    rcases List.mem_append.1 hx with hx | hx
    · split at hx
      · cases hx
      · exact all1 x (List.mem_append_left _ hx)
    · exact all1 x (List.mem_append_right _ hx)

/-! ### Reading back -/

theorem compact_blank : compact.Blank := ⟨fun _ _ hc => (nomatch hc), fun _ hc => (nomatch hc)⟩

theorem struct_dec_congr {σ τ : Type} {to : σ → τ} {of : τ → σ} {f g : FC τ} (h : f.dec = g.dec) :
    (JC.struct to of f).dec = (JC.struct to of g).dec := by
  funext v a
  cases v with
  | obj vs => simp only [JC.struct, decAll_congr h]
  | _ => rfl

theorem transformOut_dec (E : Env) (v : JVal) : (transformOut E).dec v { scale := transformScale } = transformDec E v := by
  unfold transformOut transformDec transformC'
  rw [struct_dec_congr]
  rfl

/-- What is read back. -/
def normTransform (t : TextureTransform) : TextureTransform where
  offset := t.offset
  rotation := if t.rotation.feq f64zero then f64zero else t.rotation
  scale := if t.scale = emptyPair then transformScale else t.scale
  texCoord := t.texCoord

theorem omitZero_fe {E : Env} (hf : FloatLaws E.io) :
    E.omitZero.Law 0 f64zero (fun x => x.finite = true) (fun x => if x.feq f64zero then f64zero else x) :=
  omitIf_law (float_law hf 0 _) (fun x _ hp => by simp [hp]) (fun x hx hp => ⟨hx, by simp [hp]⟩)

theorem transformOut_law {E : Env} (hf : FloatLaws E.io) :
    (transformOut E).Law 2 { scale := transformScale } TransformOk normTransform := by
  have f1 : ((JC.array 2 E.float).omitIf (· == emptyPair)).Law 1 emptyPair (fun a => ∀ x ∈ a.toList, x.finite = true) id :=
    omitIf_law (array_float_law hf 2 _) (fun a _ hp => by simpa using hp) (fun a ha _ => ⟨ha, rfl⟩)
  have f3 : ((JC.array 2 E.float).omitIf fun s => s == transformScale || s == emptyPair).Law 1 transformScale
      (fun a => ∀ x ∈ a.toList, x.finite = true) (fun s => if s = emptyPair then transformScale else s) := by
    refine omitIf_law (array_float_law hf 2 _) (fun a _ hp => ?_) (fun a ha hp => ⟨ha, ?_⟩)
    · simp only [Bool.or_eq_true, beq_iff_eq] at hp
      rcases hp with hp | hp
      · split
        · rfl
        · exact hp
      · exact if_pos hp
    · simp only [Bool.or_eq_false_iff, beq_eq_false_iff_ne] at hp
      exact if_neg hp.2
  refine struct_law (D := 1) (cons_law (by by_names) f1 (cons_law (by by_names) ((omitZero_fe hf).mono (by omega))
    (cons_law (by by_names) f3 (cons_law (by by_names) (omitIndex_fe.mono (by omega)) (nil_law 1))))) (by by_names) ?_ ?_ ?_
  · rfl
  · exact fun t h => ⟨h.offset, h.rotation, h.scale, h.texCoord, trivial⟩
  · exact fun t => rfl

end Gltf
