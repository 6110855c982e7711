/-
Encoding does not change when the defaults of a document are made explicit.
-/
import Verif.Lemmas.JsonDoc

namespace Gltf

open Spec

/-- A value and its normal form have the same encoding. -/
def JC.Stable {α : Type} (c : JC α) (ok : α → Prop) (norm : α → α) : Prop := ∀ a, ok a → c.enc (norm a) = c.enc a

/-- The same for a field. -/
def FE.Stable {α : Type} (f : FE α) (ok : α → Prop) (norm : α → α) : Prop := ∀ a, ok a → f.enc (norm a) = f.enc a

/-- The same for the fields of a struct. -/
def FC.Stable {τ : Type} (fc : FC τ) (ok : τ → Prop) (norm : τ → τ) : Prop := ∀ t, ok t → fc.enc (norm t) = fc.enc t

theorem id_fe {α : Type} {f : FE α} {ok : α → Prop} : f.Stable ok id := fun _ _ => rfl

theorem nil_fc {τ : Type} {fc : FC τ} {ok : τ → Prop} : fc.Stable ok id := fun _ _ => rfl

theorem cons_stable {α τ : Type} {name : Bytes} {f : FE α} {r : FC τ} {ok : α → Prop} {oks : τ → Prop} {norm : α → α} {norms : τ → τ}
    (hf : f.Stable ok norm) (hr : r.Stable oks norms) :
    (FC.cons name f r).Stable (fun t => ok t.1 ∧ oks t.2) (fun t => (norm t.1, norms t.2)) := by
  rintro ⟨a, t⟩ ⟨ha, ht⟩
  simp only [FC.cons, hf a ha, hr t ht]

theorem skip_stable {α τ : Type} {zero : α} {r : FC τ} (start : α) {oks : τ → Prop} {norms : τ → τ} (hr : r.Stable oks norms) :
    (FC.skip zero r).Stable (fun t => oks t.2) (fun t => (start, norms t.2)) := fun t ht => hr t.2 ht

theorem struct_stable {σ τ : Type} {to : σ → τ} {of : τ → σ} {fc : FC τ} {ok : σ → Prop} {oks : τ → Prop} {norm : σ → σ}
    {norms : τ → τ} (h : fc.Stable oks norms) (hok : ∀ s, ok s → oks (to s)) (hn : ∀ s, to (norm s) = norms (to s)) :
    (JC.struct to of fc).Stable ok norm := by
  intro s hs
  simp only [JC.struct, hn, h _ (hok s hs)]

theorem withDefault_stable {σ : Type} {c : JC σ} {d : σ} {ok : σ → Prop} {norm : σ → σ} (h : c.Stable ok norm) :
    (c.withDefault d).Stable ok norm := h

theorem always_stable {α : Type} {c : JC α} {ok : α → Prop} {norm : α → α} (h : c.Stable ok norm) : c.always.Stable ok norm := by
  intro a ha
  simp only [JC.always, h a ha]

theorem ptr_stable {α : Type} {c : JC α} {ok : α → Prop} {norm : α → α} (h : c.Stable ok norm) :
    (JC.ptr c).Stable (fun o => ∀ a ∈ o, ok a) (Option.map norm) := by
  intro o ho
  cases o with
  | none => rfl
  | some a => exact h a (ho a rfl)

theorem opt_stable {α : Type} {c : JC α} {ok : α → Prop} {norm : α → α} (h : c.Stable ok norm) :
    ((JC.ptr c).omitIf Option.isNone).Stable (fun o => ∀ a ∈ o, ok a) (Option.map norm) := by
  intro o ho
  have h' := ptr_stable h o ho
  cases o with
  | none => rfl
  | some a => simp only [JC.omitIf, Option.map_some, Option.isNone_some] at *; rw [h']

theorem encList_stable {α : Type} {c : JC α} {ok : α → Prop} {norm : α → α} (h : c.Stable ok norm) :
    ∀ l : List α, (∀ a ∈ l, ok a) → encList c (l.map norm) = encList c l
  | [], _ => rfl
  | a :: l, hl => by
    simp only [List.map_cons, encList, h a (hl a (by simp)), encList_stable h l fun b hb => hl b (by simp [hb])]

theorem ptrs_stable {α : Type} {c : JC α} {ok : α → Prop} {norm : α → α} (h : c.Stable ok norm) :
    ((JC.list (JC.ptr c)).omitIf List.isEmpty).Stable (fun l => ∀ o ∈ l, ∀ a ∈ o, ok a) (List.map (Option.map norm)) := by
  intro l hl
  simp only [JC.omitIf, JC.list, encList_stable (ptr_stable h) l hl, List.isEmpty_map]

variable {E : Env}

theorem sameAll_refl {n : Nat} (a : Vector F64 n) : SameAll a a := fun _ => .inl rfl

theorem orDefault_stable {n : Nat} {d e d' : Vector F64 n} (hd : d = d') (he : e = zeros)
    (hdf : ∀ x ∈ d'.toList, x.finite = true) (hzf : ∀ x ∈ (zeros (n := n)).toList, x.finite = true) :
    ((JC.array n E.float).omitIf fun m => arrayEq m d || arrayEq m e).Stable (fun a => ∀ x ∈ a.toList, x.finite = true) (orDefault d') := by
  subst hd he
  intro a ha
  unfold orDefault
  split
  · rename_i h
    have h1 : (arrayEq a d || arrayEq a zeros) = true := by
      rw [Bool.or_eq_true, arrayEq_iff ha hdf, arrayEq_iff ha hzf]; exact h
    have h2 : arrayEq d d = true := (arrayEq_iff hdf hdf).2 (sameAll_refl d)
    simp only [JC.omitIf, h1, h2, Bool.true_or, if_true]
  · rfl

theorem orZeros_stable {n : Nat} {d : Vector F64 n} (hd : d = zeros) (hzf : ∀ x ∈ (zeros (n := n)).toList, x.finite = true) :
    ((JC.array n E.float).omitIf fun m => arrayEq m d).Stable (fun a => ∀ x ∈ a.toList, x.finite = true) orZeros := by
  subst hd
  intro a ha
  unfold orZeros
  split
  · rename_i h
    have h1 : arrayEq a zeros = true := (arrayEq_iff ha hzf).2 h
    have h2 : arrayEq (zeros (n := n)) zeros = true := (arrayEq_iff hzf hzf).2 (sameAll_refl _)
    simp only [JC.omitIf, h1, h2, if_true]
  · rfl

theorem omitFloatIf_stable (d : F64) (hd : d.finite = true) :
    (E.omitFloatIf d).Stable (fun o => ∀ x ∈ o, x.finite = true) (fun o => some (o.getD d)) := by
  intro o ho
  cases o with
  | none =>
    have : d.feq d = true := (feq_iff hd hd).2 (.inl rfl)
    simp only [Env.omitFloatIf, JC.omitIf, Option.getD_none, Option.all_some, this, Option.all_none, if_true]
  | some x => rfl

theorem omitOne_stable : (E.omitFloatIf f64one).Stable (fun o => ∀ x ∈ o, x.finite = true) (fun o => some (o.getD one)) :=
  omitFloatIf_stable f64one (by decide +kernel)

theorem omitHalf_stable : (E.omitFloatIf f64half).Stable (fun o => ∀ x ∈ o, x.finite = true) (fun o => some (o.getD half)) :=
  omitFloatIf_stable f64half (by decide +kernel)

theorem baseColorFactor_stable :
    ((JC.ptr (JC.array 4 E.float)).omitIf fun m => m.all (arrayEq · white)).Stable
      (fun o => ∀ a ∈ o, ∀ x ∈ a.toList, x.finite = true) (fun o => some (o.getD ones)) := by
  intro o ho
  cases o with
  | none =>
    have h1 : arrayEq ones white = true := by decide +kernel
    simp only [JC.omitIf, Option.getD_none, Option.all_some, h1, Option.all_none, if_true]
  | some x => rfl

theorem bufferC_stable (n : Nat) : (bufferC E).Stable (BufferOk E.reg n) normBuffer := fun _ _ => rfl

theorem nodeC_stable (n : Nat) : (nodeC E).Stable (NodeOk E.reg n) normNode :=
  withDefault_stable (struct_stable
    (cons_stable (orDefault_stable (d' := identity) (by decide +kernel) (by decide +kernel) (by decide +kernel) (by decide +kernel)) <|
     cons_stable (orDefault_stable (d' := unitRotation) (by decide +kernel) (by decide +kernel) (by decide +kernel) (by decide +kernel)) <|
     cons_stable (orDefault_stable (d' := ones) (by decide +kernel) (by decide +kernel) (by decide +kernel) (by decide +kernel)) <|
     cons_stable (orZeros_stable (d := defaultTranslation) (by decide +kernel) (by decide +kernel)) <|
     nil_fc (ok := fun _ => True))
    (fun _ h => ⟨h.matrix, h.rotation, h.scale, h.translation, trivial⟩) (fun _ => rfl))

theorem normalTextureC_stable (n : Nat) : (normalTextureC E).Stable (NormalTextureOk E.reg n) normNormalTexture :=
  withDefault_stable (struct_stable
    (cons_stable (id_fe (ok := fun _ => True)) <| cons_stable (id_fe (ok := fun _ => True)) <|
     cons_stable (id_fe (ok := fun _ => True)) <| cons_stable (id_fe (ok := fun _ => True)) <|
     cons_stable omitOne_stable <| nil_fc (ok := fun _ => True))
    (fun _ h => ⟨trivial, trivial, trivial, trivial, h.scale, trivial⟩) (fun _ => rfl))

theorem occlusionTextureC_stable (n : Nat) : (occlusionTextureC E).Stable (OcclusionTextureOk E.reg n) normOcclusionTexture :=
  withDefault_stable (struct_stable
    (cons_stable (id_fe (ok := fun _ => True)) <| cons_stable (id_fe (ok := fun _ => True)) <|
     cons_stable (id_fe (ok := fun _ => True)) <| cons_stable (id_fe (ok := fun _ => True)) <|
     cons_stable omitOne_stable <| nil_fc (ok := fun _ => True))
    (fun _ h => ⟨trivial, trivial, trivial, trivial, h.strength, trivial⟩) (fun _ => rfl))

theorem pbrC_stable (n : Nat) : (pbrC E).Stable (PBRMetallicRoughnessOk E.reg n) normPBR :=
  withDefault_stable (struct_stable
    (cons_stable (id_fe (ok := fun _ => True)) <| cons_stable (id_fe (ok := fun _ => True)) <|
     cons_stable baseColorFactor_stable <| cons_stable (id_fe (ok := fun _ => True)) <|
     cons_stable omitOne_stable <| cons_stable omitOne_stable <| nil_fc (ok := fun _ => True))
    (fun _ h => ⟨trivial, trivial, h.baseColorFactor, trivial, h.metallicFactor, h.roughnessFactor, trivial⟩) (fun _ => rfl))

theorem materialC_stable (n : Nat) : (materialC E).Stable (MaterialOk E.reg n) normMaterial :=
  withDefault_stable (struct_stable
    (cons_stable (orZeros_stable (d := defaultTranslation) (by decide +kernel) (by decide +kernel)) <|
     cons_stable omitHalf_stable <|
     cons_stable (id_fe (ok := fun _ => True)) <| cons_stable (id_fe (ok := fun _ => True)) <| cons_stable (id_fe (ok := fun _ => True)) <|
     cons_stable (opt_stable (pbrC_stable n)) <|
     cons_stable (opt_stable (normalTextureC_stable n)) <|
     cons_stable (opt_stable (occlusionTextureC_stable n)) <|
     nil_fc (ok := fun _ => True))
    (fun _ h => ⟨h.emissiveFactor, h.alphaCutoff, trivial, trivial, trivial, h.pbrMetallicRoughness, h.normalTexture,
      h.occlusionTexture, trivial⟩) (fun _ => rfl))

theorem assetC_stable : (assetC E).Stable (fun a => a.version ≠ []) normAsset := by
  intro a ha
  have : normAsset a = a := by simp [normAsset, ha]
  rw [this]

theorem documentC_stable (n : Nat) : (documentC E).Stable (fun d => DocumentOk E.reg n d ∧ d.asset.version ≠ []) normDocument :=
  struct_stable
    (cons_stable (ptrs_stable (bufferC_stable n)) <|
     cons_stable (id_fe (ok := fun _ => True)) <| cons_stable (id_fe (ok := fun _ => True)) <|
     cons_stable (id_fe (ok := fun _ => True)) <| cons_stable (id_fe (ok := fun _ => True)) <|
     cons_stable (id_fe (ok := fun _ => True)) <| cons_stable (id_fe (ok := fun _ => True)) <|
     cons_stable (always_stable assetC_stable) <|
     cons_stable (id_fe (ok := fun _ => True)) <| cons_stable (id_fe (ok := fun _ => True)) <| cons_stable (id_fe (ok := fun _ => True)) <|
     cons_stable (ptrs_stable (materialC_stable n)) <|
     cons_stable (id_fe (ok := fun _ => True)) <|
     cons_stable (ptrs_stable (nodeC_stable n)) <|
     nil_fc (ok := fun _ => True))
    (fun _ h => ⟨h.1.buffers, trivial, trivial, trivial, trivial, trivial, trivial, h.2, trivial, trivial, trivial, h.1.materials, trivial,
      h.1.nodes, trivial⟩) (fun _ => rfl)

end Gltf
