/-
Property C40: defaults are stable under round trips.
-/
import Verif.Props.RoundTrip
import Verif.Model.Defaults
import Verif.Lemmas.GoFloat

namespace Gltf

open Spec

/-- The methods of two nodes report the same numbers. -/
structure Spec.SameNode (n n' : Node) : Prop where
  «matrix» : SameAll n'.matrixOrDefault n.matrixOrDefault
  rotation : SameAll n'.rotationOrDefault n.rotationOrDefault
  scale : SameAll n'.scaleOrDefault n.scaleOrDefault
  translation : SameAll n'.translationOrDefault n.translationOrDefault

/-- The methods of two blocks report the same numbers, and the second has no nil pointers. -/
structure Spec.SamePBR (p p' : PBRMetallicRoughness) : Prop where
  color : p'.baseColorFactor = some p.baseColorFactorOrDefault ∧ p'.baseColorFactorOrDefault = p.baseColorFactorOrDefault
  metallic : p'.metallicFactor = some p.metallicFactorOrDefault ∧ p'.metallicFactorOrDefault = p.metallicFactorOrDefault
  roughness : p'.roughnessFactor = some p.roughnessFactorOrDefault ∧ p'.roughnessFactorOrDefault = p.roughnessFactorOrDefault

/-- Pointers that are nil together, and otherwise point to related values. -/
def Spec.SamePtr {α : Type} (R : α → α → Prop) : Option α → Option α → Prop
  | none, none => True
  | some a, some b => R a b
  | _, _ => False

/-- The same for materials and what they contain. -/
structure Spec.SameMaterial (m m' : Material) : Prop where
  cutoff : m'.alphaCutoff = some m.alphaCutoffOrDefault ∧ m'.alphaCutoffOrDefault = m.alphaCutoffOrDefault
  normal : SamePtr (fun t t' => t'.scale = some t.scaleOrDefault ∧ t'.scaleOrDefault = t.scaleOrDefault) m.normalTexture m'.normalTexture
  occlusion : SamePtr (fun t t' => t'.strength = some t.strengthOrDefault ∧ t'.strengthOrDefault = t.strengthOrDefault)
    m.occlusionTexture m'.occlusionTexture
  pbr : SamePtr SamePBR m.pbrMetallicRoughness m'.pbrMetallicRoughness

theorem same_symm {x y : F64} (h : Same x y) : Same y x := by
  rcases h with h | h
  · exact .inl h.symm
  · exact .inr ⟨h.2, h.1⟩

theorem orDefault_method {n : Nat} {d e : Vector F64 n} (he : e = zeros) (hd : arrayEq d e = false) {a : Vector F64 n}
    (ha : ∀ x ∈ a.toList, x.finite = true) (hz : ∀ x ∈ (zeros (n := n)).toList, x.finite = true) :
    SameAll (if arrayEq (orDefault d a) e then d else orDefault d a) (if arrayEq a e then d else a) := by
  subst he
  by_cases h0 : SameAll a zeros
  · have h0' := (arrayEq_iff ha hz).2 h0
    rw [show orDefault d a = d from if_pos (.inr h0), h0', hd]
    exact fun i => .inl rfl
  · have h0' : arrayEq a zeros = false := by
      rw [← Bool.not_eq_true, arrayEq_iff ha hz]
      exact h0
    by_cases h1 : SameAll a d
    · rw [show orDefault d a = d from if_pos (.inl h1), hd, h0']
      exact fun i => same_symm (h1 i)
    · rw [show orDefault d a = a from if_neg (fun h => h.elim h1 h0), h0']
      exact fun i => .inl rfl

theorem normNode_same {r : Registry} {n : Nat} {x : Node} (h : NodeOk r n x) : SameNode x (normNode x) where
  «matrix» := orDefault_method (by decide +kernel) (by decide +kernel) h.matrix (by decide +kernel)
  rotation := orDefault_method (by decide +kernel) (by decide +kernel) h.rotation (by decide +kernel)
  scale := orDefault_method (by decide +kernel) (by decide +kernel) h.scale (by decide +kernel)
  translation := by
    show SameAll (orZeros x.translation) x.translation
    unfold orZeros
    split
    · rename_i h
      exact fun i => same_symm (h i)
    · exact fun i => .inl rfl

theorem normMaterial_same (m : Material) : SameMaterial m (normMaterial m) where
  cutoff := by
    unfold normMaterial Material.alphaCutoffOrDefault
    cases m.alphaCutoff <;> exact ⟨rfl, rfl⟩
  normal := by
    unfold normMaterial
    cases m.normalTexture with
    | none => trivial
    | some t =>
      show _ ∧ _
      unfold normNormalTexture NormalTexture.scaleOrDefault
      cases t.scale <;> exact ⟨rfl, rfl⟩
  occlusion := by
    unfold normMaterial
    cases m.occlusionTexture with
    | none => trivial
    | some t =>
      show _ ∧ _
      unfold normOcclusionTexture OcclusionTexture.strengthOrDefault
      cases t.strength <;> exact ⟨rfl, rfl⟩
  pbr := by
    unfold normMaterial
    cases m.pbrMetallicRoughness with
    | none => trivial
    | some p =>
      refine ⟨?_, ?_, ?_⟩
      · unfold normPBR PBRMetallicRoughness.baseColorFactorOrDefault
        cases p.baseColorFactor <;> exact ⟨rfl, rfl⟩
      · unfold normPBR PBRMetallicRoughness.metallicFactorOrDefault
        cases p.metallicFactor <;> exact ⟨rfl, rfl⟩
      · unfold normPBR PBRMetallicRoughness.roughnessFactorOrDefault
        cases p.roughnessFactor <;> exact ⟨rfl, rfl⟩

/-- C40: after encoding and decoding, the methods of all nodes and materials report what they reported before, and the
pointers with a default are set. -/
theorem C40_defaults (E : DecEnv) (hf : FloatLaws E.json.io) (o : EncOpts) (h1 : IsBlank o.pre) (h2 : IsBlank o.indent) (n : Nat)
    (doc : Document) (hd : Saveable E n o.asBinary doc) (fs : Option CreateFS) (h : (encode E.json E.url o doc {} fs).result = .ok ())
    (hl : (encode E.json E.url o doc {} fs).sink.out.length < 4294967296) :
    ∃ doc', decodeBytes E (encode E.json E.url o doc {} fs).sink.out = .ok doc' ∧
      (∀ (i : Nat) x, doc.nodes[i]? = some (some x) → ∃ x', doc'.nodes[i]? = some (some x') ∧ SameNode x x') ∧
      (∀ (i : Nat) x, doc.materials[i]? = some (some x) → ∃ x', doc'.materials[i]? = some (some x') ∧ SameMaterial x x') := by
  have key : ∃ doc', decodeBytes E (encode E.json E.url o doc {} fs).sink.out = .ok doc' ∧ SameDocument o.asBinary doc doc' := by
    cases ho : o.asBinary with
    | false =>
      obtain ⟨doc', k1, k2, _⟩ := C39_round_trip_partial E hf o ho h1 h2 n doc (by rw [← ho]; exact hd) fs h { data := _ } [] (by rw [List.append_nil])
      exact ⟨doc', k1, k2⟩
    | true => exact C31_glb_round_trip E hf o ho h1 h2 n doc (by rw [← ho]; exact hd) fs h hl { data := _ } rfl (.inl (by simp))
  obtain ⟨doc', k1, k2⟩ := key
  have hn : doc'.nodes = (normDocument doc).nodes := by
    have := congrArg Document.nodes k2.rest
    exact this
  have hm : doc'.materials = (normDocument doc).materials := by
    have := congrArg Document.materials k2.rest
    exact this
  refine ⟨doc', k1, fun i x hx => ⟨normNode x, ?_, ?_⟩, fun i x hx => ⟨normMaterial x, ?_, normMaterial_same x⟩⟩
  · rw [hn]
    show (doc.nodes.map (Option.map normNode))[i]? = _
    rw [List.getElem?_map, hx]
    rfl
  · exact normNode_same (hd.ok.nodes _ (List.mem_of_getElem? hx) _ rfl)
  · rw [hm]
    show (doc.materials.map (Option.map normMaterial))[i]? = _
    rw [List.getElem?_map, hx]
    rfl

/-- The document with three buffers (`threeBuffers_saveable`) has a node and a material with a normal texture. -/
example : threeBuffers.nodes.length = 1 ∧ (threeBuffers.materials.head?.join.bind fun m => m.normalTexture.map fun t => t.scale) = some none := by
  decide

/-- A node as Go writes it. -/
example : ((nodeC ⟨goFloatIO, []⟩).enc { scale := #v[half, one, one] }).toOption.map (JVal.print compact 0) = some b!"{\"scale\":[0.5,1,1]}" := by
  decide +kernel

end Gltf
