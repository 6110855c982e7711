/-
Property C102: a mesh that was written is read from the file.
-/
import Verif.Props.Build
import Verif.Props.ModelerRead
import Verif.Lemmas.DocSound

namespace Gltf

open Spec

/-- A reader that depends on the document only through `ReadAccessor`. -/
def ViaAccessor {β : Type} (f : TypedReader β) : Prop :=
  (∀ d d' : Document, (∀ acr buffer p, readAccessor d' acr buffer p = readAccessor d acr buffer p) →
    ∀ acr buffer b0 p, f d' acr buffer b0 p = f d acr buffer b0 p) ∧
  ∀ (d d' : Document) (acr : Accessor), (∀ b0 p s, readAccessor d acr b0 p = .ok s → readAccessor d' acr b0 p = .ok s) →
    ∀ buffer b0 p r, f d acr buffer b0 p = .ok r → f d' acr buffer b0 p = .ok r

theorem via_body {β : Type} {check : ComponentType → AccessorType → Res Unit} {zero : β} {conv : List β → Slice → Res (List β)} :
    ViaAccessor fun doc acr buffer b0 p => (do
      check acr.componentType acr.type
      let data ← readAccessor doc acr b0 p
      let buffer ← makeBufferOf zero acr.count buffer
      conv buffer data : Res (List β)) := by
  constructor
  · intro d d' h acr buffer b0 p
    simp only [h]
  · intro d d' acr h buffer b0 p r hr
    obtain ⟨u, h1, h2⟩ := Res.bind_eq_ok.1 hr
    obtain ⟨s, h3, h4⟩ := Res.bind_eq_ok.1 h2
    exact Res.bind_eq_ok.2 ⟨u, h1, Res.bind_eq_ok.2 ⟨s, h _ _ _ h3, h4⟩⟩

theorem via_all (cf : ColorFns) : ViaAccessor readIndices ∧ ViaAccessor readNormal ∧ ViaAccessor readTangent ∧ ViaAccessor readTextureCoord ∧
    ViaAccessor readWeights ∧ ViaAccessor readJoints ∧ ViaAccessor readPosition ∧ ViaAccessor (readColor cf) ∧
    ViaAccessor (readColor64 cf) ∧ ViaAccessor readInverseBindMatrices :=
  ⟨via_body, via_body, via_body, via_body, via_body, via_body, via_body, via_body, via_body, via_body⟩

/-- C102: later calls do not change what the typed readers return. -/
theorem C102_later (cf : ColorFns) (doc doc' : Document) (h : History doc doc') (i : Nat) (acr : Accessor) (ha : doc.accessors[i]? = some (some acr)) :
    doc'.accessors[i]? = some (some acr) ∧
    (∀ buffer b0 p r, readIndices doc acr buffer b0 p = .ok r → readIndices doc' acr buffer b0 p = .ok r) ∧
    (∀ buffer b0 p r, readNormal doc acr buffer b0 p = .ok r → readNormal doc' acr buffer b0 p = .ok r) ∧
    (∀ buffer b0 p r, readTangent doc acr buffer b0 p = .ok r → readTangent doc' acr buffer b0 p = .ok r) ∧
    (∀ buffer b0 p r, readTextureCoord doc acr buffer b0 p = .ok r → readTextureCoord doc' acr buffer b0 p = .ok r) ∧
    (∀ buffer b0 p r, readWeights doc acr buffer b0 p = .ok r → readWeights doc' acr buffer b0 p = .ok r) ∧
    (∀ buffer b0 p r, readJoints doc acr buffer b0 p = .ok r → readJoints doc' acr buffer b0 p = .ok r) ∧
    (∀ buffer b0 p r, readPosition doc acr buffer b0 p = .ok r → readPosition doc' acr buffer b0 p = .ok r) ∧
    (∀ buffer b0 p r, readColor cf doc acr buffer b0 p = .ok r → readColor cf doc' acr buffer b0 p = .ok r) ∧
    (∀ buffer b0 p r, readColor64 cf doc acr buffer b0 p = .ok r → readColor64 cf doc' acr buffer b0 p = .ok r) ∧
    ∀ buffer b0 p r, readInverseBindMatrices doc acr buffer b0 p = .ok r → readInverseBindMatrices doc' acr buffer b0 p = .ok r := by
  have hk : ∀ b0 p s, readAccessor doc acr b0 p = .ok s → readAccessor doc' acr b0 p = .ok s := fun b0 p s => h.extends.readAccessor
  obtain ⟨v1, v2, v3, v4, v5, v6, v7, v8, v9, v10⟩ := via_all cf
  exact ⟨h.extends.accessor ha, v1.2 _ _ _ hk, v2.2 _ _ _ hk, v3.2 _ _ _ hk, v4.2 _ _ _ hk, v5.2 _ _ _ hk, v6.2 _ _ _ hk, v7.2 _ _ _ hk,
    v8.2 _ _ _ hk, v9.2 _ _ _ hk, v10.2 _ _ _ hk⟩

/-- The data part of a document is that of a document built with the writing functions; meshes, nodes and the rest are arbitrary. -/
structure Spec.Assembled (built doc : Document) : Prop where
  buffers : doc.buffers = built.buffers
  views : doc.bufferViews = built.bufferViews
  accessors : doc.accessors = built.accessors

theorem assembled_reads {built doc : Document} (h : Assembled built doc) (acr : Accessor) (buffer : Bytes) (p : Pools) :
    readAccessor doc acr buffer p = readAccessor built acr buffer p := by
  rw [(SameData.mk h.views (by rw [h.buffers]) : SameData built doc).readAccessor]

/-- C102: a document that was put together around what the writing functions wrote is encoded, in either format, and decoded; all
readers then return what they returned before. -/
theorem C102_file (E : DecEnv) (hf : FloatLaws E.json.io) (o : EncOpts) (h1 : IsBlank o.pre) (h2 : IsBlank o.indent) (n : Nat) (hn : n + 7 ≤ 10000)
    (built doc : Document) (h : History newDocument built) (hd : Assembled built doc) (hok : DocumentOk E.json.reg n doc)
    (hi : none ∉ doc.images) (hb : ∀ b, some b ∈ built.buffers → b.data ≠ [] ∧ b.data.length < 4294967296) (fs : Option CreateFS)
    (hl : (encode E.json E.url o doc {} fs).sink.out.length < 4294967296) (s : Source)
    (hs : s.data = (encode E.json E.url o doc {} fs).sink.out) (ha : o.asBinary = true → ∀ c ∈ s.sizes, (c.2 + 1) % 4 = 0) :
    (encode E.json E.url o doc {} fs).result = .ok () ∧
    ∃ doc', (decodeSource E s).result = .ok doc' ∧ SameDocument o.asBinary doc doc' ∧ doc'.accessors = built.accessors ∧
      doc'.bufferViews = built.bufferViews ∧ ∀ acr buffer p, readAccessor doc' acr buffer p = readAccessor built acr buffer p := by
  have hlen : built.buffers.length ≤ 1 := (C76_new_document built h).2.2.2.2.2.2.2.2.2
  have hu : NoUris built := noUri_history (fun b hb => by cases hb) h
  have wf := C11_new_document built h
  have hst : AllStorable o.asBinary doc.buffers := by
    rw [hd.buffers]
    match hbs : built.buffers with
    | [] => trivial
    | [p] =>
      obtain ⟨b, e, hbl⟩ := wf.buffers p (by rw [hbs]; simp)
      subst e
      exact allStorable_concat (bs := []) trivial (.inl (hu b (by rw [hbs]; simp))) hbl (hb b (by rw [hbs]; simp)).1
    | _ :: _ :: _ => rw [hbs] at hlen; simp at hlen
  have hud : NoUris doc := fun b hm => hu b (by rw [← hd.buffers]; exact hm)
  have hsv : Saveable E n o.asBinary doc := ⟨hn, hok, stored_noUri hst hud, hi⟩
  have hres : (encode E.json E.url o doc {} fs).result = .ok () := by
    obtain ⟨e1, e2⟩ := encode_noUri (E := E.json) (U := E.url) (o := o) (w := {})
      (fun hx => by obtain ⟨b, e, -⟩ := wf.buffers _ (by rw [← hd.buffers]; exact hx); cases e) hud fs
    rw [e1]
    refine C31_encodes E hf o n doc hsv (fun b hh => ?_) {} rfl none (by simp)
    have hm := List.mem_of_head? hh
    rw [hd.buffers] at hm
    obtain ⟨b', e, hbl⟩ := wf.buffers _ hm
    cases e
    have := (hb b hm).2
    omega
  have key : ∃ doc', (decodeSource E s).result = .ok doc' ∧ SameDocument o.asBinary doc doc' := by
    cases ho : o.asBinary with
    | false =>
      rw [ho] at hsv
      obtain ⟨doc', k1, k2, -⟩ := C39_round_trip_partial E hf o ho h1 h2 n doc hsv fs hres s [] (by rw [List.append_nil]; exact hs)
      exact ⟨doc', k1, k2⟩
    | true =>
      rw [ho] at hsv
      exact C31_glb_round_trip E hf o ho h1 h2 n doc hsv fs hres hl s hs (.inl (ha ho))
  obtain ⟨doc', k1, k2⟩ := key
  obtain ⟨q1, q2, q3, -⟩ := C49_reads_same _ _ _ k2
  exact ⟨hres, doc', k1, k2, q1.trans hd.accessors, q2.trans hd.views, fun acr buffer p => (q3 acr buffer p).trans (assembled_reads hd acr buffer p)⟩

theorem history_append {a b c : Document} (h : History a b) (g : History b c) : History a c := by
  induction h with
  | nil => exact g
  | step op hp _ ih => exact .step op hp (ih g)

/-- C102: the indices and the positions of a mesh, written between other calls, are read from the file: the same numbers, the same
floats. -/
theorem C102_mesh (E : DecEnv) (hf : FloatLaws E.json.io) (o : EncOpts) (h1 : IsBlank o.pre) (h2 : IsBlank o.indent) (n : Nat) (hn : n + 7 ≤ 10000)
    (d0 d1 d2 d3 built doc : Document) (indices : Slice) (positions : List (V3 F32)) (i j : Nat)
    (g0 : History newDocument d0) (w1 : writeIndices indices d0 = (d1, .ok i))
    (g1 : History d1 d2) (w2 : writePosition positions d2 = (d3, .ok j)) (g2 : History d3 built)
    (hd : Assembled built doc) (hok : DocumentOk E.json.reg n doc) (hi : none ∉ doc.images)
    (hb : ∀ b, some b ∈ built.buffers → b.data ≠ [] ∧ b.data.length < 4294967296) (fs : Option CreateFS)
    (hl : (encode E.json E.url o doc {} fs).sink.out.length < 4294967296) (s : Source)
    (hs : s.data = (encode E.json E.url o doc {} fs).sink.out) (ha : o.asBinary = true → ∀ c ∈ s.sizes, (c.2 + 1) % 4 = 0) :
    (encode E.json E.url o doc {} fs).result = .ok () ∧
    ∃ doc' a b, (decodeSource E s).result = .ok doc' ∧ doc'.meshes = doc.meshes ∧
      doc'.accessors[i]? = some (some a) ∧ doc'.accessors[j]? = some (some b) ∧
      (∀ b0 p, ∃ r, readIndices doc' a [] b0 p = .ok r ∧ scalars indices = some (r.map fun x => x.toNat)) ∧
      ∀ b0 p, readPosition doc' b [] b0 p = .ok positions := by
  have r1 : (WriteOp.indices indices).run d0 = (d1, .ok ()) := discard_ok.2 ⟨i, w1⟩
  have r2 : (WriteOp.position positions).run d2 = (d3, .ok ()) := discard_ok.2 ⟨j, w2⟩
  have t2 : History d2 built := .step (.position positions) (by rw [r2]; rfl) (by rw [r2]; exact g2)
  have t1 : History d1 built := history_append g1 t2
  have t0 : History newDocument built := history_append g0 (.step (.indices indices) (by rw [r1]; rfl) (by rw [r1]; exact t1))
  obtain ⟨hres, doc', k1, k2, k3, k4, k5⟩ := C102_file E hf o h1 h2 n hn built doc t0 hd hok hi hb fs hl s hs ha
  obtain ⟨a, a1, a2⟩ := C25_indices_round_trip indices d0 d1 i w1
  obtain ⟨b, b1, b2⟩ := (C24_float_round_trip d2 d3 j).2.2.1 positions w2
  have cf : ColorFns := ⟨fun _ => ⟨0, 0, 0⟩, fun _ => ⟨0, 0, 0, 0⟩, fun _ => ⟨0, 0, 0⟩, fun _ => ⟨0, 0, 0, 0⟩⟩
  obtain ⟨p1, p2, -⟩ := C102_later cf d1 built t1 i a a1
  obtain ⟨q1, -, -, -, -, -, -, q2, -⟩ := C102_later cf d3 built g2 j b b1
  obtain ⟨v1, -, -, -, -, -, v2, -⟩ := via_all cf
  refine ⟨hres, doc', a, b, k1, ?_, by rw [k3]; exact p1, by rw [k3]; exact q1, fun b0 p => ?_, fun b0 p => ?_⟩
  · exact (congrArg Document.meshes k2.rest :)
  · obtain ⟨r, x1, x2⟩ := a2 b0 p
    exact ⟨r, by rw [v1.1 built doc' k5]; exact p2 _ _ _ _ x1, x2⟩
  · rw [v2.1 built doc' k5]
    exact q2 _ _ _ _ (b2 b0 p)

/-- A triangle: the document of the example of C100 with a mesh. -/
def triangle : Document :=
  { built with meshes := [some { primitives := some [some { attributes := some [(b!"POSITION", 1)], indices := some 0 }] }] }

/-- What was written before the positions, and after. -/
def beforePositions : Document := ((WriteOp.indices ⟨.base .u16 .sc, [0, 1, 2]⟩).run newDocument).1

def afterPositions : Document :=
  ((WriteOp.position [⟨⟨0⟩, ⟨0⟩, ⟨0⟩⟩, ⟨⟨0⟩, ⟨0⟩, ⟨0⟩⟩]).run beforePositions).1

def afterNormals : Document := ((WriteOp.normal [⟨⟨0⟩, ⟨0⟩, ⟨0⟩⟩, ⟨⟨0x3f800000⟩, ⟨0⟩, ⟨0⟩⟩, ⟨⟨0⟩, ⟨0x3f800000⟩, ⟨0⟩⟩]).run afterPositions).1

theorem built_eq : built = ((WriteOp.image b!"picture" b!"image/png" (.ok [1, 2, 3])).run afterNormals).1 := rfl

theorem with_mesh {r : Registry} {n : Nat} {d : Document} (g : DocumentOk r n d) {m : Mesh} (h : MeshOk r n m) :
    DocumentOk r n { d with meshes := [some m] } := by
  refine { g with meshes := ?_ }
  intro o ho a hx
  simp only [List.mem_singleton] at ho
  subst ho
  cases hx
  exact h

theorem assembled_mesh (d : Document) (l : List (Option Mesh)) : Assembled d { d with meshes := l } := ⟨rfl, rfl, rfl⟩

theorem triangle_ok (r : Registry) : DocumentOk r 0 triangle := by
  have g := (built_plain.grow (newDocument_growable r true) (by decide +kernel) (by decide +kernel)).ok
  refine with_mesh g ?_
  have z := mesh_zero r 0
  refine { z with primitives := ?_ }
  intro l hl o ho a hx
  cases hl
  simp only [List.mem_singleton] at ho
  subst ho
  cases hx
  have y := primitive_zero r 0
  refine { y with attributes := ?_, indices := ?_ }
  · intro m hm
    cases hm
    refine ⟨⟨by simp, fun p hp => ?_⟩, fun p hp => ?_⟩
    · simp only [List.mem_singleton] at hp
      subst hp
      exact utf8_ascii (by decide)
    · simp only [List.mem_singleton] at hp
      subst hp
      unfold IntOk
      decide
  · intro k hk
    cases hk
    unfold IntOk
    decide

/-- The hypotheses are met. -/
example : History newDocument newDocument ∧ writeIndices ⟨.base .u16 .sc, [0, 1, 2]⟩ newDocument = (beforePositions, .ok 0) ∧
    writePosition [⟨⟨0⟩, ⟨0⟩, ⟨0⟩⟩, ⟨⟨0⟩, ⟨0⟩, ⟨0⟩⟩] beforePositions = (afterPositions, .ok 1) ∧
    History afterPositions built ∧ Assembled built triangle ∧ triangle.images.map (·.isSome) = [true] ∧
    built.buffers.map (·.map (·.data.length)) = [some 71] ∧ (encode witnessEnv witnessUrl {} triangle {} none).sink.out.length < 4294967296 := by
  refine ⟨.nil _, Prod.ext rfl (by decide +kernel), Prod.ext rfl (by decide +kernel), ?_, assembled_mesh _ _, by decide +kernel, by decide +kernel,
    by decide +kernel⟩
  rw [built_eq]
  refine .step (.normal [⟨⟨0⟩, ⟨0⟩, ⟨0⟩⟩, ⟨⟨0x3f800000⟩, ⟨0⟩, ⟨0⟩⟩, ⟨⟨0⟩, ⟨0x3f800000⟩, ⟨0⟩⟩]) (by decide +kernel) ?_
  exact .step (.image b!"picture" b!"image/png" (.ok [1, 2, 3])) (by decide +kernel) (.nil _)

end Gltf
