/-
Property C100: documents that are built with the writing functions can be stored and are read back.
-/
import Verif.Props.Survive
import Verif.Props.Appends

namespace Gltf

open Spec

/-! ### The buffers of built documents have no URI -/

theorem noUri_withLast {d : Document} {b : Buffer} (h : NoUris d) (hb : b.uri = []) : NoUris (withLast d b) := by
  intro c hc
  rcases List.mem_append.1 hc with hc | hc
  · have hm := List.dropLast_subset _ hc
    unfold ensured at hm
    split at hm
    · rcases List.mem_append.1 hm with hm | hm
      · exact h c hm
      · cases List.mem_singleton.1 hm; rfl
    · exact h c hm
  · cases List.mem_singleton.1 hc
    exact hb

theorem noUri_last {d : Document} {b : Buffer} (h : NoUris d) (hb : (ensured d).buffers.getLast?.join = some b) : b.uri = [] := by
  have hm : some b ∈ (ensured d).buffers := by
    cases hl : (ensured d).buffers.getLast? with
    | none => rw [hl] at hb; cases hb
    | some p =>
      rw [hl] at hb
      cases hb
      exact List.mem_of_getLast? hl
  unfold ensured at hm
  split at hm
  · rcases List.mem_append.1 hm with hm | hm
    · exact h b hm
    · cases List.mem_singleton.1 hm; rfl
  · exact h b hm

theorem noUri_padding {d d' : Document} (h : NoUris d) (hr : ensurePadding d = (d', .ok ())) : NoUris d' := by
  obtain ⟨b, hb, -, rfl⟩ := ensurePadding_ok.1 hr
  have hu := noUri_last h hb
  exact noUri_withLast h hu

theorem noUri_views {target : Target} {data : List Slice} {d d' : Document} {i : Nat} (h : NoUris d)
    (hr : writeBufferViews target data d = (d', .ok i)) : NoUris d' := by
  obtain ⟨stride, size, b, bytes, -, hb, -, -, -, rfl⟩ := writeBufferViews_ok.1 hr
  have hu := noUri_last h hb
  exact fun c hc => noUri_withLast h (b := { b with byteLength := wrap64 (b.byteLength + (size : Nat)), data := bytes }) hu c hc

theorem noUri_core {d d' : Document} (h : NoUris d) (c : CoreWrite d d') : NoUris d' := by
  cases c with
  | accessor hd =>
    obtain ⟨d1, d2, v, h1, h2, rfl, rfl⟩ := writeAccessor_ok.1 hd
    have := noUri_views (noUri_padding h h1) h2
    exact this
  | interleaved hd =>
    obtain ⟨d1, d2, v, h1, h2, rfl, rfl⟩ := writeAccessorsInterleaved_ok.1 hd
    have := noUri_views (noUri_padding h h1) h2
    exact this
  | view hd =>
    have := noUri_views h hd
    exact this

theorem noUri_history {d d' : Document} (h : NoUris d) (hh : History d d') : NoUris d' := by
  induction hh with
  | nil => exact h
  | step op hp rest ih =>
    next d d' =>
    refine ih ?_
    cases hr : op.run d with
    | mk e res =>
      cases res with
      | panic w => rw [hr] at hp; cases hp
      | err x =>
        rcases WriteOp.run_err hr with rfl | h'
        · exact h
        · exact noUri_padding h h'
      | ok u =>
        obtain ⟨d1, hc, hs⟩ := WriteOp.run_core hr
        have : e.buffers = d1.buffers := by rw [hs.rest]
        show NoUris e
        unfold NoUris
        rw [this]
        exact noUri_core h hc

/-! ### C100 -/

theorem newDocument_ok (r : Registry) : DocumentOk r 0 newDocument where
  buffers := by intro o ho; cases ho
  extensions := extOk_nil _ _
  extras := .null 0
  extensionsUsed := by intro t ht; cases ht
  extensionsRequired := by intro t ht; cases ht
  accessors := by intro o ho; cases ho
  animations := by intro t ht; cases ht
  asset := ⟨extOk_nil _ _, .null 0, utf8_ascii (by decide), utf8_ascii (by decide), utf8_ascii (by decide), utf8_ascii (by decide)⟩
  bufferViews := by intro o ho; cases ho
  cameras := by intro t ht; cases ht
  images := by intro t ht; cases ht
  materials := by intro t ht; cases ht
  meshes := by intro t ht; cases ht
  nodes := by intro t ht; cases ht
  samplers := by intro t ht; cases ht
  scene := by intro i hi; cases hi; unfold IntOk; decide
  scenes := by
    intro o ho a ha
    simp only [newDocument, List.mem_cons, List.not_mem_nil, or_false] at ho
    subst ho
    cases ha
    exact ⟨extOk_nil _ _, .null 0, utf8_ascii (by decide), by intro i hi; cases hi⟩
  skins := by intro t ht; cases ht
  textures := by intro t ht; cases ht

theorem newDocument_growable (r : Registry) (bin : Bool) : Growable r 0 bin newDocument :=
  ⟨newDocument_ok r, by simp [newDocument], .inl rfl⟩

theorem stored_noUri {files : Option (Bytes → Bytes × Option Err)} : ∀ {bin : Bool} {l : List (Option Buffer)}, AllStorable bin l →
    (∀ b, some b ∈ l → b.uri = []) → AllStored files bin l
  | _, [], _, _ => trivial
  | _, none :: _, h, _ => h.elim
  | bin, some b :: l, h, hu => by
    refine ⟨h.1, ?_, stored_noUri h.2.2 fun b hb => hu b (List.mem_cons_of_mem _ hb)⟩
    have h0 : b.uri = [] := hu b (by simp)
    cases h.2.1 with
    | chunk h1 h2 h3 => exact .chunk h1 h2 h3
    | inline h1 h2 h3 => exact .inline h1 h2 h3
    | embedded t h1 h2 => exact .embedded t h1 h2
    | file name h1 hn h2 h3 => exact absurd h0 (path_ne h1.1)

theorem encodeBuffers_noUri (U : UrlLib) (fs : Option CreateFS) : ∀ {l : List (Option Buffer)}, none ∉ l →
    (∀ b, some b ∈ l → b.uri = []) → encodeBuffers U l fs = (.ok (), fs, [])
  | [], _, _ => rfl
  | none :: _, h, _ => absurd List.mem_cons_self h
  | some b :: l, h, hu => by
    unfold encodeBuffers
    rw [if_pos (.inr (.inl (hu b List.mem_cons_self)))]
    exact encodeBuffers_noUri U fs (fun hn => h (List.mem_cons_of_mem _ hn)) fun b hb => hu b (List.mem_cons_of_mem _ hb)

/-- Without URIs the file system plays no part. -/
theorem encode_noUri {E : Env} {U : UrlLib} {o : EncOpts} {doc : Document} (hn : none ∉ doc.buffers) (hu : NoUris doc) (w : Sink)
    (fs : Option CreateFS) : encode E U o doc w fs = { encode E U o doc w none with fsys := fs } ∧ (encode E U o doc w fs).created = [] := by
  have hd : ∀ (n : Nat) (fs : Option CreateFS), encodeBuffers U (doc.buffers.drop n) fs = (.ok (), fs, []) := fun n fs =>
    encodeBuffers_noUri U fs (fun h => hn (List.mem_of_mem_drop h)) fun b hb => hu b (List.mem_of_mem_drop hb)
  unfold encode
  cases marshalJSONDoc E o doc with
  | err e => exact ⟨rfl, rfl⟩
  | panic m => exact ⟨rfl, rfl⟩
  | ok text =>
    cases o.asBinary with
    | true =>
      simp only [if_true]
      rcases writeBinary text (binBuffer doc) w with ⟨r, w'⟩
      cases r with
      | err e => exact ⟨rfl, rfl⟩
      | panic m => exact ⟨rfl, rfl⟩
      | ok c => simp only [hd, and_self]
    | false =>
      simp only [Bool.false_eq_true, if_false]
      rcases w.write text with ⟨r, w'⟩
      cases r with
      | some e => exact ⟨rfl, rfl⟩
      | none =>
        have h0 : ∀ fs, encodeBuffers U doc.buffers fs = (.ok (), fs, []) := hd 0
        simp only [h0, and_self]

/-- C100, saving: a document that was built from `NewDocument` by any calls of the writing functions that JSON can record is
accepted by `Encode` in both formats, and no file is created. Each buffer holds some bytes, less than 4 GiB. -/
theorem C100_encodes (E : DecEnv) (hf : FloatLaws E.json.io) (o : EncOpts) (doc : Document) (h : PlainHistory newDocument doc)
    (hb : ∀ b, some b ∈ doc.buffers → b.data ≠ [] ∧ b.data.length < 4294967296) (hv : doc.bufferViews.length < 9223372036854775808)
    (w : Sink) (hw : w.plan = []) (fs : Option CreateFS) :
    (encode E.json E.url o doc w fs).result = .ok () ∧ (encode E.json E.url o doc w fs).created = [] ∧
    (encode E.json E.url o doc w fs).fsys = fs ∧ Saveable E 0 o.asBinary doc := by
  have hlen : doc.buffers.length ≤ 1 := (C76_new_document doc h.history).2.2.2.2.2.2.2.2.2
  have g := h.grow (newDocument_growable E.json.reg o.asBinary) (by omega) hv
  have hu : NoUris doc := noUri_history (fun b hb => by cases hb) h.history
  have wf := C11_new_document doc h.history
  have hs : Saveable E 0 o.asBinary doc :=
    ⟨by decide, g.ok, stored_noUri (grow_storable g fun b hl => (hb b (List.mem_of_getLast? hl)).1) hu, g.images⟩
  obtain ⟨e1, e2⟩ := encode_noUri (E := E.json) (U := E.url) (o := o) (w := w) (fun hn => by obtain ⟨b, e, -⟩ := wf.buffers _ hn; cases e) hu fs
  refine ⟨?_, e2, by rw [e1], hs⟩
  rw [e1]
  refine C31_encodes E hf o 0 doc hs (fun b hh => ?_) w hw none (by simp)
  have hm := List.mem_of_head? hh
  obtain ⟨b', e, hl⟩ := wf.buffers _ hm
  cases e
  have := (hb b hm).2
  omega

/-- C100: what was built is read back, and everything can be read from it as before. -/
theorem C100_built (E : DecEnv) (hf : FloatLaws E.json.io) (o : EncOpts) (h1 : IsBlank o.pre) (h2 : IsBlank o.indent) (doc : Document)
    (h : PlainHistory newDocument doc) (hb : ∀ b, some b ∈ doc.buffers → b.data ≠ [] ∧ b.data.length < 4294967296)
    (hv : doc.bufferViews.length < 9223372036854775808) (fs : Option CreateFS)
    (hl : (encode E.json E.url o doc {} fs).sink.out.length < 4294967296) (s : Source)
    (hs : s.data = (encode E.json E.url o doc {} fs).sink.out) (ha : o.asBinary = true → ∀ c ∈ s.sizes, (c.2 + 1) % 4 = 0) :
    ∃ doc', (decodeSource E s).result = .ok doc' ∧ SameDocument o.asBinary doc doc' ∧
      doc'.accessors = doc.accessors ∧ doc'.bufferViews = doc.bufferViews ∧
      (∀ acr buffer p, readAccessor doc' acr buffer p = readAccessor doc acr buffer p) ∧
      ∀ bv, readBufferView doc' bv = readBufferView doc bv := by
  obtain ⟨hres, -, -, hsv⟩ := C100_encodes E hf o doc h hb hv {} rfl fs
  have key : ∃ doc', (decodeSource E s).result = .ok doc' ∧ SameDocument o.asBinary doc doc' := by
    cases ho : o.asBinary with
    | false =>
      rw [ho] at hsv
      obtain ⟨doc', k1, k2, -⟩ := C39_round_trip_partial E hf o ho h1 h2 0 doc hsv fs hres s [] (by rw [List.append_nil]; exact hs)
      exact ⟨doc', k1, k2⟩
    | true =>
      rw [ho] at hsv
      exact C31_glb_round_trip E hf o ho h1 h2 0 doc hsv fs hres hl s hs (.inl (ha ho))
  obtain ⟨doc', k1, k2⟩ := key
  exact ⟨doc', k1, k2, C49_reads_same _ _ _ k2⟩

/-- Indices, positions, normals and an image: four calls. -/
def built : Document :=
  let d1 := ((WriteOp.indices ⟨.base .u16 .sc, [0, 1, 2]⟩).run newDocument).1
  let d2 := ((WriteOp.position [⟨⟨0⟩, ⟨0⟩, ⟨0⟩⟩, ⟨⟨0⟩, ⟨0⟩, ⟨0⟩⟩]).run d1).1
  let d3 := ((WriteOp.normal [⟨⟨0⟩, ⟨0⟩, ⟨0⟩⟩, ⟨⟨0x3f800000⟩, ⟨0⟩, ⟨0⟩⟩, ⟨⟨0⟩, ⟨0x3f800000⟩, ⟨0⟩⟩]).run d2).1
  ((WriteOp.image b!"picture" b!"image/png" (.ok [1, 2, 3])).run d3).1

theorem built_plain : PlainHistory newDocument built := by
  refine .step (.indices ⟨.base .u16 .sc, [0, 1, 2]⟩) trivial (by decide +kernel) ?_
  refine .step (.position [⟨⟨0⟩, ⟨0⟩, ⟨0⟩⟩, ⟨⟨0⟩, ⟨0⟩, ⟨0⟩⟩]) ?_ (by decide +kernel) ?_
  · unfold PlainOp FiniteVec
    decide +kernel
  refine .step (.normal [⟨⟨0⟩, ⟨0⟩, ⟨0⟩⟩, ⟨⟨0x3f800000⟩, ⟨0⟩, ⟨0⟩⟩, ⟨⟨0⟩, ⟨0x3f800000⟩, ⟨0⟩⟩]) trivial (by decide +kernel) ?_
  exact .step (.image b!"picture" b!"image/png" (.ok [1, 2, 3])) ⟨utf8_ascii (by decide), utf8_ascii (by decide)⟩ (by decide +kernel) (.nil _)

/-- The hypotheses are met in both formats. -/
example : PlainHistory newDocument built ∧ built.buffers.map (·.map fun b => b.data.length) = [some 71] ∧ built.bufferViews.length = 4 ∧
    built.accessors.length = 3 ∧ built.images.length = 1 ∧
    (encode witnessEnv witnessUrl {} built {} none).sink.out.length < 4294967296 :=
  ⟨built_plain, by decide +kernel, by decide +kernel, by decide +kernel, by decide +kernel, by decide +kernel⟩

/-- If only empty slices were written, there is a buffer without bytes: the document is encoded, and what was written cannot be
decoded. -/
example : let d := ((WriteOp.accessor targetNone ⟨.base .u8 .sc, []⟩).run newDocument).1
    PlainHistory newDocument d ∧ (encode witnessEnv witnessUrl {} d {} none).result = .ok () ∧
    ∀ doc, decodeBytes witnessDec (encode witnessEnv witnessUrl {} d {} none).sink.out ≠ .ok doc := by
  refine ⟨.step (.accessor targetNone ⟨.base .u8 .sc, []⟩) trivial (by decide +kernel) (.nil _), by decide +kernel, fun doc hd => ?_⟩
  have : (decodeBytes witnessDec (encode witnessEnv witnessUrl {} ((WriteOp.accessor targetNone ⟨.base .u8 .sc, []⟩).run newDocument).1 {} none).sink.out).isErr = true := by
    decide +kernel
  rw [hd] at this
  cases this

end Gltf
