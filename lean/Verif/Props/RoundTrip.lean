/-
Properties C30, C31, C39, C48 and C52 to C55: encoding and decoding.
-/
import Verif.Lemmas.EncodeOk

namespace Gltf

open Spec

/-! ### C30 What is written -/

/-- The bytes that belong in the binary chunk: those of the first buffer, if it has no URI. -/
def Spec.chunkData (doc : Document) : Option Bytes := doc.buffers.head?.join.bind fun b => if b.uri = [] then some b.data else none

/-- The first buffer has as many bytes as it says if it has no URI. -/
def Spec.FirstConsistent (doc : Document) : Prop :=
  ∀ b, doc.buffers.head? = some (some b) → b.uri = [] → (b.data.length : Int) = b.byteLength

theorem binBuffer_data (doc : Document) : (binBuffer doc).map (·.data) = chunkData doc := by
  unfold binBuffer chunkData
  rcases doc.buffers with _ | ⟨_ | b, l⟩
  · rfl
  · rfl
  · simp only [List.head?_cons, Option.join_some, Option.bind_some]
    split <;> rfl

theorem binBuffer_mem {doc : Document} {b : Buffer} (h : b ∈ binBuffer doc) : doc.buffers.head? = some (some b) ∧ b.uri = [] := by
  unfold binBuffer at h
  cases hl : doc.buffers with
  | nil => rw [hl] at h; cases h
  | cons x l =>
    rw [hl] at h
    cases x with
    | none => cases h
    | some c =>
      simp only at h
      split at h
      · cases h
        exact ⟨rfl, by assumption⟩
      · cases h

/-- The encoder got to the end of the JSON. -/
theorem encode_ok {E : Env} {U : UrlLib} {o : EncOpts} {doc : Document} {w : Sink} {fs : Option CreateFS} (hw : w.plan = [])
    (h : (encode E U o doc w fs).result = .ok ()) : ∃ text, marshalJSONDoc E o doc = .ok text ∧
      encode E U o doc w fs = ⟨.ok (), { out := w.out ++ encodedBytes o.asBinary text doc, plan := [] },
      (encodeBuffers U doc.buffers fs).2.1, (encodeBuffers U doc.buffers fs).2.2⟩ := by
  cases hm : marshalJSONDoc E o doc with
  | err e => unfold encode at h; rw [hm] at h; cases h
  | panic m => unfold encode at h; rw [hm] at h; cases h
  | ok text =>
    refine ⟨text, rfl, ?_⟩
    unfold encodedBytes
    cases ho : o.asBinary with
    | false =>
      have e := encode_text (U := U) (fs := fs) hw hm ho
      rw [e] at h ⊢
      simp only at h
      rw [h]
      rfl
    | true =>
      rcases encode_bin (U := U) (fs := fs) hw hm ho with e | e
      · rw [h] at e; cases e
      · rw [e] at h ⊢
        simp only at h
        rw [h]
        rfl

/-- C30: a successful binary `Encode` writes a GLB file with the JSON and the data of the first buffer, and nothing
else, after what the writer already has. -/
theorem C30_container (E : Env) (U : UrlLib) (o : EncOpts) (doc : Document) (w : Sink) (fs : Option CreateFS) (ho : o.asBinary = true)
    (hw : w.plan = []) (h : (encode E U o doc w fs).result = .ok ()) (hc : FirstConsistent doc) :
    ∃ s text, (encode E U o doc w fs).sink.out = w.out ++ s ∧
      (s.length < 4294967296 → marshalJSONDoc E o doc = .ok text ∧ IsGlb text (chunkData doc) s) := by
  obtain ⟨text, hm, he⟩ := encode_ok hw h
  refine ⟨glbBytes text (binBuffer doc), text, by rw [he, ho]; rfl, fun hl => ⟨hm, ?_⟩⟩
  rw [← binBuffer_data]
  exact glbBytes_isGlb hl fun b hb => hc b (binBuffer_mem hb).1 (binBuffer_mem hb).2

/-- A document with a buffer of three bytes for the binary chunk, one that is embedded and one in a file. -/
def threeBuffers : Document :=
  { newDocument with
    accessors := [some { bufferView := some 0, componentType := .ubyte, count := 3, type := .scalar, normalized := true }]
    bufferViews := [some { buffer := 0, byteLength := 3 }]
    nodes := [some { name := b!"node", mesh := some 0, children := [1, 2] }]
    materials := [some { name := b!"shiny", doubleSided := true, normalTexture := some { index := some 0 } }]
    extras := .str b!"made by hand"
    buffers := [some { byteLength := 3, data := [1, 2, 3] }, some { byteLength := 2, data := [4, 5] },
      some { byteLength := 4, uri := b!"dir/a.bin", data := [0, 0, 0, 0] }]
    images := [some { uri := b!"picture.png" }] }

example : let e := encode witnessEnv witnessUrl {} threeBuffers {} (some emptyFS)
    e.result = .ok () ∧ e.sink.out.length < 4294967296 ∧ FirstConsistent threeBuffers ∧ chunkData threeBuffers = some [1, 2, 3] := by
  refine ⟨by decide +kernel, by decide +kernel, ?_, rfl⟩
  intro b h _
  cases h
  rfl

/-! ### C31 and C39 The document that is read back -/

/-- The documents that can be saved: valid contents, and buffers that are stored somewhere. -/
structure Spec.Saveable (E : DecEnv) (n : Nat) (bin : Bool) (doc : Document) : Prop where
  depth : n + 7 ≤ 10000
  ok : DocumentOk E.json.reg n doc
  buffers : AllStored E.fsys bin doc.buffers
  images : none ∉ doc.images

/-- The same document with explicit defaults, except for data URIs of buffers and for special characters in URIs: those
of relative paths are replaced by what they stand for. -/
structure Spec.SameDocument (bin : Bool) (doc doc' : Document) : Prop where
  buffers : SameBuffers bin doc.buffers doc'.buffers
  images : SameImages doc.images doc'.images
  rest : { doc' with buffers := [], images := [] } = { normDocument doc with buffers := [], images := [] }

theorem readBack_same {E : DecEnv} {n : Nat} {bin : Bool} {doc : Document} (h : Saveable E n bin doc) (U : UrlLib) :
    SameDocument bin doc (readBack U bin doc) := ⟨readAll_same U h.buffers, keptImages_same U h.images, rfl⟩

theorem stored_consistent {E : DecEnv} {n : Nat} {doc : Document} (h : Saveable E n true doc) : FirstConsistent doc := fun b hb hu => by
  refine (stored_chunk h.buffers (b := b) ?_).2
  cases hl : doc.buffers with
  | nil => rw [hl] at hb; cases hb
  | cons x l =>
    rw [hl] at hb
    cases hb
    rw [chunkBuffer_cons hl, if_pos hu]

theorem newDecoder_aligned {s : Source} (h : s.Aligned) : (newDecoder s).Aligned := ⟨rfl, h⟩

/-- C31: what a binary `Encode` writes is read back, if the reads are multiples of four bytes; if moreover there
is no binary chunk, they may be anything. -/
theorem C31_glb_round_trip (E : DecEnv) (hf : FloatLaws E.json.io) (o : EncOpts) (ho : o.asBinary = true) (h1 : IsBlank o.pre)
    (h2 : IsBlank o.indent) (n : Nat) (doc : Document) (hd : Saveable E n true doc) (fs : Option CreateFS)
    (h : (encode E.json E.url o doc {} fs).result = .ok ()) (hl : (encode E.json E.url o doc {} fs).sink.out.length < 4294967296)
    (s : Source) (hs : s.data = (encode E.json E.url o doc {} fs).sink.out) (ha : (∀ c ∈ s.sizes, (c.2 + 1) % 4 = 0) ∨ chunkData doc = none) :
    ∃ doc', (decodeSource E s).result = .ok doc' ∧ SameDocument true doc doc' := by
  obtain ⟨text, hm, he⟩ := encode_ok (w := {}) rfl h
  rw [he, ho] at hl hs
  replace hl : (glbBytes text (binBuffer doc)).length < 4294967296 := hl
  replace hs : s.data = glbBytes text (binBuffer doc) := hs
  obtain ⟨text', hm', hdec⟩ := decode_glb hf h1 h2 hd.depth hd.ok hd.buffers hd.images ho
  rw [hm] at hm'
  cases hm'
  have hg := glbBytes_isGlb hl fun b hb => stored_consistent hd b (binBuffer_mem hb).1 (binBuffer_mem hb).2
  refine ⟨_, (hdec hl (newDecoder s) [] (.inl rfl) (by rw [List.append_nil]; exact hs) ?_).1, readBack_same hd _⟩
  rcases ha with ha | ha
  · exact .inr (.inr (newDecoder_aligned ⟨by rw [hs]; exact glbBytes_mod hg, ha⟩))
  · left
    rw [← binBuffer_data] at ha
    cases hb : binBuffer doc with
    | none => rfl
    | some b => rw [hb] at ha; cases ha

/-- Such documents can be encoded. -/
theorem C31_encodes (E : DecEnv) (hf : FloatLaws E.json.io) (o : EncOpts) (n : Nat) (doc : Document) (hd : Saveable E n o.asBinary doc)
    (hb : ∀ b, doc.buffers.head? = some (some b) → b.byteLength < 4294967296) (w : Sink) (hw : w.plan = []) (fs : Option CreateFS)
    (hfs : ∀ f ∈ fs, Working f) : (encode E.json E.url o doc w fs).result = .ok () := by
  obtain ⟨l, _, hm, _⟩ := marshal_stored hf hd.depth hd.ok hd.buffers
  cases ho : o.asBinary with
  | false => rw [encode_text hw hm ho]; exact encodeBuffers_stored hd.buffers _ hfs
  | true =>
    rw [encode_bin_small hw hm ho]
    · exact encodeBuffers_stored hd.buffers _ hfs
    · intro b hb'
      have := hb b (binBuffer_mem hb').1
      have hbuf := hd.buffers
      rw [ho] at hbuf
      have := stored_chunk hbuf (b := b) (show binBuffer doc = some b from hb')
      omega

/-- C39 in part: what `Encode` writes as text is read back, however the stream is split and whatever follows. Missing: the
escapes in URIs are replaced, and URIs of external buffers that are not relative paths of names. -/
theorem C39_round_trip_partial (E : DecEnv) (hf : FloatLaws E.json.io) (o : EncOpts) (ho : o.asBinary = false) (h1 : IsBlank o.pre)
    (h2 : IsBlank o.indent) (n : Nat) (doc : Document) (hd : Saveable E n false doc) (fs : Option CreateFS)
    (h : (encode E.json E.url o doc {} fs).result = .ok ())
    (s : Source) (rest : Bytes) (hs : s.data = (encode E.json E.url o doc {} fs).sink.out ++ rest) :
    ∃ doc', (decodeSource E s).result = .ok doc' ∧ SameDocument false doc doc' ∧
      ((∀ i ∈ doc.images, ∃ im, i = some im ∧ ImageKept im) → doc' = { normDocument doc with buffers := doc'.buffers }) := by
  obtain ⟨text, hm, he⟩ := encode_ok (w := {}) rfl h
  rw [he, ho] at hs
  replace hs : s.data = text ++ rest := hs
  obtain ⟨text', hm', hdec⟩ := decode_text hf h1 h2 hd.depth hd.ok hd.buffers hd.images ho
  rw [hm] at hm'
  cases hm'
  refine ⟨_, hdec (newDecoder s) rest (.inl rfl) hs, readBack_same hd _, fun hi => ?_⟩
  unfold readBack
  rw [keptImages_id _ hi]
  rfl

theorem plainName {p : Bytes} (h : p ≠ []) (h1 : p ≠ b!".") (h2 : p ≠ b!"..") (hc : ∀ x ∈ p, PlainChar x) : PlainPath p :=
  ⟨[p], ⟨by simp, by simpa using fun e => (hc _ e).2.2.1 rfl, by rw [intercalate_one]⟩, by
    intro c hc'
    rw [List.mem_singleton.1 hc']
    exact ⟨⟨h, h1, h2⟩, hc⟩⟩

theorem extOk_nil (r : Registry) (n : Nat) : ExtOk r n [] := by
  refine ⟨⟨?_, by simp⟩, by simp⟩
  simp

theorem threeBuffers_ok (r : Registry) : DocumentOk r 0 threeBuffers where
  buffers := by
    intro o ho a ha
    simp only [threeBuffers, List.mem_cons, List.not_mem_nil, or_false] at ho
    rcases ho with rfl | rfl | rfl <;> cases ha <;>
      exact ⟨extOk_nil _ _, .null 0, utf8_ascii (by decide), utf8_ascii (by decide), by unfold IntOk; decide⟩
  extensions := extOk_nil _ _
  extras := .str 0 _ (utf8_ascii (by decide))
  extensionsUsed := by intro t ht; cases ht
  extensionsRequired := by intro t ht; cases ht
  accessors := by
    intro o ho a ha
    simp only [threeBuffers, List.mem_cons, List.not_mem_nil, or_false] at ho
    subst ho
    cases ha
    exact ⟨extOk_nil _ _, .null 0, utf8_ascii (by decide), by intro i hi; cases hi; unfold IntOk; decide, by unfold IntOk; decide,
      by intro k; simp, by unfold IntOk; decide, by intro k; simp, (by intro x hx; cases hx),
      (by intro x hx; cases hx), by intro a ha; cases ha⟩
  animations := by intro t ht; cases ht
  asset := ⟨extOk_nil _ _, .null 0, utf8_ascii (by decide), utf8_ascii (by decide), utf8_ascii (by decide), utf8_ascii (by decide)⟩
  bufferViews := by
    intro o ho a ha
    simp only [threeBuffers, List.mem_cons, List.not_mem_nil, or_false] at ho
    subst ho
    cases ha
    exact ⟨extOk_nil _ _, .null 0, by unfold IntOk; decide, by unfold IntOk; decide, by unfold IntOk; decide, by unfold IntOk; decide,
      utf8_ascii (by decide)⟩
  cameras := by intro t ht; cases ht
  images := by
    intro o ho a ha
    simp only [threeBuffers, List.mem_cons, List.not_mem_nil, or_false] at ho
    subst ho
    cases ha
    exact ⟨extOk_nil _ _, .null 0, utf8_ascii (by decide), utf8_ascii (by decide), utf8_ascii (by decide), by intro i hi; cases hi⟩
  materials := by
    intro o ho a ha
    simp only [threeBuffers, List.mem_cons, List.not_mem_nil, or_false] at ho
    subst ho
    cases ha
    refine ⟨by decide +kernel, ?_, extOk_nil _ _, .null 0, utf8_ascii (by decide), ?_, ?_, ?_, ?_, by intro k; simp⟩
    · intro x hx; cases hx
    · intro x hx; cases hx
    · intro x hx
      cases hx
      exact ⟨extOk_nil _ _, .null 0, by intro i hi; cases hi; unfold IntOk; decide, by unfold IntOk; decide, by intro x hx; cases hx⟩
    · intro x hx; cases hx
    · intro x hx; cases hx
  meshes := by intro t ht; cases ht
  nodes := by
    intro o ho a ha
    simp only [threeBuffers, List.mem_cons, List.not_mem_nil, or_false] at ho
    subst ho
    cases ha
    refine ⟨by decide +kernel, by decide +kernel, by decide +kernel, by decide +kernel, extOk_nil _ _, .null 0, utf8_ascii (by decide),
      ?_, ?_, ?_, ?_, ?_⟩
    · intro i hi; cases hi
    · intro i hi
      simp only [List.mem_cons, List.not_mem_nil, or_false] at hi
      unfold IntOk
      omega
    · intro i hi; cases hi
    · intro i hi; cases hi; unfold IntOk; decide
    · intro i hi; cases hi
  samplers := by intro t ht; cases ht
  scene := by intro i hi; cases hi; unfold IntOk; decide
  scenes := by
    intro o ho a ha
    simp only [threeBuffers, newDocument, List.mem_cons, List.not_mem_nil, or_false] at ho
    subst ho
    cases ha
    exact ⟨extOk_nil _ _, .null 0, utf8_ascii (by decide), by intro i hi; cases hi⟩
  skins := by intro t ht; cases ht
  textures := by intro t ht; cases ht

theorem dirPlain : PlainPath b!"dir/a.bin" := by
  refine ⟨[b!"dir", b!"a.bin"], ⟨by simp, by decide, by decide⟩, ?_⟩
  have : ∀ c ∈ [b!"dir", b!"a.bin"], ∀ x ∈ c, PlainChar x := by unfold PlainChar; decide
  intro c hc
  refine ⟨?_, this c hc⟩
  have : ∀ c ∈ [b!"dir", b!"a.bin"], IsName c := by decide
  exact this c hc

/-- The document with three buffers meets the hypotheses of C31, C39 and C53 to C55, in both formats. -/
theorem threeBuffers_saveable (bin : Bool) : Saveable witnessDec 0 bin threeBuffers := by
  refine ⟨by decide, threeBuffers_ok _, ?_, by simp [threeBuffers]⟩
  have h3 : AllStored witnessDec.fsys false [some { byteLength := 4, uri := b!"dir/a.bin", data := [0, 0, 0, 0] }] :=
    ⟨by decide, .file _ [0, 0, 0, 0] _ (plain_file dirPlain) rfl rfl rfl, trivial⟩
  have h2 : AllStored witnessDec.fsys false [some { byteLength := 2, data := [4, 5] }, some { byteLength := 4, uri := b!"dir/a.bin", data := [0, 0, 0, 0] }] :=
    ⟨by decide, .inline rfl rfl (by simp), h3⟩
  cases bin with
  | false => exact ⟨by decide, .inline rfl rfl (by simp), h2⟩
  | true => exact ⟨by decide, .chunk rfl rfl rfl, h2⟩

theorem threeBuffers_images : ∀ i ∈ threeBuffers.images, ∃ im, i = some im ∧ ImageKept im := by
  intro i hi
  rw [List.mem_singleton.1 hi]
  refine ⟨_, rfl, .inr (.inr (.inr (plainName (by decide) (by decide) (by decide) ?_)))⟩
  unfold PlainChar
  decide

example : (encode witnessEnv witnessUrl { asBinary := false, indent := b!"\t" } threeBuffers {} none).result = .ok () ∧
    (encode witnessEnv witnessUrl {} threeBuffers {} none).result = .ok () ∧
    (encode witnessEnv witnessUrl {} threeBuffers {} none).sink.out.length < 4294967296 := by decide +kernel

/-- The URI of the first image. -/
def firstImage (r : Res Document) : Option Bytes :=
  match r with
  | .ok d => match d.images with
    | some im :: _ => some im.uri
    | _ => none
  | _ => none

/-- The URI of the first buffer. -/
def firstUri (r : Res Document) : Option Bytes :=
  match r with
  | .ok d => match d.buffers with
    | some b :: _ => some b.uri
    | _ => none
  | _ => none

/-- C39 is false: URIs are percent-decoded when they are read, but not encoded when they are written. -/
theorem C39_full_fails :
    let out (doc : Document) := (encode witnessEnv witnessUrl { asBinary := false } doc {} none).sink.out
    firstImage (decodeBytes witnessDec (out { images := [some { uri := b!"a%20b.png" }] })) = some b!"a b.png" ∧
    firstImage (decodeBytes witnessDec (out { images := [some { uri := b!"a%2525b.png" }] })) = some b!"a%25b.png" ∧
    firstUri (decodeBytes witnessDec (out { buffers := [some { byteLength := 4, uri := b!"a%20b.bin" }] })) = some b!"a b.bin" := by
  decide +kernel

end Gltf
