/-
Property C54: whatever the version, encoding is stable from the second time on.
-/
import Verif.Props.Stability

namespace Gltf

open Spec

/-- The document that is read from what `Encode` wrote. -/
theorem decode_encoded {E : DecEnv} (hf : FloatLaws E.json.io) {o : EncOpts} (h1 : IsBlank o.pre) (h2 : IsBlank o.indent) {n : Nat}
    {doc : Document} (hd : Saveable E n o.asBinary doc) {fs : Option CreateFS} (h : (encode E.json E.url o doc {} fs).result = .ok ())
    {s : Source} (hs : s.data = (encode E.json E.url o doc {} fs).sink.out)
    (hl : o.asBinary = true → s.data.length < 4294967296) (ha : o.asBinary = true → ∀ c ∈ s.sizes, (c.2 + 1) % 4 = 0) :
    (decodeSource E s).result = .ok (readBack E.url o.asBinary doc) := by
  obtain ⟨text, hm, he⟩ := encode_ok (w := {}) rfl h
  rw [he] at hs
  cases ho : o.asBinary with
  | false =>
    rw [ho] at hs
    obtain ⟨text', hm', hdec⟩ := decode_text hf h1 h2 hd.depth hd.ok (by have := hd.buffers; rwa [ho] at this) hd.images ho
    rw [hm] at hm'
    cases hm'
    exact hdec (newDecoder s) [] (.inl rfl) (by rw [List.append_nil]; exact hs)
  | true =>
    rw [ho] at hs
    replace hs : s.data = glbBytes text (binBuffer doc) := hs
    have hd' := hd
    rw [ho] at hd'
    have hl' := hl ho
    rw [hs] at hl'
    obtain ⟨text', hm', hdec⟩ := decode_glb hf h1 h2 hd.depth hd.ok hd'.buffers hd.images ho
    rw [hm] at hm'
    cases hm'
    have hg := glbBytes_isGlb hl' fun b hb => stored_consistent hd' b (binBuffer_mem hb).1 (binBuffer_mem hb).2
    exact (hdec hl' (newDecoder s) [] (.inl rfl) (by rw [List.append_nil]; exact hs)
      (.inr (.inr (newDecoder_aligned ⟨by rw [hs]; exact glbBytes_mod hg, ha ho⟩)))).1

/-- Encoding the document that is read. -/
theorem encode_readBack {E : DecEnv} (hf : FloatLaws E.json.io) {o : EncOpts} {n : Nat} {doc : Document} (hd : Saveable E n o.asBinary doc)
    (hv : doc.asset.version ≠ []) (hk : UrisKept doc.buffers) (hi : ∀ i ∈ doc.images, ∃ im, i = some im ∧ ImageKept im)
    (hb : ∀ b, doc.buffers.head? = some (some b) → b.byteLength < 4294967296) {fs : Option CreateFS} (hfs : ∀ f ∈ fs, Working f) :
    (encode E.json E.url o (readBack E.url o.asBinary doc) {} fs).result = .ok () ∧
    (encode E.json E.url o (readBack E.url o.asBinary doc) {} fs).sink.out = (encode E.json E.url o doc {} fs).sink.out := by
  have h := C31_encodes E hf o n doc hd hb {} rfl fs hfs
  obtain ⟨text, hm, he⟩ := encode_ok (w := {}) rfl h
  have hm2 : marshalJSONDoc E.json o (readBack E.url o.asBinary doc) = .ok text := by
    rw [marshal_again hd.ok hv hd.buffers hk E.url hi, hm]
  have hst : AllStored E.fsys o.asBinary (readBack E.url o.asBinary doc).buffers := by
    show AllStored _ _ ((readAll _ _ _).map some)
    rw [readAll_kept E.url hd.buffers hk]
    exact (storeAll_again hd.buffers).1
  rw [he]
  cases ho : o.asBinary with
  | false =>
    rw [ho] at hm2 hst
    rw [encode_text (w := {}) rfl hm2 ho]
    exact ⟨encodeBuffers_stored hst _ hfs, rfl⟩
  | true =>
    rw [ho] at hm2 hst
    have hd' := hd
    rw [ho] at hd'
    have hbb := binBuffer_again hd'.buffers hk E.url
    rw [encode_bin_small (w := {}) rfl hm2 ho, hbb]
    · exact ⟨encodeBuffers_stored hst _ hfs, rfl⟩
    · intro b hbm
      rw [hbb] at hbm
      have := hb b (binBuffer_mem hbm).1
      have := stored_chunk hd'.buffers (b := b) (show binBuffer doc = some b from hbm)
      omega

/-- C54 in part, whatever the version: `Encode` succeeds, and so does encoding the document that is read from what it wrote. What is
written then is read as this same document again, so from the second encoding on the bytes stay the same. Missing: for documents
without version the first encoding may differ from the second (`C54_full_fails`), and URIs with escapes. -/
theorem C54_settles_partial (E : DecEnv) (hf : FloatLaws E.json.io) (o : EncOpts) (h1 : IsBlank o.pre) (h2 : IsBlank o.indent) (n : Nat)
    (doc : Document) (hd : Saveable E n o.asBinary doc) (hk : UrisKept doc.buffers) (hi : ∀ i ∈ doc.images, ∃ im, i = some im ∧ ImageKept im)
    (hb : ∀ b, doc.buffers.head? = some (some b) → b.byteLength < 4294967296) (fs : Option CreateFS) (hfs : ∀ f ∈ fs, Working f) :
    (encode E.json E.url o doc {} fs).result = .ok () ∧
    ∀ s : Source, s.data = (encode E.json E.url o doc {} fs).sink.out →
      (o.asBinary = true → s.data.length < 4294967296 ∧ ∀ c ∈ s.sizes, (c.2 + 1) % 4 = 0) →
      ∃ doc', (decodeSource E s).result = .ok doc' ∧ (encode E.json E.url o doc' {} fs).result = .ok () ∧
        ∀ s' : Source, s'.data = (encode E.json E.url o doc' {} fs).sink.out →
          (o.asBinary = true → s'.data.length < 4294967296 ∧ ∀ c ∈ s'.sizes, (c.2 + 1) % 4 = 0) →
          (decodeSource E s').result = .ok doc' := by
  have h := C31_encodes E hf o n doc hd hb {} rfl fs hfs
  refine ⟨h, fun s hs ha => ⟨_, decode_encoded hf h1 h2 hd h hs (fun ho => (ha ho).1) (fun ho => (ha ho).2), ?_⟩⟩
  let doc2 : Document := { doc with asset := normAsset doc.asset }
  have hv2 : doc2.asset.version ≠ [] := by
    show (if doc.asset.version = [] then b!"2.0" else doc.asset.version) ≠ []
    split
    · simp
    · assumption
  have hd2 : Saveable E n o.asBinary doc2 := by
    refine ⟨hd.depth, ?_, hd.buffers, hd.images⟩
    have k := hd.ok
    refine { k with asset := { k.asset with version := ?_ } }
    show IsUtf8 (if doc.asset.version = [] then b!"2.0" else doc.asset.version)
    split
    · exact utf8_ascii (by decide)
    · exact k.asset.version
  have he : readBack E.url o.asBinary doc2 = readBack E.url o.asBinary doc := by
    have : normAsset (normAsset doc.asset) = normAsset doc.asset := by
      unfold normAsset
      by_cases h : doc.asset.version = []
      · simp [h]
      · simp [h]
    unfold readBack normDocument
    rw [this]
  have henc := C31_encodes E hf o n doc2 hd2 hb {} rfl fs hfs
  obtain ⟨k1, k2⟩ := encode_readBack hf hd2 hv2 hk hi hb hfs
  rw [he] at k1 k2
  refine ⟨k1, fun s' hs' ha' => ?_⟩
  rw [k2] at hs'
  rw [decode_encoded hf h1 h2 hd2 henc hs' (fun ho => (ha' ho).1) (fun ho => (ha' ho).2), he]

/-- Three buffers in a document without version. -/
example (bin : Bool) : let doc : Document := { threeBuffers with asset := { generator := b!"g" } }
    Saveable witnessDec 0 bin doc ∧ UrisKept doc.buffers ∧ doc.asset.version = [] ∧
    (∀ b, doc.buffers.head? = some (some b) → b.byteLength < 4294967296) ∧ (∀ i ∈ doc.images, ∃ im, i = some im ∧ ImageKept im) := by
  have h := threeBuffers_saveable bin
  refine ⟨⟨h.depth, ?_, h.buffers, h.images⟩, fun b hb name hn => ?_, rfl, ?_, threeBuffers_images⟩
  · have k := h.ok
    exact { k with asset := { k.asset with generator := utf8_ascii (by decide), version := utf8_ascii (by decide) } }
  · simp only [threeBuffers, List.mem_cons, Option.some.injEq, List.not_mem_nil, or_false] at hb
    rcases hb with rfl | rfl | rfl
    · exact absurd rfl (path_ne hn)
    · exact absurd rfl (path_ne hn)
    · exact plain_name dirPlain hn
  · intro b hb
    cases hb
    decide

end Gltf
