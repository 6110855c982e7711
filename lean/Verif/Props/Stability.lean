/-
Properties C52 (in part), C53 and C54: successive documents, indentation, and encoding what was decoded.
-/
import Verif.Props.RoundTrip

namespace Gltf

open Spec

/-! ### C53 Indentation -/

/-- The JSON of a GLB file, and where its reader is afterwards. -/
theorem glb_any {E : DecEnv} (hf : FloatLaws E.json.io) {o : EncOpts} (ho : o.asBinary = true) (h1 : IsBlank o.pre) (h2 : IsBlank o.indent)
    {n : Nat} {doc : Document} (hn : n + 7 ≤ 10000) (hd : DocumentOk E.json.reg n doc) (hb : none ∉ doc.buffers) (hc : FirstConsistent doc)
    {text : Bytes} (hm : marshalJSONDoc E.json o doc = .ok text) (hl : (glbBytes text (binBuffer doc)).length < 4294967296)
    {s : Source} (hs : s.data = glbBytes text (binBuffer doc)) (ha : ∀ c ∈ s.sizes, (c.2 + 1) % 4 = 0) :
    (decodeDocument E (newDecoder s) {}).1 = .ok (true, normDocument (customDoc true doc)) ∧
    (decodeDocument E (newDecoder s) {}).2.rest = chunkOf (binBuffer doc) ∧ (decodeDocument E (newDecoder s) {}).2.Inv ∧
    (decodeDocument E (newDecoder s) {}).2.src.fin = s.fin := by
  obtain ⟨l, _, h4, h5, h6, h7⟩ := marshal_any (o := o) hf hn hd hb
  rw [hm] at h4
  cases h4
  rw [ho] at h7
  generalize htext : (JVal.obj l).print o.layout 0 = text at *
  have hps : ∀ k, parseTop (text ++ List.replicate k 32) = .ok (.obj l) (List.replicate k 32) := by
    rw [← htext]
    exact parseTop_spaces (layout_blank h1 h2) h5 h6
  have hglb := glbBytes_isGlb hl fun b hb => hc b (binBuffer_mem hb).1 (binBuffer_mem hb).2
  obtain ⟨g, hdr, k, c2, hsplit, hhl, hh, hj, hk, hk4, _⟩ := headerOf_glb hglb []
  have hrest : (newDecoder s).rest = glbBytes text (binBuffer doc) ++ [] := by rw [List.append_nil]; exact hs
  have hal : (newDecoder s).Aligned := newDecoder_aligned ⟨by rw [hs]; exact glbBytes_mod hglb, ha⟩
  have hr : (newDecoder s).Inv := .inl rfl
  have hc2 : c2 ++ [] = chunkOf (binBuffer doc) := by
    rw [List.append_nil, List.append_nil] at hsplit
    unfold glbBytes at hsplit
    have e := (List.append_inj hsplit (by
      simp only [List.length_append, hhl, glbHeader_length, jsonPadding_eq, List.length_replicate]
      omega)).2
    rw [List.append_nil, e]
  rw [← hrest] at hsplit hh
  obtain ⟨e1, pre, hfo, _⟩ := decodeDocument_spec E hr {}
  refine ⟨?_, ?_, hfo.inv, hfo.fin⟩
  · rw [e1, hrest, docOf_glb hglb hps, h7]
  · rw [← hc2]
    exact decodeDocument_rest E hr {} hsplit hhl hh (by rw [hj, List.length_replicate]) (hps k)
      (.inr ⟨hal, by rw [List.length_replicate]; exact hk, by rw [List.length_replicate]; exact hk4⟩)

/-- The JSON of a text file. -/
theorem text_any {E : DecEnv} (hf : FloatLaws E.json.io) {o : EncOpts} (ho : o.asBinary = false) (h1 : IsBlank o.pre) (h2 : IsBlank o.indent)
    {n : Nat} {doc : Document} (hn : n + 7 ≤ 10000) (hd : DocumentOk E.json.reg n doc) (hb : none ∉ doc.buffers)
    {text : Bytes} (hm : marshalJSONDoc E.json o doc = .ok text) {s : Source} (hs : s.data = text) :
    (decodeDocument E (newDecoder s) {}).1 = .ok (false, normDocument (customDoc false doc)) := by
  obtain ⟨l, _, h4, h5, h6, h7⟩ := marshal_any (o := o) hf hn hd hb
  rw [hm] at h4
  cases h4
  rw [ho] at h7
  have hp := parseTop_print (layout_blank h1 h2) h5 h6 0 [] (.inl ⟨l, rfl⟩)
  rw [List.append_nil] at hp
  obtain ⟨t, ht⟩ := print_brace o.layout 0 l
  have hno : ¬ b!"glTF" <+: (JVal.obj l).print o.layout 0 := by
    rw [ht]
    rintro ⟨u, hu⟩
    injection hu with hu _
    revert hu
    decide
  have hr : (newDecoder s).Inv := .inl rfl
  rw [(decodeDocument_spec E hr {}).1, show (newDecoder s).rest = (JVal.obj l).print o.layout 0 from hs, docOf_text hno hp, h7]

theorem decodeRest_text {E : DecEnv} {doc : Document} (a b : BufReader) :
    (decodeRest E false doc a).result = (decodeRest E false doc b).result ∧
    (decodeRest E false doc a).opened = (decodeRest E false doc b).opened := by
  unfold decodeRest
  cases hs : mapRes (sanitizeBuffer E.url) doc.buffers with
  | err e => exact ⟨rfl, rfl⟩
  | panic m => exact ⟨rfl, rfl⟩
  | ok l =>
    cases hi : mapRes (sanitizeImage E.url) doc.images with
    | err e => exact ⟨rfl, rfl⟩
    | panic m => exact ⟨rfl, rfl⟩
    | ok ims =>
      have hfst : ∀ r, decodeFirst false l r = (.ok ([], l), r) := fun r => by
        unfold decodeFirst
        cases l with
        | nil => rfl
        | cons x l => simp
      simp only [hfst]
      exact ⟨trivial, trivial⟩

/-- C53: if a document is encoded with and without indentation (white space), decoding both gives the same
result and accesses the same files. For GLB files the reads are multiples of four bytes. -/
theorem C53_indent (E : DecEnv) (hf : FloatLaws E.json.io) (o o' : EncOpts) (ho : o.asBinary = o'.asBinary)
    (h1 : IsBlank o.pre ∧ IsBlank o.indent) (h2 : IsBlank o'.pre ∧ IsBlank o'.indent) (n : Nat) (hn : n + 7 ≤ 10000) (doc : Document)
    (hd : DocumentOk E.json.reg n doc) (hb : none ∉ doc.buffers) (hc : o.asBinary = true → FirstConsistent doc) (fs : Option CreateFS)
    (he : (encode E.json E.url o doc {} fs).result = .ok ()) (he' : (encode E.json E.url o' doc {} fs).result = .ok ())
    (hl : o.asBinary = true → (encode E.json E.url o doc {} fs).sink.out.length < 4294967296 ∧
      (encode E.json E.url o' doc {} fs).sink.out.length < 4294967296)
    (s s' : Source) (hs : s.data = (encode E.json E.url o doc {} fs).sink.out) (hs' : s'.data = (encode E.json E.url o' doc {} fs).sink.out)
    (hfin : s.fin = s'.fin)
    (ha : o.asBinary = true → (∀ c ∈ s.sizes, (c.2 + 1) % 4 = 0) ∧ ∀ c ∈ s'.sizes, (c.2 + 1) % 4 = 0) :
    (decodeSource E s).result = (decodeSource E s').result ∧ (decodeSource E s).opened = (decodeSource E s').opened := by
  obtain ⟨text, hm, hx⟩ := encode_ok (w := {}) rfl he
  obtain ⟨text', hm', hx'⟩ := encode_ok (w := {}) rfl he'
  rw [hx] at hs hl
  rw [hx'] at hs' hl
  cases hbin : o.asBinary with
  | false =>
    have hbin' := ho.symm.trans hbin
    rw [hbin] at hs
    rw [hbin'] at hs'
    have e := text_any hf hbin h1.1 h1.2 hn hd hb hm (s := s) hs
    have e' := text_any hf hbin' h2.1 h2.2 hn hd hb hm' (s := s') hs'
    unfold decodeSource
    rw [decode_ok e, decode_ok e']
    exact decodeRest_text _ _
  | true =>
    have hbin' := ho.symm.trans hbin
    rw [hbin] at hs hl
    rw [hbin'] at hs' hl
    have e := glb_any hf hbin h1.1 h1.2 hn hd hb (hc hbin) hm (hl rfl).1 hs (ha hbin).1
    have e' := glb_any hf hbin' h2.1 h2.2 hn hd hb (hc hbin) hm' (hl rfl).2 hs' (ha hbin).2
    unfold decodeSource
    rw [decode_ok e.1, decode_ok e'.1]
    have := decodeRest_congr (a := (decodeDocument E (newDecoder s) {}).2) (b := (decodeDocument E (newDecoder s') {}).2)
      ⟨by rw [e.2.1, e'.2.1], by rw [e.2.2.2, e'.2.2.2, hfin], e.2.2.1, e'.2.2.1⟩ E true (normDocument (customDoc true doc))
    exact ⟨this.1, this.2.1⟩

/-- Not every such document can be read: here a buffer has no length. Both results are the same error. -/
example : let doc : Document := { buffers := [some { uri := b!"a.bin" }] }
    let e := encode witnessEnv witnessUrl { asBinary := false } doc {} none
    let e' := encode witnessEnv witnessUrl { asBinary := false, indent := b!"  " } doc {} none
    e.result = .ok () ∧ e'.result = .ok () ∧ e.sink.out ≠ e'.sink.out ∧ (decodeBytes witnessDec e.sink.out).isErr = true := by
  decide +kernel

/-- Indentation that is not white space changes the meaning. -/
example : let e := encode witnessEnv witnessUrl { asBinary := false, indent := b!"x" } {} {} none
    e.result = .ok () ∧ (decodeBytes witnessDec e.sink.out).isErr = true := by decide +kernel

/-! ### C54 Encoding what was decoded -/

/-- C54 in part: encoding, decoding and encoding again gives the same bytes. Missing: documents without version, and
URIs with escapes. -/
theorem C54_stable_partial (E : DecEnv) (hf : FloatLaws E.json.io) (o : EncOpts) (h1 : IsBlank o.pre) (h2 : IsBlank o.indent) (n : Nat)
    (doc : Document) (hd : Saveable E n o.asBinary doc) (hv : doc.asset.version ≠ [])
    (hk : UrisKept doc.buffers) (hi : ∀ i ∈ doc.images, ∃ im, i = some im ∧ ImageKept im) (fs : Option CreateFS)
    (h : (encode E.json E.url o doc {} fs).result = .ok ())
    (hl : o.asBinary = true → (encode E.json E.url o doc {} fs).sink.out.length < 4294967296)
    (s : Source) (hs : s.data = (encode E.json E.url o doc {} fs).sink.out) (ha : o.asBinary = true → ∀ c ∈ s.sizes, (c.2 + 1) % 4 = 0)
    (fs' : Option CreateFS) (hfs' : ∀ f ∈ fs', Working f) :
    ∃ doc', (decodeSource E s).result = .ok doc' ∧ (encode E.json E.url o doc' {} fs').result = .ok () ∧
      (encode E.json E.url o doc' {} fs').sink.out = (encode E.json E.url o doc {} fs).sink.out := by
  obtain ⟨text, hm, he⟩ := encode_ok (w := {}) rfl h
  have hm2 : marshalJSONDoc E.json o (readBack E.url o.asBinary doc) = .ok text := by
    rw [marshal_again hd.ok hv hd.buffers hk E.url hi, hm]
  have hst : AllStored E.fsys o.asBinary (readBack E.url o.asBinary doc).buffers := by
    show AllStored _ _ ((readAll _ _ _).map some)
    rw [readAll_kept E.url hd.buffers hk]
    exact (storeAll_again hd.buffers).1
  refine ⟨readBack E.url o.asBinary doc, ?_, ?_⟩
  · rw [he] at hs hl
    cases ho : o.asBinary with
    | false =>
      rw [ho] at hs
      obtain ⟨text', hm', hdec⟩ := decode_text hf h1 h2 hd.depth hd.ok (by have := hd.buffers; rwa [ho] at this) hd.images ho
      rw [hm] at hm'
      cases hm'
      exact hdec (newDecoder s) [] (.inl rfl) (by rw [List.append_nil]; exact hs)
    | true =>
      rw [ho] at hs hl
      have hd' := hd
      rw [ho] at hd'
      obtain ⟨text', hm', hdec⟩ := decode_glb hf h1 h2 hd.depth hd.ok hd'.buffers hd.images ho
      rw [hm] at hm'
      cases hm'
      have hg := glbBytes_isGlb (hl rfl) fun b hb => stored_consistent hd' b (binBuffer_mem hb).1 (binBuffer_mem hb).2
      exact (hdec (hl rfl) (newDecoder s) [] (.inl rfl) (by rw [List.append_nil]; exact hs)
        (.inr (.inr (newDecoder_aligned ⟨by rw [hs]; exact glbBytes_mod hg, ha ho⟩)))).1
  · rw [he]
    cases ho : o.asBinary with
    | false =>
      rw [ho] at hm2 hst
      rw [encode_text (w := {}) rfl hm2 ho]
      exact ⟨encodeBuffers_stored hst _ hfs', rfl⟩
    | true =>
      rw [ho] at hm2 hst
      have hd' := hd
      rw [ho] at hd'
      rw [he, ho] at hl
      have hb := binBuffer_again hd'.buffers hk E.url
      rw [encode_bin_small (w := {}) rfl hm2 ho, hb]
      · exact ⟨encodeBuffers_stored hst _ hfs', rfl⟩
      · intro b hbm
        rw [hb] at hbm
        have e := stored_consistent hd' b (binBuffer_mem hbm).1 (binBuffer_mem hbm).2
        have e2 := stored_chunk hd'.buffers (b := b) (show binBuffer doc = some b from hbm)
        have e3 := hl rfl
        replace e3 : (glbBytes text (binBuffer doc)).length < 4294967296 := e3
        rw [glbBytes_length, hbm, chunkOf, binChunk_length] at e3
        omega

example : threeBuffers.asset.version ≠ [] ∧ UrisKept threeBuffers.buffers := by
  refine ⟨by decide, fun b hb name hn => ?_⟩
  simp only [threeBuffers, List.mem_cons, Option.some.injEq, List.not_mem_nil, or_false] at hb
  rcases hb with rfl | rfl | rfl
  · exact absurd rfl (path_ne hn)
  · exact absurd rfl (path_ne hn)
  · exact plain_name dirPlain hn

/-- C54 is false: a default version is written before the other members of the asset and an
explicit one after them, and URIs are percent-decoded. -/
theorem C54_full_fails :
    let out (doc : Document) := (encode witnessEnv witnessUrl { asBinary := false } doc {} none).sink.out
    let again (doc : Document) := match decodeBytes witnessDec (out doc) with
      | .ok d => some (out d)
      | _ => none
    again newDocument = some (out newDocument) ∧
    (let doc : Document := { asset := { generator := b!"g" } }
     (again doc).isSome = true ∧ again doc ≠ some (out doc)) ∧
    (let doc : Document := { newDocument with images := [some { uri := b!"a%20b.png" }] }
     (again doc).isSome = true ∧ again doc ≠ some (out doc)) := by
  decide +kernel

/-! ### C52 Successive documents -/

/-- Several documents encoded to one writer. -/
def Spec.encodeMany (E : Env) (U : UrlLib) (o : EncOpts) : List Document → Sink → Sink
  | [], w => w
  | d :: l, w => encodeMany E U o l (encode E U o d w none).sink

/-- Successive calls of `Decode`, each with a new document. -/
def Spec.decodeMany (E : DecEnv) : Nat → BufReader → List (Res Document)
  | 0, _ => []
  | k + 1, r => (decode E r {}).result :: decodeMany E k (decode E r {}).reader

/-- What `encodeMany` writes. -/
theorem encodeMany_out {E : DecEnv} (hf : FloatLaws E.json.io) {o : EncOpts} (ho : o.asBinary = true) {n : Nat} :
    ∀ {l : List Document} {w : Sink}, w.plan = [] → (∀ d ∈ l, Saveable E n true d ∧ ∀ b, d.buffers.head? = some (some b) → b.byteLength < 4294967296) →
    ∃ texts : List Bytes, texts.length = l.length ∧ (∀ p ∈ l.zip texts, marshalJSONDoc E.json o p.1 = .ok p.2) ∧
      (encodeMany E.json E.url o l w).out = w.out ++ ((l.zip texts).map fun p => glbBytes p.2 (binBuffer p.1)).flatten
  | [], w, _, _ => ⟨[], rfl, by simp, by simp [encodeMany]⟩
  | d :: l, w, hw, h => by
    obtain ⟨hd, hb⟩ := h d (by simp)
    have hres := C31_encodes E hf o n d (by rw [ho]; exact hd) hb w hw none (by simp)
    obtain ⟨text, hm, he⟩ := encode_ok hw hres
    obtain ⟨texts, h1, h2, h3⟩ := encodeMany_out hf ho (l := l) (w := (encode E.json E.url o d w none).sink) (by rw [he])
      (fun d hd => h d (List.mem_cons_of_mem _ hd))
    refine ⟨text :: texts, by simp [h1], ?_, ?_⟩
    · intro p hp
      rw [List.zip_cons_cons] at hp
      rcases List.mem_cons.1 hp with rfl | hp
      · exact hm
      · exact h2 p hp
    · rw [encodeMany, h3, he]
      simp only [List.zip_cons_cons, List.map_cons, List.flatten_cons, encodedBytes, ho, if_true, List.append_assoc]

theorem decodeMany_back {E : DecEnv} (hf : FloatLaws E.json.io) {o : EncOpts} (ho : o.asBinary = true) (h1 : IsBlank o.pre)
    (h2 : IsBlank o.indent) {n : Nat} : ∀ {l : List Document} {texts : List Bytes} {r : BufReader}, texts.length = l.length →
    (∀ p ∈ l.zip texts, marshalJSONDoc E.json o p.1 = .ok p.2 ∧ (glbBytes p.2 (binBuffer p.1)).length < 4294967296) →
    (∀ d ∈ l, Saveable E n true d ∧ ∀ data, chunkData d = some data → data.length % 4 = 0) → r.Inv → r.Aligned →
    r.rest = ((l.zip texts).map fun p => glbBytes p.2 (binBuffer p.1)).flatten →
    decodeMany E l.length r = l.map fun d => .ok (readBack E.url true d)
  | [], _, _, _, _, _, _, _, _ => rfl
  | d :: l, [], _, h, _, _, _, _, _ => by cases h
  | d :: l, text :: texts, r, hlen, hm, hd, hr, ha, hrest => by
    rw [List.zip_cons_cons] at hm hrest
    obtain ⟨hmd, hsmall⟩ := hm (d, text) (by simp)
    obtain ⟨hs, h4⟩ := hd d (by simp)
    obtain ⟨text', hm', hdec⟩ := decode_glb hf h1 h2 hs.depth hs.ok hs.buffers hs.images ho
    rw [hmd] at hm'
    cases hm'
    have hb4 : ∀ b, binBuffer d = some b → b.data.length % 4 = 0 := fun b hb => h4 b.data (by rw [← binBuffer_data, hb]; rfl)
    obtain ⟨e1, e2, e3, e4⟩ := hdec hsmall r _ hr (by rw [hrest, List.map_cons, List.flatten_cons]) (.inr (.inr ha))
    obtain ⟨e5, e6⟩ := e4 (.inr ha)
    simp only [List.length_cons, decodeMany, List.map_cons]
    rw [e1, decodeMany_back hf ho h1 h2 (l := l) (texts := texts) (by simpa using hlen) (fun p hp => hm p (List.mem_cons_of_mem _ hp))
      (fun d hd' => hd d (List.mem_cons_of_mem _ hd')) e2 (e6 ha hb4)]
    rw [e5]
    cases hb : binBuffer d with
    | none => rfl
    | some b =>
      have := hb4 b hb
      simp only
      rw [show (b.data.length + 3) / 4 * 4 - b.data.length = 0 by omega]
      rfl

theorem mem_flatten_length {l : List Bytes} {x : Bytes} (h : x ∈ l) : x.length ≤ l.flatten.length := by
  induction l with
  | nil => cases h
  | cons y l ih =>
    rw [List.flatten_cons, List.length_append]
    rcases List.mem_cons.1 h with rfl | h
    · omega
    · have := ih h; omega

/-- C52 in part: GLB files written one after another are read by successive calls of `Decode`, if the reads are
multiples of four bytes and the binary chunks need no padding. -/
theorem C52_successive_partial (E : DecEnv) (hf : FloatLaws E.json.io) (o : EncOpts) (ho : o.asBinary = true) (h1 : IsBlank o.pre)
    (h2 : IsBlank o.indent) (n : Nat) (docs : List Document) (hd : ∀ d ∈ docs, Saveable E n true d)
    (h4 : ∀ d ∈ docs, ∀ data, chunkData d = some data → data.length % 4 = 0)
    (hb : ∀ d ∈ docs, ∀ b, d.buffers.head? = some (some b) → b.byteLength < 4294967296)
    (hl : (encodeMany E.json E.url o docs {}).out.length < 4294967296)
    (s : Source) (hs : s.data = (encodeMany E.json E.url o docs {}).out) (ha : ∀ c ∈ s.sizes, (c.2 + 1) % 4 = 0) :
    (decodeMany E docs.length (newDecoder s)).length = docs.length ∧
    ∀ (i : Nat) (hi : i < docs.length), ∃ doc', (decodeMany E docs.length (newDecoder s))[i]? = some (.ok doc') ∧ SameDocument true docs[i] doc' := by
  obtain ⟨texts, e1, e2, e3⟩ := encodeMany_out hf ho (l := docs) (w := {}) rfl (fun d h => ⟨hd d h, hb d h⟩)
  replace e3 : (encodeMany E.json E.url o docs {}).out = ((docs.zip texts).map fun p => glbBytes p.2 (binBuffer p.1)).flatten := e3
  have small : ∀ p ∈ docs.zip texts, (glbBytes p.2 (binBuffer p.1)).length < 4294967296 := fun p hp => by
    have := mem_flatten_length (List.mem_map_of_mem (f := fun p : Document × Bytes => glbBytes p.2 (binBuffer p.1)) hp)
    rw [e3] at hl
    omega
  have hmod : (((docs.zip texts).map fun p => glbBytes p.2 (binBuffer p.1)).flatten).length % 4 = 0 := by
    have : ∀ l : List (Document × Bytes), (∀ p ∈ l, (glbBytes p.2 (binBuffer p.1)).length % 4 = 0) →
        ((l.map fun p => glbBytes p.2 (binBuffer p.1)).flatten).length % 4 = 0 := by
      intro l
      induction l with
      | nil => intro _; rfl
      | cons p l ih =>
        intro h
        have h0 := h p (by simp)
        have h1 := ih fun q hq => h q (List.mem_cons_of_mem _ hq)
        rw [List.map_cons, List.flatten_cons, List.length_append]
        omega
    refine this _ fun p hp => glbBytes_mod (glbBytes_isGlb (small p hp) fun b hb => ?_)
    exact stored_consistent (hd p.1 (List.of_mem_zip hp).1) b (binBuffer_mem hb).1 (binBuffer_mem hb).2
  have hback := decodeMany_back hf ho h1 h2 (r := newDecoder s) e1 (fun p hp => ⟨e2 p hp, small p hp⟩) (fun d h => ⟨hd d h, h4 d h⟩)
    (.inl rfl) (newDecoder_aligned ⟨by rw [hs, e3]; exact hmod, ha⟩) (by rw [← e3, ← hs]; rfl)
  rw [hback]
  refine ⟨by simp, fun i hi => ⟨readBack E.url true docs[i], ?_, readBack_same (hd _ (List.getElem_mem hi)) _⟩⟩
  rw [List.getElem?_map, List.getElem?_eq_getElem hi]
  rfl

/-- Two documents, one with four bytes in its binary chunk and one without. -/
example : let d : Document := { newDocument with buffers := [some { byteLength := 4, data := [1, 2, 3, 4] }] }
    let docs := [d, newDocument, d]
    (∀ d ∈ docs, ∀ data, chunkData d = some data → data.length % 4 = 0) ∧
    (encodeMany witnessEnv witnessUrl {} docs {}).out.length < 4294967296 ∧
    (decodeMany witnessDec 3 (newDecoder { data := (encodeMany witnessEnv witnessUrl {} docs {}).out })).map firstData
      = [some [1, 2, 3, 4], none, some [1, 2, 3, 4]] := by
  refine ⟨?_, by decide +kernel, by decide +kernel⟩
  intro d hd data h
  simp only [List.mem_cons, List.not_mem_nil, or_false] at hd
  rcases hd with rfl | rfl | rfl
  · cases h; rfl
  · cases h
  · cases h; rfl

end Gltf
