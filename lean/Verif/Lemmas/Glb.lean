/-
Lemmas on the decoder: how the result depends on the stream.
-/
import Verif.Model.Decode
import Verif.Lemmas.Stream

namespace Gltf

/-! ### The header and the JSON -/

/-- The header at the beginning of a stream. -/
def headerOf (s : Bytes) : Res (Option GlbHeader) :=
  if s.length < 20 then .ok none
  else
    let h := GlbHeader.parse (s.take 20)
    if h.magic ≠ glbHeaderMagic then .ok none
    else if validateGLBHeader h then .ok (some h)
    else .err (.msg "gltf: Invalid GLB JSON header")

/-- The bytes of the header, if there is one. -/
def headerLen (h : Option GlbHeader) : Nat := if h.isSome then 20 else 0

theorem readGLBHeader_spec {b : BufReader} (hb : b.Inv) :
    (readGLBHeader b).1 = headerOf b.rest ∧
    ∃ k, k ≤ b.rest.length ∧ b.Follows (b.rest.take k) (readGLBHeader b).2 ∧
      (b.Aligned → (readGLBHeader b).2.Aligned) ∧
      ∀ h, headerOf b.rest = .ok h → k = headerLen h := by
  obtain ⟨b', hf, ha, hc⟩ := BufReader.peek_spec hb (n := 20) (by decide)
  unfold readGLBHeader headerOf
  rcases hc with ⟨hl, hp⟩ | ⟨hl, hl', hp⟩
  · rw [hp, if_pos hl]
    exact ⟨rfl, 0, Nat.zero_le _, by simpa using hf, ha, fun h e => by cases e; rfl⟩
  · rw [hp, if_neg (by omega)]
    simp only
    split
    · exact ⟨rfl, 0, Nat.zero_le _, by simpa using hf, ha, fun h e => by cases e; rfl⟩
    · obtain ⟨b'', hr, hf2, ha2⟩ := BufReader.read_buffered hf.inv (by decide) hl'
      rw [hr]
      have hrest : b'.rest = b.rest := hf.rest.symm
      rw [hrest] at hf2
      have hfo : b.Follows (b.rest.take 20) b'' := hf.trans hf2
      split
      · exact ⟨rfl, 20, hl, hfo, fun h => ha2 (ha h) rfl, fun h e => by cases e; rfl⟩
      · exact ⟨rfl, 20, hl, hfo, fun h => ha2 (ha h) rfl, fun h e => by cases e⟩

/-- The JSON chunk: the stream after the header up to the declared length. -/
def jsonStream (s : Bytes) (h : Option GlbHeader) : Bytes :=
  match h with
  | none => s
  | some h => (s.drop 20).take h.jsonLength

/-- The error at the end of the JSON chunk. -/
def jsonFin (s : Bytes) (fin : Err) (h : Option GlbHeader) : Err :=
  match h with
  | none => fin
  | some h => if h.jsonLength ≤ (s.drop 20).length then .eof else fin

/-- The document at the beginning of a stream. -/
def docOf (E : DecEnv) (s : Bytes) (fin : Err) (doc : Document) : Res (Bool × Document) :=
  match headerOf s with
  | .ok h =>
    match valueOf (jsonStream s h) (jsonFin s fin h) with
    | .ok v =>
      match (documentC E.json).dec v doc with
      | .ok doc => .ok (h.isSome, doc)
      | .error e => .err e
    | .err e => .err e
    | .panic w => .panic w
  | .err e => .err e
  | .panic w => .panic w

/-- The document that is decoded depends on the bytes of the stream only. -/
theorem decodeDocument_spec (E : DecEnv) {b : BufReader} (hb : b.Inv) (doc : Document) :
    (decodeDocument E b doc).1 = docOf E b.rest b.src.fin doc ∧
    ∃ pre, b.Follows pre (decodeDocument E b doc).2 ∧
      ∀ h, headerOf b.rest = .ok h → ∃ used l, pre = b.rest.take (headerLen h) ++ used ∧
        jsonStream b.rest h = used ++ l.stream ∧ Enough [] used l ∧
        (b.Aligned → (∀ g ∈ h, g.jsonLength % 4 = 0) → used.length % 4 = 0 ∧ (decodeDocument E b doc).2.Aligned) := by
  obtain ⟨h1, k, hk, hf, ha, hhl⟩ := readGLBHeader_spec hb
  unfold decodeDocument docOf
  rcases hh : readGLBHeader b with ⟨r, b'⟩
  rw [hh] at h1 hf ha
  simp only at h1 hf ha
  subst h1
  cases hr : headerOf b.rest with
  | err e => exact ⟨rfl, _, hf, fun h e => by cases e⟩
  | panic w => exact ⟨rfl, _, hf, fun h e => by cases e⟩
  | ok h =>
    simp only
    have hkh : k = headerLen h := hhl h hr
    subst hkh
    have hj := readJson_spec (l := { limit := h.map (·.jsonLength), r := b' }) hf.inv
    have hrest : b'.rest = b.rest.drop (headerLen h) := by
      have := hf.rest
      conv at this => lhs; rw [← List.take_append_drop (headerLen h) b.rest]
      exact (List.append_cancel_left this).symm
    have hs : LimReader.stream { limit := h.map (·.jsonLength), r := b' } = jsonStream b.rest h := by
      cases h with
      | none => exact hrest
      | some g => show b'.rest.take _ = _; rw [hrest]; rfl
    have hfin : LimReader.fin { limit := h.map (·.jsonLength), r := b' } = jsonFin b.rest b.src.fin h := by
      cases h with
      | none => exact hf.fin
      | some g =>
        show (if g.jsonLength ≤ b'.rest.length then Err.eof else b'.src.fin) = _
        rw [hrest, hf.fin]; rfl
    rw [hs, hfin] at hj
    rcases hv : LimReader.readJson { limit := h.map (·.jsonLength), r := b' } with ⟨v, l⟩
    rw [hv] at hj
    obtain ⟨hj1, used, hj2, hj3, hj4⟩ := hj
    simp only at hj1 hj2 hj3 hj4
    subst hj1
    have hfo : b.Follows (b.rest.take (headerLen h) ++ used) l.r := hf.trans hj2.buf
    have hex : ∀ h', Res.ok h = .ok h' → ∃ used' l', b.rest.take (headerLen h) ++ used = b.rest.take (headerLen h') ++ used' ∧
        jsonStream b.rest h' = used' ++ LimReader.stream l' ∧ Enough [] used' l' ∧
        (b.Aligned → (∀ g ∈ h', g.jsonLength % 4 = 0) → used'.length % 4 = 0 ∧ l.r.Aligned) := by
      intro h' e
      cases e
      refine ⟨used, l, rfl, by rw [← hs]; exact hj2.stream, hj3, fun hal hg => ?_⟩
      have := hj4 ⟨ha hal, fun k hk => by
        cases h with
        | none => cases hk
        | some g => cases hk; exact hg g rfl⟩
      exact ⟨this.1, this.2.1⟩
    cases valueOf (jsonStream b.rest h) (jsonFin b.rest b.src.fin h) with
    | err e => exact ⟨rfl, _, hfo, hex⟩
    | panic w => exact ⟨rfl, _, hfo, hex⟩
    | ok v =>
      simp only
      cases (documentC E.json).dec v doc with
      | ok d => exact ⟨rfl, _, hfo, hex⟩
      | error e => exact ⟨rfl, _, hfo, hex⟩

/-! ### The binary chunk -/

/-- Readers with the same data left. -/
structure SameRest (a b : BufReader) : Prop where
  rest : a.rest = b.rest
  fin : a.src.fin = b.src.fin
  inva : a.Inv
  invb : b.Inv

theorem full_congr {a b : BufReader} (h : SameRest a b) (n : Nat) :
    (a.full n).1 = (b.full n).1 ∧ SameRest (a.full n).2 (b.full n).2 := by
  obtain ⟨a', ha⟩ := BufReader.full_spec n h.inva
  obtain ⟨b', hb⟩ := BufReader.full_spec n h.invb
  rw [h.rest, h.fin] at ha
  rcases ha with ⟨ha1, ha2, ha3, _⟩ | ⟨ha1, ha3, ha2⟩
  · rcases hb with ⟨hb1, hb2, hb3, _⟩ | ⟨hb1, _⟩
    · rw [ha2, hb2]
      refine ⟨rfl, ⟨?_, ha3.fin.trans (h.fin.trans hb3.fin.symm), ha3.inv, hb3.inv⟩⟩
      have := ha3.rest.symm.trans (h.rest.trans hb3.rest)
      exact List.append_cancel_left this
    · omega
  · rcases hb with ⟨hb1, _⟩ | ⟨hb1, hb3, hb2⟩
    · omega
    · rw [ha2, hb2]
      refine ⟨rfl, ⟨?_, ha3.fin.trans (h.fin.trans hb3.fin.symm), ha3.inv, hb3.inv⟩⟩
      have := ha3.rest.symm.trans (h.rest.trans hb3.rest)
      exact List.append_cancel_left this

theorem decodeBinaryBuffer_congr {a b : BufReader} (h : SameRest a b) (buf : Buffer) :
    (decodeBinaryBuffer buf a).1 = (decodeBinaryBuffer buf b).1 ∧ SameRest (decodeBinaryBuffer buf a).2 (decodeBinaryBuffer buf b).2 := by
  unfold decodeBinaryBuffer
  cases validateBuffer buf with
  | err e => exact ⟨rfl, h⟩
  | panic w => exact ⟨rfl, h⟩
  | ok u =>
    simp only
    obtain ⟨h1, h2⟩ := full_congr h 8
    rcases ha : a.full 8 with ⟨ra, a'⟩
    rcases hb : b.full 8 with ⟨rb, b'⟩
    rw [ha, hb] at h1 h2
    simp only at h1 h2
    subst h1
    cases ra with
    | err e => exact ⟨rfl, h2⟩
    | panic w => exact ⟨rfl, h2⟩
    | ok hd =>
      simp only
      split
      · exact ⟨rfl, h2⟩
      · split
        · exact ⟨rfl, h2⟩
        · obtain ⟨h3, h4⟩ := full_congr h2 buf.byteLength.toNat
          rcases ha2 : a'.full buf.byteLength.toNat with ⟨ra, a''⟩
          rcases hb2 : b'.full buf.byteLength.toNat with ⟨rb, b''⟩
          rw [ha2, hb2] at h3 h4
          simp only at h3 h4
          subst h3
          cases ra with
          | err e => exact ⟨rfl, h4⟩
          | panic w => exact ⟨rfl, h4⟩
          | ok d => exact ⟨rfl, h4⟩

theorem decodeFirst_congr {a b : BufReader} (h : SameRest a b) (isBinary : Bool) (l : List Buffer) :
    (decodeFirst isBinary l a).1 = (decodeFirst isBinary l b).1 ∧ SameRest (decodeFirst isBinary l a).2 (decodeFirst isBinary l b).2 := by
  unfold decodeFirst
  cases l with
  | nil => exact ⟨rfl, h⟩
  | cons buf l =>
    simp only
    split
    · obtain ⟨h1, h2⟩ := decodeBinaryBuffer_congr h buf
      rcases ha : decodeBinaryBuffer buf a with ⟨ra, a'⟩
      rcases hb : decodeBinaryBuffer buf b with ⟨rb, b'⟩
      rw [ha, hb] at h1 h2
      simp only at h1 h2
      subst h1
      cases ra with
      | err e => exact ⟨rfl, h2⟩
      | panic w => exact ⟨rfl, h2⟩
      | ok d => exact ⟨rfl, h2⟩
    · exact ⟨rfl, h⟩

/-- Whether a buffer is read from the binary chunk. -/
def usesChunk (isBinary : Bool) (l : List Buffer) : Bool :=
  match l with
  | b :: _ => isBinary && b.uri.isEmpty
  | [] => false

theorem decodeFirst_unused {isBinary : Bool} {l : List Buffer} (h : usesChunk isBinary l = false) (a : BufReader) :
    decodeFirst isBinary l a = (.ok ([], l), a) := by
  unfold decodeFirst
  cases l with
  | nil => rfl
  | cons b l =>
    simp only
    rw [if_neg]
    rintro ⟨h1, h2⟩
    simp only [usesChunk, h1, h2] at h
    cases h

/-- The rest of `Decode` after the document was read. -/
def decodeRest (E : DecEnv) (isBinary : Bool) (doc : Document) (r : BufReader) : Decoded :=
  match mapRes (sanitizeBuffer E.url) doc.buffers, mapRes (sanitizeImage E.url) doc.images with
  | .ok buffers, .ok images =>
    match decodeFirst isBinary buffers r with
    | (.err e, r) => ⟨.err e, [], r⟩
    | (.panic w, r) => ⟨.panic w, [], r⟩
    | (.ok (first, rest), r) =>
      let (l, opened) := decodeBuffers E rest
      ⟨l.map fun l => { doc with buffers := (first ++ l).map some, images := images.map some }, opened, r⟩
  | .ok _, .err e => ⟨.err e, [], r⟩
  | .ok _, .panic w => ⟨.panic w, [], r⟩
  | .err e, _ => ⟨.err e, [], r⟩
  | .panic w, _ => ⟨.panic w, [], r⟩

theorem decode_eq (E : DecEnv) (r : BufReader) (doc : Document) : decode E r doc =
    match decodeDocument E r doc with
    | (.err e, r) => ⟨.err e, [], r⟩
    | (.panic w, r) => ⟨.panic w, [], r⟩
    | (.ok (isBinary, doc), r) => decodeRest E isBinary doc r := rfl

theorem decodeRest_congr {a b : BufReader} (h : SameRest a b) (E : DecEnv) (isBinary : Bool) (doc : Document) :
    (decodeRest E isBinary doc a).result = (decodeRest E isBinary doc b).result ∧
    (decodeRest E isBinary doc a).opened = (decodeRest E isBinary doc b).opened ∧
    SameRest (decodeRest E isBinary doc a).reader (decodeRest E isBinary doc b).reader := by
  unfold decodeRest
  cases mapRes (sanitizeBuffer E.url) doc.buffers with
  | err e => exact ⟨rfl, rfl, h⟩
  | panic w => exact ⟨rfl, rfl, h⟩
  | ok buffers =>
    cases mapRes (sanitizeImage E.url) doc.images with
    | err e => exact ⟨rfl, rfl, h⟩
    | panic w => exact ⟨rfl, rfl, h⟩
    | ok images =>
      simp only
      obtain ⟨h1, h2⟩ := decodeFirst_congr h isBinary buffers
      rcases ha : decodeFirst isBinary buffers a with ⟨ra, a'⟩
      rcases hb : decodeFirst isBinary buffers b with ⟨rb, b'⟩
      rw [ha, hb] at h1 h2
      simp only at h1 h2
      subst h1
      cases ra with
      | err e => exact ⟨rfl, rfl, h2⟩
      | panic w => exact ⟨rfl, rfl, h2⟩
      | ok d => exact ⟨rfl, rfl, h2⟩

theorem decodeRest_unused (E : DecEnv) {isBinary : Bool} {doc : Document}
    (hu : ∀ l, mapRes (sanitizeBuffer E.url) doc.buffers = .ok l → usesChunk isBinary l = false) (a b : BufReader) :
    (decodeRest E isBinary doc a).result = (decodeRest E isBinary doc b).result ∧
    (decodeRest E isBinary doc a).opened = (decodeRest E isBinary doc b).opened := by
  unfold decodeRest
  cases hm : mapRes (sanitizeBuffer E.url) doc.buffers with
  | err e => exact ⟨rfl, rfl⟩
  | panic w => exact ⟨rfl, rfl⟩
  | ok buffers =>
    cases mapRes (sanitizeImage E.url) doc.images with
    | err e => exact ⟨rfl, rfl⟩
    | panic w => exact ⟨rfl, rfl⟩
    | ok images =>
      simp only
      rw [decodeFirst_unused (hu _ hm) a, decodeFirst_unused (hu _ hm) b]
      exact ⟨rfl, rfl⟩

theorem decodeDocument_congr (E : DecEnv) {a b : BufReader} (h : SameRest a b) (doc : Document) :
    (decodeDocument E a doc).1 = (decodeDocument E b doc).1 := by
  rw [(decodeDocument_spec E h.inva doc).1, (decodeDocument_spec E h.invb doc).1, h.rest, h.fin]

/-- Readers that are at the same place after the JSON give the same result. -/
theorem decode_congr (E : DecEnv) {a b : BufReader} (h : SameRest a b) (doc : Document)
    (h2 : SameRest (decodeDocument E a doc).2 (decodeDocument E b doc).2) :
    (decode E a doc).result = (decode E b doc).result ∧ (decode E a doc).opened = (decode E b doc).opened ∧
    SameRest (decode E a doc).reader (decode E b doc).reader := by
  rw [decode_eq, decode_eq]
  have h1 := decodeDocument_congr E h doc
  rcases ha : decodeDocument E a doc with ⟨ra, a'⟩
  rcases hb : decodeDocument E b doc with ⟨rb, b'⟩
  rw [ha, hb] at h1 h2
  simp only at h1 h2
  subst h1
  cases ra with
  | err e => exact ⟨rfl, rfl, h2⟩
  | panic w => exact ⟨rfl, rfl, h2⟩
  | ok p => exact decodeRest_congr h2 E p.1 p.2

/-- If the binary chunk is not used it does not matter where the reader is after the JSON. -/
theorem decode_unused (E : DecEnv) {a b : BufReader} (h : SameRest a b) (doc : Document)
    (hu : ∀ isBinary d l, (decodeDocument E a doc).1 = .ok (isBinary, d) → mapRes (sanitizeBuffer E.url) d.buffers = .ok l →
      usesChunk isBinary l = false) :
    (decode E a doc).result = (decode E b doc).result ∧ (decode E a doc).opened = (decode E b doc).opened := by
  rw [decode_eq, decode_eq]
  have h1 := decodeDocument_congr E h doc
  rcases ha : decodeDocument E a doc with ⟨ra, a'⟩
  rcases hb : decodeDocument E b doc with ⟨rb, b'⟩
  rw [ha] at h1 hu
  rw [hb] at h1
  simp only at h1 hu
  subst h1
  cases ra with
  | err e => exact ⟨rfl, rfl⟩
  | panic w => exact ⟨rfl, rfl⟩
  | ok p => exact decodeRest_unused E (fun l hl => hu p.1 p.2 l rfl hl) a' b'

/-- Where the reader is after the JSON, if what is read is known. -/
theorem decodeDocument_rest (E : DecEnv) {a : BufReader} (ha : a.Inv) (doc : Document) {hdr text pad tail : Bytes} {g : GlbHeader}
    {v : JVal} (hr : a.rest = hdr ++ text ++ pad ++ tail) (hl : hdr.length = 20) (hh : headerOf a.rest = .ok (some g))
    (hj : g.jsonLength = text.length + pad.length) (hv : parseTop (text ++ pad) = .ok v pad)
    (hp : pad = [] ∨ (a.Aligned ∧ pad.length < 4 ∧ (text.length + pad.length) % 4 = 0)) :
    (decodeDocument E a doc).2.rest = tail := by
  obtain ⟨_, pre, hf, hx⟩ := decodeDocument_spec E ha doc
  obtain ⟨used, l, hpre, hs, he, h4⟩ := hx _ hh
  have e1 : headerLen (some g) = 20 := rfl
  have e3 : a.rest.drop 20 = text ++ pad ++ tail := by
    rw [hr, List.append_assoc, List.append_assoc, ← hl, List.drop_left, ← List.append_assoc]
  have e4 : jsonStream a.rest (some g) = text ++ pad := by
    unfold jsonStream
    simp only
    rw [e3, hj, ← List.length_append, List.take_left]
  rw [e4] at hs
  have hle := enough_le hv hs he
  have hlen := congrArg List.length hs
  rw [List.length_append, List.length_append] at hlen
  have hul : used.length = text.length + pad.length := by
    rcases hp with hp | ⟨hal, hp1, hp2⟩
    · subst hp; simp at hlen ⊢; omega
    · have := (h4 hal (by intro g' hg'; cases hg'; rw [hj]; exact hp2)).1
      omega
  have hst : l.stream = [] := List.length_eq_zero_iff.1 (by omega)
  rw [hst, List.append_nil] at hs
  have := hf.rest
  rw [hpre, e1, ← hs] at this
  conv at this => lhs; rw [← List.take_append_drop 20 a.rest, e3]
  simp only [List.append_assoc] at this
  exact (List.append_cancel_left (List.append_cancel_left (List.append_cancel_left this))).symm

end Gltf
