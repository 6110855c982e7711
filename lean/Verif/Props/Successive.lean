/-
Property C52, what happens where it is false: the document after a short text is lost, and the document after a padded binary chunk is not
recognised.
-/
import Verif.Props.ReaderError
import Verif.Props.SplitExact

namespace Gltf

open Spec

/-! ### Text -/

/-- All data is in the buffer after the first look at it. -/
theorem peek_all {s : Source} (hs : s.sizes = []) (h0 : s.data ≠ []) (hl : s.data.length ≤ 512) :
    ((newDecoder s).peek 20).2.buf = s.data ∧ ((newDecoder s).peek 20).2.src.data = [] := by
  have h1 : (newDecoder s).fill =
      { buf := s.data, err := if s.together = true ∧ s.fin = .eof then some .eof else none, src := { s with data := [] } } := by
    unfold BufReader.fill BufReader.fillLoop newDecoder Source.read
    rw [hs]
    simp only [Source.give, if_neg h0]
    have ht : s.data.take (bufSize - ([] : Bytes).length) = s.data := List.take_of_length_le (by show _ ≤ 4096; omega)
    have hdr : s.data.drop (bufSize - ([] : Bytes).length) = [] := List.drop_eq_nil_of_le (by show _ ≤ 4096; omega)
    rw [ht, hdr]
    simp [h0, hs]
  have h2 : ∀ b : BufReader, b.buf = s.data → b.src.data = [] → b.src.sizes = [] → ∀ n,
      (b.peekLoop n 20).buf = s.data ∧ (b.peekLoop n 20).src.data = [] := by
    intro b hb hd hz n
    induction n generalizing b with
    | zero => exact ⟨hb, hd⟩
    | succ n ih =>
      unfold BufReader.peekLoop
      split
      · have : b.fill = { buf := s.data, err := some b.src.fin, src := b.src } := by
          unfold BufReader.fill BufReader.fillLoop Source.read
          rw [hz]
          simp [Source.give, hd, hb]
        rw [this]
        exact ih _ rfl hd hz
      · exact ⟨hb, hd⟩
  have h3 : ((newDecoder s).peekLoop 21 20).buf = s.data ∧ ((newDecoder s).peekLoop 21 20).src.data = [] := by
    unfold BufReader.peekLoop
    rw [if_pos ⟨by show 0 < 20; omega, by show 0 < 4096; omega, rfl⟩, h1]
    exact h2 _ rfl rfl hs _
  unfold BufReader.peek
  simp only
  by_cases hlt : ((newDecoder s).peekLoop 21 20).buf.length < 20
  · rw [if_pos hlt]; exact h3
  · rw [if_neg hlt]; exact h3

/-- All data was taken by the JSON decoder. -/
theorem decodeDocument_all (E : DecEnv) {s : Source} (hs : s.sizes = []) (h0 : s.data ≠ []) (hl : s.data.length ≤ 512)
    (hh : headerOf s.data = .ok none) {v : JVal} {rest : Bytes} (hv : parseTop s.data = .ok v rest) :
    (decodeDocument E (newDecoder s) {}).2.rest = [] := by
  obtain ⟨p1, p2⟩ := peek_all hs h0 hl
  obtain ⟨r1, -⟩ := readGLBHeader_spec (b := newDecoder s) (.inl rfl)
  replace r1 : (readGLBHeader (newDecoder s)).1 = .ok none := r1.trans hh
  have r2 : (readGLBHeader (newDecoder s)).2 = ((newDecoder s).peek 20).2 := by
    unfold readGLBHeader at r1 ⊢
    rcases hp : (newDecoder s).peek 20 with ⟨c, b⟩
    rw [hp] at r1
    cases c with
    | none => rfl
    | some c =>
      simp only at r1 ⊢
      split
      · rfl
      · rename_i hm
        rw [if_neg hm] at r1
        split at r1 <;> cases r1
  rcases hg : readGLBHeader (newDecoder s) with ⟨x, b⟩
  rw [hg] at r1 r2
  replace r1 : x = .ok none := r1
  replace r2 : b = ((newDecoder s).peek 20).2 := r2
  subst r1
  rw [← r2] at p1 p2
  have hb : b.buf ≠ [] := p1 ▸ h0
  have hr : b.read 512 = (b.buf, none, { b with buf := [] }) := by
    unfold BufReader.read
    rw [if_neg hb, List.take_of_length_le (by rw [p1]; exact hl), List.drop_eq_nil_of_le (by rw [p1]; exact hl)]
  have hj : (LimReader.readJson { limit := none, r := b }) = (.ok v, { limit := none, r := { b with buf := [] } }) := by
    unfold LimReader.readJson readValue
    rw [show parseTop [] = .more from rfl]
    simp only [List.length_nil, Nat.sub_zero, if_true, Nat.zero_lt_succ, List.nil_append, LimReader.read]
    rw [hr]
    simp only
    unfold readValue
    rw [p1, hv]
  unfold decodeDocument
  rw [hg]
  simp only [Option.map_none]
  rw [hj]
  simp only
  cases (documentC E.json).dec v {} with
  | ok d =>
    show [] ++ b.src.data = []
    rw [p2]
    rfl
  | error e =>
    show [] ++ b.src.data = []
    rw [p2]
    rfl

/-- A reader without data. -/
theorem decode_empty (E : DecEnv) {r : BufReader} (hi : r.Inv) (hr : r.rest = []) (doc : Document) : (decode E r doc).result = .err r.src.fin := by
  rw [decode_eq]
  have h1 := (decodeDocument_spec E hi doc).1
  rcases hd : decodeDocument E r doc with ⟨x, r'⟩
  rw [hd] at h1
  replace h1 : x = docOf E r.rest r.src.fin doc := h1
  rw [hr] at h1
  have : docOf E [] r.src.fin doc = .err r.src.fin := by
    unfold docOf
    rw [show headerOf [] = .ok none from rfl]
    simp only
    show (match valueOf [] r.src.fin with | .ok v => _ | .err e => _ | .panic w => _) = _
    have hv : valueOf [] r.src.fin = .err r.src.fin := by
      unfold valueOf
      rw [show parseTop [] = .more from rfl]
      cases r.src.fin <;> rfl
    rw [hv]
  rw [this] at h1
  subst h1
  rfl

/-- C52 for short texts: if a stream of at most 512 bytes is read at once, the first Decode takes all of it, and all documents after the first
are lost: the second Decode returns the error at the end of the stream, whatever follows the first document. -/
theorem C52_text_lost (E : DecEnv) (s : Source) (ms : List (Bytes × JVal)) (hd : DepthLe 10000 (.obj ms)) (hf : StartsWith false (.obj ms) s.data)
    (hs : s.sizes = []) (hl : s.data.length ≤ 512) : secondDecode E s = .err s.fin := by
  have hh := headerOf_text (startsWith_notGlb hf)
  obtain ⟨pre, r, hfo, er, e⟩ := decode_value E hh (jsonOf_file (.inl hf) hd (.inl ⟨_, rfl⟩))
  have hr : (decodeSource E s).reader = r := by
    rw [e]
    split
    · unfold decodeRest
      split
      · rename_i bs ims _ _
        cases bs <;> rfl
      all_goals rfl
    · rfl
  obtain ⟨w, t, rest, hw, ht, hst⟩ := hf
  have h0 : s.data ≠ [] := by
    rw [hst]
    intro h
    exact (text_last ht).1 (List.append_eq_nil_iff.1 (List.append_eq_nil_iff.1 h).1).2
  have hv := parseTop_text hw ht hd rest (.inl ⟨_, rfl⟩)
  rw [← hst] at hv
  have hrest := decodeDocument_all E hs h0 hl hh hv
  rw [← er] at hrest
  unfold secondDecode
  rw [hr, decode_empty E hfo.inv hrest, hfo.fin]
  rfl

theorem braces_text : Text false (.value (.obj [])) b!"{}" :=
  .objNil (w := []) (by intro c hc; cases hc)

/-- Two documents: the second is lost. -/
example : secondDecode witnessDec { data := b!" {} {\"buffers\":[]}" } = .err .eof := by
  refine C52_text_lost witnessDec _ [] ?_ ⟨b!" ", b!"{}", b!" {\"buffers\":[]}", ?_, braces_text, rfl⟩ rfl (by decide)
  · exact depthLe_mono (text_depth braces_text) (by decide)
  · intro c hc; exact .inl (List.mem_singleton.1 hc)

/-! ### GLB files -/

/-- A reader whose next byte is zero. -/
theorem decode_zero (E : DecEnv) {r : BufReader} (hi : r.Inv) {x : Bytes} (hr : r.rest = 0 :: x) (doc : Document) :
    (decode E r doc).result = .err (.msg "invalid character") := by
  rw [decode_eq]
  have h1 := (decodeDocument_spec E hi doc).1
  rcases hd : decodeDocument E r doc with ⟨y, r'⟩
  rw [hd] at h1
  replace h1 : y = docOf E r.rest r.src.fin doc := h1
  rw [hr] at h1
  have : docOf E (0 :: x) r.src.fin doc = .err (.msg "invalid character") := by
    unfold docOf
    rw [headerOf_text (by rintro ⟨z, hz⟩; injection hz with hz _; exact absurd hz (by decide))]
    simp only [jsonStream, jsonFin]
    have hv : valueOf (0 :: x) r.src.fin = .err (.msg "invalid character") := by
      have hm := parseTop_mono [0] x
      have hb : parseTop [0] = .bad := rfl
      rw [hb] at hm
      replace hm : parseTop (0 :: x) = .bad := hm
      unfold valueOf
      rw [hm]
    rw [hv]
  rw [this] at h1
  subst h1
  rfl

/-- Where the reader is after the JSON of a GLB file that is followed by other data. -/
theorem glb_after_rest (E : DecEnv) {s : Source} {ms : List (Bytes × JVal)} (hd : DepthLe 10000 (.obj ms)) {bin data rest : Bytes} {w t : Bytes}
    (hw : IsBlank w) (ht : Text false (.value (.obj ms)) t) (hg : IsGlb (w ++ t) (some bin) data) (hs0 : s.data = data ++ rest)
    (hpad : (w ++ t).length % 4 = 0) :
    ∃ r c2, r.Inv ∧ r.rest = c2 ++ rest ∧ IsChunk b!"BIN\x00" 0 bin c2 ∧
      decodeSource E s = match (documentC E.json).dec (.obj ms) {} with
        | .ok d => decodeRest E true d r
        | .error e => ⟨.err e, [], r⟩ := by
  obtain ⟨g, hdr, k, c2, hs, hl, hh, hj, hk, hk4, hc⟩ := headerOf_glb hg rest
  have hk0 : k = 0 := by omega
  subst hk0
  rw [← hs0] at hs hh
  rw [List.replicate_zero, List.append_nil] at hs
  rw [Nat.add_zero] at hj
  have hdrop : s.data.drop 20 = w ++ t ++ (c2 ++ rest) := by
    rw [hs, List.append_assoc hdr, ← hl, List.drop_left]
  have hjs : jsonStream s.data (some g) = w ++ t := by
    show (s.data.drop 20).take g.jsonLength = _
    rw [hdrop, hj, List.take_left]
  have hv : jsonOf s = .ok (.obj ms) := by
    unfold jsonOf
    rw [hh]
    show valueOf (jsonStream s.data (some g)) _ = _
    rw [hjs]
    exact valueOf_text ⟨w, t, [], hw, ht, (List.append_nil _).symm⟩ hd (.inl ⟨_, rfl⟩) _
  obtain ⟨pre, r, hr, er, e⟩ := decode_value E hh hv
  obtain ⟨_, pre', hf', hsp⟩ := decodeDocument_spec E (b := newDecoder s) (.inl rfl) {}
  obtain ⟨used, lr, hpre, hus, hen, hal⟩ := hsp (some g) hh
  rw [← er] at hf'
  replace hus : w ++ t = used ++ lr.stream := by rw [← hjs]; exact hus
  have hp := parseTop_text hw ht hd [] (.inl ⟨_, rfl⟩)
  have hle := enough_le hp (by rw [List.append_nil]; exact hus) hen
  have hused : used = w ++ t := by
    have h1 := congrArg List.length hus
    rw [List.length_append (as := used)] at h1
    have : lr.stream = [] := List.eq_nil_of_length_eq_zero (by omega)
    rw [hus, this, List.append_nil]
  refine ⟨r, c2, hr.inv, ?_, hc, e⟩
  have := hf'.rest
  rw [hpre, hused] at this
  replace this : s.data = s.data.take 20 ++ (w ++ t) ++ r.rest := this
  conv at this => lhs; rw [← List.take_append_drop 20 s.data]
  rw [List.append_assoc, hdrop] at this
  exact (List.append_cancel_left (List.append_cancel_left this)).symm

/-- C52 for GLB files with padded data: if the first document was decoded and the bytes of its first buffer do not fill the binary chunk, the
second Decode starts in the padding, and takes it for JSON: it always fails with a wrong character, whatever follows. -/
theorem C52_padding_fails (E : DecEnv) (s : Source) (ms : List (Bytes × JVal)) (hd : DepthLe 10000 (.obj ms)) (bin data rest w t : Bytes)
    (hw : IsBlank w) (ht : Text false (.value (.obj ms)) t) (hg : IsGlb (w ++ t) (some bin) data) (hs : s.data = data ++ rest)
    (hpad : (w ++ t).length % 4 = 0) (doc : Document) (b : Buffer) (l : List (Option Buffer)) (h0 : (decodeSource E s).result = .ok doc)
    (hb : doc.buffers = some b :: l) (hu : b.uri = []) (hfit : b.byteLength = bin.length) (hodd : bin.length % 4 ≠ 0) :
    secondDecode E s = .err (.msg "invalid character") := by
  obtain ⟨r, c2, hi, hr, hc, e⟩ := glb_after_rest E hd hw ht hg hs hpad
  unfold secondDecode
  rw [e] at h0 ⊢
  cases hdec : (documentC E.json).dec (.obj ms) {} with
  | error er => rw [hdec] at h0; cases h0
  | ok d =>
    rw [hdec] at h0
    simp only at h0 ⊢
    obtain ⟨bs, ims, first, tl, bl, h1, h2, h3, h4, rfl⟩ := decodeRest_ok h0
    simp only at hb
    rcases decodeFirst_shape hi h3 with ⟨rfl, rfl⟩ | ⟨c, c', rfl, rfl, hcc, hcu, -⟩
    · cases bl with
      | nil => cases hb
      | cons b1 bl =>
        obtain ⟨c, -, hc'⟩ := decodeBuffers_shape h4 b1 (.head _)
        have := (decodeBuffer_shape hc').2.1
        injection hb with hb _
        injection hb with hb
        exact absurd (hb ▸ hu) this
    · injection hb with hb _
      injection hb with hb
      subst hb
      have hbl : c'.byteLength = c.byteLength := by rw [hcc]
      obtain ⟨r', hx, hr', hi', -⟩ := decodeBinaryBuffer_chunk hi (b := c) (by omega) (by omega) hc hr
      unfold decodeRest
      rw [h1, h2]
      unfold decodeFirst
      simp only [hcu, and_self, if_true]
      rw [hx]
      simp only
      obtain ⟨len, k, rfl, hk, hk4, hlen⟩ := hc
      have hlen1 := hlen.1
      simp only [List.length_append, List.length_replicate, List.length_cons, List.length_nil] at hr'
      obtain ⟨m, hm⟩ : ∃ m, len.length + 4 + bin.length + k - 8 - bin.length = m + 1 := ⟨k - 1, by omega⟩
      refine decode_zero E hi' (x := List.replicate m 0 ++ rest) ?_ {}
      rw [hr', show len.length + (0 + 1 + 1 + 1 + 1) + bin.length + k - 8 - bin.length = m + 1 by omega]
      rfl

/-- Two copies of `evenGlb`: the data of the first fill one byte of the chunk. -/
example : secondDecode witnessDec { data := evenGlb ++ evenGlb } = .err (.msg "invalid character") := by
  have hr : ∃ doc b l, (decodeSource witnessDec { data := evenGlb ++ evenGlb }).result = .ok doc ∧ doc.buffers = some b :: l ∧ b.uri = [] ∧
      b.byteLength = 1 := by
    have h : (match (decodeSource witnessDec { data := evenGlb ++ evenGlb }).result with
      | .ok doc => match doc.buffers with
        | some b :: _ => decide (b.uri = [] ∧ b.byteLength = 1)
        | _ => false
      | _ => false) = true := by decide +kernel
    split at h
    · rename_i doc hd
      split at h
      · rename_i b l hb
        exact ⟨doc, b, l, hd, hb, (of_decide_eq_true h).1, (of_decide_eq_true h).2⟩
      · cases h
    · cases h
  obtain ⟨doc, b, l, h0, hb, hu, hn1⟩ := hr
  exact C52_padding_fails witnessDec _ _ (depthLe_mono (text_depth paddedGlb_text) (by decide)) [77] evenGlb evenGlb b!"  " _
    (by intro c hc; exact .inl (List.eq_of_mem_replicate (n := 2) hc)) paddedGlb_text evenGlb_glb rfl (by decide) doc b l h0 hb hu
    (by rw [hn1]; rfl) (by decide)

end Gltf
