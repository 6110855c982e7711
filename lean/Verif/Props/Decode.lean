/-
Properties C32, C33, C50, C51 and C52: decoding a stream.
-/
import Verif.Lemmas.Keeps
import Verif.Spec.Glb
import Verif.Lemmas.Glb
import Verif.Props.Uri
import Verif.Props.Base64
import Verif.Lemmas.TextParse

namespace Gltf

open Spec

theorem le32_eq {s : Bytes} (h : 4 ≤ s.length) : le32 s = leNat (s.take 4) := by
  match s, h with
  | a :: b :: c :: d :: s, _ =>
    show a.toNat + b.toNat * 256 + c.toNat * 65536 + d.toNat * 16777216
      = a.toNat + 256 * (b.toNat + 256 * (c.toNat + 256 * (d.toNat + 256 * 0)))
    omega

theorem le32_text {s : Bytes} (h : 4 ≤ s.length) {w x y z : UInt8} : le32 s = leNat [w, x, y, z] ↔ [w, x, y, z] <+: s := by
  match s, h with
  | a :: b :: c :: d :: s, _ =>
    have ha := a.toNat_lt; have hb := b.toNat_lt; have hc := c.toNat_lt; have hd := d.toNat_lt
    have hw := w.toNat_lt; have hx := x.toNat_lt; have hy := y.toNat_lt; have hz := z.toNat_lt
    have e1 : le32 (a :: b :: c :: d :: s) = a.toNat + b.toNat * 256 + c.toNat * 65536 + d.toNat * 16777216 := rfl
    have e2 : leNat [w, x, y, z] = w.toNat + 256 * (x.toNat + 256 * (y.toNat + 256 * (z.toNat + 256 * 0))) := rfl
    rw [e1, e2]
    constructor
    · intro h
      have h1 : w.toNat = a.toNat := by omega
      have h2 : x.toNat = b.toNat := by omega
      have h3 : y.toNat = c.toNat := by omega
      have h4 : z.toNat = d.toNat := by omega
      rw [UInt8.toNat_inj] at h1 h2 h3 h4
      subst h1 h2 h3 h4
      exact ⟨s, rfl⟩
    · rintro ⟨t, e⟩
      injection e with e1 e
      injection e with e2 e
      injection e with e3 e
      injection e with e4 e
      subst e1 e2 e3 e4
      omega

/-! ### C32 The split of the stream -/

theorem headerOf_text {s : Bytes} (h : ¬ b!"glTF" <+: s) : headerOf s = .ok none := by
  unfold headerOf
  split
  · rfl
  · rename_i hl
    simp only
    rw [if_pos]
    intro e
    have e' : le32 (s.take 20) = leNat b!"glTF" := e
    rw [le32_text (by rw [List.length_take]; omega)] at e'
    exact h (e'.trans (List.take_prefix _ _))

theorem newDecoder_same {s1 s2 : Source} (hd : s1.data = s2.data) (hf : s1.fin = s2.fin) :
    SameRest (newDecoder s1) (newDecoder s2) := ⟨hd, hf, .inl rfl, .inl rfl⟩

/-- C32 in part: the result of decoding a text file depends on its bytes only. -/
theorem C32_text_partial (E : DecEnv) (s1 s2 : Source) (hd : s1.data = s2.data) (hf : s1.fin = s2.fin)
    (h : ¬ b!"glTF" <+: s1.data) :
    (decodeSource E s1).result = (decodeSource E s2).result ∧ (decodeSource E s1).opened = (decodeSource E s2).opened := by
  refine decode_unused E (newDecoder_same hd hf) {} fun isBinary d l hok _ => ?_
  rw [(decodeDocument_spec E (newDecoder_same hd hf).inva {}).1] at hok
  unfold docOf at hok
  rw [headerOf_text (show ¬ b!"glTF" <+: (newDecoder s1).rest from h)] at hok
  simp only at hok
  have : isBinary = false := by
    split at hok
    · split at hok
      · injection hok with hok; injection hok with hok; exact hok.symm
      · cases hok
    · cases hok
    · cases hok
  subst this
  cases l <;> rfl

/-- The declared length of the first buffer of a decoded document. -/
def firstLength (r : Res Document) : Option Int :=
  match r with
  | .ok d => match d.buffers with
    | some b :: _ => some b.byteLength
    | _ => none
  | _ => none

/-- C32 in part: if a GLB decodes to a document whose first buffer has a URI, or to one without buffers, the
result depends on the bytes only. -/
theorem C32_no_chunk_partial (E : DecEnv) (s1 s2 : Source) (hd : s1.data = s2.data) (hf : s1.fin = s2.fin) (doc : Document)
    (h : (decodeSource E s1).result = .ok doc) (hb : ∀ b, doc.buffers.head? = some (some b) → b.uri ≠ []) :
    (decodeSource E s2).result = .ok doc ∧ (decodeSource E s1).opened = (decodeSource E s2).opened := by
  rw [← h]
  refine (fun h => ⟨h.1.symm, h.2⟩) (decode_unused E (newDecoder_same hd hf) {} fun isBinary d l hok hm => ?_)
  cases hu : usesChunk isBinary l with
  | false => rfl
  | true =>
    exfalso
    unfold decodeSource at h
    rw [decode_eq] at h
    rcases hr : decodeDocument E (newDecoder s1) {} with ⟨r, b'⟩
    rw [hr] at hok h
    simp only at hok
    subst hok
    simp only [decodeRest, hm] at h
    cases hi : mapRes (sanitizeImage E.url) d.images with
    | err e => rw [hi] at h; cases h
    | panic w => rw [hi] at h; cases h
    | ok images =>
      rw [hi] at h
      simp only at h
      cases l with
      | nil => cases hu
      | cons b l =>
        simp only [usesChunk, Bool.and_eq_true] at hu
        have hbu : b.uri = [] := List.isEmpty_iff.1 hu.2
        unfold decodeFirst at h
        simp only [if_pos (show isBinary = true ∧ b.uri = [] from ⟨hu.1, hbu⟩)] at h
        rcases hc : decodeBinaryBuffer b b' with ⟨rb, r2⟩
        rw [hc] at h
        cases rb with
        | err e => cases h
        | panic w => cases h
        | ok b2 =>
          simp only at h
          rw [Res.map_eq_ok] at h
          obtain ⟨l', hl', rfl⟩ := h
          have hb2 : b2.uri = b.uri := by
            unfold decodeBinaryBuffer at hc
            split at hc
            · cases hc
            · cases hc
            · split at hc
              · cases hc
              · cases hc
              · split at hc
                · cases hc
                · split at hc
                  · cases hc
                  · split at hc
                    · injection hc with hc; injection hc with hc; rw [← hc]
                    · cases hc
                    · cases hc
          exact hb b2 rfl (hb2.trans hbu)

theorem headerOf_length {s : Bytes} {g : GlbHeader} (h : headerOf s = .ok (some g)) : g.jsonLength = leNat ((s.drop 12).take 4) := by
  unfold headerOf at h
  split at h
  · cases h
  · rename_i hl
    simp only at h
    split at h
    · cases h
    · split at h
      · injection h with h; injection h with h
        rw [← h]
        show le32 ((s.take 20).drop 12) = _
        rw [le32_eq (by rw [List.length_drop, List.length_take]; omega), List.drop_take, List.take_take]
        rfl
      · cases h

/-- C32 in part: the result of decoding a GLB depends on its bytes only, if the JSON text fills its chunk, or if it
is padded to a multiple of four bytes and every read returns a multiple of four bytes. Missing: other ways to
split a GLB whose JSON chunk is padded, see `C32_full_fails`. -/
theorem C32_glb_partial (E : DecEnv) (s1 s2 : Source) (hd : s1.data = s2.data) (hf : s1.fin = s2.fin)
    (hdr w t pad tail : Bytes) (ms : List (Bytes × JVal)) (hdata : s1.data = hdr ++ (w ++ t) ++ pad ++ tail) (hl : hdr.length = 20)
    (hj : leNat ((hdr.drop 12).take 4) = (w ++ t).length + pad.length) (hw : IsBlank w) (ht : Text false (.value (.obj ms)) t)
    (hn : DepthLe 10000 (.obj ms))
    (hp : pad = [] ∨ (s1.Aligned ∧ s2.Aligned ∧ pad.length < 4 ∧ ((w ++ t).length + pad.length) % 4 = 0)) :
    (decodeSource E s1).result = (decodeSource E s2).result ∧ (decodeSource E s1).opened = (decodeSource E s2).opened := by
  have hv : parseTop (w ++ t ++ pad) = .ok (.obj ms) pad := parseTop_text hw ht hn pad (.inl ⟨_, rfl⟩)
  generalize w ++ t = text at *
  have hs := newDecoder_same hd hf
  have hr1 : (newDecoder s1).rest = hdr ++ text ++ pad ++ tail := hdata
  have hr2 : (newDecoder s2).rest = hdr ++ text ++ pad ++ tail := hd.symm.trans hdata
  cases hh : headerOf (newDecoder s1).rest with
  | ok h =>
    cases h with
    | none =>
      refine decode_unused E hs {} fun isBinary d l hok _ => ?_
      rw [(decodeDocument_spec E hs.inva {}).1] at hok
      unfold docOf at hok
      rw [hh] at hok
      simp only at hok
      have : isBinary = false := by
        split at hok
        · split at hok
          · injection hok with hok; injection hok with hok; exact hok.symm
          · cases hok
        · cases hok
        · cases hok
      subst this
      cases l <;> rfl
    | some g =>
      have hg : g.jsonLength = text.length + pad.length := by
        rw [headerOf_length hh, ← hj, hr1, List.append_assoc, List.append_assoc, List.drop_append_of_le_length (by omega),
          List.take_append_of_le_length (by rw [List.length_drop]; omega)]
      have hh2 : headerOf (newDecoder s2).rest = .ok (some g) := by rw [← hs.rest]; exact hh
      have e1 := decodeDocument_rest E hs.inva {} hr1 hl hh hg hv
        (hp.imp_right fun ⟨h1, h2, h3, h4⟩ => ⟨⟨rfl, h1⟩, h3, h4⟩)
      have e2 := decodeDocument_rest E hs.invb {} hr2 hl hh2 hg hv
        (hp.imp_right fun ⟨h1, h2, h3, h4⟩ => ⟨⟨rfl, h2⟩, h3, h4⟩)
      obtain ⟨_, p1, f1, _⟩ := decodeDocument_spec E hs.inva {}
      obtain ⟨_, p2, f2, _⟩ := decodeDocument_spec E hs.invb {}
      have := decode_congr E hs {} ⟨e1.trans e2.symm, f1.fin.trans (hs.fin.trans f2.fin.symm), f1.inv, f2.inv⟩
      exact ⟨this.1, this.2.1⟩
  | err e =>
    refine decode_unused E hs {} fun isBinary d l hok _ => ?_
    rw [(decodeDocument_spec E hs.inva {}).1] at hok
    unfold docOf at hok
    rw [hh] at hok
    cases hok
  | panic w =>
    refine decode_unused E hs {} fun isBinary d l hok _ => ?_
    rw [(decodeDocument_spec E hs.inva {}).1] at hok
    unfold docOf at hok
    rw [hh] at hok
    cases hok

/-- The result of decoding a text that is split in the middle of a word. -/
example : ¬ b!"glTF" <+: b!"{\"asset\":{}}" ∧
    (decodeSource witnessDec { data := b!"{\"asset\":{}}", sizes := [(2, 3), (0, 0), (99, 0)], together := true }).result.isErr = false := by
  exact ⟨by decide, by decide +kernel⟩

/-- A GLB with a buffer of one byte; the JSON text has two bytes of padding. -/
def paddedGlb : Bytes :=
  b!"glTF" ++ [2, 0, 0, 0] ++ [64, 0, 0, 0] ++ [32, 0, 0, 0] ++ b!"JSON" ++ b!"{\"buffers\":[{\"byteLength\":1}]}" ++ b!"  "
    ++ [4, 0, 0, 0] ++ b!"BIN\x00" ++ [77, 0, 0, 0]

/-- The data of the first buffer of a decoded document. -/
def firstData (r : Res Document) : Option Bytes :=
  match r with
  | .ok d => match d.buffers with
    | some b :: _ => some b.data
    | _ => none
  | _ => none

/-- `paddedGlb` meets the hypotheses of `C32_glb_partial` for reads of multiples of four bytes. -/
example : ∃ hdr text pad tail ms, paddedGlb = hdr ++ ([] ++ text) ++ pad ++ tail ∧ hdr.length = 20 ∧
    leNat ((hdr.drop 12).take 4) = text.length + pad.length ∧ Text false (.value (.obj ms)) text ∧ DepthLe 10000 (.obj ms) ∧
    Source.Aligned { data := paddedGlb } ∧ Source.Aligned { data := paddedGlb, sizes := [(0, 3), (5, 47)] } ∧ pad.length < 4 ∧
    (text.length + pad.length) % 4 = 0 := by
  exact ⟨paddedGlb.take 20, b!"{\"buffers\":[{\"byteLength\":1}]}", b!"  ", _,
    [(b!"buffers", .arr [.obj [(b!"byteLength", .num b!"1")]])], rfl, rfl, by decide, by
      have blank : IsBlank [] := by simp [IsBlank]
      have k1 : Chars false b!"buffers" b!"buffers" := plain_chars .nil ['b', 'u', 'f', 'f', 'e', 'r', 's'] (by decide)
      have k2 : Chars false b!"byteLength" b!"byteLength" :=
        plain_chars .nil ['b', 'y', 't', 'e', 'L', 'e', 'n', 'g', 't', 'h'] (by decide)
      have n1 : IsNumber b!"1" := ⟨[], b!"1", [], [], rfl, .inl rfl, .inr ⟨⟨by decide, by decide⟩, by decide⟩, .inl rfl, .inl rfl⟩
      exact .obj (.member blank blank blank blank k1 (.arr (.elem blank blank (.obj (.member blank blank blank blank k2 (.num n1)))))),
    .obj 9999 _ fun m hm => by
      rw [List.mem_singleton.1 hm]
      exact .arr 9998 _ fun v hv => by
        rw [List.mem_singleton.1 hv]
        exact .obj 9997 _ fun m hm => by rw [List.mem_singleton.1 hm]; exact .num _ _,
    ⟨by decide, by decide⟩, ⟨by decide, by decide⟩, by decide, by decide⟩

/-- A GLB whose first buffer is external. -/
example : firstLength (decodeSource witnessDec { data := b!"glTF" ++ [2, 0, 0, 0] ++ [60, 0, 0, 0] ++ [40, 0, 0, 0] ++ b!"JSON" ++
      b!"{\"buffers\":[{\"byteLength\":4,\"uri\":\"a\"}]}  " }).result = some 4 := by decide +kernel

/-- C32 is false: if some read ends between the JSON text and the end of its padding, decoding fails. -/
theorem C32_full_fails :
    firstData (decodeSource witnessDec { data := paddedGlb }).result = some [77] ∧
    (decodeSource witnessDec { data := paddedGlb, sizes := [(0, 49)] }).result.isErr = true := by
  decide +kernel

/-! ### C33 Invalid GLB headers -/

theorem magic_iff {s : Bytes} (hl : 20 ≤ s.length) : (GlbHeader.parse (s.take 20)).magic = glbHeaderMagic ↔ b!"glTF" <+: s := by
  show le32 (s.take 20) = glbHeaderMagic ↔ _
  rw [show glbHeaderMagic = leNat b!"glTF" by decide, le32_text (by rw [List.length_take]; omega), List.prefix_take_iff]
  simp

theorem field_eq {s : Bytes} {k : Nat} (hl : 20 ≤ s.length) (hk : k ≤ 16) : le32 ((s.take 20).drop k) = leNat ((s.drop k).take 4) := by
  rw [le32_eq (by rw [List.length_drop, List.length_take]; omega), List.drop_take, List.take_take]
  congr 2
  omega

theorem leNat_inj4 {s : Bytes} {w x y z : UInt8} (hs : s.length = 4) : leNat s = leNat [w, x, y, z] ↔ s = [w, x, y, z] := by
  have h : le32 s = leNat s := by rw [le32_eq (by omega), List.take_of_length_le (by omega)]
  rw [← h, le32_text (by omega)]
  constructor
  · intro h
    exact (h.eq_of_length (by simp [hs])).symm
  · rintro rfl
    exact List.prefix_refl _

theorem decode_header_err {E : DecEnv} {r : BufReader} {doc : Document} (hr : r.Inv) {e : Err} (h : headerOf r.rest = .err e) :
    (decode E r doc).result = .err e ∧ (decode E r doc).opened = [] := by
  have h1 := (decodeDocument_spec E hr doc).1
  unfold docOf at h1
  rw [h] at h1
  rw [decode_eq]
  rcases hd : decodeDocument E r doc with ⟨x, r'⟩
  rw [hd] at h1
  simp only at h1
  subst h1
  exact ⟨rfl, rfl⟩

/-- C33 in part: a GLB whose first chunk is not JSON, or whose JSON chunk does not fit the declared length, is
rejected, whatever the reads return and without access to files. Missing: lengths of the JSON chunk within 20 bytes of 4 GiB, see
`C33_full_fails`. -/
theorem C33_header_partial (E : DecEnv) (s : Source) (hl : 20 ≤ s.data.length) (hm : b!"glTF" <+: s.data)
    (h : (s.data.drop 16).take 4 ≠ b!"JSON" ∨
      (leNat ((s.data.drop 12).take 4) + 20 < 2 ^ 32 ∧
        leNat ((s.data.drop 8).take 4) < leNat ((s.data.drop 12).take 4) + 20)) :
    (decodeSource E s).result.isErr = true ∧ (decodeSource E s).opened = [] := by
  have hv : validateGLBHeader (GlbHeader.parse (s.data.take 20)) = false := by
    unfold validateGLBHeader
    simp only [GlbHeader.parse, field_eq hl (show 8 ≤ 16 by decide), field_eq hl (show 12 ≤ 16 by decide), field_eq hl (show 16 ≤ 16 by decide),
      Bool.not_eq_eq_eq_not, Bool.not_false, decide_eq_true_eq]
    rcases h with h | ⟨h1, h2⟩
    · left
      rw [show glbChunkJSON = leNat b!"JSON" by decide]
      exact fun e => h ((leNat_inj4 (by rw [List.length_take, List.length_drop]; omega)).1 e)
    · right
      rw [Nat.mod_eq_of_lt (by rw [show size32 = 2 ^ 32 by decide]; exact h1)]
      exact h2
  have hh : headerOf (newDecoder s).rest = .err (.msg "gltf: Invalid GLB JSON header") := by
    show headerOf s.data = _
    unfold headerOf
    rw [if_neg (by omega)]
    simp only
    rw [if_neg (fun hn => hn ((magic_iff hl).2 hm)), hv]
    rfl
  have := decode_header_err (E := E) (doc := {}) (newDecoder_same rfl rfl).inva hh
  exact ⟨by unfold decodeSource; rw [this.1]; rfl, this.2⟩

/-- The header of a GLB with an empty document, with the declared lengths as given. -/
def emptyGlb (total json : Bytes) (kind : Bytes) : Bytes := b!"glTF" ++ [2, 0, 0, 0] ++ total ++ json ++ kind ++ b!"{}  "

/-- The header of `emptyGlb` is accepted as it should be, and the cases of the theorem happen. -/
example : (decodeSource witnessDec { data := emptyGlb [24, 0, 0, 0] [4, 0, 0, 0] b!"JSON" }).result.isErr = false ∧
    (let s := emptyGlb [23, 0, 0, 0] [4, 0, 0, 0] b!"JSON"
     20 ≤ s.length ∧ b!"glTF" <+: s ∧ leNat ((s.drop 12).take 4) + 20 < 2 ^ 32 ∧
        leNat ((s.drop 8).take 4) < leNat ((s.drop 12).take 4) + 20) ∧
    (let s := emptyGlb [24, 0, 0, 0] [4, 0, 0, 0] b!"BIN\x00"
     20 ≤ s.length ∧ b!"glTF" <+: s ∧ (s.drop 16).take 4 ≠ b!"JSON") := by
  refine ⟨by decide +kernel, ⟨by decide +kernel, ⟨_, rfl⟩, by decide +kernel, by decide +kernel⟩,
    ⟨by decide +kernel, ⟨_, rfl⟩, by decide +kernel⟩⟩

/-- C33 is false: the length of the JSON chunk is added to the size of the header modulo 2^32. Here the chunk
claims 4 GiB less one byte, in a file of 24 bytes. -/
theorem C33_full_fails :
    (decodeSource witnessDec { data := emptyGlb [24, 0, 0, 0] [255, 255, 255, 255] b!"JSON" }).result.isErr = false ∧
    (decodeSource witnessDec { data := emptyGlb [24, 0, 0, 0] [255, 255, 255, 255] b!"JSON" }).result.isPanic = false := by
  decide +kernel

/-! ### C50 Decode never panics -/

theorem mapRes_noPanic {α β : Type} {f : α → Res β} : ∀ {l : List α}, (∀ a ∈ l, (f a).isPanic = false) → (mapRes f l).isPanic = false
  | [], _ => rfl
  | a :: l, h => by
    have h1 := h a (by simp)
    have h2 := mapRes_noPanic (f := f) (l := l) (fun b hb => h b (by simp [hb]))
    simp only [mapRes]
    cases hf : f a with
    | err e => rfl
    | panic w => rw [hf] at h1; cases h1
    | ok b =>
      cases hm : mapRes f l with
      | err e => rfl
      | panic w => rw [hm] at h2; cases h2
      | ok bs => rfl

theorem mapRes_ok {α β : Type} {f : α → Res β} : ∀ {l : List α} {m : List β}, mapRes f l = .ok m →
    m.length = l.length ∧ ∀ b ∈ m, ∃ a ∈ l, f a = .ok b
  | [], m, h => by cases h; simp
  | a :: l, m, h => by
    simp only [mapRes] at h
    cases hf : f a with
    | err e => rw [hf] at h; cases h
    | panic w => rw [hf] at h; cases h
    | ok b =>
      cases hm : mapRes f l with
      | err e => rw [hf, hm] at h; cases h
      | panic w => rw [hf, hm] at h; cases h
      | ok bs =>
        rw [hf, hm] at h
        cases h
        obtain ⟨h1, h2⟩ := mapRes_ok hm
        refine ⟨by simp [h1], fun c hc => ?_⟩
        rcases List.mem_cons.1 hc with rfl | hc
        · exact ⟨a, by simp, hf⟩
        · obtain ⟨a', ha', e⟩ := h2 c hc
          exact ⟨a', by simp [ha'], e⟩

theorem sanitizeBuffer_fields {U : UrlLib} {x : Option Buffer} {b : Buffer} (h : sanitizeBuffer U x = .ok b) :
    ∃ a, x = some a ∧ b = { a with uri := b.uri } := by
  cases x with
  | none => cases h
  | some a =>
    refine ⟨a, rfl, ?_⟩
    unfold sanitizeBuffer at h
    simp only at h
    split at h
    · cases h; rfl
    · split at h <;> (cases h; rfl)

theorem sanitizeBuffer_noPanic (U : UrlLib) (b : Buffer) : (sanitizeBuffer U (some b)).isPanic = false := by
  unfold sanitizeBuffer
  simp only
  split
  · rfl
  · split <;> rfl

theorem sanitizeImage_noPanic (U : UrlLib) (b : Image) : (sanitizeImage U (some b)).isPanic = false := by
  unfold sanitizeImage
  simp only
  split
  · rfl
  · split <;> rfl

theorem decodeBuffer_noPanic (E : DecEnv) (b : Buffer) (h : 0 ≤ b.byteLength) : (decodeBuffer E b).1.isPanic = false := by
  unfold decodeBuffer validateBuffer
  split
  · rfl
  · rename_i hv; split at hv <;> cases hv
  · split
    · rfl
    · split
      · show (Res.map _ _).isPanic = false
        have := (C35_total b).2
        cases hm : b.marshalData with
        | ok d => rfl
        | err e => rfl
        | panic w => rw [hm] at this; cases this
      · split
        · rfl
        · split
          · rfl
          · simp only
            split
            · rw [if_neg (by omega)]
              split <;> rfl
            · split <;> rfl

theorem decodeBuffers_noPanic (E : DecEnv) : ∀ (l : List Buffer), (∀ b ∈ l, 0 ≤ b.byteLength) → (decodeBuffers E l).1.isPanic = false
  | [], _ => rfl
  | b :: l, h => by
    have h1 := decodeBuffer_noPanic E b (h b (by simp))
    have h2 := decodeBuffers_noPanic E l (fun c hc => h c (by simp [hc]))
    simp only [decodeBuffers]
    rcases hd : decodeBuffer E b with ⟨r, t⟩
    rw [hd] at h1
    cases r with
    | err e => rfl
    | panic w => cases h1
    | ok b' =>
      simp only
      cases hr : (decodeBuffers E l).1 with
      | err e => rfl
      | panic w => rw [hr] at h2; cases h2
      | ok bs => rfl

theorem decodeBinaryBuffer_spec {b : Buffer} {r : BufReader} (hr : r.Inv) (h : 0 ≤ b.byteLength) (h' : b.byteLength ≤ 2 ^ 48) :
    (decodeBinaryBuffer b r).1.isPanic = false := by
  unfold decodeBinaryBuffer validateBuffer
  split
  · rfl
  · rename_i hv; split at hv <;> cases hv
  · obtain ⟨r', ⟨_, hx, hf, _⟩ | ⟨_, _, hx⟩⟩ := BufReader.full_spec 8 hr
    · rw [hx]
      simp only
      split
      · rfl
      · rw [if_neg (by rw [show maxAlloc = 2 ^ 48 by decide]; omega)]
        obtain ⟨r2, ⟨_, hx, _⟩ | ⟨_, _, hx⟩⟩ := BufReader.full_spec b.byteLength.toNat hf.inv
        all_goals rw [hx]; rfl
    · rw [hx]; rfl

theorem valueOf_noPanic (s : Bytes) (fin : Err) : (valueOf s fin).isPanic = false := by
  unfold valueOf
  split
  · rfl
  · rfl
  · split
    · split <;> rfl
    · rfl

theorem headerOf_noPanic (s : Bytes) : (headerOf s).isPanic = false := by
  unfold headerOf
  split
  · rfl
  · simp only
    split
    · rfl
    · split <;> rfl

theorem docOf_noPanic (E : DecEnv) (s : Bytes) (fin : Err) (doc : Document) : (docOf E s fin doc).isPanic = false := by
  unfold docOf
  have h1 := headerOf_noPanic s
  cases hh : headerOf s with
  | err e => rfl
  | panic w => rw [hh] at h1; cases h1
  | ok h =>
    simp only
    have h2 := valueOf_noPanic (jsonStream s h) (jsonFin s fin h)
    cases hv : valueOf (jsonStream s h) (jsonFin s fin h) with
    | err e => rfl
    | panic w => rw [hv] at h2; cases h2
    | ok v =>
      simp only
      split <;> rfl

theorem decodeFirst_noPanic (isBinary : Bool) {l : List Buffer} {r : BufReader} (hr : r.Inv)
    (h : ∀ b ∈ l, 0 ≤ b.byteLength ∧ b.byteLength ≤ 2 ^ 48) :
    (decodeFirst isBinary l r).1.isPanic = false ∧ ∀ p, (decodeFirst isBinary l r).1 = .ok p → ∀ b ∈ p.2, 0 ≤ b.byteLength := by
  cases l with
  | nil => exact ⟨rfl, fun p e => by cases e; simp⟩
  | cons b l =>
    unfold decodeFirst
    simp only
    split
    · have hb := decodeBinaryBuffer_spec (b := b) hr (h b (by simp)).1 (h b (by simp)).2
      rcases hx : decodeBinaryBuffer b r with ⟨y, r'⟩
      rw [hx] at hb
      cases y with
      | ok b' => exact ⟨rfl, fun p e => by cases e; exact fun c hc => (h c (by simp [hc])).1⟩
      | err e => exact ⟨rfl, fun p e => by cases e⟩
      | panic w => cases hb
    · exact ⟨rfl, fun p e => by cases e; exact fun c hc => (h c hc).1⟩

/-- If the document that is read from the JSON has no nil buffers and images and its buffers have lengths between 0 and
2^48, then `Decode` does not panic. -/
theorem decode_noPanic (E : DecEnv) (s : Source)
    (h : ∀ isBinary d, docOf E s.data s.fin {} = .ok (isBinary, d) → none ∉ d.buffers ∧ none ∉ d.images ∧
      ∀ b, some b ∈ d.buffers → 0 ≤ b.byteLength ∧ b.byteLength ≤ 2 ^ 48) :
    (decodeSource E s).result.isPanic = false := by
  have hs := (newDecoder_same (s1 := s) rfl rfl).inva
  obtain ⟨h1, pre, hfo, _⟩ := decodeDocument_spec E hs {}
  unfold decodeSource
  rw [decode_eq]
  rcases hd : decodeDocument E (newDecoder s) {} with ⟨x, r⟩
  rw [hd] at h1 hfo
  simp only at h1 hfo
  cases x with
  | err e => rfl
  | panic w =>
    have := docOf_noPanic E s.data s.fin {}
    rw [show docOf E s.data s.fin {} = .panic w from h1.symm] at this
    cases this
  | ok p =>
    obtain ⟨isBinary, d⟩ := p
    obtain ⟨hb, hi, hl⟩ := h isBinary d h1.symm
    simp only [decodeRest]
    have m1 : (mapRes (sanitizeBuffer E.url) d.buffers).isPanic = false := mapRes_noPanic fun a ha => by
      cases a with
      | none => exact absurd ha hb
      | some a => exact sanitizeBuffer_noPanic _ _
    have m2 : (mapRes (sanitizeImage E.url) d.images).isPanic = false := mapRes_noPanic fun a ha => by
      cases a with
      | none => exact absurd ha hi
      | some a => exact sanitizeImage_noPanic _ _
    cases e1 : mapRes (sanitizeBuffer E.url) d.buffers with
    | err e => rfl
    | panic w => rw [e1] at m1; cases m1
    | ok l =>
      cases e2 : mapRes (sanitizeImage E.url) d.images with
      | err e => rfl
      | panic w => rw [e2] at m2; cases m2
      | ok images =>
        have hl' : ∀ b ∈ l, 0 ≤ b.byteLength ∧ b.byteLength ≤ 2 ^ 48 := fun b hb => by
          obtain ⟨a, ha, e⟩ := (mapRes_ok e1).2 b hb
          obtain ⟨a', rfl, e'⟩ := sanitizeBuffer_fields e
          rw [e']
          exact hl a' ha
        simp only
        obtain ⟨f1, f2⟩ := decodeFirst_noPanic isBinary hfo.inv hl'
        rcases hx : decodeFirst isBinary l r with ⟨y, r'⟩
        rw [hx] at f1 f2
        cases y with
        | err e => rfl
        | panic w => cases f1
        | ok p =>
          have := decodeBuffers_noPanic E p.2 (f2 p rfl)
          simp only
          cases hr : (decodeBuffers E p.2).1 with
          | ok z => rfl
          | err e => rfl
          | panic w => rw [hr] at this; cases this

/-- C50 is false: null buffers, null images and negative lengths make `Decode` panic. The lengths matter in GLB
files, if they are a multiple of 2^32, and for external files. -/
theorem C50_full_fails :
    (decodeSource witnessDec { data := b!"{\"buffers\":[null]}" }).result.isPanic = true ∧
    (decodeSource witnessDec { data := b!"{\"images\":[null]}" }).result.isPanic = true ∧
    (decodeSource witnessDec { data := b!"{\"buffers\":[{\"byteLength\":-1,\"uri\":\"a\"}]}" }).result.isPanic = true ∧
    (decodeSource witnessDec { data := b!"glTF" ++ [2, 0, 0, 0] ++ [68, 0, 0, 0] ++ [40, 0, 0, 0] ++ b!"JSON" ++
      b!"{\"buffers\":[{\"byteLength\":-4294967296}]}" ++ [0, 0, 0, 0] ++ b!"BIN\x00" }).result.isPanic = true := by
  refine ⟨by decide +kernel, by decide +kernel, by decide +kernel, by decide +kernel⟩

/-! ### C51 Decoded buffers have the declared size -/

/-- Decoding JSON does not set the data of buffers. -/
theorem noData (E : Env) {v : JVal} {d : Document} (h : (documentC E).dec v {} = .ok d) : ∀ b, some b ∈ d.buffers → b.data = [] := by
  have hb : JC.Keeps (bufferC E).dec (fun b => b.data = []) :=
    JC.keeps_struct (P := fun t => True ∧ True ∧ True ∧ True ∧ True ∧ t.2.2.2.2.2.1 = [] ∧ True)
      (FC.keeps_cons (keeps_true _) <| FC.keeps_cons (keeps_true _) <| FC.keeps_cons (keeps_true _) <|
        FC.keeps_cons (keeps_true _) <| FC.keeps_cons (keeps_true _) <| FC.keeps_skip (P := (· = [])) (FC.keeps_true _))
      (fun s h => ⟨trivial, trivial, trivial, trivial, trivial, h, trivial⟩) (fun t h => h.2.2.2.2.2.1)
  have hd : JC.Keeps (documentC E).dec (fun d => ∀ o ∈ d.buffers, ∀ b, o = some b → b.data = []) :=
    JC.keeps_struct (P := fun t => (∀ o ∈ t.1, ∀ b, o = some b → b.data = []) ∧ True)
      (FC.keeps_cons (P := fun l : List (Option Buffer) => ∀ o ∈ l, ∀ b, o = some b → b.data = []) (JC.keeps_list (JC.keeps_ptr hb rfl) (by intro a h; cases h)) (FC.keeps_true _))
      (fun s h => ⟨h, trivial⟩) (fun t h => h.1)
  exact fun b hb' => hd v {} d (by intro o ho; cases ho) h _ hb' b rfl

/-- What is known about the data of a decoded buffer: in the binary chunk it has the declared length, from a file it
is at most the declared length, and a data URI has the data that it says. -/
def Spec.DataOk (b : Buffer) : Prop :=
  (b.uri = [] → (b.data.length : Int) = b.byteLength) ∧
  (b.uri ≠ [] → ¬ OctetUri b.uri → (b.data.length : Int) ≤ b.byteLength ∨ b.data = []) ∧
  (∀ t, b.uri = b!"data:application/octet-stream;base64," ++ t → IsBase64 (withoutLineBreaks t) b.data)

theorem octet_of {uri t : Bytes} (h : uri = b!"data:application/octet-stream;base64," ++ t) : OctetUri uri := by
  rw [h]
  exact ⟨b!"," ++ t, rfl⟩

theorem octet_ne {uri : Bytes} (h : OctetUri uri) : uri ≠ [] := by
  rintro rfl
  have := h.length_le
  revert this
  decide

theorem decodeBinaryBuffer_ok {b b' : Buffer} {r r' : BufReader} (hr : r.Inv) (h : decodeBinaryBuffer b r = (.ok b', r')) :
    b' = { b with data := b'.data } ∧ (b'.data.length : Int) = b'.byteLength := by
  unfold decodeBinaryBuffer at h
  split at h
  · cases h
  · cases h
  · obtain ⟨r1, ⟨_, hx, hf, _⟩ | ⟨_, _, hx⟩⟩ := BufReader.full_spec 8 hr
    · rw [hx] at h
      simp only at h
      split at h
      · cases h
      · split at h
        · cases h
        · rename_i hn
          obtain ⟨r2, ⟨hl, hx, _⟩ | ⟨_, _, hx⟩⟩ := BufReader.full_spec b.byteLength.toNat hf.inv
          · rw [hx] at h
            cases h
            refine ⟨rfl, ?_⟩
            simp only [List.nil_append, List.length_take]
            omega
          · rw [hx] at h; cases h
    · rw [hx] at h; cases h

theorem decodeBuffer_ok {E : DecEnv} {b b' : Buffer} (hd : b.data = []) (h : (decodeBuffer E b).1 = .ok b') :
    b' = { b with data := b'.data } ∧ DataOk b' := by
  unfold decodeBuffer at h
  split at h
  · cases h
  · cases h
  · split at h
    · cases h
    · rename_i hu
      split at h
      · rename_i he
        cases hm : b.marshalData with
        | err e => rw [hm] at h; cases h
        | panic w => rw [hm] at h; cases h
        | ok d =>
          rw [hm] at h
          cases h
          refine ⟨rfl, fun e => absurd e hu, fun _ hn => absurd ((embedded_iff b).1 he) hn, fun t ht => ?_⟩
          exact ((C35_decode b t ht).1 d).1 hm
      · rename_i he
        have hno : ∀ t, b.uri = b!"data:application/octet-stream;base64," ++ t → False := fun t ht =>
          he ((embedded_iff b).2 (octet_of ht))
        split at h
        · cases h
        · split at h
          · cases h
            exact ⟨rfl, fun e => absurd e hu, fun _ _ => .inr hd, fun t ht => absurd ht (hno t)⟩
          · simp only at h
            split at h
            · split at h
              · cases h
              · split at h
                · cases h
                · cases h
                  refine ⟨rfl, fun e => absurd e hu, fun _ _ => .inl ?_, fun t ht => absurd ht (hno t)⟩
                  simp only [List.length_take]
                  omega
            · split at h
              · cases h
              · cases h
                refine ⟨rfl, fun e => absurd e hu, fun _ _ => .inl ?_, fun t ht => absurd ht (hno t)⟩
                simp only
                omega

theorem decodeBuffers_ok {E : DecEnv} : ∀ {l l' : List Buffer}, (∀ b ∈ l, b.data = []) → (decodeBuffers E l).1 = .ok l' →
    ∀ b ∈ l', DataOk b
  | [], l', _, h => by cases h; simp
  | b :: l, l', hd, h => by
    simp only [decodeBuffers] at h
    rcases hb : decodeBuffer E b with ⟨x, t⟩
    rw [hb] at h
    cases x with
    | err e => cases h
    | panic w => cases h
    | ok b' =>
      simp only at h
      cases hr : (decodeBuffers E l).1 with
      | err e => rw [hr] at h; cases h
      | panic w => rw [hr] at h; cases h
      | ok bs =>
        rw [hr] at h
        cases h
        intro c hc
        rcases List.mem_cons.1 hc with rfl | hc
        · exact (decodeBuffer_ok (hd b (by simp)) (by rw [hb])).2
        · exact decodeBuffers_ok (fun c hc => hd c (by simp [hc])) hr c hc

/-- C51 in part: after a successful `Decode` the buffer of the binary chunk has exactly the declared length, a
buffer of an external file at most the declared length, and an embedded buffer the bytes that its URI says.
Missing: the last two need not have the declared length, see `C51_full_fails`. -/
theorem C51_sizes_partial (E : DecEnv) (s : Source) (doc : Document) (h : (decodeSource E s).result = .ok doc) :
    ∀ b, some b ∈ doc.buffers → DataOk b := by
  have hs := (newDecoder_same (s1 := s) rfl rfl).inva
  obtain ⟨h1, pre, hfo, _⟩ := decodeDocument_spec E hs {}
  unfold decodeSource at h
  rw [decode_eq] at h
  rcases hd : decodeDocument E (newDecoder s) {} with ⟨x, r⟩
  rw [hd] at h1 hfo h
  simp only at h1 hfo h
  cases x with
  | err e => cases h
  | panic w => cases h
  | ok p =>
    obtain ⟨isBinary, d⟩ := p
    have hno : ∀ b, some b ∈ d.buffers → b.data = [] := by
      unfold docOf at h1
      split at h1
      · split at h1
        · split at h1
          · rename_i hx
            cases h1
            exact noData _ hx
          · cases h1
        · cases h1
        · cases h1
      · cases h1
      · cases h1
    simp only [decodeRest] at h
    cases e1 : mapRes (sanitizeBuffer E.url) d.buffers with
    | err e => rw [e1] at h; cases h
    | panic w => rw [e1] at h; cases h
    | ok l =>
      cases e2 : mapRes (sanitizeImage E.url) d.images with
      | err e => rw [e1, e2] at h; cases h
      | panic w => rw [e1, e2] at h; cases h
      | ok images =>
        rw [e1, e2] at h
        have hl : ∀ b ∈ l, b.data = [] := fun b hb => by
          obtain ⟨a, ha, e⟩ := (mapRes_ok e1).2 b hb
          obtain ⟨a', rfl, e'⟩ := sanitizeBuffer_fields e
          rw [e']
          exact hno a' ha
        simp only at h
        rcases hx : decodeFirst isBinary l r with ⟨y, r'⟩
        rw [hx] at h
        cases y with
        | err e => cases h
        | panic w => cases h
        | ok p =>
          obtain ⟨first, rest⟩ := p
          simp only at h
          have hf : (∀ b ∈ first, DataOk b) ∧ ∀ b ∈ rest, b.data = [] := by
            cases l with
            | nil => cases hx; simp
            | cons b l =>
              unfold decodeFirst at hx
              simp only at hx
              split at hx
              · rename_i hbu
                rcases hy : decodeBinaryBuffer b r with ⟨z, r2⟩
                rw [hy] at hx
                cases z with
                | err e => cases hx
                | panic w => cases hx
                | ok b' =>
                  cases hx
                  obtain ⟨g1, g2⟩ := decodeBinaryBuffer_ok hfo.inv hy
                  refine ⟨fun c hc => ?_, fun c hc => hl c (by simp [hc])⟩
                  rw [List.mem_singleton] at hc
                  subst hc
                  have hu : c.uri = [] := by rw [g1]; exact hbu.2
                  exact ⟨fun _ => g2, fun e => absurd hu e, fun t ht => absurd hu (octet_ne (octet_of ht))⟩
              · cases hx
                exact ⟨by simp, hl⟩
          cases hz : (decodeBuffers E rest).1 with
          | err e => rw [hz] at h; cases h
          | panic w => rw [hz] at h; cases h
          | ok bs =>
            rw [hz] at h
            cases h
            intro b hb
            replace hb : some b ∈ (first ++ bs).map some := hb
            rw [List.map_append, List.mem_append, List.mem_map, List.mem_map] at hb
            rcases hb with ⟨c, hc, e⟩ | ⟨c, hc, e⟩
            · cases e; exact hf.1 b hc
            · cases e; exact decodeBuffers_ok hf.2 hz b hc

/-- A GLB with a buffer of one byte is decoded. -/
example : firstData (decodeSource witnessDec { data := paddedGlb }).result = some [77] := by decide +kernel

/-- C51 is false: neither the data of an embedded buffer nor that of a file that is too short have the declared
length. -/
theorem C51_full_fails :
    (let r := (decodeSource witnessDec { data := b!"{\"buffers\":[{\"byteLength\":9,\"uri\":\"data:application/octet-stream;base64,AA==\"}]}" }).result
     firstData r = some [0] ∧ firstLength r = some 9) ∧
    (let r := (decodeSource witnessDec { data := b!"{\"buffers\":[{\"byteLength\":9,\"uri\":\"a\"}]}" }).result
     firstData r = some [0, 0, 0, 0] ∧ firstLength r = some 9) := by
  decide +kernel

/-! ### C52 Successive documents -/

/-- The result of the second `Decode` of a stream. -/
def secondDecode (E : DecEnv) (s : Source) : Res Document := (decode E (decodeSource E s).reader {}).result

/-- Whether the result says that there are no more documents. -/
def isEof : Res Document → Bool
  | .err e => e = .eof
  | _ => false

/-- C52 is false: the first `Decode` of two JSON texts reads ahead of its document, and what it read is lost. The
same happens with two GLB files if the binary chunk of the first has padding. -/
theorem C52_full_fails :
    (decodeSource witnessDec { data := b!"{}{}" }).result.isErr = false ∧
    isEof (secondDecode witnessDec { data := b!"{}{}" }) = true ∧
    firstData (decodeSource witnessDec { data := paddedGlb ++ paddedGlb }).result = some [77] ∧
    (secondDecode witnessDec { data := paddedGlb ++ paddedGlb }).isErr = true := by
  refine ⟨by decide +kernel, by decide +kernel, by decide +kernel, by decide +kernel⟩

end Gltf
