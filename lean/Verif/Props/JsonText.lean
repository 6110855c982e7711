/-
Properties C71 and C72: the JSON that `Decode` accepts is that of RFC 8259, however it is spelled.
-/
import Verif.Lemmas.TextFile

namespace Gltf

open Spec

/-! ### C71 The spelling does not matter -/

/-- What follows after the JSON text was read. -/
theorem decode_value (E : DecEnv) {s : Source} {h : Option GlbHeader} (hh : headerOf s.data = .ok h) {v : JVal} (hv : jsonOf s = .ok v) :
    ∃ pre r, (newDecoder s).Follows pre r ∧ r = (decodeDocument E (newDecoder s) {}).2 ∧ decodeSource E s =
      match (documentC E.json).dec v {} with
      | .ok d => decodeRest E h.isSome d r
      | .error e => ⟨.err e, [], r⟩ := by
  unfold decodeSource
  rw [decode_eq]
  have hr : (newDecoder s).Inv := .inl rfl
  obtain ⟨h1, pre, h2, -⟩ := decodeDocument_spec E hr {}
  rcases hd : decodeDocument E (newDecoder s) {} with ⟨x, r⟩
  rw [hd] at h1 h2
  replace h1 : x = docOf E s.data s.fin {} := h1
  refine ⟨pre, r, h2, rfl, ?_⟩
  unfold jsonOf at hv
  rw [hh] at hv
  replace hv : valueOf (jsonStream s.data h) (jsonFin s.data s.fin h) = .ok v := hv
  unfold docOf at h1
  rw [hh] at h1
  simp only at h1
  rw [hv] at h1
  simp only at h1
  subst h1
  cases (documentC E.json).dec v {} with
  | ok d => rfl
  | error e => rfl

/-- C71 for text files: the result of `Decode` and the files that it opens depend on the JSON value only, not on white space,
escapes, what follows the value, or how the bytes arrive. -/
theorem C71_text (E : DecEnv) (s1 s2 : Source) (ms : List (Bytes × JVal)) (h1 : StartsWith false (.obj ms) s1.data)
    (h2 : StartsWith false (.obj ms) s2.data) (hd : DepthLe 10000 (.obj ms)) :
    (decodeSource E s1).result = (decodeSource E s2).result ∧ (decodeSource E s1).opened = (decodeSource E s2).opened := by
  obtain ⟨_, r1, -, -, e1⟩ := decode_value E (headerOf_text (startsWith_notGlb h1)) (jsonOf_file (.inl h1) hd (.inl ⟨_, rfl⟩))
  obtain ⟨_, r2, -, -, e2⟩ := decode_value E (headerOf_text (startsWith_notGlb h2)) (jsonOf_file (.inl h2) hd (.inl ⟨_, rfl⟩))
  rw [e1, e2]
  cases (documentC E.json).dec (.obj ms) {} with
  | ok d =>
    refine decodeRest_unused E (fun l _ => ?_) r1 r2
    cases l <;> rfl
  | error e => exact ⟨rfl, rfl⟩

theorem isChunk_inj {kind content s s' : Bytes} {fill : UInt8} (h : IsChunk kind fill content s) (h' : IsChunk kind fill content s') : s = s' := by
  obtain ⟨len, k, rfl, h1, h2, h3, h4⟩ := h
  obtain ⟨len', k', rfl, h1', h2', h3', h4'⟩ := h'
  have hk : k = k' := by omega
  subst hk
  obtain ⟨a, b, c, d, rfl⟩ := le4_split ⟨h3', h4'⟩
  have : len = [a, b, c, d] := (leNat_inj4 h3).1 (h4.trans h4'.symm)
  rw [this]

/-- The JSON of a GLB file and the chunk after it, if the JSON text fills its chunk or every read returns a multiple of four bytes. -/
theorem decode_glb_json (E : DecEnv) {ms : List (Bytes × JVal)} (hd : DepthLe 10000 (.obj ms)) {bin : Option Bytes} {s : Source} {w t : Bytes}
    (hw : IsBlank w) (ht : Text false (.value (.obj ms)) t) (hg : IsGlb (w ++ t) bin s.data) (ha : s.Aligned ∨ (w ++ t).length % 4 = 0) :
    ∃ r c2, r.Inv ∧ r.rest = c2 ∧ r.src.fin = s.fin ∧
      (match bin with
      | none => c2 = []
      | some data => IsChunk b!"BIN\x00" 0 data c2) ∧
      decodeSource E s = match (documentC E.json).dec (.obj ms) {} with
        | .ok d => decodeRest E true d r
        | .error e => ⟨.err e, [], r⟩ := by
  obtain ⟨g, hdr, k, c2, hs, hl, hh, hj, hk, hk4, hc⟩ := headerOf_glb hg []
  rw [List.append_nil] at hh
  rw [List.append_nil, List.append_nil] at hs
  obtain ⟨pre, r, hr, er, e⟩ := decode_value E hh (jsonOf_file (.inr ⟨_, bin, hg, w, t, [], hw, ht, by simp⟩) hd (.inl ⟨_, rfl⟩))
  refine ⟨r, c2, hr.inv, ?_, hr.fin, hc, e⟩
  rw [er]
  refine decodeDocument_rest E (.inl rfl) {} (show (newDecoder s).rest = _ from hs) hl hh (by rw [List.length_replicate]; exact hj)
    (parseTop_text hw ht hd _ (.inl ⟨_, rfl⟩)) ?_
  rcases ha with ha | ha
  · exact .inr ⟨⟨rfl, ha⟩, by simpa using hk, by simpa using hk4⟩
  · left
    have : k = 0 := by omega
    rw [this]; rfl

/-- C71 for GLB files: the result and the files that are opened depend on the JSON value and on the binary chunk only, if the JSON
text fills its chunk or every read returns a multiple of four bytes (see C32). -/
theorem C71_glb_partial (E : DecEnv) (s1 s2 : Source) (ms : List (Bytes × JVal)) (hd : DepthLe 10000 (.obj ms)) (bin : Option Bytes)
    (w1 t1 w2 t2 : Bytes) (hw1 : IsBlank w1) (hw2 : IsBlank w2) (ht1 : Text false (.value (.obj ms)) t1) (ht2 : Text false (.value (.obj ms)) t2)
    (h1 : IsGlb (w1 ++ t1) bin s1.data) (h2 : IsGlb (w2 ++ t2) bin s2.data) (hf : s1.fin = s2.fin)
    (ha1 : s1.Aligned ∨ (w1 ++ t1).length % 4 = 0) (ha2 : s2.Aligned ∨ (w2 ++ t2).length % 4 = 0) :
    (decodeSource E s1).result = (decodeSource E s2).result ∧ (decodeSource E s1).opened = (decodeSource E s2).opened := by
  obtain ⟨r1, c1, i1, e1, f1, hc1, d1⟩ := decode_glb_json E hd hw1 ht1 h1 ha1
  obtain ⟨r2, c2, i2, e2, f2, hc2, d2⟩ := decode_glb_json E hd hw2 ht2 h2 ha2
  have hc : c1 = c2 := by
    cases bin with
    | none => exact hc1.trans hc2.symm
    | some data => exact isChunk_inj hc1 hc2
  rw [d1, d2]
  cases (documentC E.json).dec (.obj ms) {} with
  | ok d =>
    have := decodeRest_congr ⟨e1.trans (hc.trans e2.symm), f1.trans (hf.trans f2.symm), i1, i2⟩ E true d
    exact ⟨this.1, this.2.1⟩
  | error e => exact ⟨rfl, rfl⟩

/-! ### Examples for C71 -/

theorem extras_key : Chars false b!"extras" b!"extras" := by
  have := plain_chars .nil ['e', 'x', 't', 'r', 'a', 's'] (by decide)
  exact this

/-- A value with a slash and a character beyond U+FFFF. -/
def spelled : List (Bytes × JVal) := [(b!"extras", .str (b!"/" ++ [0xF0, 0x9F, 0x98, 0x80]))]

/-- The characters as they are. -/
def spelling1 : Bytes := b!"{\"extras\":\"/" ++ [0xF0, 0x9F, 0x98, 0x80] ++ b!"\"}"

/-- White space, an escaped slash and a surrogate pair. -/
def spelling2 : Bytes := b!"{\"extras\" :\x0A\"\\/\\uD83d\\ude00\" }"

theorem spelling1_text : Text false (.value (.obj spelled)) spelling1 := by
  have hc := plain_chars .nil ['/', '😀'] (by decide)
  exact .obj (.member (w := []) (w1 := []) (w2 := []) (w' := []) (by simp [IsBlank]) (by simp [IsBlank]) (by simp [IsBlank]) (by simp [IsBlank])
    extras_key (.str hc))

theorem spelling2_text : Text false (.value (.obj spelled)) spelling2 := by
  have hc : Chars false (b!"/" ++ [0xF0, 0x9F, 0x98, 0x80]) b!"\\/\\uD83d\\ude00" :=
    .short (e := 47) (by decide) (.pair '😀' (h1 := b!"D83d") (h2 := b!"de00") (x := 0x3D) (y := 0x200) (by decide) (by decide)
      (hex4_iff.1 (by decide)) (hex4_iff.1 (by decide)) (by decide) .nil)
  exact .obj (.member (w := []) (w1 := b!" ") (w2 := b!"\x0A") (w' := b!" ") (by simp [IsBlank]) (by simp [IsBlank]) (by simp [IsBlank])
    (by simp [IsBlank]) extras_key (.str hc))

/-- Two files with the same JSON, one with other bytes after it. -/
example : StartsWith false (.obj spelled) spelling1 ∧ StartsWith false (.obj spelled) (b!"\t" ++ spelling2 ++ b!" x") ∧
    DepthLe 10000 (.obj spelled) ∧ (decodeSource witnessDec { data := b!"\t" ++ spelling2 ++ b!" x" }).result.isErr = false :=
  ⟨⟨[], spelling1, [], by simp [IsBlank], spelling1_text, by simp⟩,
    ⟨b!"\t", spelling2, b!" x", by simp [IsBlank], spelling2_text, rfl⟩,
    depthLe_mono (text_depth spelling1_text) (by decide), by decide +kernel⟩

/-- The two spellings in GLB files; the second is padded. -/
def spelledGlb1 : Bytes := b!"glTF" ++ [2, 0, 0, 0] ++ [40, 0, 0, 0] ++ [20, 0, 0, 0] ++ b!"JSON" ++ (b!"  " ++ spelling1)

def spelledGlb2 : Bytes := b!"glTF" ++ [2, 0, 0, 0] ++ [52, 0, 0, 0] ++ [32, 0, 0, 0] ++ b!"JSON" ++ spelling2 ++ b!"  "

example : IsGlb (b!"  " ++ spelling1) none spelledGlb1 ∧ IsGlb ([] ++ spelling2) none spelledGlb2 ∧ (b!"  " ++ spelling1).length % 4 = 0 ∧
    Source.Aligned { data := spelledGlb2, sizes := [(1, 3), (0, 7)] } := by
  refine ⟨⟨[2, 0, 0, 0], [40, 0, 0, 0], _, [], rfl, ⟨rfl, rfl⟩, ⟨rfl, rfl⟩, ⟨[20, 0, 0, 0], 0, rfl, by decide, by decide, rfl, rfl⟩, rfl⟩,
    ⟨[2, 0, 0, 0], [52, 0, 0, 0], _, [], rfl, ⟨rfl, rfl⟩, ⟨rfl, rfl⟩, ⟨[32, 0, 0, 0], 2, rfl, by decide, by decide, rfl, rfl⟩, rfl⟩,
    by decide, ⟨by decide, by decide⟩⟩

/-! ### C72 Text that is not JSON is refused -/

/-- C72: what `Decode` accepts starts with a JSON text, alone or in the first chunk of a GLB file: an object, nested at most 10000
deep, or `null`. Strings may have halves of surrogate pairs and bytes that are not UTF-8. -/
theorem C72_json_only (E : DecEnv) (s : Source) (doc : Document) (h : (decodeSource E s).result = .ok doc) :
    ∃ v, StartsWith true v (jsonPart s.data) ∧ DepthLe 10000 v ∧ (v = .null ∨ ∃ ms, v = .obj ms) := by
  obtain ⟨v, bin, d0, r, h1, h2, -, -⟩ := decodeSource_ok h
  refine ⟨v, jsonOf_sound h1, (jsonOf_valid h1).depth, ?_⟩
  cases v with
  | null => exact .inl rfl
  | obj ms => exact .inr ⟨ms, rfl⟩
  | bool b => cases h2
  | num l => cases h2
  | str l => cases h2
  | arr l => cases h2

/-- Accepted and refused: a number with a leading zero, a control character in a string, a comma at the end. -/
example : (decodeSource witnessDec { data := b!"{\"extras\":[0,\"a\"]}" }).result.isErr = false ∧
    (decodeSource witnessDec { data := b!"{\"extras\":[01,\"a\"]}" }).result.isErr = true ∧
    (decodeSource witnessDec { data := b!"{\"extras\":[0,\"\x01\"]}" }).result.isErr = true ∧
    (decodeSource witnessDec { data := b!"{\"extras\":[0,\"a\",]}" }).result.isErr = true := by decide +kernel

end Gltf
