/-
Lemmas for the round trip of documents.
-/
import Verif.Props.Decode
import Verif.Lemmas.Encode
import Verif.Lemmas.JsonStable
import Verif.Spec.RoundTrip

namespace Gltf

open Spec

/-! ### Reading a GLB file -/

theorem le4_split {s : Bytes} {n : Nat} (h : IsLe4 s n) : ∃ a b c d, s = [a, b, c, d] := by
  obtain ⟨h, _⟩ := h
  match s, h with
  | [a, b, c, d], _ => exact ⟨a, b, c, d, rfl⟩

theorem headerOf_glb {text s : Bytes} {bin : Option Bytes} (h : IsGlb text bin s) (rest : Bytes) :
    ∃ g hdr k c2, s ++ rest = hdr ++ text ++ List.replicate k 32 ++ (c2 ++ rest) ∧ hdr.length = 20 ∧
      headerOf (s ++ rest) = .ok (some g) ∧ g.jsonLength = text.length + k ∧ k < 4 ∧ (text.length + k) % 4 = 0 ∧
      (match bin with
        | none => c2 = []
        | some data => IsChunk b!"BIN\x00" 0 data c2) := by
  obtain ⟨version, total, c1, c2, hs, hv, ht, ⟨len, k, rfl, hk, hk4, hlen⟩, hc2⟩ := h
  obtain ⟨v0, v1, v2, v3, rfl⟩ := le4_split hv
  obtain ⟨t0, t1, t2, t3, rfl⟩ := le4_split ht
  obtain ⟨l0, l1, l2, l3, rfl⟩ := le4_split hlen
  have hs' : s ++ rest = (b!"glTF" ++ [v0, v1, v2, v3] ++ [t0, t1, t2, t3] ++ [l0, l1, l2, l3] ++ b!"JSON") ++ text
      ++ List.replicate k 32 ++ (c2 ++ rest) := by
    rw [hs]; simp only [List.append_assoc]
  refine ⟨GlbHeader.parse ((s ++ rest).take 20), _, k, c2, hs', rfl, ?_, ?_, hk, hk4, hc2⟩
  · have hl : 20 ≤ (s ++ rest).length := by
      rw [hs']; simp only [List.length_append, List.length_cons]; omega
    unfold headerOf
    rw [if_neg (by omega)]
    simp only
    rw [if_neg (by rw [Decidable.not_not, magic_iff hl, hs']; simp only [List.append_assoc]; exact List.prefix_append _ _), if_pos]
    unfold validateGLBHeader
    simp only [GlbHeader.parse, field_eq hl (show 8 ≤ 16 by decide), field_eq hl (show 12 ≤ 16 by decide), field_eq hl (show 16 ≤ 16 by decide)]
    have e1 : ((s ++ rest).drop 16).take 4 = b!"JSON" := by rw [hs']; rfl
    have e2 : ((s ++ rest).drop 8).take 4 = [t0, t1, t2, t3] := by rw [hs']; rfl
    have e3 : ((s ++ rest).drop 12).take 4 = [l0, l1, l2, l3] := by rw [hs']; rfl
    rw [e1, e2, e3, hlen.2, ht.2]
    have hsl : s.length = 20 + text.length + k + c2.length := by
      rw [hs]; simp only [List.length_append, List.length_cons, List.length_nil, List.length_replicate]; omega
    have : ¬ (leNat b!"JSON" ≠ glbChunkJSON ∨ s.length < (text.length + k + 20) % size32) := by
      rw [show leNat b!"JSON" = glbChunkJSON by decide]
      have := Nat.mod_le (text.length + k + 20) size32
      simp only [ne_eq, not_true_eq_false, false_or]
      omega
    simp only [this, decide_false, Bool.not_false]
  · rw [hs']
    show le32 [l0, l1, l2, l3, 74, 83, 79, 78] = _
    rw [le32_eq (by simp), ← hlen.2]
    rfl

/-- The document of a GLB file. -/
theorem docOf_glb {text s : Bytes} {bin : Option Bytes} (h : IsGlb text bin s) {v : JVal}
    (hv : ∀ k, parseTop (text ++ List.replicate k 32) = .ok v (List.replicate k 32)) (rest : Bytes) (E : DecEnv) (fin : Err) (doc : Document) :
    docOf E (s ++ rest) fin doc =
      match (documentC E.json).dec v doc with
      | .ok doc => .ok (true, doc)
      | .error e => .err e := by
  obtain ⟨g, hdr, k, c2, hs, hl, hh, hj, _⟩ := headerOf_glb h rest
  have e3 : (s ++ rest).drop 20 = text ++ List.replicate k 32 ++ (c2 ++ rest) := by
    rw [hs, List.append_assoc, List.append_assoc, ← hl, List.drop_left, ← List.append_assoc]
  have e4 : jsonStream (s ++ rest) (some g) = text ++ List.replicate k 32 := by
    unfold jsonStream
    simp only
    rw [e3, hj, ← List.length_replicate (n := k) (a := (32 : UInt8)), ← List.length_append, List.length_replicate, List.take_left]
  unfold docOf
  rw [hh]
  simp only
  rw [e4]
  unfold valueOf
  rw [hv k]
  rfl

/-- The document of a JSON text. -/
theorem docOf_text {text : Bytes} (ht : ¬ b!"glTF" <+: text) {v : JVal} {rest : Bytes} (hv : parseTop text = .ok v rest) (E : DecEnv) (fin : Err)
    (doc : Document) :
    docOf E text fin doc =
      match (documentC E.json).dec v doc with
      | .ok doc => .ok (false, doc)
      | .error e => .err e := by
  unfold docOf
  rw [headerOf_text ht]
  show (match valueOf text fin with | .ok v => _ | .err e => _ | .panic w => _) = _
  unfold valueOf
  rw [hv]
  rfl

/-- Reading the binary chunk. -/
theorem decodeBinaryBuffer_chunk {r : BufReader} (hr : r.Inv) {b : Buffer} {data chunk rest : Bytes} (hb : 0 < b.byteLength)
    (hd : (data.length : Int) = b.byteLength) (hc : IsChunk b!"BIN\x00" 0 data chunk) (hrest : r.rest = chunk ++ rest) :
    ∃ r', decodeBinaryBuffer b r = (.ok { b with data }, r') ∧
      r'.rest = List.replicate (chunk.length - 8 - data.length) 0 ++ rest ∧ r'.Inv ∧ r'.src.fin = r.src.fin ∧
      (r.Aligned → data.length % 4 = 0 → r'.Aligned) := by
  obtain ⟨len, k, rfl, hk, hk4, hlen⟩ := hc
  obtain ⟨l0, l1, l2, l3, rfl⟩ := le4_split hlen
  have hrl : r.rest = [l0, l1, l2, l3, 66, 73, 78, 0] ++ (data ++ (List.replicate k 0 ++ rest)) := by
    rw [hrest]; simp only [List.append_assoc]; rfl
  have hv : validateBuffer b = .ok () := by
    unfold validateBuffer
    rw [if_neg (by omega)]
  unfold decodeBinaryBuffer
  rw [hv]
  simp only
  obtain ⟨r1, ⟨_, hx, hf, ha⟩ | ⟨hlt, _, _⟩⟩ := BufReader.full_spec 8 hr
  · have htake : r.rest.take 8 = [l0, l1, l2, l3, 66, 73, 78, 0] := by rw [hrl]; rfl
    have hr1 : r1.rest = data ++ (List.replicate k 0 ++ rest) := by
      have := hf.rest
      rw [htake, hrl] at this
      exact (List.append_cancel_left this).symm
    rw [hx, htake]
    simp only [List.nil_append]
    have hl32 : le32 [l0, l1, l2, l3, 66, 73, 78, 0] = data.length + k := by
      rw [le32_eq (by simp), ← hlen.2]; rfl
    have hty : le32 ([l0, l1, l2, l3, 66, 73, 78, 0].drop 4) = glbChunkBIN := by
      show le32 [66, 73, 78, 0] = _
      decide
    have hlt := hlen.2
    have hbound : leNat [l0, l1, l2, l3] < 4294967296 := by
      have h0 := l0.toNat_lt; have h1 := l1.toNat_lt; have h2 := l2.toNat_lt; have h3 := l3.toNat_lt
      show l0.toNat + 256 * (l1.toNat + 256 * (l2.toNat + 256 * (l3.toNat + 256 * 0))) < _
      omega
    rw [if_neg (by rw [hty, hl32, uint32_small (by omega) (by omega)]; omega),
      if_neg (by rw [show maxAlloc = 281474976710656 from rfl]; omega)]
    obtain ⟨r2, ⟨_, hy, hf2, ha2⟩ | ⟨hlt2, _, _⟩⟩ := BufReader.full_spec b.byteLength.toNat hf.inv
    · have hn : b.byteLength.toNat = data.length := by omega
      have ht2 : r1.rest.take b.byteLength.toNat = data := by rw [hr1, hn, List.take_left]
      rw [hy, ht2]
      refine ⟨r2, rfl, ?_, hf2.inv, hf2.fin.trans hf.fin, fun h1 h2 => ha2 (ha h1 (by decide)) (by omega)⟩
      have := hf2.rest
      rw [ht2, hr1] at this
      rw [← List.append_cancel_left this]
      congr 2
      simp only [List.length_append, List.length_cons, List.length_nil, List.length_replicate]
      omega
    · exfalso
      rw [hr1, List.length_append] at hlt2
      omega
  · exfalso
    rw [hrl] at hlt
    simp only [List.length_append, List.length_cons] at hlt
    omega

/-! ### Buffers -/

/-- The buffer that is written to the JSON and read back. -/
def storeAs (bin : Bool) (b : Buffer) : Buffer := if b.uri = [] ∧ bin = false then b.embeddedResource else b

/-- The list of buffers that is written to the JSON and read back. -/
def storeAll (bin : Bool) : List (Option Buffer) → List Buffer
  | [] => []
  | none :: l => storeAll false l
  | some b :: l => storeAs bin b :: storeAll false l

/-- The buffer that is read back. -/
def readAs (U : UrlLib) (bin : Bool) (b : Buffer) : Buffer :=
  if (storeAs bin b).isEmbeddedResource then storeAs bin b
  else match sanitizeURI U b.uri with
    | some uri => { storeAs bin b with uri }
    | none => storeAs bin b

/-- The list of buffers that is read back. -/
def readAll (U : UrlLib) (bin : Bool) : List (Option Buffer) → List Buffer
  | [] => []
  | none :: l => readAll U false l
  | some b :: l => readAs U bin b :: readAll U false l

theorem customBuffer_stored {files : Option (Bytes → Bytes × Option Err)} {bin : Bool} {b : Buffer} (h : Stored files bin b) :
    customBuffer bin (some b) = .ok (storeAs bin b) := by
  unfold customBuffer storeAs
  simp only
  cases h with
  | chunk h1 h2 h3 => rw [if_pos ⟨h1, h2⟩, if_neg (by rw [h1]; simp)]
  | inline h1 h2 h3 =>
    have he : b.isEmbeddedResource = false := by unfold Buffer.isEmbeddedResource; rw [h2]; decide
    rw [if_neg (by rw [h1]; simp), if_pos ⟨h3, h2, by rw [he]; rfl⟩, if_pos ⟨h2, h1⟩]
    unfold Buffer.embeddedResource
    rfl
  | embedded t h1 h2 =>
    have hu : b.uri ≠ [] := octet_ne (octet_of h1)
    rw [if_neg (fun h => hu h.2), if_neg (fun h => hu h.2.1), if_neg (fun h => hu h.1)]
  | file read content name h1 _ _ _ =>
    have hu : b.uri ≠ [] := path_ne h1.1
    rw [if_neg (fun h => hu h.2), if_neg (fun h => hu h.2.1), if_neg (fun h => hu h.1)]
  | noFile name h1 _ _ =>
    have hu : b.uri ≠ [] := path_ne h1.1
    rw [if_neg (fun h => hu h.2), if_neg (fun h => hu h.2.1), if_neg (fun h => hu h.1)]

theorem mapRes_custom {files : Option (Bytes → Bytes × Option Err)} : ∀ {l : List (Option Buffer)}, AllStored files false l →
    mapRes (customBuffer false) l = .ok (storeAll false l)
  | [], _ => rfl
  | none :: _, h => h.elim
  | some b :: l, h => by
    simp only [mapRes]
    rw [customBuffer_stored h.2.1, mapRes_custom h.2.2]
    rfl

theorem customBuffers_stored {files : Option (Bytes → Bytes × Option Err)} {bin : Bool} {l : List (Option Buffer)}
    (h : AllStored files bin l) : customBuffers bin l = .ok (storeAll bin l) := by
  match l, h with
  | [], _ => rfl
  | some b :: l, h =>
    simp only [customBuffers]
    rw [customBuffer_stored h.2.1, mapRes_custom h.2.2]
    rfl

/-- The URI of a stored buffer. -/
theorem storeAs_uri {files : Option (Bytes → Bytes × Option Err)} {bin : Bool} {b : Buffer} (h : Stored files bin b) :
    ((storeAs bin b).uri = [] ∧ bin = true ∧ storeAs bin b = b ∧ (b.data.length : Int) = b.byteLength) ∨
    (∃ t, (storeAs bin b).uri = octetPrefix ++ t ∧ IsBase64 t (storeAs bin b).data) ∨
    (storeAs bin b = b ∧ ∃ name, FileUri b.uri name ∧ (files = none ∧ b.data = [] ∨
      ∃ read content, files = some read ∧ read name = (content, none) ∧ b.data = content.take b.byteLength.toNat)) := by
  unfold storeAs
  cases h with
  | chunk h1 h2 h3 => rw [if_neg (by rw [h1]; simp)]; exact .inl ⟨h2, h1, rfl, h3⟩
  | inline h1 h2 h3 =>
    rw [if_pos ⟨h2, h1⟩]
    obtain ⟨_, _, t, ht, e⟩ := C35_roundtrip b
    right; left
    refine ⟨t, ?_, ?_⟩
    · rw [e]
    · rw [e]; exact ht
  | embedded t h1 h2 =>
    have hu : b.uri ≠ [] := octet_ne (octet_of h1)
    rw [if_neg (fun h => hu h.1)]
    exact .inr (.inl ⟨t, h1, h2⟩)
  | file read content name h1 h2 h3 h4 =>
    have hu : b.uri ≠ [] := path_ne h1.1
    rw [if_neg (fun h => hu h.1)]
    exact .inr (.inr ⟨rfl, name, h1, .inr ⟨read, content, h2, h3, h4⟩⟩)
  | noFile name h1 h2 h3 =>
    have hu : b.uri ≠ [] := path_ne h1.1
    rw [if_neg (fun h => hu h.1)]
    exact .inr (.inr ⟨rfl, name, h1, .inl ⟨h2, h3⟩⟩)

theorem storeAs_byteLength (bin : Bool) (b : Buffer) : (storeAs bin b).byteLength = b.byteLength := by
  unfold storeAs; split <;> rfl

theorem sanitize_nil (U : UrlLib) : sanitizeURI U [] = some [] := by
  rfl

theorem path_not_octet {p name : Bytes} (h : UriPath p name) : ¬ OctetUri p := fun ho => by
  have := path_colon h
  obtain ⟨t, rfl⟩ := ho
  exact this (by simp)

theorem plain_not_octet {p : Bytes} (h : PlainPath p) : ¬ OctetUri p := path_not_octet (plain_path h)

theorem plain_file {p : Bytes} (h : PlainPath p) : FileUri p p := ⟨plain_path h, plain_local h, plain_not_octet h⟩

/-- A stored buffer is read back with its URI or with the name that the URI stands for. -/
theorem readAs_eq {files : Option (Bytes → Bytes × Option Err)} {bin : Bool} {b : Buffer} (h : Stored files bin b) (U : UrlLib) :
    (readAs U bin b = storeAs bin b ∧ ¬ ∃ name, UriPath b.uri name) ∨
    (storeAs bin b = b ∧ ∃ name, FileUri b.uri name ∧ readAs U bin b = { b with uri := name }) := by
  unfold readAs
  rcases storeAs_uri h with ⟨h1, _, h2, _⟩ | ⟨t, h1, _⟩ | ⟨h1, name, h2, _⟩
  · rw [h2] at h1 ⊢
    refine .inl ⟨?_, fun ⟨name, hn⟩ => path_ne hn h1⟩
    split
    · rfl
    · rw [h1, sanitize_nil]
      simp only
      rw [← h1]
  · have ho := octet_of h1
    rw [if_pos ((embedded_iff _).2 ho)]
    refine .inl ⟨rfl, fun ⟨name, hn⟩ => ?_⟩
    have : storeAs bin b = b := by
      unfold storeAs
      rw [if_neg fun h => path_ne hn h.1]
    rw [this] at ho
    exact path_not_octet hn ho
  · refine .inr ⟨h1, name, h2, ?_⟩
    rw [h1, if_neg (by rw [embedded_iff]; exact path_not_octet h2.1), sanitize_path U h2.1]

theorem readAs_same {files : Option (Bytes → Bytes × Option Err)} {bin : Bool} {b : Buffer} (h : Stored files bin b) (U : UrlLib) :
    SameBuffer bin b (readAs U bin b) := by
  unfold SameBuffer
  rcases readAs_eq h U with ⟨h1, h2⟩ | ⟨h1, name, h2, h3⟩
  · rw [h1]
    unfold storeAs
    split
    · obtain ⟨_, _, t, ht, e⟩ := C35_roundtrip b
      exact ⟨t, ht, e⟩
    · exact ⟨b.uri, .inr ⟨h2, rfl⟩, rfl⟩
  · rw [if_neg fun h => path_ne h2.1 h.1]
    exact ⟨name, .inl h2.1, h3⟩

theorem readAll_same {files : Option (Bytes → Bytes × Option Err)} (U : UrlLib) : ∀ {bin : Bool} {l : List (Option Buffer)},
    AllStored files bin l → SameBuffers bin l ((readAll U bin l).map some)
  | _, [], _ => trivial
  | _, none :: _, h => h.elim
  | _, some _ :: _, h => ⟨readAs_same h.2.1 U, readAll_same U h.2.2⟩

theorem sanitize_stored {files : Option (Bytes → Bytes × Option Err)} {bin : Bool} {b : Buffer} (h : Stored files bin b) (U : UrlLib) :
    sanitizeBuffer U (some (normBuffer (storeAs bin b))) = .ok (normBuffer (readAs U bin b)) := by
  unfold sanitizeBuffer
  simp only
  rcases readAs_eq h U with ⟨h1, h6⟩ | ⟨h1, name, h2, h3⟩
  · rw [h1]
    rcases storeAs_uri h with ⟨h1, _⟩ | ⟨t, h1, _⟩ | ⟨h4, name, h5, _⟩
    · split
      · rfl
      · have hu : (normBuffer (storeAs bin b)).uri = [] := h1
        rw [hu, sanitize_nil]
        simp only
        congr 1
        rw [← hu]
    · rw [if_pos ((embedded_iff (normBuffer (storeAs bin b))).2 (octet_of h1))]
    · exact absurd ⟨name, h5.1⟩ h6
  · rw [h1, h3]
    have hu : (normBuffer b).uri = b.uri := rfl
    rw [if_neg (by rw [embedded_iff, hu]; exact path_not_octet h2.1), hu, sanitize_path U h2.1]
    rfl

theorem mapRes_sanitize {files : Option (Bytes → Bytes × Option Err)} (U : UrlLib) : ∀ {bin : Bool} {l : List (Option Buffer)},
    AllStored files bin l → mapRes (sanitizeBuffer U) ((storeAll bin l).map (some ∘ normBuffer)) = .ok ((readAll U bin l).map normBuffer)
  | _, [], _ => rfl
  | _, none :: _, h => h.elim
  | bin, some b :: l, h => by
    simp only [storeAll, readAll, List.map_cons, mapRes]
    rw [Function.comp_apply, sanitize_stored h.2.1 U]
    rw [mapRes_sanitize U h.2.2]
    rfl

theorem base64_chars {t d : Bytes} (h : IsBase64 t d) : ∀ c ∈ t, 43 ≤ c ∧ c ≤ 122 := by
  obtain ⟨digits, k, _, hd, rfl, _⟩ := h
  intro c hc
  rcases List.mem_append.1 hc with hc | hc
  · obtain ⟨x, hx, rfl⟩ := List.mem_map.1 hc
    have : ∀ x < 64, 43 ≤ base64Alphabet.getD x 0 ∧ base64Alphabet.getD x 0 ≤ 122 := by decide
    exact this x (hd x hx)
  · rw [(List.mem_replicate.1 hc).2]; decide

theorem base64_noBreaks {t d : Bytes} (h : IsBase64 t d) : withoutLineBreaks t = t := by
  unfold withoutLineBreaks
  rw [List.filter_eq_self]
  intro c hc
  have := base64_chars h c hc
  simp only [decide_eq_true_eq]
  constructor
  · rintro rfl; revert this; decide
  · rintro rfl; revert this; decide

/-- A stored buffer that is not in the binary chunk is read back. -/
theorem decodeBuffer_stored {E : DecEnv} {b : Buffer} (h : Stored E.fsys false b) (hb : 0 < b.byteLength) :
    (decodeBuffer E (normBuffer (readAs E.url false b))).1 = .ok (readAs E.url false b) := by
  have hv : validateBuffer (normBuffer (readAs E.url false b)) = .ok () := by
    unfold validateBuffer
    rw [if_neg]
    show (readAs E.url false b).byteLength ≠ 0
    have : (readAs E.url false b).byteLength = b.byteLength := by
      rcases readAs_eq h E.url with ⟨h1, _⟩ | ⟨_, name, _, h3⟩
      · rw [h1, storeAs_byteLength]
      · rw [h3]
    rw [this]; omega
  unfold decodeBuffer
  rw [hv]
  simp only
  rcases storeAs_uri h with ⟨_, h1, _⟩ | ⟨t, h1, h2⟩ | ⟨h1, name, h2, h3⟩
  · cases h1
  · have hr : readAs E.url false b = storeAs false b := by
      rcases readAs_eq h E.url with ⟨h1, _⟩ | ⟨h3, name, h4, _⟩
      · exact h1
      · rw [h3] at h1
        exact absurd (octet_of h1) (path_not_octet h4.1)
    rw [hr]
    have hu : (normBuffer (storeAs false b)).uri = octetPrefix ++ t := h1
    rw [if_neg (octet_ne (octet_of hu)), if_pos ((embedded_iff _).2 (octet_of hu))]
    have hm := ((C35_decode (normBuffer (storeAs false b)) t hu).1 (storeAs false b).data).2 (by rw [base64_noBreaks h2]; exact h2)
    simp only
    rw [hm]
    rfl
  · have hr : readAs E.url false b = { b with uri := name } := by
      rcases readAs_eq h E.url with ⟨_, h5⟩ | ⟨_, name', h5, h6⟩
      · exact absurd ⟨name, h2.1⟩ h5
      · rw [h6, escaped_unique h5.1.2 h2.1.2]
    rw [hr]
    have hu : (normBuffer { b with uri := name }).uri = name := rfl
    rw [if_neg (by rw [hu]; exact h2.2.1.1),
      if_neg (by rw [embedded_iff, hu]; exact h2.2.2), if_neg (by rw [hu, validate_local E.url h2.2.1]; simp)]
    rcases h3 with ⟨h3, h4⟩ | ⟨read, content, h3, h4, h5⟩
    · rw [h3]
      simp only
      congr 1
      unfold normBuffer
      rw [← h4]
    · rw [h3]
      simp only [hu, h4]
      have hbl : (normBuffer { b with uri := name }).byteLength = b.byteLength := rfl
      rw [hbl]
      split
      · rw [if_neg (by omega)]
        simp only
        rw [← h5]
        rfl
      · simp only
        have : b.data = content := by rw [h5, List.take_of_length_le (by omega)]
        rw [← this]
        rfl

theorem decodeBuffers_stored {E : DecEnv} : ∀ {l : List (Option Buffer)}, AllStored E.fsys false l →
    (decodeBuffers E ((readAll E.url false l).map normBuffer)).1 = .ok (readAll E.url false l)
  | [], _ => rfl
  | none :: _, h => h.elim
  | some b :: l, h => by
    simp only [readAll, List.map_cons, decodeBuffers]
    have h1 := decodeBuffer_stored h.2.1 h.1
    rcases hd : decodeBuffer E (normBuffer (readAs E.url false b)) with ⟨x, t⟩
    rw [hd] at h1
    simp only at h1
    subst h1
    simp only
    rw [decodeBuffers_stored h.2.2]
    rfl

/-! ### Images -/

theorem image_embedded_iff (im : Image) : im.isEmbeddedResource = true ↔
    b!"data:image/png;base64" <+: im.uri ∨ b!"data:image/jpeg;base64" <+: im.uri := by
  unfold Image.isEmbeddedResource hasPrefix mimetypeImagePNG mimetypeImageJPG
  rw [Bool.or_eq_true, List.isPrefixOf_iff_prefix, List.isPrefixOf_iff_prefix]

theorem sanitizeImage_kept (U : UrlLib) {im : Image} (h : ImageKept im) : sanitizeImage U (some im) = .ok im := by
  unfold sanitizeImage
  simp only
  split
  · rfl
  · rename_i hn
    rcases h with h | h | h | h
    · rw [h, sanitize_nil]
      simp only
      congr 1
      rw [← h]
    · exact absurd ((image_embedded_iff im).2 (.inl h)) hn
    · exact absurd ((image_embedded_iff im).2 (.inr h)) hn
    · rw [sanitize_plain U h]

/-- An image with the URI that is read back. -/
def keptImage (U : UrlLib) (im : Image) : Image :=
  if im.isEmbeddedResource then im
  else match sanitizeURI U im.uri with
    | some uri => { im with uri }
    | none => im

/-- The images that are read back. -/
def keptImages (U : UrlLib) (l : List (Option Image)) : List (Option Image) := l.map (Option.map (keptImage U))

theorem keptImage_eq (U : UrlLib) (im : Image) : sanitizeImage U (some im) = .ok (keptImage U im) := by
  unfold sanitizeImage keptImage
  simp only
  split
  · rfl
  · cases sanitizeURI U im.uri <;> rfl

theorem keptImages_same (U : UrlLib) : ∀ {l : List (Option Image)}, none ∉ l → SameImages l (keptImages U l)
  | [], _ => trivial
  | none :: _, h => absurd (by simp) h
  | some im :: l, h => by
    refine ⟨⟨?_, fun hk => ?_, fun name hn => ?_⟩, keptImages_same U (fun h' => h (List.mem_cons_of_mem _ h'))⟩
    · unfold keptImage
      split
      · rfl
      · split <;> rfl
    · have := (keptImage_eq U im).symm.trans (sanitizeImage_kept U hk)
      injection this
    · unfold keptImage
      rw [if_neg, sanitize_path U hn]
      rw [image_embedded_iff]
      have := path_colon hn
      rintro (⟨t, e⟩ | ⟨t, e⟩)
      · rw [← e] at this; simp at this
      · rw [← e] at this; simp at this

theorem keptImages_id (U : UrlLib) : ∀ {l : List (Option Image)}, (∀ o ∈ l, ∃ im, o = some im ∧ ImageKept im) → keptImages U l = l
  | [], _ => rfl
  | o :: l, h => by
    obtain ⟨im, rfl, hk⟩ := h o (by simp)
    have h2 := keptImages_id U (l := l) (fun o ho => h o (List.mem_cons_of_mem _ ho))
    have := (keptImage_eq U im).symm.trans (sanitizeImage_kept U hk)
    injection this with this
    unfold keptImages at *
    rw [List.map_cons, h2, Option.map_some, this]

theorem mapRes_images (U : UrlLib) : ∀ {l : List (Option Image)}, none ∉ l →
    ∃ ims, mapRes (sanitizeImage U) l = .ok ims ∧ ims.map some = keptImages U l
  | [], _ => ⟨[], rfl, rfl⟩
  | none :: l, h => absurd (by simp) h
  | some im :: l, h => by
    obtain ⟨ims, h1, h2⟩ := mapRes_images U (l := l) (fun h' => h (List.mem_cons_of_mem _ h'))
    refine ⟨keptImage U im :: ims, ?_, by rw [List.map_cons, h2]; rfl⟩
    simp only [mapRes]
    rw [keptImage_eq U im, h1]
    rfl

/-! ### Documents -/

/-- The document with the buffers that are written. -/
def storedDoc (bin : Bool) (doc : Document) : Document := { doc with buffers := (storeAll bin doc.buffers).map some }

/-- The document that is read back. -/
def readBack (U : UrlLib) (bin : Bool) (doc : Document) : Document :=
  { normDocument doc with buffers := (readAll U bin doc.buffers).map some, images := keptImages U doc.images }

theorem storeAll_ok {r : Registry} {n : Nat} : ∀ (l : List (Option Buffer)) (bin : Bool), (∀ o ∈ l, ∀ a ∈ o, BufferOk r n a) →
    ∀ b ∈ storeAll bin l, BufferOk r n b
  | [], _, _ => by simp [storeAll]
  | none :: l, _, h => storeAll_ok l false (fun o ho => h o (List.mem_cons_of_mem _ ho))
  | some a :: l, bin, h => fun b hb => by
    rcases List.mem_cons.1 hb with rfl | hb
    · have ha := h (some a) (by simp) a rfl
      unfold storeAs
      split
      · obtain ⟨_, _, t, ht, e⟩ := C35_roundtrip a
        rw [e]
        refine ⟨ha.extensions, ha.extras, ha.name, utf8_ascii fun c hc => ?_, ha.byteLength⟩
        rcases List.mem_append.1 hc with hc | hc
        · have : ∀ c ∈ octetPrefix, c < 128 := by decide
          exact this c hc
        · have := (base64_chars ht c hc).2
          exact Nat.lt_of_le_of_lt (UInt8.le_iff_toNat_le.1 this) (by decide)
      · exact ha
    · exact storeAll_ok l false (fun o ho => h o (List.mem_cons_of_mem _ ho)) b hb

theorem storedDoc_ok {r : Registry} {n : Nat} {doc : Document} (h : DocumentOk r n doc) (bin : Bool) : DocumentOk r n (storedDoc bin doc) :=
  { h with
    buffers := fun o ho a ha => by
      obtain ⟨b, hb, rfl⟩ := List.mem_map.1 ho
      cases ha
      exact storeAll_ok _ _ h.buffers a hb }

theorem layout_blank {o : EncOpts} (h1 : IsBlank o.pre) (h2 : IsBlank o.indent) : o.layout.Blank := by
  unfold EncOpts.layout
  split
  · refine ⟨fun n c hc => ?_, fun c hc => ?_⟩
    · rcases List.mem_cons.1 hc with rfl | hc
      · simp
      · rcases List.mem_append.1 hc with hc | hc
        · exact h1 c hc
        · obtain ⟨x, hx, hcx⟩ := List.mem_flatten.1 hc
          rw [(List.mem_replicate.1 hx).2] at hcx
          exact h2 c hcx
    · rw [List.mem_singleton.1 hc]; simp
  · refine ⟨fun n c hc => ?_, fun c hc => ?_⟩ <;> cases hc

theorem documentC_obj {E : Env} {d : Document} {v : JVal} (h : (documentC E).enc d = .ok v) : ∃ l, v = .obj l := by
  unfold documentC JC.struct at h
  simp only at h
  generalize (FC.enc _ _) = x at h
  cases x with
  | error e => cases h
  | ok l => cases h; exact ⟨l, rfl⟩

/-- The JSON of a document. -/
theorem marshal_stored {E : Env} (hf : FloatLaws E.io) {files : Option (Bytes → Bytes × Option Err)} {o : EncOpts} {n : Nat}
    {doc : Document} (hn : n + 7 ≤ 10000) (hd : DocumentOk E.reg n doc) (hs : AllStored files o.asBinary doc.buffers) :
    ∃ l, (documentC E).enc (storedDoc o.asBinary doc) = .ok (.obj l) ∧ marshalJSONDoc E o doc = .ok ((JVal.obj l).print o.layout 0) ∧
      JsonOk (.obj l) ∧ DepthLe maxDepth (.obj l) ∧
      (documentC E).dec (.obj l) {} = .ok (normDocument (storedDoc o.asBinary doc)) := by
  obtain ⟨v, h1, h2, h3, h4⟩ := documentC_law hf n _ (storedDoc_ok hd o.asBinary)
  obtain ⟨l, rfl⟩ := documentC_obj h1
  refine ⟨l, h1, ?_, h2, depthLe_mono h3 (by simpa [maxDepth] using hn), h4⟩
  unfold marshalJSONDoc
  rw [customBuffers_stored hs]
  show (match (documentC E).enc (storedDoc o.asBinary doc) with | .ok v => _ | .error e => _) = _
  rw [h1]

/-- The buffer in the binary chunk. -/
def chunkBuffer (bin : Bool) (doc : Document) : Option Buffer := if bin then binBuffer doc else none

/-- The reader after the binary chunk. -/
def afterChunk (b : Option Buffer) (r : BufReader) : BufReader :=
  match b with
  | some b => (decodeBinaryBuffer (normBuffer b) r).2
  | none => r

theorem chunkBuffer_nil {doc : Document} (h : doc.buffers = []) (bin : Bool) : chunkBuffer bin doc = none := by
  unfold chunkBuffer binBuffer; rw [h]; cases bin <;> rfl

theorem chunkBuffer_false (doc : Document) : chunkBuffer false doc = none := rfl

theorem chunkBuffer_cons {doc : Document} {b : Buffer} {l : List (Option Buffer)} (h : doc.buffers = some b :: l) :
    chunkBuffer true doc = if b.uri = [] then some b else none := by
  unfold chunkBuffer binBuffer; rw [h]; rfl

/-- What is done after the JSON of a stored document. -/
theorem decodeRest_stored {E : DecEnv} {bin : Bool} {doc : Document} (hs : AllStored E.fsys bin doc.buffers)
    (hi : none ∉ doc.images) {r : BufReader}
    (hc : ∀ b, chunkBuffer bin doc = some b → r.Inv ∧
      ∃ chunk rest, IsChunk b!"BIN\x00" 0 b.data chunk ∧ r.rest = chunk ++ rest) :
    (decodeRest E bin (normDocument (storedDoc bin doc)) r).result = .ok (readBack E.url bin doc) ∧
    (decodeRest E bin (normDocument (storedDoc bin doc)) r).reader = afterChunk (chunkBuffer bin doc) r := by
  obtain ⟨ims, hi1, hi2⟩ := mapRes_images E.url hi
  have hb1 : mapRes (sanitizeBuffer E.url) (normDocument (storedDoc bin doc)).buffers = .ok ((readAll E.url bin doc.buffers).map normBuffer) := by
    rw [← mapRes_sanitize E.url hs]
    congr 1
    show ((storeAll bin doc.buffers).map some).map (Option.map normBuffer) = _
    rw [List.map_map]
    rfl
  have hi3 : mapRes (sanitizeImage E.url) (normDocument (storedDoc bin doc)).images = .ok ims := hi1
  unfold decodeRest
  rw [hb1, hi3]
  simp only
  have fin : ∀ first rest : List Buffer, first ++ rest = readAll E.url bin doc.buffers →
      ({ normDocument (storedDoc bin doc) with buffers := (first ++ rest).map some, images := ims.map some } : Document) = readBack E.url bin doc := by
    intro first rest e
    rw [e, hi2]
    rfl
  cases hl : doc.buffers with
  | nil =>
    rw [hl] at fin
    refine ⟨?_, by rw [chunkBuffer_nil hl]; rfl⟩
    exact congrArg Res.ok (fin [] [] rfl)
  | cons o l =>
    rw [hl] at hs fin
    cases o with
    | none => exact hs.elim
    | some b =>
      obtain ⟨hb0, hb, hl'⟩ := hs
      have hrest := decodeBuffers_stored hl'
      simp only [readAll, List.map_cons]
      unfold decodeFirst
      simp only
      by_cases hbin : bin = true ∧ b.uri = []
      · obtain ⟨rfl, hu⟩ := hbin
        have hsb : readAs E.url true b = b := by
          rcases readAs_eq hb E.url with ⟨h1, _⟩ | ⟨_, name, h2, _⟩
          · rw [h1]; unfold storeAs; rw [if_neg (by simp)]
          · exact absurd hu (path_ne h2.1)
        rw [hsb]
        have hlen : (b.data.length : Int) = b.byteLength := by
          cases hb with
          | chunk _ _ h => exact h
          | inline h _ _ => cases h
          | embedded t h1 _ => exact absurd hu (octet_ne (octet_of h1))
          | file _ _ _ h1 _ _ _ => exact absurd hu (path_ne h1.1)
          | noFile _ h1 _ _ => exact absurd hu (path_ne h1.1)
        obtain ⟨hr, chunk, rest, hch, hrr⟩ := hc b (by rw [chunkBuffer_cons hl, if_pos hu])
        obtain ⟨r', hx, _⟩ := decodeBinaryBuffer_chunk (b := normBuffer b) hr hb0 hlen hch hrr
        rw [if_pos ⟨rfl, hu⟩, chunkBuffer_cons hl, if_pos hu, afterChunk, hx]
        simp only
        rcases hd : decodeBuffers E ((readAll E.url false l).map normBuffer) with ⟨x, t⟩
        rw [hd] at hrest
        simp only at hrest
        subst hrest
        refine ⟨?_, trivial⟩
        show Res.ok _ = Res.ok _
        exact congrArg Res.ok (fin [b] (readAll E.url false l) (by simp only [readAll, hsb]; rfl))
      · have hbs : Stored E.fsys false b := by
          cases hb with
          | chunk h1 h2 _ => exact absurd ⟨h1, h2⟩ hbin
          | inline _ h2 h3 => exact .inline rfl h2 h3
          | embedded t h1 h2 => exact .embedded t h1 h2
          | file read c name h1 h2 h3 h4 => exact .file read c name h1 h2 h3 h4
          | noFile name h1 h2 h3 => exact .noFile name h1 h2 h3
        have hst : storeAs bin b = storeAs false b := by
          cases bin with
          | false => rfl
          | true =>
            have : b.uri ≠ [] := fun e => hbin ⟨rfl, e⟩
            unfold storeAs
            rw [if_neg (fun h => this h.1), if_neg (fun h => this h.1)]
        have hbf : readAs E.url bin b = readAs E.url false b := by
          unfold readAs
          rw [hst]
        have hne : ¬ (bin = true ∧ (normBuffer (readAs E.url bin b)).uri = []) := by
          rintro ⟨h1, h2⟩
          rw [hbf] at h2
          have hu : b.uri ≠ [] := fun e => hbin ⟨h1, e⟩
          rcases readAs_eq hbs E.url with ⟨h3, _⟩ | ⟨_, name, h4, h5⟩
          · rw [h3] at h2
            replace h2 : (storeAs false b).uri = [] := h2
            unfold storeAs at h2
            rw [if_neg (fun h => hu h.1)] at h2
            exact hu h2
          · rw [h5] at h2
            exact h4.2.1.1 h2
        rw [if_neg hne]
        simp only [decodeBuffers]
        have h1 := decodeBuffer_stored hbs hb0
        rw [hbf]
        rcases hd : decodeBuffer E (normBuffer (readAs E.url false b)) with ⟨x, t⟩
        rw [hd] at h1
        simp only at h1
        subst h1
        simp only
        rw [hrest]
        constructor
        · show Res.ok _ = Res.ok _
          exact congrArg Res.ok (fin [] (readAs E.url false b :: readAll E.url false l) (by simp only [readAll, hbf, List.nil_append]))
        · cases bin with
          | false => rfl
          | true =>
            rw [chunkBuffer_cons hl, if_neg (fun e => hbin ⟨rfl, e⟩)]
            rfl

theorem decode_ok {E : DecEnv} {r : BufReader} {doc d : Document} {bin : Bool} (h : (decodeDocument E r doc).1 = .ok (bin, d)) :
    decode E r doc = decodeRest E bin d (decodeDocument E r doc).2 := by
  rw [decode_eq]
  rcases hd : decodeDocument E r doc with ⟨x, r'⟩
  rw [hd] at h
  simp only at h
  subst h
  rfl

theorem print_brace (L : Layout) (n : Nat) (l : List (Bytes × JVal)) : ∃ t, (JVal.obj l).print L n = 123 :: t := by
  cases l with
  | nil => exact ⟨[125], rfl⟩
  | cons m l =>
    obtain ⟨k, v⟩ := m
    exact ⟨L.newline (n + 1) ++ printStr k ++ b!":" ++ L.colon ++ v.print L (n + 1) ++ printMembers L (n + 1) l ++ L.newline n ++ b!"}", by
      simp only [JVal.print, List.append_assoc, List.cons_append, List.nil_append]⟩

/-- A JSON text is read back, whatever follows and however the stream is split. -/
theorem decode_text {E : DecEnv} (hf : FloatLaws E.json.io) {o : EncOpts} (h1 : IsBlank o.pre) (h2 : IsBlank o.indent) {n : Nat}
    {doc : Document} (hn : n + 7 ≤ 10000) (hd : DocumentOk E.json.reg n doc) (hs : AllStored E.fsys false doc.buffers)
    (hi : none ∉ doc.images) (ho : o.asBinary = false) :
    ∃ text, marshalJSONDoc E.json o doc = .ok text ∧ ∀ (r : BufReader) rest, r.Inv → r.rest = text ++ rest →
      (decode E r {}).result = .ok (readBack E.url false doc) := by
  obtain ⟨l, h3, h4, h5, h6, h7⟩ := marshal_stored (o := o) hf hn hd (by rw [ho]; exact hs)
  refine ⟨_, h4, fun r rest hr hrest => ?_⟩
  rw [ho] at h7
  have hp := parseTop_print (layout_blank h1 h2) h5 h6 0 rest (.inl ⟨l, rfl⟩)
  obtain ⟨t, ht⟩ := print_brace o.layout 0 l
  have hno : ¬ b!"glTF" <+: (JVal.obj l).print o.layout 0 ++ rest := by
    rw [ht]
    rintro ⟨u, hu⟩
    injection hu with hu _
    revert hu
    decide
  have hdoc : (decodeDocument E r {}).1 = .ok (false, normDocument (storedDoc false doc)) := by
    rw [(decodeDocument_spec E hr {}).1, hrest, docOf_text hno hp, h7]
  rw [decode_ok hdoc]
  exact (decodeRest_stored hs hi (fun b hb => by cases hb)).1

theorem parseTop_spaces {L : Layout} (hL : L.Blank) {l : List (Bytes × JVal)} (h1 : JsonOk (.obj l)) (h2 : DepthLe maxDepth (.obj l)) (k : Nat) :
    parseTop ((JVal.obj l).print L 0 ++ List.replicate k 32) = .ok (.obj l) (List.replicate k 32) :=
  parseTop_print hL h1 h2 0 _ (.inl ⟨l, rfl⟩)

theorem stored_chunk {files : Option (Bytes → Bytes × Option Err)} {doc : Document} {bin : Bool} (h : AllStored files bin doc.buffers) {b : Buffer}
    (hb : chunkBuffer bin doc = some b) : 0 < b.byteLength ∧ (b.data.length : Int) = b.byteLength := by
  cases bin with
  | false => cases hb
  | true =>
    cases hl : doc.buffers with
    | nil => rw [chunkBuffer_nil hl] at hb; cases hb
    | cons o l =>
      cases o with
      | none => rw [hl] at h; exact h.elim
      | some c =>
        rw [chunkBuffer_cons hl] at hb
        split at hb
        · rename_i hu
          cases hb
          rw [hl] at h
          obtain ⟨h0, h, _⟩ := h
          refine ⟨h0, ?_⟩
          cases h with
          | chunk _ _ h => exact h
          | inline h _ _ => cases h
          | embedded t h1 _ => exact absurd hu (octet_ne (octet_of h1))
          | file _ _ _ h1 _ _ _ => exact absurd hu (path_ne h1.1)
          | noFile _ h1 _ _ => exact absurd hu (path_ne h1.1)
        · cases hb

/-- A GLB file is read back, whatever follows. If there is a binary chunk then either the JSON has no padding or
the reads are multiples of four bytes. -/
theorem decode_glb {E : DecEnv} (hf : FloatLaws E.json.io) {o : EncOpts} (h1 : IsBlank o.pre) (h2 : IsBlank o.indent) {n : Nat}
    {doc : Document} (hn : n + 7 ≤ 10000) (hd : DocumentOk E.json.reg n doc) (hs : AllStored E.fsys true doc.buffers)
    (hi : none ∉ doc.images) (ho : o.asBinary = true) :
    ∃ text, marshalJSONDoc E.json o doc = .ok text ∧ ((glbBytes text (binBuffer doc)).length < 4294967296 →
      ∀ (r : BufReader) rest, r.Inv → r.rest = glbBytes text (binBuffer doc) ++ rest →
      (binBuffer doc = none ∨ text.length % 4 = 0 ∨ r.Aligned) →
      (decode E r {}).result = .ok (readBack E.url true doc) ∧ (decode E r {}).reader.Inv ∧ (decode E r {}).reader.src.fin = r.src.fin ∧
      (text.length % 4 = 0 ∨ r.Aligned →
        (decode E r {}).reader.rest = (match binBuffer doc with
          | none => []
          | some b => List.replicate ((b.data.length + 3) / 4 * 4 - b.data.length) 0) ++ rest ∧
        (r.Aligned → (∀ b, binBuffer doc = some b → b.data.length % 4 = 0) → (decode E r {}).reader.Aligned))) := by
  obtain ⟨l, h3, h4, h5, h6, h7⟩ := marshal_stored (o := o) hf hn hd (by rw [ho]; exact hs)
  refine ⟨_, h4, fun hlen r rest hr hrest hal => ?_⟩
  rw [ho] at h7
  generalize htext : (JVal.obj l).print o.layout 0 = text at *
  have hps : ∀ k, parseTop (text ++ List.replicate k 32) = .ok (.obj l) (List.replicate k 32) := by
    rw [← htext]
    exact parseTop_spaces (layout_blank h1 h2) h5 h6
  have hcb : ∀ b, binBuffer doc = some b → 0 < b.byteLength ∧ (b.data.length : Int) = b.byteLength := fun b hb => stored_chunk hs hb
  have hglb := glbBytes_isGlb hlen (fun b hb => (hcb b hb).2)
  obtain ⟨g, hdr, k, c2, hsplit, hhl, hh, hj, hk, hk4, hc2⟩ := headerOf_glb hglb rest
  rw [← hrest] at hsplit hh
  obtain ⟨e1, pre, hfo, hal2⟩ := decodeDocument_spec E hr {}
  have hdoc : (decodeDocument E r {}).1 = .ok (true, normDocument (storedDoc true doc)) := by
    rw [e1, hrest, docOf_glb hglb hps, h7]
  have hpos : text.length % 4 = 0 ∨ r.Aligned → (decodeDocument E r {}).2.rest = c2 ++ rest := fun hp =>
    decodeDocument_rest E hr {} hsplit hhl hh (by rw [hj, List.length_replicate]) (hps k)
      (by
        rcases hp with hp | hp
        · left
          have : k = 0 := by omega
          rw [this]; rfl
        · exact .inr ⟨hp, by rw [List.length_replicate]; exact hk, by rw [List.length_replicate]; exact hk4⟩)
  have hal3 : r.Aligned → (decodeDocument E r {}).2.Aligned := fun ha => by
    obtain ⟨used, l', _, _, _, h⟩ := hal2 _ hh
    exact (h ha (by intro g' hg'; cases hg'; rw [hj]; exact hk4)).2
  rw [decode_ok hdoc]
  have hck : ∀ b, chunkBuffer true doc = some b → (decodeDocument E r {}).2.Inv ∧
      ∃ chunk rest, IsChunk b!"BIN\x00" 0 b.data chunk ∧ (decodeDocument E r {}).2.rest = chunk ++ rest := fun b hb => by
    have hb' : binBuffer doc = some b := hb
    rw [hb'] at hc2 hal
    exact ⟨hfo.inv, c2, rest, hc2, hpos (by rcases hal with h | h; cases h; exact h)⟩
  obtain ⟨hres, hread⟩ := decodeRest_stored hs hi hck
  have hcc : chunkBuffer true doc = binBuffer doc := rfl
  refine ⟨hres, ?_⟩
  rw [hread, hcc]
  cases hbb : binBuffer doc with
  | none =>
    rw [hbb] at hc2
    simp only [afterChunk]
    refine ⟨hfo.inv, hfo.fin, fun hp => ⟨?_, fun ha _ => hal3 ha⟩⟩
    rw [hpos hp]
    replace hc2 : c2 = [] := hc2
    rw [hc2]
  | some b =>
    rw [hbb] at hc2 hal
    have hp : text.length % 4 = 0 ∨ r.Aligned := by rcases hal with h | h; cases h; exact h
    obtain ⟨r', hx, hx1, hx2, hx3, hx4⟩ := decodeBinaryBuffer_chunk (b := normBuffer b) hfo.inv (hcb b hbb).1 (hcb b hbb).2 hc2 (hpos hp)
    simp only [afterChunk, hx]
    refine ⟨hx2, hx3.trans hfo.fin, fun hp => ⟨?_, fun ha hb4 => hx4 (hal3 ha) (hb4 b rfl)⟩⟩
    rw [hx1]
    congr 2
    replace hc2 : IsChunk b!"BIN\x00" 0 b.data c2 := hc2
    obtain ⟨len, k', rfl, hk1, hk2, hlen4⟩ := hc2
    simp only [List.length_append, List.length_replicate, List.length_cons, List.length_nil, hlen4.1]
    omega

end Gltf
