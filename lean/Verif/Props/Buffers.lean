/-
Properties C48 and C55: where the data of buffers is.
-/
import Verif.Props.RoundTrip
import Verif.Model.Save
import Verif.Lemmas.TextPrint

namespace Gltf

open Spec

/-! ### C55 The binary chunk -/

/-- A buffer and its description in the JSON. Data without URI that is not in the binary chunk is in a data URI. -/
def Spec.InJson (bin : Bool) (b j : Buffer) : Prop :=
  if b.uri = [] ∧ bin = false ∧ b.data ≠ [] then ∃ t, IsBase64 t b.data ∧ j = { b with uri := octetPrefix ++ t, data := [] }
  else j = { b with data := [] }

/-- The same for lists: only the first can be in the binary chunk. -/
def Spec.AllInJson (bin : Bool) : List (Option Buffer) → List (Option Buffer) → Prop
  | [], [] => True
  | some b :: l, some j :: l' => InJson bin b j ∧ AllInJson false l l'
  | _, _ => False

theorem customOf_inJson (bin : Bool) (b : Buffer) : InJson bin b (normBuffer (customOf bin b)) := by
  unfold InJson customOf
  by_cases hu : b.uri = []
  · cases bin with
    | true => rw [if_neg (by simp), if_pos ⟨rfl, hu⟩]; rfl
    | false =>
      rw [if_neg (show ¬ (false = true ∧ b.uri = []) by simp)]
      by_cases hd : b.data = []
      · rw [if_neg (fun h => h.2.2 hd), if_neg (fun h => h.1 hd)]; rfl
      · rw [if_pos ⟨hu, rfl, hd⟩, if_pos ⟨hd, hu⟩]
        obtain ⟨_, _, t, ht, e⟩ := C35_roundtrip b
        refine ⟨t, ht, ?_⟩
        unfold storeAs
        rw [if_pos ⟨hu, rfl⟩, e]
        rfl
  · rw [if_neg (fun h => hu h.1), if_neg (fun h => hu h.2), if_neg (fun h => hu h.2)]
    rfl

theorem customAll_inJson : ∀ (bin : Bool) (l : List (Option Buffer)), none ∉ l →
    AllInJson bin l (((customAll bin l).map some).map (Option.map normBuffer))
  | _, [], _ => trivial
  | _, none :: _, h => absurd (by simp) h
  | bin, some b :: l, h => ⟨customOf_inJson bin b, customAll_inJson false l (fun h' => h (List.mem_cons_of_mem _ h'))⟩

/-- C55: a binary `Encode` puts the first buffer in the binary chunk exactly if it has no URI; the JSON chunk has data
URIs for the data of all other buffers without URI. -/
theorem C55_chunk (E : Env) (hf : FloatLaws E.io) (U : UrlLib) (o : EncOpts) (ho : o.asBinary = true) (h1 : IsBlank o.pre)
    (h2 : IsBlank o.indent) (n : Nat) (hn : n + 7 ≤ 10000) (doc : Document) (hd : DocumentOk E.reg n doc) (hb : none ∉ doc.buffers)
    (hc : FirstConsistent doc) (fs : Option CreateFS) (h : (encode E U o doc {} fs).result = .ok ())
    (hl : (encode E U o doc {} fs).sink.out.length < 4294967296) :
    ∃ text v doc', IsGlb text (chunkData doc) (encode E U o doc {} fs).sink.out ∧ Text false (.value v) text ∧
      (documentC E).dec v {} = .ok doc' ∧ AllInJson true doc.buffers doc'.buffers := by
  obtain ⟨text, hm, he⟩ := encode_ok (w := {}) rfl h
  rw [he, ho] at hl
  replace hl : (glbBytes text (binBuffer doc)).length < 4294967296 := hl
  obtain ⟨l, _, h4, h5, h6, h7⟩ := marshal_any (o := o) hf hn hd hb
  rw [hm] at h4
  cases h4
  rw [ho] at h7
  refine ⟨(JVal.obj l).print o.layout 0, .obj l, _, ?_, ?_, h7, customAll_inJson true _ hb⟩
  · rw [he, ho, ← binBuffer_data]
    exact glbBytes_isGlb hl fun b hb => hc b (binBuffer_mem hb).1 (binBuffer_mem hb).2
  · exact print_text (layout_blank h1 h2) _ h5 0

/-- C55: no data is lost: every buffer is read back, by the same rule. -/
theorem C55_none_lost (E : DecEnv) (hf : FloatLaws E.json.io) (o : EncOpts) (ho : o.asBinary = true) (h1 : IsBlank o.pre)
    (h2 : IsBlank o.indent) (n : Nat) (doc : Document) (hd : Saveable E n true doc) (fs : Option CreateFS)
    (h : (encode E.json E.url o doc {} fs).result = .ok ()) (hl : (encode E.json E.url o doc {} fs).sink.out.length < 4294967296) :
    ∃ doc', decodeBytes E (encode E.json E.url o doc {} fs).sink.out = .ok doc' ∧ doc'.buffers.length = doc.buffers.length ∧
      ∀ i b, doc.buffers[i]? = some (some b) → ∃ b', doc'.buffers[i]? = some (some b') ∧ b'.data = b.data ∧ b'.byteLength = b.byteLength ∧
        (b'.uri = [] ↔ i = 0 ∧ b.uri = []) := by
  obtain ⟨doc', e1, e2⟩ := C31_glb_round_trip E hf o ho h1 h2 n doc hd fs h hl { data := _ } rfl (.inl (by simp))
  refine ⟨doc', e1, ?_⟩
  have key : ∀ (bin : Bool) (l l' : List (Option Buffer)), SameBuffers bin l l' → l'.length = l.length ∧
      ∀ (i : Nat) (b : Buffer), l[i]? = some (some b) → ∃ b' : Buffer, l'[i]? = some (some b') ∧ b'.data = b.data ∧ b'.byteLength = b.byteLength ∧
        (b'.uri = [] ↔ (bin = true ∧ i = 0) ∧ b.uri = []) := by
    intro bin l
    induction l generalizing bin with
    | nil =>
      intro l' h
      cases l' with
      | nil => exact ⟨rfl, fun i b h => by simp at h⟩
      | cons _ _ => exact h.elim
    | cons x l ih =>
      intro l' h
      match x, l', h with
      | some b, some b' :: l', h =>
        obtain ⟨h1, h2⟩ := h
        obtain ⟨i1, i2⟩ := ih false l' h2
        refine ⟨by simp [i1], fun i c hi => ?_⟩
        cases i with
        | zero =>
          simp at hi
          subst hi
          refine ⟨b', by simp, ?_⟩
          unfold SameBuffer at h1
          split at h1
          · rename_i hu
            obtain ⟨t, _, rfl⟩ := h1
            refine ⟨rfl, rfl, ?_⟩
            rw [hu.2]
            simp [octetPrefix]
          · rename_i hu
            obtain ⟨uri, hs, rfl⟩ := h1
            have hn : uri = [] ↔ b.uri = [] := by
              rcases hs with hs | ⟨_, rfl⟩
              · exact ⟨fun e => absurd e (escaped_ne hs.2 (path_ne hs)), fun e => absurd e (path_ne hs)⟩
              · exact Iff.rfl
            refine ⟨rfl, rfl, fun e => ⟨⟨?_, rfl⟩, hn.1 e⟩, fun e => hn.2 e.2⟩
            cases bin with
            | true => rfl
            | false => exact absurd ⟨hn.1 e, rfl⟩ hu
        | succ i =>
          obtain ⟨c', k1, k2, k3, k4⟩ := i2 i c (by simpa using hi)
          refine ⟨c', by simpa using k1, k2, k3, ?_⟩
          rw [k4]
          simp
  obtain ⟨k1, k2⟩ := key true _ _ e2.buffers
  exact ⟨k1, fun i b hb => by simpa using k2 i b hb⟩

/-- The hypotheses of both are met by the document with three buffers (`threeBuffers_saveable`). -/
example : none ∉ threeBuffers.buffers := by simp [threeBuffers]

/-! ### C48 External buffers -/

theorem validUtf8_skip : ∀ (n : Nat) (s : Bytes), validUtf8 n s = validUtf8 0 (s.drop n)
  | 0, _ => rfl
  | _ + 1, [] => rfl
  | n + 1, _ :: s => validUtf8_skip n s

theorem validUtf8_of {s : Bytes} (h : IsUtf8 s) : validUtf8 0 s = true := by
  obtain ⟨cs, rfl⟩ := h
  induction cs with
  | nil => rfl
  | cons c cs ih =>
    rw [List.flatMap_cons]
    obtain ⟨b, t, he, h⟩ := seqLen_char c (cs.flatMap String.utf8EncodeChar)
    rw [he]
    rcases h with ⟨h1, rfl⟩ | ⟨h1, h2, h3⟩
    · simp [validUtf8, h1, ih]
    · simp only [List.cons_append, validUtf8, if_neg h1, h3]
      cases hl : t.length with
      | zero => exact absurd (List.length_eq_zero_iff.1 hl) h2
      | succ n =>
        simp only
        rw [← hl, validUtf8_skip, List.drop_left, ih]

theorem read_fileName {fs : CreateFS} {name content : Bytes} (hn : FileName name) (h : fs.files name = some content) :
    fs.read name = (content, none) := by
  obtain ⟨h1, h2, cs, h3, h4⟩ := hn
  have hv : validPath name = true := by
    unfold validPath
    rw [validUtf8_of h1, path_unique h3, Bool.true_and, List.all_eq_true]
    intro c hc
    obtain ⟨k1, k2, k3⟩ := h4 c hc
    simp [k1, k2, k3]
  unfold CreateFS.read
  rw [hv, if_neg (by simpa using h2), h]

/-- The names of plain paths are good if they are UTF-8. -/
theorem plain_fileName {p : Bytes} (h : PlainPath p) (hu : IsUtf8 p) : FileName p := by
  obtain ⟨cs, h1, h2⟩ := h
  refine ⟨hu, fun h0 => ?_, cs, h1, fun c hc => (h2 c hc).1⟩
  rw [h1.2.2] at h0
  rcases mem_intercalate h0 with h | ⟨c, hc, h⟩
  · exact absurd h (by decide)
  · exact absurd ((h2 c hc).2 0 h).1 (by decide)

theorem dirName : FileName b!"dir/a.bin" := plain_fileName dirPlain (utf8_ascii (by decide))

theorem storable_stored {fs : CreateFS} : ∀ {bin : Bool} {l : List (Option Buffer)}, AllStorable bin l →
    (∀ b name, some b ∈ l → b.data ≠ [] → UriPath b.uri name → fs.files name = some b.data) → AllStored (some fs.read) bin l
  | _, [], _, _ => trivial
  | _, none :: _, h, _ => h.elim
  | bin, some b :: l, h, hf => by
    refine ⟨h.1, ?_, storable_stored h.2.2 fun b name hb => hf b name (List.mem_cons_of_mem _ hb)⟩
    cases h.2.1 with
    | chunk h1 h2 h3 => exact .chunk h1 h2 h3
    | inline h1 h2 h3 => exact .inline h1 h2 h3
    | embedded t h1 h2 => exact .embedded t h1 h2
    | file name h1 hn h2 h3 =>
      exact .file _ b.data name h1 rfl (read_fileName hn (hf b name (by simp) h2 h1.1)) (by rw [List.take_of_length_le (by omega)])

theorem storable_writable : ∀ {bin : Bool} {l : List (Option Buffer)}, AllStorable bin l → ∀ o ∈ l, ∃ b, o = some b ∧ Writable b
  | _, [], _ => by simp
  | _, none :: _, h => h.elim
  | _, some b :: l, h => fun o ho => by
    rcases List.mem_cons.1 ho with rfl | ho
    · refine ⟨b, rfl, ?_⟩
      cases h.2.1 with
      | chunk _ h _ => exact .inr (.inl h)
      | inline _ h _ => exact .inr (.inl h)
      | embedded t h _ => exact .inr (.inr (.inl (octet_of h)))
      | file name h _ _ _ => exact .inr (.inr (.inr ⟨name, h.1⟩))
    · exact storable_writable h.2.2 o ho

/-- C48 in part: a document whose external buffers are in different files is read back with the files that were
written. The names may have percent escapes. Missing: other URIs, in particular those with invalid escapes, and names
that are not valid paths of io/fs. -/
theorem C48_external_partial (E : DecEnv) (hf : FloatLaws E.json.io) (o : EncOpts) (h1 : IsBlank o.pre) (h2 : IsBlank o.indent) (n : Nat)
    (hn : n + 7 ≤ 10000) (doc : Document) (hd : DocumentOk E.json.reg n doc) (hb : AllStorable o.asBinary doc.buffers)
    (hdis : DistinctFiles doc.buffers) (hi : none ∉ doc.images) (f : CreateFS) (hw : Working f)
    (hlb : ∀ b, doc.buffers.head? = some (some b) → b.byteLength < 4294967296) :
    ∃ f', (encode E.json E.url o doc {} (some f)).result = .ok () ∧ (encode E.json E.url o doc {} (some f)).fsys = some f' ∧
      ((encode E.json E.url o doc {} (some f)).sink.out.length < 4294967296 →
        ∃ doc', decodeBytes { E with fsys := some f'.read } (encode E.json E.url o doc {} (some f)).sink.out = .ok doc' ∧
          SameDocument o.asBinary doc doc') := by
  obtain ⟨f', t, e1, _, _, e4⟩ := encodeBuffers_working (U := E.url) (storable_writable hb) hw
  let E' : DecEnv := { E with fsys := some f'.read }
  have hs : Saveable E' n o.asBinary doc := ⟨hn, hd, storable_stored hb (e4 hdis), hi⟩
  have hres : (encode E.json E.url o doc {} (some f)).result = .ok () :=
    C31_encodes E' hf o n doc hs hlb {} rfl (some f) (by intro g hg; cases hg; exact hw)
  obtain ⟨text, hm, he⟩ := encode_ok (w := {}) rfl hres
  refine ⟨f', hres, by rw [he, e1], fun hl => ?_⟩
  cases ho : o.asBinary with
  | false =>
    obtain ⟨doc', k1, k2, _⟩ := C39_round_trip_partial E' hf o ho h1 h2 n doc (by rw [← ho]; exact hs) (some f) hres
      { data := (encode E.json E.url o doc {} (some f)).sink.out } [] (by rw [List.append_nil])
    exact ⟨doc', k1, k2⟩
  | true =>
    obtain ⟨doc', k1, k2⟩ := C31_glb_round_trip E' hf o ho h1 h2 n doc (by rw [← ho]; exact hs) (some f) hres hl { data := _ } rfl
      (.inl (by simp))
    exact ⟨doc', k1, k2⟩

/-- A document with two files, the second one is `b c.bin`. -/
def twoFiles : Document :=
  { buffers := [some { byteLength := 3, uri := b!"dir/a.bin", data := [1, 2, 3] }, some { byteLength := 9, uri := b!"b%20c.bin", data := [4, 5] }] }

theorem spaceFile : FileUri b!"b%20c.bin" b!"b c.bin" := by
  have hs : Escaped b!"20c.bin" b!"20c.bin" := escaped_self (by decide)
  refine ⟨⟨⟨[b!"b%20c.bin"], ⟨by simp, by decide, by decide⟩, ?_⟩, ?_⟩, ?_, ?_⟩
  · intro c hc
    rw [List.mem_singleton.1 hc]
    exact ⟨by decide, by unfold PlainChar; decide⟩
  · exact .char (by decide) (.hex (x := 2) (y := 0) (.inl (by decide)) (.inl (by decide)) (by decide) (escaped_self (by decide)))
  · rw [← isLocal_iff]; decide
  · unfold OctetUri; decide

theorem spaceName : FileName b!"b c.bin" := by
  refine ⟨utf8_ascii (by decide), by decide, [b!"b c.bin"], ⟨by simp, by decide, by decide⟩, ?_⟩
  have : ∀ c ∈ [b!"b c.bin"], IsName c := by decide
  exact this

theorem twoFiles_path {b : Buffer} (hb : some b ∈ twoFiles.buffers) {name : Bytes} (hn : UriPath b.uri name) :
    (b.uri = b!"dir/a.bin" ∧ name = b!"dir/a.bin") ∨ (b.uri = b!"b%20c.bin" ∧ name = b!"b c.bin") := by
  simp only [twoFiles, List.mem_cons, Option.some.injEq, List.not_mem_nil, or_false] at hb
  rcases hb with rfl | rfl
  · exact .inl ⟨rfl, plain_name dirPlain hn⟩
  · exact .inr ⟨rfl, escaped_unique hn.2 spaceFile.1.2⟩

example : AllStorable true twoFiles.buffers ∧ DistinctFiles twoFiles.buffers ∧ Working emptyFS := by
  refine ⟨⟨by decide, .file _ (plain_file dirPlain) dirName (by simp) (by decide), by decide, .file _ spaceFile spaceName (by simp) (by decide), trivial⟩, ?_,
    fun _ => ⟨rfl, rfl, rfl⟩⟩
  refine List.pairwise_cons.2 ⟨fun y hy b c hb hc _ _ name h1 h2 => ?_, List.pairwise_singleton _ _⟩
  rw [List.mem_singleton.1 hy] at hc
  cases hb
  cases hc
  have e1 := plain_name dirPlain h1
  have e2 := escaped_unique h2.2 spaceFile.1.2
  rw [e1] at e2
  revert e2
  decide

example : ((encode witnessEnv witnessUrl {} twoFiles {} (some emptyFS)).fsys.map fun f => (f.files b!"dir/a.bin", f.files b!"b c.bin", f.files b!"b%20c.bin"))
    = some (some [1, 2, 3], some [4, 5], none) := by decide +kernel

/-- Write a document with a single external buffer and read it with the same file system. -/
def throughFiles (uri : Bytes) : Res Unit × List Bytes × Option Bytes :=
  let e := encode witnessEnv witnessUrl {} (externalDoc uri) {} (some emptyFS)
  (e.result, e.created, firstData (decodeBytes { witnessDec with fsys := e.fsys.map CreateFS.read } e.sink.out))

/-- C48 is false: the data of a buffer whose name has a percent sign is not written, without an error. Files with an empty
name or two dots in their path, or with a name that is not UTF-8, are written, but no file system of io/fs opens them. All these names are local paths. -/
theorem C48_full_fails :
    throughFiles b!"100.bin" = (.ok (), [b!"100.bin"], some [1, 2, 3, 4]) ∧
    throughFiles b!"100%.bin" = (.ok (), [], none) ∧ Local b!"100%.bin" ∧
    throughFiles b!"a//b.bin" = (.ok (), [b!"a//b.bin"], none) ∧ Local b!"a//b.bin" ∧
    throughFiles b!"a/../b.bin" = (.ok (), [b!"a/../b.bin"], none) ∧ Local b!"a/../b.bin" ∧
    throughFiles b!"%FF.bin" = (.ok (), [255 :: b!".bin"], none) ∧ Local b!"%FF.bin" := by
  simp only [← isLocal_iff]
  refine ⟨?_, ?_, ?_, ?_, ?_, ?_, ?_, ?_, ?_⟩ <;> decide +kernel

end Gltf
