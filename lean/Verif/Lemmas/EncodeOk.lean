/-
Lemmas on the encoder: when it succeeds, what it writes to files, and encoding what was read.
-/
import Verif.Lemmas.RoundTrip

namespace Gltf

open Spec

/-! ### Files -/

/-- Nothing goes wrong when files are written. -/
def Spec.Working (fs : CreateFS) : Prop := ∀ name, fs.createErr name = none ∧ fs.writeErr name = none ∧ fs.closeErr name = none

/-- A buffer that needs no file, or a file with a name. -/
def Spec.Writable (b : Buffer) : Prop := b.data = [] ∨ b.uri = [] ∨ OctetUri b.uri ∨ ∃ name, UriPath b.uri name

/-- No two buffers with data are in the same file. -/
def Spec.DistinctFiles : List (Option Buffer) → Prop :=
  List.Pairwise fun x y => ∀ b c, x = some b → y = some c → b.data ≠ [] → c.data ≠ [] → ∀ name, UriPath b.uri name → ¬ UriPath c.uri name

theorem writeFile_working {fs : CreateFS} (h : Working fs) (name data : Bytes) :
    fs.writeFile name data = (.ok (), fs.set name data) ∧ Working (fs.set name data) := by
  obtain ⟨h1, h2, h3⟩ := h name
  refine ⟨?_, h⟩
  unfold CreateFS.writeFile
  rw [h1, h2, h3]

theorem encodeBuffers_skip {U : UrlLib} {b : Buffer} (h : b.data = [] ∨ b.uri = [] ∨ OctetUri b.uri) (l : List (Option Buffer))
    (fs : Option CreateFS) : encodeBuffers U (some b :: l) fs = encodeBuffers U l fs := by
  simp only [encodeBuffers]
  rw [if_pos]
  rcases h with h | h | h
  · exact .inl h
  · exact .inr (.inl h)
  · exact .inr (.inr ((embedded_iff b).2 h))

theorem encodeBuffers_none {U : UrlLib} : ∀ {l : List (Option Buffer)}, (∀ o ∈ l, ∃ b, o = some b ∧ Writable b) →
    encodeBuffers U l none = (.ok (), none, [])
  | [], _ => rfl
  | o :: l, h => by
    obtain ⟨b, rfl, hb⟩ := h o (by simp)
    have ih := encodeBuffers_none (U := U) (l := l) (fun o ho => h o (List.mem_cons_of_mem _ ho))
    by_cases hs : b.data = [] ∨ b.uri = [] ∨ OctetUri b.uri
    · rw [encodeBuffers_skip hs, ih]
    · have hp : ∃ name, UriPath b.uri name := by
        rcases hb with h | h | h | h
        · exact absurd (.inl h) hs
        · exact absurd (.inr (.inl h)) hs
        · exact absurd (.inr (.inr h)) hs
        · exact h
      simp only [encodeBuffers]
      rw [if_neg (by rw [embedded_iff]; exact hs)]
      unfold encodeBuffer
      rw [validate_path U hp.choose_spec]
      simp [ih]

theorem encodeBuffers_working {U : UrlLib} : ∀ {l : List (Option Buffer)} {f : CreateFS}, (∀ o ∈ l, ∃ b, o = some b ∧ Writable b) →
    Working f → ∃ f' t, encodeBuffers U l (some f) = (.ok (), some f', t) ∧ Working f' ∧
      (∀ name, (∀ b, some b ∈ l → b.data ≠ [] → ¬ UriPath b.uri name) → f'.files name = f.files name) ∧
      (DistinctFiles l → ∀ b name, some b ∈ l → b.data ≠ [] → UriPath b.uri name → f'.files name = some b.data)
  | [], f, _, hf => ⟨f, [], rfl, hf, fun _ _ => rfl, fun _ _ _ h => absurd h (by simp)⟩
  | o :: l, f, h, hf => by
    obtain ⟨b, rfl, hb⟩ := h o (by simp)
    have hl : ∀ o ∈ l, ∃ b, o = some b ∧ Writable b := fun o ho => h o (List.mem_cons_of_mem _ ho)
    by_cases hs : b.data = [] ∨ b.uri = [] ∨ OctetUri b.uri
    · obtain ⟨f', t, h1, h2, h3, h4⟩ := encodeBuffers_working (U := U) hl hf
      refine ⟨f', t, by rw [encodeBuffers_skip hs, h1], h2, fun name hn => h3 name fun c hc => hn c (List.mem_cons_of_mem _ hc),
        fun hd c name hc h5 h6 => ?_⟩
      rcases List.mem_cons.1 hc with hc | hc
      · cases hc
        rcases hs with hs | hs | hs
        · exact absurd hs h5
        · exact absurd hs (path_ne h6)
        · exact absurd hs (path_not_octet h6)
      · exact h4 (List.pairwise_cons.1 hd).2 c name hc h5 h6
    · have hp : ∃ name, UriPath b.uri name := by
        rcases hb with h | h | h | h
        · exact absurd (.inl h) hs
        · exact absurd (.inr (.inl h)) hs
        · exact absurd (.inr (.inr h)) hs
        · exact h
      obtain ⟨nm, hp⟩ := hp
      obtain ⟨hw, hw2⟩ := writeFile_working hf nm b.data
      obtain ⟨f', t, h1, h2, h3, h4⟩ := encodeBuffers_working (U := U) hl hw2
      have he : encodeBuffer U b (some f) = (.ok (), some (f.set nm b.data), [nm]) := by
        unfold encodeBuffer
        rw [validate_path U hp, sanitize_path U hp]
        simp only [Bool.not_true, hw]
        rfl
      have hd0 : b.data ≠ [] := fun e => hs (.inl e)
      refine ⟨f', nm :: t, ?_, h2, fun name hn => ?_, fun hd c name hc h5 h6 => ?_⟩
      · simp only [encodeBuffers]
        rw [if_neg (by rw [embedded_iff]; exact hs), he]
        simp only [h1]
        rfl
      · rw [h3 name fun c hc => hn c (List.mem_cons_of_mem _ hc)]
        have : name ≠ nm := fun e => hn b (by simp) hd0 (e ▸ hp)
        simp [CreateFS.set, this]
      · have hd' := List.pairwise_cons.1 hd
        rcases List.mem_cons.1 hc with hc | hc
        · cases hc
          rw [h3 name fun d hd1 hd2 hd3 => hd'.1 _ hd1 b d rfl rfl h5 hd2 name h6 hd3]
          simp [CreateFS.set, escaped_unique h6.2 hp.2]
        · exact h4 hd'.2 c name hc h5 h6

/-! ### Encoding to a writer without errors -/

/-- What is written for a JSON text. -/
def encodedBytes (bin : Bool) (text : Bytes) (doc : Document) : Bytes := if bin then glbBytes text (binBuffer doc) else text

theorem encodeBuffers_drop (U : UrlLib) (doc : Document) (fs : Option CreateFS) :
    encodeBuffers U (doc.buffers.drop (if (binBuffer doc).isSome then 1 else 0)) fs = encodeBuffers U doc.buffers fs := by
  unfold binBuffer
  cases hl : doc.buffers with
  | nil => simp
  | cons o l =>
    cases o with
    | none => rfl
    | some b =>
      simp only
      by_cases hu : b.uri = []
      · simp [hu, encodeBuffers_skip (.inr (.inl hu))]
      · simp [hu]

theorem encode_text {E : Env} {U : UrlLib} {o : EncOpts} {doc : Document} {w : Sink} {fs : Option CreateFS} {text : Bytes}
    (hw : w.plan = []) (hm : marshalJSONDoc E o doc = .ok text) (ho : o.asBinary = false) :
    encode E U o doc w fs = ⟨(encodeBuffers U doc.buffers fs).1, { out := w.out ++ text, plan := [] },
      (encodeBuffers U doc.buffers fs).2.1, (encodeBuffers U doc.buffers fs).2.2⟩ := by
  unfold encode
  rw [hm]
  simp only
  rw [if_neg (by rw [ho]; simp), Sink.write_plain hw]

theorem encode_bin {E : Env} {U : UrlLib} {o : EncOpts} {doc : Document} {w : Sink} {fs : Option CreateFS} {text : Bytes}
    (hw : w.plan = []) (hm : marshalJSONDoc E o doc = .ok text) (ho : o.asBinary = true) :
    (encode E U o doc w fs).result.isPanic = true ∨
    encode E U o doc w fs = ⟨(encodeBuffers U doc.buffers fs).1, { out := w.out ++ glbBytes text (binBuffer doc), plan := [] },
      (encodeBuffers U doc.buffers fs).2.1, (encodeBuffers U doc.buffers fs).2.2⟩ := by
  unfold encode
  rw [hm]
  simp only
  rw [if_pos ho]
  rcases writeBinary_plain (text := text) (first := binBuffer doc) hw with ⟨b, _, m, w', h⟩ | h
  · left; rw [h]; rfl
  · right; rw [h]
    simp only
    rw [encodeBuffers_drop]

theorem encode_bin_small {E : Env} {U : UrlLib} {o : EncOpts} {doc : Document} {w : Sink} {fs : Option CreateFS} {text : Bytes}
    (hw : w.plan = []) (hm : marshalJSONDoc E o doc = .ok text) (ho : o.asBinary = true)
    (hb : ∀ b ∈ binBuffer doc, 0 ≤ b.byteLength ∧ b.byteLength < 4294967296) :
    encode E U o doc w fs = ⟨(encodeBuffers U doc.buffers fs).1, { out := w.out ++ glbBytes text (binBuffer doc), plan := [] },
      (encodeBuffers U doc.buffers fs).2.1, (encodeBuffers U doc.buffers fs).2.2⟩ := by
  unfold encode
  rw [hm]
  simp only
  rw [if_pos ho, writeBinary_ok hw hb]
  simp only
  rw [encodeBuffers_drop]

/-! ### The JSON of any document -/

/-- The buffer as it is written to the JSON. -/
def customOf (bin : Bool) (b : Buffer) : Buffer :=
  if bin ∧ b.uri = [] then b else if b.data ≠ [] ∧ b.uri = [] then storeAs false b else b

theorem customBuffer_some (bin : Bool) (b : Buffer) : customBuffer bin (some b) = .ok (customOf bin b) := by
  unfold customBuffer customOf
  simp only
  split
  · rfl
  · by_cases h : b.data ≠ [] ∧ b.uri = []
    · have he : b.isEmbeddedResource = false := by unfold Buffer.isEmbeddedResource; rw [h.2]; decide
      rw [if_pos ⟨h.1, h.2, by rw [he]; rfl⟩, if_pos h]
      unfold storeAs
      rw [if_pos ⟨h.2, rfl⟩]
      unfold Buffer.embeddedResource
      rfl
    · rw [if_neg (fun e => h ⟨e.1, e.2.1⟩), if_neg h]

theorem customOf_ok {r : Registry} {n : Nat} {b : Buffer} (h : BufferOk r n b) (bin : Bool) : BufferOk r n (customOf bin b) := by
  unfold customOf
  split
  · exact h
  · split
    · exact storeAll_ok [some b] false (by intro o ho a ha; simp at ho; subst ho; cases ha; exact h) _ (by simp [storeAll])
    · exact h

/-- The buffers as they are written to the JSON. -/
def customAll (bin : Bool) : List (Option Buffer) → List Buffer
  | [] => []
  | none :: l => customAll false l
  | some b :: l => customOf bin b :: customAll false l

theorem mapRes_customAll : ∀ {l : List (Option Buffer)}, none ∉ l → mapRes (customBuffer false) l = .ok (customAll false l)
  | [], _ => rfl
  | none :: _, h => absurd (by simp) h
  | some b :: l, h => by
    simp only [mapRes]
    rw [customBuffer_some, mapRes_customAll (l := l) (fun h' => h (List.mem_cons_of_mem _ h'))]
    rfl

theorem customBuffers_some {bin : Bool} {l : List (Option Buffer)} (h : none ∉ l) : customBuffers bin l = .ok (customAll bin l) := by
  match l, h with
  | [], _ => rfl
  | none :: _, h => exact absurd (by simp) h
  | some b :: l, h =>
    simp only [customBuffers]
    rw [customBuffer_some, mapRes_customAll (l := l) (fun h' => h (List.mem_cons_of_mem _ h'))]
    rfl

theorem customAll_ok {r : Registry} {n : Nat} : ∀ (l : List (Option Buffer)) (bin : Bool), (∀ o ∈ l, ∀ a ∈ o, BufferOk r n a) →
    ∀ b ∈ customAll bin l, BufferOk r n b
  | [], _, _ => by simp [customAll]
  | none :: l, _, h => customAll_ok l false (fun o ho => h o (List.mem_cons_of_mem _ ho))
  | some a :: l, bin, h => fun b hb => by
    rcases List.mem_cons.1 hb with rfl | hb
    · exact customOf_ok (h (some a) (by simp) a rfl) bin
    · exact customAll_ok l false (fun o ho => h o (List.mem_cons_of_mem _ ho)) b hb

/-- The document as it is written to the JSON. -/
def customDoc (bin : Bool) (doc : Document) : Document := { doc with buffers := (customAll bin doc.buffers).map some }

theorem marshal_any {E : Env} (hf : FloatLaws E.io) {o : EncOpts} {n : Nat}
    {doc : Document} (hn : n + 7 ≤ 10000) (hd : DocumentOk E.reg n doc) (hs : none ∉ doc.buffers) :
    ∃ l, (documentC E).enc (customDoc o.asBinary doc) = .ok (.obj l) ∧ marshalJSONDoc E o doc = .ok ((JVal.obj l).print o.layout 0) ∧
      JsonOk (.obj l) ∧ DepthLe maxDepth (.obj l) ∧
      (documentC E).dec (.obj l) {} = .ok (normDocument (customDoc o.asBinary doc)) := by
  have hok : DocumentOk E.reg n (customDoc o.asBinary doc) :=
    { hd with
      buffers := fun o ho a ha => by
        obtain ⟨b, hb, rfl⟩ := List.mem_map.1 ho
        cases ha
        exact customAll_ok _ _ hd.buffers a hb }
  obtain ⟨v, h1, h2, h3, h4⟩ := documentC_law hf n _ hok
  obtain ⟨l, rfl⟩ := documentC_obj h1
  refine ⟨l, h1, ?_, h2, depthLe_mono h3 (by simpa [maxDepth] using hn), h4⟩
  unfold marshalJSONDoc
  rw [customBuffers_some hs]
  show (match (documentC E).enc (customDoc o.asBinary doc) with | .ok v => _ | .error e => _) = _
  rw [h1]

/-! ### Encoding what was read -/

/-- A document without the data of its buffers. -/
def dropData (d : Document) : Document := { d with buffers := d.buffers.map (Option.map normBuffer) }

theorem documentC_dropData {E : Env} : (documentC E).Stable (fun _ => True) dropData :=
  struct_stable
    (cons_stable (ptrs_stable (ok := fun _ => True) (norm := normBuffer) (fun _ _ => rfl)) <|
     nil_fc (ok := fun _ => True))
    (fun _ _ => ⟨fun _ _ _ _ => trivial, trivial⟩) (fun _ => rfl)

theorem storeAs_again {files : Option (Bytes → Bytes × Option Err)} {bin : Bool} {b : Buffer} (h : Stored files bin b) :
    Stored files bin (storeAs bin b) ∧ storeAs bin (storeAs bin b) = storeAs bin b := by
  by_cases hu : b.uri = [] ∧ bin = false
  · obtain ⟨_, _, t, ht, e⟩ := C35_roundtrip b
    have e' : storeAs bin b = { b with uri := octetPrefix ++ t } := by
      unfold storeAs; rw [if_pos hu, e]
    rw [e']
    refine ⟨.embedded t rfl ht, ?_⟩
    unfold storeAs
    rw [if_neg (fun h => octet_ne (octet_of (t := t) rfl) h.1)]
  · have e : storeAs bin b = b := by unfold storeAs; rw [if_neg hu]
    rw [e]
    exact ⟨h, e⟩

theorem storeAll_again {files : Option (Bytes → Bytes × Option Err)} : ∀ {bin : Bool} {l : List (Option Buffer)}, AllStored files bin l →
    AllStored files bin ((storeAll bin l).map some) ∧ storeAll bin ((storeAll bin l).map some) = storeAll bin l
  | _, [], _ => ⟨trivial, rfl⟩
  | _, none :: _, h => h.elim
  | bin, some b :: l, h => by
    obtain ⟨h1, h2⟩ := storeAs_again h.2.1
    obtain ⟨h3, h4⟩ := storeAll_again h.2.2
    refine ⟨⟨?_, h1, h3⟩, ?_⟩
    · rw [storeAs_byteLength]; exact h.1
    · simp only [storeAll, List.map_cons]
      rw [h2, h4]

/-- The URIs of the buffers have no escapes that are replaced. -/
def Spec.UrisKept (l : List (Option Buffer)) : Prop := ∀ b, some b ∈ l → ∀ name, UriPath b.uri name → name = b.uri

theorem readAll_kept {files : Option (Bytes → Bytes × Option Err)} (U : UrlLib) : ∀ {bin : Bool} {l : List (Option Buffer)},
    AllStored files bin l → UrisKept l → readAll U bin l = storeAll bin l
  | _, [], _, _ => rfl
  | _, none :: _, h, _ => h.elim
  | bin, some b :: l, h, hk => by
    simp only [readAll, storeAll]
    rw [readAll_kept U h.2.2 fun c hc => hk c (List.mem_cons_of_mem _ hc)]
    congr 1
    rcases readAs_eq h.2.1 U with ⟨h1, _⟩ | ⟨h1, name, h2, h3⟩
    · exact h1
    · rw [h3, h1, hk b (by simp) name h2.1]

/-- The JSON of what was read is the same. -/
theorem marshal_again {E : Env} {files : Option (Bytes → Bytes × Option Err)} {o : EncOpts} {n : Nat}
    {doc : Document} (hd : DocumentOk E.reg n doc) (hv : doc.asset.version ≠ []) (hs : AllStored files o.asBinary doc.buffers)
    (hk : UrisKept doc.buffers) (U : UrlLib) (hi : ∀ i ∈ doc.images, ∃ im, i = some im ∧ ImageKept im) :
    marshalJSONDoc E o (readBack U o.asBinary doc) = marshalJSONDoc E o doc := by
  obtain ⟨h1, h2⟩ := storeAll_again hs
  have e : (documentC E).enc { readBack U o.asBinary doc with buffers := (storeAll o.asBinary doc.buffers).map some }
      = (documentC E).enc (storedDoc o.asBinary doc) := by
    rw [← documentC_stable n _ ⟨storedDoc_ok hd o.asBinary, hv⟩, ← documentC_dropData { readBack U o.asBinary doc with buffers := _ } trivial]
    have : dropData { readBack U o.asBinary doc with buffers := (storeAll o.asBinary doc.buffers).map some }
        = normDocument (storedDoc o.asBinary doc) := by
      unfold dropData readBack normDocument storedDoc
      rw [keptImages_id U hi]
    rw [this]
  unfold marshalJSONDoc
  have hb : customBuffers o.asBinary (readBack U o.asBinary doc).buffers = .ok (storeAll o.asBinary doc.buffers) := by
    have := customBuffers_stored h1
    rw [h2, ← readAll_kept U hs hk] at this
    rw [← readAll_kept U hs hk]
    exact this
  rw [customBuffers_stored hs, hb]
  show (match (documentC E).enc { readBack U o.asBinary doc with buffers := (storeAll o.asBinary doc.buffers).map some } with | .ok v => _ | .error e => _) =
    (match (documentC E).enc (storedDoc o.asBinary doc) with | .ok v => _ | .error e => _)
  rw [e]

theorem binBuffer_again {files : Option (Bytes → Bytes × Option Err)} {doc : Document} (hs : AllStored files true doc.buffers)
    (hk : UrisKept doc.buffers) (U : UrlLib) : binBuffer (readBack U true doc) = binBuffer doc := by
  unfold binBuffer
  have : (readBack U true doc).buffers = (storeAll true doc.buffers).map some := by rw [← readAll_kept U hs hk]; rfl
  rw [this]
  cases hl : doc.buffers with
  | nil => rfl
  | cons x l =>
    cases x with
    | none => rw [hl] at hs; exact hs.elim
    | some b =>
      simp only [storeAll, List.map_cons]
      have : storeAs true b = b := by unfold storeAs; rw [if_neg (by simp)]
      rw [this]

/-- Stored buffers can be written. -/
theorem stored_writable {files : Option (Bytes → Bytes × Option Err)} : ∀ {bin : Bool} {l : List (Option Buffer)}, AllStored files bin l →
    ∀ o ∈ l, ∃ b, o = some b ∧ Writable b
  | _, [], _ => by simp
  | _, none :: _, h => h.elim
  | _, some b :: l, h => fun o ho => by
    rcases List.mem_cons.1 ho with rfl | ho
    · refine ⟨b, rfl, ?_⟩
      cases h.2.1 with
      | chunk _ h _ => exact .inr (.inl h)
      | inline _ h _ => exact .inr (.inl h)
      | embedded t h _ => exact .inr (.inr (.inl (octet_of h)))
      | file _ _ name h _ _ _ => exact .inr (.inr (.inr ⟨name, h.1⟩))
      | noFile name h _ _ => exact .inr (.inr (.inr ⟨name, h.1⟩))
    · exact stored_writable h.2.2 o ho

/-- Documents with stored buffers can be encoded. -/
theorem encodeBuffers_stored {files : Option (Bytes → Bytes × Option Err)} {bin : Bool} {l : List (Option Buffer)} (h : AllStored files bin l)
    (U : UrlLib) {fs : Option CreateFS} (hfs : ∀ f ∈ fs, Working f) : (encodeBuffers U l fs).1 = .ok () := by
  cases fs with
  | none => rw [encodeBuffers_none (stored_writable h)]
  | some f =>
    obtain ⟨f', t, h1, _⟩ := encodeBuffers_working (U := U) (stored_writable h) (hfs f rfl)
    rw [h1]

theorem glbBytes_mod {text : Bytes} {first : Option Buffer} (h : IsGlb text (first.map (·.data)) (glbBytes text first)) :
    (glbBytes text first).length % 4 = 0 := by
  obtain ⟨v, t, c1, c2, hs, hv, ht, ⟨len, k, rfl, hk, hk4, hlen⟩, hc2⟩ := h
  rw [hs]
  simp only [List.length_append, hv.1, ht.1, hlen.1, List.length_cons, List.length_nil, List.length_replicate]
  cases first with
  | none =>
    replace hc2 : c2 = [] := hc2
    rw [hc2]
    simp only [List.length_nil]
    omega
  | some b =>
    replace hc2 : IsChunk b!"BIN\x00" 0 b.data c2 := hc2
    obtain ⟨len', k', rfl, hk', hk4', hlen'⟩ := hc2
    simp only [List.length_append, hlen'.1, List.length_cons, List.length_nil, List.length_replicate]
    omega

end Gltf
