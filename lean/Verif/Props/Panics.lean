/-
Property C50: which files make `Decode` panic.
-/
import Verif.Props.NoPanic
import Verif.Props.Kinds
import Verif.Props.Accept
import Verif.Props.Data

namespace Gltf

open Spec

theorem mapRes_panics {α β : Type} {f : α → Res β} : ∀ {l : List α}, (mapRes f l).isPanic = true → ∃ a ∈ l, (f a).isPanic = true
  | [], h => by cases h
  | a :: l, h => by
    simp only [mapRes] at h
    cases hf : f a with
    | panic w => exact ⟨a, by simp, by rw [hf]; rfl⟩
    | err e => rw [hf] at h; cases h
    | ok b =>
      rw [hf] at h
      cases hm : mapRes f l with
      | panic w =>
        obtain ⟨x, hx, hp⟩ := mapRes_panics (f := f) (l := l) (by rw [hm]; rfl)
        exact ⟨x, by simp [hx], hp⟩
      | err e => rw [hm] at h; cases h
      | ok bs => rw [hm] at h; cases h

theorem sanitizeBuffer_total (U : UrlLib) (b : Buffer) : ∃ c, sanitizeBuffer U (some b) = .ok c := by
  unfold sanitizeBuffer
  simp only
  split
  · exact ⟨_, rfl⟩
  · split <;> exact ⟨_, rfl⟩

theorem sanitizeImage_total (U : UrlLib) (b : Image) : ∃ c, sanitizeImage U (some b) = .ok c := by
  unfold sanitizeImage
  simp only
  split
  · exact ⟨_, rfl⟩
  · split <;> exact ⟨_, rfl⟩

theorem mapRes_none {α β : Type} {f : Option α → Res β} (h0 : (f none).isPanic = true) (h1 : ∀ a, ∃ b, f (some a) = .ok b) :
    ∀ {l : List (Option α)}, none ∈ l → (mapRes f l).isPanic = true
  | [], h => by cases h
  | none :: l, _ => by
    simp only [mapRes]
    cases hf : f none with
    | panic w => rfl
    | err e => rw [hf] at h0; cases h0
    | ok b => rw [hf] at h0; cases h0
  | some a :: l, h => by
    obtain ⟨b, hb⟩ := h1 a
    have ih := mapRes_none h0 h1 (l := l) (by simpa using h)
    simp only [mapRes, hb]
    cases hm : mapRes f l with
    | panic w => rfl
    | err e => rw [hm] at ih; cases ih
    | ok b => rw [hm] at ih; cases ih

theorem decodeBuffer_panics {E : DecEnv} {b : Buffer} (h : (decodeBuffer E b).1.isPanic = true) :
    b.byteLength < 0 ∧ b.isEmbeddedResource = false ∧ E.fsys.isSome = true := by
  unfold decodeBuffer at h
  cases hv : validateBuffer b with
  | err e => rw [hv] at h; cases h
  | panic w => unfold validateBuffer at hv; split at hv <;> cases hv
  | ok u =>
    rw [hv] at h
    simp only at h
    split at h
    · cases h
    · split at h
      · cases hm : b.marshalData with
        | ok x => rw [hm] at h; cases h
        | err x => rw [hm] at h; cases h
        | panic w =>
          have := (C35_total b).2
          rw [hm] at this
          cases this
      · next he =>
        split at h
        · cases h
        · cases hf : E.fsys with
          | none => rw [hf] at h; cases h
          | some read =>
            rw [hf] at h
            simp only at h
            split at h
            · split at h
              · next hn => exact ⟨hn, by simpa using he, rfl⟩
              · split at h <;> cases h
            · split at h <;> cases h

theorem decodeBuffers_panics {E : DecEnv} : ∀ {l : List Buffer}, (decodeBuffers E l).1.isPanic = true →
    ∃ b ∈ l, b.byteLength < 0 ∧ b.isEmbeddedResource = false ∧ E.fsys.isSome = true
  | [], h => by cases h
  | b :: l, h => by
    simp only [decodeBuffers] at h
    rcases hd : decodeBuffer E b with ⟨x, t⟩
    rw [hd] at h
    cases x with
    | panic w => exact ⟨b, by simp, decodeBuffer_panics (by rw [hd]; rfl)⟩
    | err e => cases h
    | ok c =>
      simp only at h
      rcases hr : decodeBuffers E l with ⟨y, t'⟩
      rw [hr] at h
      cases y with
      | panic w =>
        obtain ⟨a, ha, hp⟩ := decodeBuffers_panics (l := l) (by rw [hr]; rfl)
        exact ⟨a, by simp [ha], hp⟩
      | err e => cases h
      | ok c => cases h

theorem decodeBinaryBuffer_panics {b : Buffer} {r : BufReader} (hr : r.Inv) (h : (decodeBinaryBuffer b r).1.isPanic = true) :
    b.byteLength < 0 ∨ maxAlloc < b.byteLength := by
  unfold decodeBinaryBuffer at h
  cases hv : validateBuffer b with
  | err e => rw [hv] at h; cases h
  | panic w => unfold validateBuffer at hv; split at hv <;> cases hv
  | ok u =>
    rw [hv] at h
    simp only at h
    obtain ⟨r', ⟨-, e, hf, -⟩ | ⟨-, -, e⟩⟩ := r.full_spec 8 hr
    · rw [e] at h
      simp only at h
      split at h
      · cases h
      · split at h
        · assumption
        · obtain ⟨r'', ⟨-, e', -, -⟩ | ⟨-, -, e'⟩⟩ := r'.full_spec b.byteLength.toNat hf.inv
          · rw [e'] at h; cases h
          · rw [e'] at h; cases h
    · rw [e] at h; cases h

/-- Why `Decode` can panic: a null buffer or image, a negative or huge length of the buffer in the binary chunk, a negative length
of a buffer in another file. -/
inductive Spec.Harmful (files : Bool) (glb : Bool) (d : Document) : Prop where
  | buffer : none ∈ d.buffers → Harmful files glb d
  | image : none ∈ d.images → Harmful files glb d
  | chunk (b : Buffer) : glb = true → d.buffers.head? = some (some b) → ¬ octetMime <+: b.uri → b.byteLength < 0 ∨ maxAlloc < b.byteLength →
      Harmful files glb d
  | file (b : Buffer) : files = true → some b ∈ d.buffers → ¬ octetMime <+: b.uri → b.byteLength < 0 → Harmful files glb d

theorem sanitize_source {U : UrlLib} {x : Option Buffer} {c : Buffer} (h : sanitizeBuffer U x = .ok c) :
    ∃ a, x = some a ∧ c.byteLength = a.byteLength ∧ (octetMime <+: a.uri → c = a) := by
  obtain ⟨a, rfl, e⟩ := sanitizeBuffer_fields h
  refine ⟨a, rfl, by rw [e], fun ho => ?_⟩
  unfold sanitizeBuffer at h
  simp only at h
  rw [if_pos ((embedded_iff a).2 ho)] at h
  cases h
  rfl

/-- C50: if `Decode` panics, the file has JSON, and the document in it has one of these flaws. -/
theorem C50_panics_only (E : DecEnv) (s : Source) (h : (decodeSource E s).result.isPanic = true) :
    ∃ v d, StartsWith true v (jsonPart s.data) ∧ (documentC E.json).dec v {} = .ok d ∧
      Harmful E.fsys.isSome (decide (b!"glTF" <+: s.data)) d := by
  have hs : (newDecoder s).Inv := .inl rfl
  have hno : ∀ b d, docOf E s.data s.fin {} = .ok (b, d) → ∃ v, jsonOf s = .ok v := by
    intro b d hd
    unfold docOf at hd
    unfold jsonOf
    cases hh : headerOf s.data with
    | err e => rw [hh] at hd; cases hd
    | panic e => rw [hh] at hd; cases hd
    | ok g =>
      rw [hh] at hd
      simp only at hd ⊢
      cases hv : valueOf (jsonStream s.data g) (jsonFin s.data s.fin g) with
      | ok v => exact ⟨v, rfl⟩
      | err e => rw [hv] at hd; cases hd
      | panic e => rw [hv] at hd; cases hd
  cases hj : jsonOf s with
  | err e =>
    rw [decode_noPanic E s fun b d hd => by obtain ⟨v, hv⟩ := hno b d hd; rw [hj] at hv; cases hv] at h
    cases h
  | panic e =>
    rw [decode_noPanic E s fun b d hd => by obtain ⟨v, hv⟩ := hno b d hd; rw [hj] at hv; cases hv] at h
    cases h
  | ok v =>
    cases hh : headerOf s.data with
    | err e => unfold jsonOf at hj; rw [hh] at hj; cases hj
    | panic e => unfold jsonOf at hj; rw [hh] at hj; cases hj
    | ok g =>
    obtain ⟨pre, r, hf, -, e⟩ := decode_value E hh hj
    rw [e] at h
    cases hd : (documentC E.json).dec v {} with
    | error e' => rw [hd] at h; cases h
    | ok d =>
    rw [hd] at h
    simp only at h
    refine ⟨v, d, jsonOf_sound hj, hd, ?_⟩
    unfold decodeRest at h
    cases h1 : mapRes (sanitizeBuffer E.url) d.buffers with
    | err e' => rw [h1] at h; cases h
    | panic w =>
      obtain ⟨a, ha, hp⟩ := mapRes_panics (f := sanitizeBuffer E.url) (l := d.buffers) (by rw [h1]; rfl)
      cases a with
      | none => exact .buffer ha
      | some a => obtain ⟨c, hc⟩ := sanitizeBuffer_total E.url a; rw [hc] at hp; cases hp
    | ok bs =>
    cases h2 : mapRes (sanitizeImage E.url) d.images with
    | err e' => rw [h1, h2] at h; cases h
    | panic w =>
      obtain ⟨a, ha, hp⟩ := mapRes_panics (f := sanitizeImage E.url) (l := d.images) (by rw [h2]; rfl)
      cases a with
      | none => exact .image ha
      | some a => obtain ⟨c, hc⟩ := sanitizeImage_total E.url a; rw [hc] at hp; cases hp
    | ok ims =>
    rw [h1, h2] at h
    simp only at h
    have hfile : ∀ rest : List Buffer, (∀ c ∈ rest, c ∈ bs) → (decodeBuffers E rest).1.isPanic = true →
        Harmful E.fsys.isSome (decide (b!"glTF" <+: s.data)) d := by
      intro rest hsub hp
      obtain ⟨c, hc, hn, he, hfs⟩ := decodeBuffers_panics hp
      obtain ⟨x, hx, hsx⟩ := (mapRes_ok h1).2 c (hsub c hc)
      obtain ⟨a, rfl, hl, ho⟩ := sanitize_source hsx
      refine .file a hfs hx (fun hoct => ?_) (by omega)
      rw [ho hoct, (embedded_iff a).2 hoct] at he
      cases he
    cases bs with
    | nil => cases h
    | cons c cs =>
      simp only [decodeFirst] at h
      by_cases hb : g.isSome = true ∧ c.uri = []
      · rw [if_pos hb] at h
        rcases hx : decodeBinaryBuffer c r with ⟨y, r'⟩
        rw [hx] at h
        cases y with
        | err e' => cases h
        | panic w =>
          have hn := decodeBinaryBuffer_panics (b := c) hf.inv (by rw [hx]; rfl)
          cases hbuf : d.buffers with
          | nil => rw [hbuf] at h1; cases h1
          | cons x xs =>
            rw [hbuf] at h1
            simp only [mapRes] at h1
            cases hc : sanitizeBuffer E.url x with
            | err e' => rw [hc] at h1; cases h1
            | panic e' => rw [hc] at h1; cases h1
            | ok c' =>
              rw [hc] at h1
              cases hm : mapRes (sanitizeBuffer E.url) xs with
              | err e' => rw [hm] at h1; cases h1
              | panic e' => rw [hm] at h1; cases h1
              | ok cs' =>
                rw [hm] at h1
                cases h1
                obtain ⟨a, rfl, hl, ho⟩ := sanitize_source hc
                refine .chunk a ?_ (by rw [hbuf]; rfl) (fun hoct => ?_) (by rw [← hl]; exact hn)
                · obtain ⟨g', hg⟩ := Option.isSome_iff_exists.1 hb.1
                  rw [hg] at hh
                  exact decide_eq_true (headerOf_some hh)
                · have := ho hoct
                  rw [← this, hb.2] at hoct
                  revert hoct
                  decide
        | ok c' =>
          simp only at h
          rcases hr : decodeBuffers E cs with ⟨z, t⟩
          rw [hr] at h
          exact hfile cs (fun c hc => by simp [hc]) (by rw [hr]; cases z <;> first | rfl | cases h)
      · rw [if_neg hb] at h
        simp only at h
        rcases hr : decodeBuffers E (c :: cs) with ⟨z, t⟩
        rw [hr] at h
        exact hfile (c :: cs) (fun c hc => hc) (by rw [hr]; cases z <;> first | rfl | cases h)

/-- C50: a null buffer or image always makes `Decode` panic. -/
theorem C50_null_panics (E : DecEnv) (s : Source) (v : JVal) (hf : FileOf v s.data) (hd : DepthLe 10000 v)
    (hv : (∃ l, v = .obj l) ∨ ∃ l, v = .arr l) (d : Document) (hr : (documentC E.json).dec v {} = .ok d)
    (hn : none ∈ d.buffers ∨ none ∈ d.images) : (decodeSource E s).result.isPanic = true := by
  have hj := jsonOf_file hf hd hv
  obtain ⟨bin, pre, r, -, e⟩ := decode_json E hj
  rw [e, hr]
  simp only
  unfold decodeRest
  have k1 : none ∈ d.buffers → (mapRes (sanitizeBuffer E.url) d.buffers).isPanic = true := mapRes_none rfl (sanitizeBuffer_total E.url)
  have k2 : none ∈ d.images → (mapRes (sanitizeImage E.url) d.images).isPanic = true := mapRes_none rfl (sanitizeImage_total E.url)
  have k3 : ∀ e, mapRes (sanitizeBuffer E.url) d.buffers ≠ .err e := by
    intro e he
    have herr : ∀ {l : List (Option Buffer)}, mapRes (sanitizeBuffer E.url) l ≠ .err e := by
      intro l
      induction l with
      | nil => intro h; cases h
      | cons a l ih =>
        intro h
        simp only [mapRes] at h
        cases a with
        | none => cases h
        | some a =>
          obtain ⟨c, hc⟩ := sanitizeBuffer_total E.url a
          rw [hc] at h
          cases hm : mapRes (sanitizeBuffer E.url) l with
          | err e' => rw [hm] at h; cases h; exact ih hm
          | panic e' => rw [hm] at h; cases h
          | ok cs => rw [hm] at h; cases h
    exact herr he
  cases h1 : mapRes (sanitizeBuffer E.url) d.buffers with
  | err e' => exact absurd h1 (k3 e')
  | panic w => cases mapRes (sanitizeImage E.url) d.images <;> rfl
  | ok bs =>
    rw [h1] at k1
    rcases hn with hn | hn
    · cases k1 hn
    · have := k2 hn
      cases h2 : mapRes (sanitizeImage E.url) d.images with
      | err e' => rw [h2] at this; cases this
      | panic w => rfl
      | ok bs => rw [h2] at this; cases this

theorem negative_decode {E : DecEnv} {b : Buffer} {name : Bytes} (h0 : b.byteLength < 0) (hr : FileRef b.uri name) (hf : E.fsys.isSome = true) :
    ∃ c, sanitizeBuffer E.url (some b) = .ok c ∧ (decodeBuffer E c).1.isPanic = true := by
  obtain ⟨read, hf⟩ := Option.isSome_iff_exists.1 hf
  refine ⟨{ b with uri := name }, ?_, ?_⟩
  · unfold sanitizeBuffer
    simp only
    rw [if_neg (by rw [embedded_iff]; exact resolves_not_octet hr.1), sanitize_resolves E.url hr.1 hr.2.1]
  · unfold decodeBuffer
    have hv : validateBuffer { b with uri := name } = .ok () := by
      unfold validateBuffer
      rw [if_neg (by show b.byteLength ≠ 0; omega)]
    rw [hv]
    simp only
    rw [if_neg hr.2.2.1.1, if_neg (by rw [embedded_iff]; exact hr.2.2.2), if_neg (by rw [validate_local E.url hr.2.2.1]; simp), hf]
    simp only
    rw [if_pos (by omega), if_pos h0]
    rfl

theorem negative_prefix {E : DecEnv} {b : Buffer} {name : Bytes} (h0 : b.byteLength < 0) (hr : FileRef b.uri name) (hf : E.fsys.isSome = true)
    {post : List (Option Buffer)} : ∀ {pre pre' : List (Option Buffer)}, AllLoad E.fsys none pre pre' → (∀ b, some b ∈ pre → b.data = []) →
    ∀ {bs}, mapRes (sanitizeBuffer E.url) (pre ++ some b :: post) = .ok bs → (decodeBuffers E bs).1.isPanic = true
  | [], [], _, _, bs, h => by
    obtain ⟨c, hc, hp⟩ := negative_decode h0 hr hf
    simp only [List.nil_append, mapRes, hc] at h
    cases hm : mapRes (sanitizeBuffer E.url) post with
    | err e => rw [hm] at h; cases h
    | panic e => rw [hm] at h; cases h
    | ok cs =>
      rw [hm] at h
      cases h
      simp only [decodeBuffers]
      rcases hd : decodeBuffer E c with ⟨x, t⟩
      rw [hd] at hp
      cases x with
      | panic w => rfl
      | err e => cases hp
      | ok a => cases hp
  | some a :: pre, some a' :: pre', hl, hdat, bs, h => by
    obtain ⟨k0, k1, k2⟩ := hl
    obtain ⟨c, hc, -, hok⟩ := loads_decode k0 (hdat a (by simp)) k1
    simp only [List.cons_append, mapRes, hc] at h
    cases hm : mapRes (sanitizeBuffer E.url) (pre ++ some b :: post) with
    | err e => rw [hm] at h; cases h
    | panic e => rw [hm] at h; cases h
    | ok cs =>
      rw [hm] at h
      cases h
      have ih := negative_prefix h0 hr hf k2 (fun b hb => hdat b (by simp [hb])) hm
      simp only [decodeBuffers]
      rcases hd : decodeBuffer E c with ⟨x, t⟩
      rw [hd] at hok
      simp only at hok
      subst hok
      simp only
      rcases hd' : decodeBuffers E cs with ⟨y, t'⟩
      rw [hd'] at ih
      cases y with
      | panic w => rfl
      | err e => cases ih
      | ok a => cases ih

/-- C50: a negative length of a buffer in another file makes `Decode` panic, whether or not that file can be read, if the data of the
buffers before is there. -/
theorem C50_negative_panics (E : DecEnv) (s : Source) (v : JVal) (hf : StartsWith false v s.data) (hd : DepthLe 10000 v)
    (hv : (∃ l, v = .obj l) ∨ ∃ l, v = .arr l) (d : Document) (hr : (documentC E.json).dec v {} = .ok d)
    (pre pre' post : List (Option Buffer)) (b : Buffer) (name : Bytes) (hb : d.buffers = pre ++ some b :: post) (hl : AllLoad E.fsys none pre pre')
    (hu : FileRef b.uri name) (hn : b.byteLength < 0) (hfs : E.fsys.isSome = true) : (decodeSource E s).result.isPanic = true := by
  by_cases hnil : none ∈ d.buffers ∨ none ∈ d.images
  · exact C50_null_panics E s v (.inl hf) hd hv d hr hnil
  have hj := jsonOf_file (.inl hf) hd hv
  obtain ⟨pre0, r, -, -, e⟩ := decode_value E (headerOf_text (startsWith_notGlb hf)) hj
  rw [e, hr]
  simp only
  unfold decodeRest
  obtain ⟨ims, hi, -⟩ := mapRes_images E.url (fun h => hnil (.inr h))
  have hbs : ∃ bs, mapRes (sanitizeBuffer E.url) d.buffers = .ok bs := by
    have : ∀ {l : List (Option Buffer)}, none ∉ l → ∃ bs, mapRes (sanitizeBuffer E.url) l = .ok bs := by
      intro l
      induction l with
      | nil => exact fun _ => ⟨[], rfl⟩
      | cons a l ih =>
        intro h
        cases a with
        | none => exact absurd (by simp) h
        | some a =>
          obtain ⟨c, hc⟩ := sanitizeBuffer_total E.url a
          obtain ⟨bs, hm⟩ := ih fun hx => h (by simp [hx])
          exact ⟨c :: bs, by simp only [mapRes, hc, hm]; rfl⟩
    exact this fun h => hnil (.inl h)
  obtain ⟨bs, hbs⟩ := hbs
  have hp := negative_prefix (post := post) hn hu hfs hl (fun b' hb' => noData E.json hr b' (by rw [hb]; simp [hb'])) (by rw [← hb]; exact hbs)
  rw [hbs, hi]
  have hfirst : decodeFirst (none : Option GlbHeader).isSome bs r = (.ok ([], bs), r) := by
    cases bs with
    | nil => rfl
    | cons c cs =>
      simp only [decodeFirst]
      rw [if_neg (by simp)]
  simp only [hfirst]
  rcases hx : decodeBuffers E bs with ⟨y, t⟩
  rw [hx] at hp
  cases y with
  | panic w => rfl
  | err e => cases hp
  | ok a => cases hp

/-- What is not on the list does not panic: an embedded buffer with a negative length. -/
example : (decodeSource witnessDec { data := b!"{\"buffers\":[{\"byteLength\":-1,\"uri\":\"data:application/octet-stream;base64,AQI=\"}]}" }).result.isPanic = false := by
  decide +kernel

/-- The hypotheses are met: the second buffer has a negative length, the first is read from its file. -/
example : ∃ v d b, StartsWith false v b!"{\"buffers\":[{\"byteLength\":4,\"uri\":\"b%20c.bin\"},{\"byteLength\":-1,\"uri\":\"b%20c.bin\"}]}" ∧
    DepthLe 10000 v ∧ (∃ l, v = .obj l) ∧ (documentC witnessDec.json).dec v {} = .ok d ∧
    d.buffers = [some { byteLength := 4, uri := b!"b%20c.bin" }] ++ some b :: [] ∧
    AllLoad witnessDec.fsys none [some { byteLength := 4, uri := b!"b%20c.bin" }] [some { byteLength := 4, uri := b!"b c.bin", data := [0, 0, 0, 0] }] ∧
    FileRef b.uri b!"b c.bin" ∧ b.byteLength < 0 ∧ witnessDec.fsys.isSome = true := by
  have hp : jsonOf { data := b!"{\"buffers\":[{\"byteLength\":4,\"uri\":\"b%20c.bin\"},{\"byteLength\":-1,\"uri\":\"b%20c.bin\"}]}" } = .ok
      (.obj [(b!"buffers", .arr [.obj [(b!"byteLength", .num b!"4"), (b!"uri", .str b!"b%20c.bin")],
        .obj [(b!"byteLength", .num b!"-1"), (b!"uri", .str b!"b%20c.bin")]])]) := rfl
  have ht := print_text (L := compact) ⟨fun _ => by simp [compact, IsBlank], by simp [compact, IsBlank]⟩ _ (jsonOf_valid hp).ok 0
  refine ⟨_, _, { byteLength := -1, uri := b!"b%20c.bin" }, ⟨[], _, [], by simp [IsBlank], ht, by decide +kernel⟩, (jsonOf_valid hp).depth, ⟨_, rfl⟩, rfl, rfl,
    ⟨by decide, .file (fun _ => ([0, 0, 0, 0], none)) [0, 0, 0, 0] b!"b c.bin" (file_ref spaceFile) rfl rfl, trivial⟩, file_ref spaceFile, by decide, rfl⟩

end Gltf
