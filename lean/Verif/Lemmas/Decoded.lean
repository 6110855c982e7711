/-
What Decode returns.
-/
import Verif.Lemmas.ParseSound
import Verif.Lemmas.DocSound
import Verif.Props.RoundTrip
import Verif.Props.Decode

namespace Gltf

open Spec

/-! ### The JSON of a stream -/

/-- The JSON value at the beginning of a stream, or in its JSON chunk. -/
def jsonOf (s : Source) : Res JVal :=
  match headerOf s.data with
  | .ok h => valueOf (jsonStream s.data h) (jsonFin s.data s.fin h)
  | .err e => .err e
  | .panic w => .panic w

theorem valueOf_valid {s : Bytes} {fin : Err} {v : JVal} (h : valueOf s fin = .ok v) : Val maxDepth v := by
  unfold valueOf at h
  split at h
  · rename_i hp
    cases h
    exact parseTop_valid hp
  · cases h
  · split at h
    · split at h
      · rename_i hp
        cases h
        exact parseTop_valid hp
      · cases h
    · cases h

theorem jsonOf_valid {s : Source} {v : JVal} (h : jsonOf s = .ok v) : Val maxDepth v := by
  unfold jsonOf at h
  split at h
  · exact valueOf_valid h
  · cases h
  · cases h

theorem decodeSource_ok {E : DecEnv} {s : Source} {doc : Document} (h : (decodeSource E s).result = .ok doc) :
    ∃ v bin d0 r, jsonOf s = .ok v ∧ (documentC E.json).dec v {} = .ok d0 ∧ r.Inv ∧ (decodeRest E bin d0 r).result = .ok doc := by
  unfold decodeSource at h
  rw [decode_eq] at h
  have hr : (newDecoder s).Inv := .inl rfl
  obtain ⟨h1, pre, h2, -⟩ := decodeDocument_spec E hr {}
  rcases hd : decodeDocument E (newDecoder s) {} with ⟨x, r'⟩
  rw [hd] at h h1 h2
  cases x with
  | err e => cases h
  | panic w => cases h
  | ok p =>
    obtain ⟨bin, d0⟩ := p
    simp only at h h1 h2
    have e : docOf E s.data s.fin {} = .ok (bin, d0) := h1.symm
    unfold docOf at e
    unfold jsonOf
    cases hh : headerOf s.data with
    | err e' => rw [hh] at e; cases e
    | panic w => rw [hh] at e; cases e
    | ok hd' =>
      rw [hh] at e
      simp only at e ⊢
      cases hv : valueOf (jsonStream s.data hd') (jsonFin s.data s.fin hd') with
      | err e' => rw [hv] at e; cases e
      | panic w => rw [hv] at e; cases e
      | ok v =>
        rw [hv] at e
        simp only at e
        cases hj : (documentC E.json).dec v {} with
        | error e' => rw [hj] at e; cases e
        | ok d =>
          rw [hj] at e
          cases e
          exact ⟨v, _, _, r', rfl, hj, h2.inv, h⟩

theorem decodeRest_ok {E : DecEnv} {bin : Bool} {d0 doc : Document} {r : BufReader} (h : (decodeRest E bin d0 r).result = .ok doc) :
    ∃ bs ims first rest l, mapRes (sanitizeBuffer E.url) d0.buffers = .ok bs ∧ mapRes (sanitizeImage E.url) d0.images = .ok ims ∧
      (decodeFirst bin bs r).1 = .ok (first, rest) ∧ (decodeBuffers E rest).1 = .ok l ∧
      doc = { d0 with buffers := (first ++ l).map some, images := ims.map some } := by
  unfold decodeRest at h
  cases h1 : mapRes (sanitizeBuffer E.url) d0.buffers with
  | err e => rw [h1] at h; cases h
  | panic e => rw [h1] at h; cases h
  | ok bs =>
  cases h2 : mapRes (sanitizeImage E.url) d0.images with
  | err e => rw [h1, h2] at h; cases h
  | panic e => rw [h1, h2] at h; cases h
  | ok ims =>
  rw [h1, h2] at h
  simp only at h
  rcases h3 : decodeFirst bin bs r with ⟨x, r'⟩
  rw [h3] at h
  cases x with
  | err e => cases h
  | panic e => cases h
  | ok p =>
    obtain ⟨first, rest⟩ := p
    simp only at h
    cases h4 : (decodeBuffers E rest).1 with
    | err e => rw [h4] at h; cases h
    | panic e => rw [h4] at h; cases h
    | ok l =>
      rw [h4] at h
      cases h
      exact ⟨bs, ims, first, rest, l, rfl, rfl, by rw [h3], h4, rfl⟩

/-! ### Buffers -/

/-- What decoding a buffer that is not in the binary chunk gives. -/
theorem decodeBuffer_shape {E : DecEnv} {b b' : Buffer} (h : (decodeBuffer E b).1 = .ok b') :
    b' = { b with data := b'.data } ∧ b'.uri ≠ [] ∧
    ((b.isEmbeddedResource = true ∧ b.marshalData = .ok b'.data) ∨
     (b.isEmbeddedResource = false ∧
      ((E.fsys = none ∧ b'.data = b.data) ∨
        ∃ read content, E.fsys = some read ∧ read b.uri = (content, none) ∧
          (0 < b.byteLength → b'.data = content.take b.byteLength.toNat)))) := by
  unfold decodeBuffer at h
  split at h
  · cases h
  · cases h
  · split at h
    · cases h
    · rename_i hu
      split at h
      · rename_i he
        simp only at h
        cases hm : b.marshalData with
        | err e => rw [hm] at h; cases h
        | panic w => rw [hm] at h; cases h
        | ok d =>
          rw [hm] at h
          cases h
          exact ⟨rfl, hu, .inl ⟨he, rfl⟩⟩
      · rename_i he
        replace he : b.isEmbeddedResource = false := by simpa using he
        split at h
        · cases h
        · split at h
          · rename_i hf
            cases h
            exact ⟨rfl, hu, .inr ⟨he, .inl ⟨hf, rfl⟩⟩⟩
          · rename_i read hf
            rcases hr : read b.uri with ⟨d, e⟩
            rw [hr] at h
            simp only at h
            split at h
            · split at h
              · cases h
              · split at h
                · cases h
                · cases h
                  exact ⟨rfl, hu, .inr ⟨he, .inr ⟨read, d, hf, hr, fun _ => rfl⟩⟩⟩
            · split at h
              · cases h
              · rename_i hl _
                cases h
                refine ⟨rfl, hu, .inr ⟨he, .inr ⟨read, d, hf, hr, fun h0 => ?_⟩⟩⟩
                show d = _
                rw [List.take_of_length_le (by omega)]

theorem decodeBuffers_shape {E : DecEnv} : ∀ {rest l : List Buffer}, (decodeBuffers E rest).1 = .ok l →
    ∀ b' ∈ l, ∃ b ∈ rest, (decodeBuffer E b).1 = .ok b'
  | [], l, h => by cases h; simp
  | b :: rest, l, h => by
    simp only [decodeBuffers] at h
    rcases hd : decodeBuffer E b with ⟨x, t⟩
    rw [hd] at h
    cases x with
    | err e => cases h
    | panic e => cases h
    | ok b' =>
      simp only at h
      cases hr : (decodeBuffers E rest).1 with
      | err e => rw [hr] at h; cases h
      | panic e => rw [hr] at h; cases h
      | ok l' =>
        rw [hr] at h
        cases h
        intro c hc
        rcases List.mem_cons.1 hc with rfl | hc
        · exact ⟨b, by simp, by rw [hd]⟩
        · obtain ⟨x, hx, e⟩ := decodeBuffers_shape hr c hc
          exact ⟨x, by simp [hx], e⟩

/-- What decoding the binary chunk gives. -/
theorem decodeBinaryBuffer_shape {b b' : Buffer} {r : BufReader} (hr : r.Inv) (h : (decodeBinaryBuffer b r).1 = .ok b') :
    b' = { b with data := b'.data } ∧ (b'.data.length : Int) = b.byteLength := by
  unfold decodeBinaryBuffer at h
  split at h
  · cases h
  · cases h
  · obtain ⟨r', ⟨_, hx, hf, _⟩ | ⟨_, _, hx⟩⟩ := BufReader.full_spec 8 hr
    · rw [hx] at h
      simp only at h
      split at h
      · cases h
      · split at h
        · cases h
        · rename_i hn
          obtain ⟨r2, ⟨hl, hx, _⟩ | ⟨_, _, hx⟩⟩ := BufReader.full_spec b.byteLength.toNat hf.inv
          · rw [hx] at h
            cases h
            refine ⟨rfl, ?_⟩
            simp only [List.nil_append, List.length_take]
            omega
          · rw [hx] at h; cases h
    · rw [hx] at h; cases h

theorem decodeFirst_shape {bin : Bool} {bs first rest : List Buffer} {r : BufReader} (hr : r.Inv) (h : (decodeFirst bin bs r).1 = .ok (first, rest)) :
    (first = [] ∧ rest = bs) ∨ ∃ b b', bs = b :: rest ∧ first = [b'] ∧ b' = { b with data := b'.data } ∧ b.uri = [] ∧
      (b'.data.length : Int) = b'.byteLength := by
  unfold decodeFirst at h
  split at h
  · rename_i b l
    split at h
    · rename_i hc
      rcases hd : decodeBinaryBuffer b r with ⟨x, r'⟩
      rw [hd] at h
      cases x with
      | err e => cases h
      | panic e => cases h
      | ok b' =>
        cases h
        obtain ⟨h1, h2⟩ := decodeBinaryBuffer_shape hr (b := b) (b' := b') (by rw [hd])
        exact .inr ⟨b, b', rfl, rfl, h1, hc.2, by rw [h2, h1]⟩
    · cases h; exact .inl ⟨rfl, rfl⟩
  · cases h; exact .inl ⟨rfl, rfl⟩

/-- The buffers that are returned are those of the JSON with other URIs and data. -/
theorem decodeRest_buffers {E : DecEnv} {bin : Bool} {d0 doc : Document} {r : BufReader} (hr : r.Inv) (h : (decodeRest E bin d0 r).result = .ok doc) :
    ∀ o ∈ doc.buffers, ∃ b b0, o = some b ∧ some b0 ∈ d0.buffers ∧ b = { b0 with uri := b.uri, data := b.data } := by
  obtain ⟨bs, ims, first, rest, l, h1, -, h3, h4, rfl⟩ := decodeRest_ok h
  intro o ho
  obtain ⟨b, hb, rfl⟩ := List.mem_map.1 ho
  have key : ∃ c ∈ bs, b = { c with data := b.data } := by
    have h5 := decodeBuffers_shape h4
    have tail : b ∈ l → ∃ c ∈ rest, b = { c with data := b.data } := fun hm => by
      obtain ⟨c, hc, e⟩ := h5 b hm
      exact ⟨c, hc, (decodeBuffer_shape e).1⟩
    rcases decodeFirst_shape hr h3 with ⟨rfl, rfl⟩ | ⟨c, c', rfl, rfl, hc, -, -⟩
    · exact tail (by simpa using hb)
    · rcases List.mem_append.1 hb with hb | hb
      · rw [List.mem_singleton.1 hb]
        exact ⟨c, by simp, hc⟩
      · obtain ⟨x, hx, e⟩ := tail hb
        exact ⟨x, by simp [hx], e⟩
  obtain ⟨c, hc, e⟩ := key
  obtain ⟨a, ha, hs⟩ := (mapRes_ok h1).2 c hc
  obtain ⟨b0, rfl, e0⟩ := sanitizeBuffer_fields hs
  refine ⟨b, b0, rfl, ha, ?_⟩
  rw [e, e0]

theorem sanitizeImage_fields {U : UrlLib} {x : Option Image} {b : Image} (h : sanitizeImage U x = .ok b) :
    ∃ a, x = some a ∧ b = { a with uri := b.uri } := by
  cases x with
  | none => cases h
  | some a =>
    refine ⟨a, rfl, ?_⟩
    unfold sanitizeImage at h
    simp only at h
    split at h
    · cases h; rfl
    · split at h <;> (cases h; rfl)

theorem decodeRest_images {E : DecEnv} {bin : Bool} {d0 doc : Document} {r : BufReader} (h : (decodeRest E bin d0 r).result = .ok doc) :
    ∀ o ∈ doc.images, ∃ b b0, o = some b ∧ some b0 ∈ d0.images ∧ b = { b0 with uri := b.uri } := by
  obtain ⟨bs, ims, first, rest, l, -, h1, -, -, rfl⟩ := decodeRest_ok h
  intro o ho
  obtain ⟨b, hb, rfl⟩ := List.mem_map.1 ho
  obtain ⟨a, ha, hs⟩ := (mapRes_ok h1).2 b hb
  obtain ⟨b0, rfl, e0⟩ := sanitizeImage_fields hs
  exact ⟨b, b0, rfl, ha, e0⟩

/-- The URIs of buffers that can be written and read again: none, data URIs without line breaks, and plain paths. -/
def Spec.UriKept (b : Buffer) : Prop :=
  b.uri = [] ∨ (∃ t, b.uri = octetPrefix ++ t ∧ (10 : UInt8) ∉ t ∧ (13 : UInt8) ∉ t) ∨ PlainPath b.uri

theorem noBreaks {t : Bytes} (h1 : (10 : UInt8) ∉ t) (h2 : (13 : UInt8) ∉ t) : withoutLineBreaks t = t := by
  unfold withoutLineBreaks
  rw [List.filter_eq_self]
  intro c hc
  simp only [decide_eq_true_eq]
  constructor
  · rintro rfl; first | exact h1 hc | exact h2 hc
  · rintro rfl; first | exact h1 hc | exact h2 hc

theorem decodeBuffer_stores {E : DecEnv} {b b' : Buffer} (hb : b.data = []) (h : (decodeBuffer E b).1 = .ok b') (hk : UriKept b')
    (hl : 0 < b'.byteLength) (bin : Bool) : Stored E.fsys bin b' := by
  obtain ⟨h1, h2, h3⟩ := decodeBuffer_shape h
  have hu : b'.uri = b.uri := by rw [h1]
  have hbl : b'.byteLength = b.byteLength := by rw [h1]
  rcases hk with hk | ⟨t, hk, k1, k2⟩ | hk
  · exact absurd hk h2
  · rcases h3 with ⟨_, h3⟩ | ⟨h3, _⟩
    · have := ((C35_decode b t (by rw [← hu]; exact hk)).1 b'.data).1 h3
      rw [noBreaks k1 k2] at this
      exact .embedded t hk this
    · have : b.isEmbeddedResource = true := (embedded_iff _).2 (octet_of (by rw [← hu]; exact hk))
      rw [this] at h3; cases h3
  · rcases h3 with ⟨h3, _⟩ | ⟨_, ⟨h4, h5⟩ | ⟨read, content, h4, h5, h6⟩⟩
    · exact absurd ((embedded_iff _).1 h3) (by rw [← hu]; exact plain_not_octet hk)
    · exact .noFile _ (plain_file hk) h4 (by rw [h5, hb])
    · exact .file read content _ (plain_file hk) h4 (by rw [hu]; exact h5) (by rw [hbl]; exact h6 (by omega))

theorem allStored_of {files : Option (Bytes → Bytes × Option Err)} : ∀ {l : List Buffer},
    (∀ b ∈ l, 0 < b.byteLength ∧ ∀ bin, Stored files bin b) → ∀ bin, AllStored files bin (l.map some)
  | [], _, _ => trivial
  | b :: l, h, bin => ⟨(h b (by simp)).1, (h b (by simp)).2 bin, allStored_of (fun c hc => h c (by simp [hc])) false⟩

/-- What was decoded is stored, in both formats. -/
theorem decodeRest_stored' {E : DecEnv} {bin : Bool} {d0 doc : Document} {r : BufReader} (hr : r.Inv) (h0 : ∀ b, some b ∈ d0.buffers → b.data = [])
    (h : (decodeRest E bin d0 r).result = .ok doc) (hk : ∀ b, some b ∈ doc.buffers → 0 < b.byteLength ∧ UriKept b) (bin' : Bool) :
    AllStored E.fsys bin' doc.buffers := by
  obtain ⟨bs, ims, first, rest, l, h1, -, h3, h4, rfl⟩ := decodeRest_ok h
  replace hk : ∀ b ∈ first ++ l, 0 < b.byteLength ∧ UriKept b := fun b hb => hk b (List.mem_map.2 ⟨b, hb, rfl⟩)
  have hbs : ∀ b ∈ bs, b.data = [] := fun b hb => by
    obtain ⟨a, ha, hs⟩ := (mapRes_ok h1).2 b hb
    obtain ⟨b0, rfl, e0⟩ := sanitizeBuffer_fields hs
    rw [e0]
    exact h0 b0 ha
  have tail : (∀ b ∈ rest, b.data = []) → ∀ b ∈ l, 0 < b.byteLength ∧ ∀ bin, Stored E.fsys bin b := fun hrest b hb => by
    have hp := hk b (by simp [hb])
    refine ⟨hp.1, ?_⟩
    obtain ⟨c, hc, e⟩ := decodeBuffers_shape h4 b hb
    exact decodeBuffer_stores (hrest c hc) e hp.2 hp.1
  show AllStored E.fsys bin' ((first ++ l).map some)
  rcases decodeFirst_shape hr h3 with ⟨rfl, rfl⟩ | ⟨c, c', rfl, rfl, hc, hu, hlen⟩
  · exact allStored_of (tail hbs) bin'
  · have hp := hk c' (by simp)
    refine ⟨hp.1, ?_, allStored_of (tail fun b hb => hbs b (by simp [hb])) false⟩
    have hu' : c'.uri = [] := by rw [hc]; exact hu
    cases bin' with
    | true => exact .chunk rfl hu' hlen
    | false => exact .inline rfl hu' (by intro e; rw [e] at hlen; simp at hlen; omega)

end Gltf
