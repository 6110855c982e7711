/-
Property C99: the data of decoded buffers is what the file and the files next to it contain.
-/
import Verif.Spec.Data
import Verif.Props.Accept

namespace Gltf

open Spec

/-! ### Buffers -/

theorem marshalData_split {b : Buffer} {data : Bytes} (he : b.isEmbeddedResource = true) (h : b.marshalData = .ok data) :
    ∃ c t, b.uri = octetMime ++ c :: t ∧ IsBase64 (t.filter fun c => c ≠ 10 ∧ c ≠ 13) data := by
  obtain ⟨x, hx⟩ := (embedded_iff b).1 he
  unfold Buffer.marshalData at h
  rw [he] at h
  simp only [Bool.not_true, Bool.false_eq_true, if_false] at h
  split at h
  · cases h
  · rename_i hl
    cases x with
    | nil =>
      rw [← hx, List.append_nil] at hl
      exact absurd (show _ < _ from Nat.lt_succ_self _) hl
    | cons c t =>
      refine ⟨c, t, hx.symm, ?_⟩
      have hdrop : b.uri.drop (mimetypeApplicationOctet.length + 1) = t := by
        rw [← hx, List.drop_append]
        rfl
      rw [hdrop] at h
      split at h
      · cases h
      · rename_i e
        cases h
        refine ((b64Decode_decodesTo t).1 _).1 ?_
        rw [← e]

/-- A buffer that is not in the binary chunk, and what is opened for it. -/
theorem decodeBuffer_from {E : DecEnv} {b b' : Buffer} {t : List Bytes} (file : Bytes) (first : Bool) (hd : b.data = [])
    (h : decodeBuffer E b = (.ok b', t)) :
    DataFrom file E.fsys first b' ∧ (∀ read, E.fsys = some read → t = fileUris [some b']) ∧ (E.fsys = none → t = []) := by
  unfold decodeBuffer at h
  split at h
  · cases h
  · cases h
  · rename_i hv
    have h0 : b.byteLength ≠ 0 := by
      unfold validateBuffer at hv
      split at hv
      · cases hv
      · assumption
    split at h
    · cases h
    · rename_i hu
      split at h
      · rename_i he
        cases hm : b.marshalData with
        | err e => rw [hm] at h; cases h
        | panic w => rw [hm] at h; cases h
        | ok d =>
          rw [hm] at h
          cases h
          obtain ⟨c, t, h1, h2⟩ := marshalData_split he hm
          refine ⟨.embedded c t h1 h0 h2, fun _ _ => ?_, fun _ => rfl⟩
          have : octetMime <+: b.uri := (embedded_iff b).1 he
          simp [fileUris, this]
      · rename_i he
        have hno : ¬ octetMime <+: b.uri := fun hp => he ((embedded_iff b).2 hp)
        have huris : ∀ d, [b.uri] = fileUris [some { b with data := d }] := fun d => by
          simp [fileUris, hu, hno]
        split at h
        · cases h
        · split at h
          · rename_i hf
            cases h
            exact ⟨.noFile hu hno hf h0 hd, (fun read e => by rw [hf] at e; cases e), fun _ => rfl⟩
          · rename_i read hf
            rcases hr : read b.uri with ⟨d, e⟩
            rw [hr] at h
            simp only at h
            split at h
            · rename_i hlt
              split at h
              · cases h
              · split at h
                · cases h
                · rename_i hneg _
                  cases h
                  exact ⟨.file read d hu hno hf hr (show 0 < b.byteLength by omega) rfl, fun _ _ => huris _,
                    fun e => by rw [hf] at e; cases e⟩
            · rename_i hlt
              split at h
              · cases h
              · cases h
                refine ⟨.file read d hu hno hf hr (show 0 < b.byteLength by omega) ?_, fun _ _ => huris _,
                  fun e => by rw [hf] at e; cases e⟩
                show d = _
                rw [List.take_of_length_le (show d.length ≤ b.byteLength.toNat by omega)]

theorem fileUris_cons (o : Option Buffer) (l : List (Option Buffer)) : fileUris (o :: l) = fileUris [o] ++ fileUris l := by
  unfold fileUris
  cases o with
  | none => rfl
  | some b =>
    simp only [List.filterMap_cons, Option.map_some, List.filterMap_nil]
    rw [← List.filter_append]
    rfl

theorem decodeBuffers_from {E : DecEnv} (file : Bytes) : ∀ {l l' : List Buffer} {t : List Bytes} (first : Bool), (∀ b ∈ l, b.data = []) →
    decodeBuffers E l = (.ok l', t) →
    AllFrom file E.fsys first (l'.map some) ∧ (∀ read, E.fsys = some read → t = fileUris (l'.map some)) ∧ (E.fsys = none → t = [])
  | [], l', t, _, _, h => by cases h; exact ⟨trivial, fun _ _ => rfl, fun _ => rfl⟩
  | b :: l, l', t, first, hd, h => by
    simp only [decodeBuffers] at h
    rcases hb : decodeBuffer E b with ⟨x, t1⟩
    rw [hb] at h
    cases x with
    | err e => cases h
    | panic w => cases h
    | ok b' =>
      simp only at h
      rcases hr : decodeBuffers E l with ⟨y, t2⟩
      rw [hr] at h
      cases y with
      | err e => cases h
      | panic w => cases h
      | ok bs =>
        cases h
        obtain ⟨h1, h2, h3⟩ := decodeBuffer_from file first (hd b (by simp)) hb
        obtain ⟨k1, k2, k3⟩ := decodeBuffers_from file false (fun c hc => hd c (by simp [hc])) hr
        refine ⟨⟨h1, k1⟩, fun read e => ?_, fun e => by rw [h3 e, k3 e]; rfl⟩
        rw [h2 read e, k2 read e, List.map_cons]
        exact (fileUris_cons (some b') _).symm

/-- The buffer in the binary chunk. -/
theorem decodeBinaryBuffer_from {b b' : Buffer} {r r' : BufReader} (hr : r.Inv) (h : decodeBinaryBuffer b r = (.ok b', r')) :
    ∃ len rest, r.rest = len ++ b!"BIN\x00" ++ (b'.data ++ rest) ∧ len.length = 4 ∧ (b'.byteLength < 2 ^ 32 → b'.data.length ≤ leNat len) ∧ 0 < b'.byteLength ∧
      (b'.data.length : Int) = b'.byteLength ∧ b' = { b with data := b'.data } := by
  unfold decodeBinaryBuffer at h
  split at h
  · cases h
  · cases h
  · rename_i hv
    have h0 : b.byteLength ≠ 0 := by
      unfold validateBuffer at hv
      split at hv
      · cases hv
      · assumption
    obtain ⟨r1, ⟨hl8, hx, hf, _⟩ | ⟨_, _, hx⟩⟩ := BufReader.full_spec 8 hr
    · rw [hx] at h
      simp only at h
      split at h
      · cases h
      · rename_i hbin
        split at h
        · cases h
        · rename_i hn
          obtain ⟨r2, ⟨hl, hy, hf2, _⟩ | ⟨_, _, hy⟩⟩ := BufReader.full_spec b.byteLength.toNat hf.inv
          · rw [hy] at h
            cases h
            have hlen8 : (r.rest.take 8).length = 8 := by rw [List.length_take]; omega
            have e1 : (r.rest.take 8).drop 4 = b!"BIN\x00" := by
              have hd4 : ((r.rest.take 8).drop 4).length = 4 := by rw [List.length_drop, hlen8]
              have hk : le32 ((r.rest.take 8).drop 4) = glbChunkBIN := Classical.byContradiction fun hk => hbin (.inl hk)
              have := (le32_text (s := (r.rest.take 8).drop 4) (by omega) (w := 66) (x := 73) (y := 78) (z := 0)).1 (by rw [hk]; decide)
              exact (this.eq_of_length hd4.symm).symm
            have e2 : r.rest.take 8 = (r.rest.take 8).take 4 ++ b!"BIN\x00" := by
              rw [← e1, List.take_append_drop]
            refine ⟨(r.rest.take 8).take 4, r'.rest, ?_, ?_, ?_, ?_, ?_, rfl⟩
            · rw [← e2]
              conv => lhs; rw [hf.rest]
              show _ = r.rest.take 8 ++ (r1.rest.take b.byteLength.toNat ++ r'.rest)
              rw [← hf2.rest]
            · rw [List.length_take, hlen8]; rfl
            · intro h32
              replace h32 : b.byteLength < 2 ^ 32 := h32
              show (r1.rest.take b.byteLength.toNat).length ≤ _
              rw [← le32_eq (by omega), List.length_take]
              have hlt : ¬ le32 (r.rest.take 8) < uint32 b.byteLength := fun hk => hbin (.inr hk)
              rw [uint32_small (by omega) (by omega)] at hlt
              omega
            · show 0 < b.byteLength
              omega
            · show ((r1.rest.take b.byteLength.toNat).length : Int) = b.byteLength
              rw [List.length_take]
              omega
          · rw [hy] at h; cases h
    · rw [hx] at h; cases h

/-! ### Files -/

/-- What is read before the buffers. -/
theorem decodeSource_place {E : DecEnv} {s : Source} {doc : Document} (h : (decodeSource E s).result = .ok doc) :
    ∃ g v d0 pre, headerOf s.data = .ok g ∧ jsonOf s = .ok v ∧ (documentC E.json).dec v {} = .ok d0 ∧
      (newDecoder s).Follows pre (decodeDocument E (newDecoder s) {}).2 ∧
      decodeSource E s = decodeRest E g.isSome d0 (decodeDocument E (newDecoder s) {}).2 ∧
      (∀ g', g = some g' → 20 ≤ pre.length ∧ pre.length ≤ 20 + leNat ((s.data.drop 12).take 4)) := by
  have hr : (newDecoder s).Inv := .inl rfl
  obtain ⟨h1, pre, h2, h3⟩ := decodeDocument_spec E hr {}
  replace h1 : (decodeDocument E (newDecoder s) {}).1 = docOf E s.data s.fin {} := h1
  have he : decodeSource E s = decode E (newDecoder s) {} := rfl
  rw [decode_eq] at he
  rcases hd : decodeDocument E (newDecoder s) {} with ⟨x, r⟩
  rw [hd] at h1 h2 he
  simp only at h1 h2 he
  have hx : ∃ p, x = .ok p := by
    cases x with
    | err e => rw [he] at h; cases h
    | panic w => rw [he] at h; cases h
    | ok p => exact ⟨p, rfl⟩
  obtain ⟨⟨bin, d0⟩, rfl⟩ := hx
  unfold docOf at h1
  cases hh : headerOf s.data with
  | err e' => rw [hh] at h1; cases h1
  | panic w => rw [hh] at h1; cases h1
  | ok g =>
    rw [hh] at h1
    simp only at h1
    cases hv : valueOf (jsonStream s.data g) (jsonFin s.data s.fin g) with
    | err e' => rw [hv] at h1; cases h1
    | panic w => rw [hv] at h1; cases h1
    | ok v =>
      rw [hv] at h1
      simp only at h1
      cases hj : (documentC E.json).dec v {} with
      | error e' => rw [hj] at h1; cases h1
      | ok d =>
        rw [hj] at h1
        cases h1
        refine ⟨g, v, d0, pre, rfl, ?_, hj, h2, he, ?_⟩
        · unfold jsonOf
          rw [hh]
          exact hv
        · rintro g' rfl
          obtain ⟨used, l, e1, e2, -⟩ := h3 (some g') hh
          have hl20 : 20 ≤ s.data.length := by
            unfold headerOf at hh
            split at hh
            · cases hh
            · omega
          have e3 : ((newDecoder s).rest.take (headerLen (some g'))).length = 20 := by
            show (s.data.take 20).length = 20
            rw [List.length_take]
            omega
          have e4 : used.length ≤ g'.jsonLength := by
            have := congrArg List.length e2
            unfold jsonStream at this
            rw [List.length_append, List.length_take] at this
            omega
          rw [headerOf_length hh] at e4
          rw [e1, List.length_append, e3]
          omega

/-- C99: if `Decode` succeeds, then the data of every buffer that it returns comes from the place that the buffer names: from the
binary chunk of the file, from its data URI, or from the file of this name, of which as many bytes are used as declared. The files
that are opened are those of the buffers, in their order. This holds however the file is read and whatever is in it. -/
theorem C99_data (E : DecEnv) (s : Source) (doc : Document) (h : (decodeSource E s).result = .ok doc) :
    AllFrom s.data E.fsys true doc.buffers ∧
    (decodeSource E s).opened = (if E.fsys.isSome then fileUris doc.buffers else []) := by
  obtain ⟨g, v, d0, pre, hh, -, hj, hf, he, hp⟩ := decodeSource_place h
  generalize (decodeDocument E (newDecoder s) {}).2 = r at hf he
  rw [he] at h ⊢
  have hno := noData E.json hj
  unfold decodeRest at h ⊢
  cases h1 : mapRes (sanitizeBuffer E.url) d0.buffers with
  | err e => rw [h1] at h; cases h
  | panic e => rw [h1] at h; cases h
  | ok bs =>
  cases h2 : mapRes (sanitizeImage E.url) d0.images with
  | err e => rw [h1, h2] at h; cases h
  | panic e => rw [h1, h2] at h; cases h
  | ok ims =>
  rw [h1, h2] at h
  simp only at h ⊢
  have hbs : ∀ b ∈ bs, b.data = [] := fun b hb => by
    obtain ⟨a, ha, hs⟩ := (mapRes_ok h1).2 b hb
    obtain ⟨b0, rfl, e0⟩ := sanitizeBuffer_fields hs
    rw [e0]
    exact hno b0 ha
  rcases h3 : decodeFirst g.isSome bs r with ⟨x, r'⟩
  rw [h3] at h
  cases x with
  | err e => cases h
  | panic e => cases h
  | ok p =>
    obtain ⟨first, rest⟩ := p
    simp only at h ⊢
    rcases h4 : decodeBuffers E rest with ⟨y, t⟩
    rw [h4] at h
    cases y with
    | err e => cases h
    | panic e => cases h
    | ok l =>
      cases h
      simp only
      have key : ∀ t', (∀ read, E.fsys = some read → t = t') → (E.fsys = none → t = []) → t = (if E.fsys.isSome then t' else []) := by
        intro t' k1 k2
        cases hfs : E.fsys with
        | none => exact k2 hfs
        | some read => exact k1 read hfs
      cases bs with
      | nil =>
        cases h3
        cases h4
        exact ⟨trivial, key _ (fun _ _ => rfl) (fun _ => rfl)⟩
      | cons b bs =>
        unfold decodeFirst at h3
        simp only at h3
        split at h3
        · rename_i hc
          rcases h5 : decodeBinaryBuffer b r with ⟨z, r2⟩
          rw [h5] at h3
          cases z with
          | err e => cases h3
          | panic e => cases h3
          | ok b' =>
            cases h3
            obtain ⟨len, tail, k1, k2, k3, k4, k5, k6⟩ := decodeBinaryBuffer_from hf.inv h5
            obtain ⟨a1, a2, a3⟩ := decodeBuffers_from s.data false (fun c hc => hbs c (by simp [hc])) h4
            have hu : b'.uri = [] := by rw [k6]; exact hc.2
            cases g with
            | none => cases hc.1
            | some g =>
              obtain ⟨p1, p2⟩ := hp g rfl
              refine ⟨⟨.chunk pre len tail rfl hu (headerOf_some hh) ?_ p1 p2 k2 k3 k4 k5, a1⟩, key _ (fun read e => ?_) a3⟩
              · rw [← k1]; exact hf.rest
              · rw [a2 read e]
                show _ = fileUris (some b' :: l.map some)
                rw [fileUris_cons]
                simp [fileUris, hu]
        · cases h3
          obtain ⟨a1, a2, a3⟩ := decodeBuffers_from s.data true hbs h4
          exact ⟨a1, key _ a2 a3⟩

/-- C99 for GLB files: if the JSON text fills its chunk or every read returns a multiple of four bytes (see C32), a buffer without
URI has the beginning of the binary chunk, its padding included. -/
theorem C99_chunk (E : DecEnv) (s : Source) (ms : List (Bytes × JVal)) (bin : Option Bytes) (w t : Bytes) (hw : IsBlank w)
    (ht : Text false (.value (.obj ms)) t) (hf : IsGlb (w ++ t) bin s.data) (hn : DepthLe 10000 (.obj ms)) (ha : s.Aligned ∨ (w ++ t).length % 4 = 0)
    (doc : Document) (h : (decodeSource E s).result = .ok doc) (b : Buffer) (hb : some b ∈ doc.buffers) (hu : b.uri = []) :
    ∃ data, bin = some data ∧ b.data = (data ++ [0, 0, 0]).take b.byteLength.toNat ∧ (b.data.length : Int) = b.byteLength := by
  obtain ⟨g, v, d0, pre, hh, hv, hj, hfo, he, -⟩ := decodeSource_place h
  obtain ⟨g', hdr, k, c2, hs', hl', hh', hjl, hk, hk4, hc⟩ := headerOf_glb hf []
  rw [List.append_nil] at hh'
  rw [List.append_nil, List.append_nil] at hs'
  rw [hh] at hh'
  cases hh'
  have hrest : (decodeDocument E (newDecoder s) {}).2.rest = c2 := by
    refine decodeDocument_rest E (.inl rfl) {} (show (newDecoder s).rest = _ from hs') hl' hh (by rw [List.length_replicate]; exact hjl)
      (parseTop_text hw ht hn _ (.inl ⟨ms, rfl⟩)) ?_
    rcases ha with ha | ha
    · exact .inr ⟨⟨rfl, ha⟩, by simpa using hk, by simpa using hk4⟩
    · left
      have : k = 0 := by omega
      rw [this]; rfl
  generalize (decodeDocument E (newDecoder s) {}).2 = r at hfo he hrest
  rw [he] at h
  obtain ⟨bs, ims, first, rest, l, h1, -, h3, h4, rfl⟩ := decodeRest_ok h
  obtain ⟨b1, hb1, e⟩ := List.mem_map.1 hb
  cases e
  rcases List.mem_append.1 hb1 with hb1 | hb1
  · unfold decodeFirst at h3
    split at h3
    · split at h3
      · rename_i c cs hcu
        rcases h5 : decodeBinaryBuffer c r with ⟨z, r2⟩
        rw [h5] at h3
        cases z with
        | err e => cases h3
        | panic e => cases h3
        | ok b' =>
          cases h3
          cases List.mem_singleton.1 hb1
          obtain ⟨len, tail, k1, k2, k3, k4, k5, k6⟩ := decodeBinaryBuffer_from hfo.inv h5
          rw [hrest] at k1
          cases bin with
          | none =>
            exfalso
            replace hc : c2 = [] := hc
            rw [hc] at k1
            have := congrArg List.length k1
            simp only [List.length_nil, List.length_append, List.length_cons] at this
            omega
          | some data =>
            refine ⟨data, rfl, ?_, k5⟩
            obtain ⟨len', k', e, hk', hk4', hlen⟩ := hc
            rw [e] at k1
            simp only [List.append_assoc] at k1
            have k7 := (List.append_inj k1 (by rw [hlen.1, k2])).2
            have k8 : data ++ List.replicate k' 0 = b.data ++ tail := by simpa using k7
            have e3 : data ++ [0, 0, 0] = b.data ++ (tail ++ List.replicate (3 - k') 0) := by
              rw [← List.append_assoc, ← k8, List.append_assoc, List.replicate_append_replicate, show k' + (3 - k') = 3 by omega]
              rfl
            rw [e3, List.take_append_of_le_length (by omega), List.take_of_length_le (by omega)]
      · cases h3; cases hb1
    · cases h3; cases hb1
  · obtain ⟨c, -, e⟩ := decodeBuffers_shape h4 b hb1
    exact absurd hu (decodeBuffer_shape e).2.1

/-! ### Examples for C99 -/

/-- `paddedGlb` is decoded, its binary chunk has one byte. -/
example : (decodeSource witnessDec { data := paddedGlb }).result.isErr = false ∧
    firstData (decodeSource witnessDec { data := paddedGlb }).result = some [77] := by decide +kernel

/-- It meets the hypotheses of `C99_chunk` about the container; for those about the text see C32. -/
example : IsGlb ([] ++ b!"{\"buffers\":[{\"byteLength\":1}]}") (some [77]) paddedGlb ∧ Source.Aligned { data := paddedGlb } :=
  ⟨⟨[2, 0, 0, 0], [64, 0, 0, 0], [32, 0, 0, 0] ++ b!"JSON" ++ b!"{\"buffers\":[{\"byteLength\":1}]}" ++ b!"  ",
    [4, 0, 0, 0] ++ b!"BIN\x00" ++ [77] ++ [0, 0, 0], by decide, ⟨by decide, by decide⟩, ⟨by decide, by decide⟩,
    ⟨[32, 0, 0, 0], 2, by decide, by decide, by decide, by decide, by decide⟩,
    ⟨[4, 0, 0, 0], 3, by decide, by decide, by decide, by decide, by decide⟩⟩, by decide, by decide⟩

/-- An embedded buffer and a file. -/
example : (decodeSource witnessDec { data := b!"{\"buffers\":[{\"byteLength\":9,\"uri\":\"data:application/octet-stream;base64,AA==\"},{\"byteLength\":2,\"uri\":\"a\"}]}" }).opened = [b!"a"] ∧
    (match (decodeSource witnessDec { data := b!"{\"buffers\":[{\"byteLength\":9,\"uri\":\"data:application/octet-stream;base64,AA==\"},{\"byteLength\":2,\"uri\":\"a\"}]}" }).result with
      | .ok d => d.buffers.map (fun b => b.map (·.data))
      | _ => []) = [some [0], some [0, 0]] := by decide +kernel

end Gltf
