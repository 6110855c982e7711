/-
Property C110: a GLB file without binary data is read like its JSON.
-/
import Verif.Props.SplitExact

namespace Gltf

open Spec

/-- Without a buffer in the binary chunk it makes no difference whether the file is a GLB. -/
theorem decodeRest_wrapped (E : DecEnv) {d0 : Document}
    (hu : ∀ l, mapRes (sanitizeBuffer E.url) d0.buffers = .ok l → usesChunk true l = false) (a b : BufReader) :
    (decodeRest E true d0 a).result = (decodeRest E false d0 b).result ∧ (decodeRest E true d0 a).opened = (decodeRest E false d0 b).opened := by
  unfold decodeRest
  cases hm : mapRes (sanitizeBuffer E.url) d0.buffers with
  | err e => exact ⟨rfl, rfl⟩
  | panic w => exact ⟨rfl, rfl⟩
  | ok buffers =>
    cases mapRes (sanitizeImage E.url) d0.images with
    | err e => exact ⟨rfl, rfl⟩
    | panic w => exact ⟨rfl, rfl⟩
    | ok images =>
      simp only
      rw [decodeFirst_unused (hu _ hm) a, decodeFirst_unused (isBinary := false) (by cases buffers <;> rfl) b]
      exact ⟨rfl, rfl⟩

/-- A buffer without URI that is not in the binary chunk is refused. -/
theorem decodeBuffers_noUri {E : DecEnv} {b : Buffer} (h : b.uri = []) (l : List Buffer) : ∃ e, decodeBuffers E (b :: l) = (.err e, []) := by
  have : ∃ e, decodeBuffer E b = (.err e, []) := by
    unfold decodeBuffer validateBuffer
    by_cases h0 : b.byteLength = 0
    · rw [if_pos h0]; exact ⟨_, rfl⟩
    · rw [if_neg h0]
      simp only
      rw [if_pos h]
      exact ⟨_, rfl⟩
  obtain ⟨e, he⟩ := this
  exact ⟨e, by simp only [decodeBuffers, he]⟩

/-- C110: the JSON of a GLB file as a text file. What is accepted as text is accepted as GLB; conversely if no buffer is in the binary
chunk, and otherwise the text is refused. -/
theorem C110_wrapped (E : DecEnv) (s s' : Source) (ms : List (Bytes × JVal)) (hd : DepthLe 10000 (.obj ms)) (bin : Option Bytes) (w t : Bytes)
    (hw : IsBlank w) (ht : Text false (.value (.obj ms)) t) (hg : IsGlb (w ++ t) bin s.data) (hs : StartsWith false (.obj ms) s'.data) :
    (∀ d, (decodeSource E s').result = .ok d →
      (decodeSource E s).result = .ok d ∧ (decodeSource E s).opened = (decodeSource E s').opened) ∧
    (∀ d, (decodeSource E s).result = .ok d → (∀ b, some b ∈ d.buffers → b.uri ≠ []) →
      (decodeSource E s').result = .ok d ∧ (decodeSource E s').opened = (decodeSource E s).opened) ∧
    (∀ d b, (decodeSource E s).result = .ok d → some b ∈ d.buffers → b.uri = [] → (decodeSource E s').result.isErr = true) := by
  have hv : ∃ r, r.Inv ∧ decodeSource E s = match (documentC E.json).dec (.obj ms) {} with
      | .ok d => decodeRest E true d r
      | .error e => ⟨.err e, [], r⟩ := by
    obtain ⟨g, hdr, k, c2, -, -, hh, -⟩ := headerOf_glb hg []
    rw [List.append_nil] at hh
    obtain ⟨pre, r, hr, -, e⟩ := decode_value E hh (jsonOf_file (.inr ⟨_, bin, hg, w, t, [], hw, ht, by simp⟩) hd (.inl ⟨_, rfl⟩))
    exact ⟨r, hr.inv, e⟩
  obtain ⟨r, hr, e1⟩ := hv
  obtain ⟨_, r', -, -, e2⟩ := decode_value E (headerOf_text (startsWith_notGlb hs)) (jsonOf_file (.inl hs) hd (.inl ⟨_, rfl⟩))
  cases hx : (documentC E.json).dec (.obj ms) {} with
  | error e =>
    rw [hx] at e1 e2
    rw [e1, e2]
    exact ⟨nofun, nofun, nofun⟩
  | ok d0 =>
    rw [hx] at e1 e2
    replace e2 : decodeSource E s' = decodeRest E false d0 r' := e2
    replace e1 : decodeSource E s = decodeRest E true d0 r := e1
    rw [e1, e2]
    refine ⟨fun d h => ?_, fun d h hu => ?_, fun d b h hb hu => ?_⟩
    · obtain ⟨bs, ims, first, rest, l, k1, k2, k3, k4, -⟩ := decodeRest_ok h
      rw [decodeFirst_unused (isBinary := false) (by cases bs <;> rfl)] at k3
      cases k3
      have := decodeRest_wrapped E (d0 := d0) (fun l hl => by
        rw [k1] at hl
        cases hl
        cases bs with
        | nil => rfl
        | cons b bs =>
          show (true && b.uri.isEmpty) = false
          cases hu : b.uri with
          | cons _ _ => rfl
          | nil =>
            obtain ⟨_, he⟩ := decodeBuffers_noUri (E := E) hu bs
            rw [he] at k4
            cases k4) r r'
      exact ⟨this.1.trans h, this.2⟩
    · obtain ⟨bs, ims, first, rest, l, k1, k2, k3, k4, rfl⟩ := decodeRest_ok h
      have := decodeRest_wrapped E (d0 := d0) (fun l' hl => by
        rw [k1] at hl
        cases hl
        rcases decodeFirst_shape hr k3 with ⟨rfl, rfl⟩ | ⟨b, b', rfl, rfl, hb, hbu, _⟩
        · cases rest with
          | nil => rfl
          | cons b bs =>
            show (true && b.uri.isEmpty) = false
            cases hu : b.uri with
            | cons _ _ => rfl
            | nil =>
              obtain ⟨_, he⟩ := decodeBuffers_noUri (E := E) hu bs
              rw [he] at k4
              cases k4
        · refine absurd ?_ (hu b' (by simp))
          rw [hb]
          exact hbu) r r'
      exact ⟨this.1.symm.trans h, this.2.symm⟩
    · obtain ⟨bs, ims, first, rest, l, k1, k2, k3, k4, rfl⟩ := decodeRest_ok h
      have hfirst : ∃ b0 bs', bs = b0 :: bs' ∧ b0.uri = [] := by
        rcases decodeFirst_shape hr k3 with ⟨rfl, rfl⟩ | ⟨b0, b', rfl, rfl, -, hbu, _⟩
        · exfalso
          replace hb : some b ∈ l.map some := hb
          obtain ⟨c, hc, e⟩ := List.mem_map.1 hb
          cases e
          have key : ∀ {rest l : List Buffer}, (decodeBuffers E rest).1 = .ok l → ∀ b ∈ l, b.uri ≠ [] := by
            intro rest
            induction rest with
            | nil => intro l h b hb; cases h; cases hb
            | cons x rest ih =>
              intro l h b hb
              simp only [decodeBuffers] at h
              rcases hd : decodeBuffer E x with ⟨y, t⟩
              rw [hd] at h
              cases y with
              | err e => cases h
              | panic e => cases h
              | ok y =>
                simp only at h
                cases hr : (decodeBuffers E rest).1 with
                | err e => rw [hr] at h; cases h
                | panic e => rw [hr] at h; cases h
                | ok l' =>
                  rw [hr] at h
                  cases h
                  rcases List.mem_cons.1 hb with rfl | hb
                  · exact (decodeBuffer_shape (E := E) (b := x) (by rw [hd])).2.1
                  · exact ih hr b hb
          exact key k4 b hc hu
        · exact ⟨b0, rest, rfl, hbu⟩
      obtain ⟨b0, bs', rfl, hb0⟩ := hfirst
      unfold decodeRest
      rw [k1, k2]
      simp only
      rw [decodeFirst_unused (isBinary := false) rfl]
      simp only
      obtain ⟨e, he⟩ := decodeBuffers_noUri (E := E) hb0 bs'
      simp only [he]
      rfl

/-- C110 also for files that are refused or panic: the GLB file gives the same result and opens the same files as the text, or the text
is refused and opens nothing. -/
theorem C110_same_or_refused (E : DecEnv) (s s' : Source) (ms : List (Bytes × JVal)) (hd : DepthLe 10000 (.obj ms)) (bin : Option Bytes)
    (w t : Bytes) (hw : IsBlank w) (ht : Text false (.value (.obj ms)) t) (hg : IsGlb (w ++ t) bin s.data)
    (hs : StartsWith false (.obj ms) s'.data) :
    ((decodeSource E s).result = (decodeSource E s').result ∧ (decodeSource E s).opened = (decodeSource E s').opened) ∨
    ((decodeSource E s').result.isErr = true ∧ (decodeSource E s').opened = []) := by
  obtain ⟨g, hdr, k, c2, -, -, hh, -⟩ := headerOf_glb hg []
  rw [List.append_nil] at hh
  obtain ⟨_, r, -, -, e1⟩ := decode_value E hh (jsonOf_file (.inr ⟨_, bin, hg, w, t, [], hw, ht, by simp⟩) hd (.inl ⟨_, rfl⟩))
  obtain ⟨_, r', -, -, e2⟩ := decode_value E (headerOf_text (startsWith_notGlb hs)) (jsonOf_file (.inl hs) hd (.inl ⟨_, rfl⟩))
  cases hx : (documentC E.json).dec (.obj ms) {} with
  | error e =>
    rw [hx] at e1 e2
    rw [e1, e2]
    exact .inl ⟨rfl, rfl⟩
  | ok d0 =>
    rw [hx] at e1 e2
    replace e2 : decodeSource E s' = decodeRest E false d0 r' := e2
    replace e1 : decodeSource E s = decodeRest E true d0 r := e1
    rw [e1, e2]
    by_cases hu : ∀ l, mapRes (sanitizeBuffer E.url) d0.buffers = .ok l → usesChunk true l = false
    · exact .inl (decodeRest_wrapped E hu r r')
    · have : ∃ b l, mapRes (sanitizeBuffer E.url) d0.buffers = .ok (b :: l) ∧ b.uri = [] := by
        refine Classical.byContradiction fun hn => hu fun l hl => ?_
        cases l with
        | nil => rfl
        | cons b l =>
          show (true && b.uri.isEmpty) = false
          cases hb : b.uri with
          | cons _ _ => rfl
          | nil => exact absurd ⟨b, l, hl, hb⟩ hn
      obtain ⟨b, l, hm, hb⟩ := this
      have hd : ∃ e, decodeBuffers E (b :: l) = (.err e, []) := decodeBuffers_noUri hb l
      obtain ⟨e, hd⟩ := hd
      unfold decodeRest
      rw [hm]
      cases hi : mapRes (sanitizeImage E.url) d0.images with
      | err e => exact .inl ⟨rfl, rfl⟩
      | panic w => exact .inl ⟨rfl, rfl⟩
      | ok images =>
        simp only
        rw [decodeFirst_unused (isBinary := false) rfl]
        simp only [hd]
        exact .inr ⟨rfl, trivial⟩

/-- The JSON text of a document with a buffer in another file. -/
def wrappedText : Bytes := b!"{\"buffers\":[{\"uri\":\"a\",\"byteLength\":4}]}"

/-- The text in a GLB file, with a binary chunk that no buffer is in. -/
def wrappedGlb : Bytes :=
  b!"glTF" ++ [2, 0, 0, 0] ++ [76, 0, 0, 0] ++ [44, 0, 0, 0] ++ b!"JSON" ++ (b!" " ++ wrappedText) ++ b!"   "
    ++ [4, 0, 0, 0] ++ b!"BIN\x00" ++ [77, 0, 0, 0]

theorem wrappedText_text :
    Text false (.value (.obj [(b!"buffers", .arr [.obj [(b!"uri", .str b!"a"), (b!"byteLength", .num b!"4")]])])) wrappedText := by
  have blank : IsBlank [] := by simp [IsBlank]
  have k1 : Chars false b!"buffers" b!"buffers" := plain_chars .nil ['b', 'u', 'f', 'f', 'e', 'r', 's'] (by decide)
  have k2 : Chars false b!"byteLength" b!"byteLength" :=
    plain_chars .nil ['b', 'y', 't', 'e', 'L', 'e', 'n', 'g', 't', 'h'] (by decide)
  have k3 : Chars false b!"uri" b!"uri" := plain_chars .nil ['u', 'r', 'i'] (by decide)
  have k4 : Chars false b!"a" b!"a" := plain_chars .nil ['a'] (by decide)
  have n1 : IsNumber b!"4" := ⟨[], b!"4", [], [], rfl, .inl rfl, .inr ⟨⟨by decide, by decide⟩, by decide⟩, .inl rfl, .inl rfl⟩
  exact .obj (.member blank blank blank blank k1 (.arr (.elem blank blank (.obj (.members blank blank blank blank k3 (.str k4)
    (.member blank blank blank blank k2 (.num n1)))))))

/-- The text and the GLB file meet the hypotheses of both theorems. Both are accepted, also if a read ends within the padding, and open the file. The
text of `paddedGlb`, whose buffer is in the binary chunk, is refused. -/
example : IsGlb (b!" " ++ wrappedText) (some [77]) wrappedGlb ∧ StartsWith false
      (.obj [(b!"buffers", .arr [.obj [(b!"uri", .str b!"a"), (b!"byteLength", .num b!"4")]])]) wrappedText ∧
    firstData (decodeSource witnessDec { data := wrappedText }).result = some [0, 0, 0, 0] ∧
    firstData (decodeSource witnessDec { data := wrappedGlb, sizes := [(0, 61)] }).result = some [0, 0, 0, 0] ∧
    (decodeSource witnessDec { data := wrappedGlb, sizes := [(0, 61)] }).opened = [b!"a"] ∧
    firstData (decodeSource witnessDec { data := paddedGlb }).result = some [77] ∧
    (decodeSource witnessDec { data := b!"{\"buffers\":[{\"byteLength\":1}]}" }).result.isErr = true :=
  ⟨⟨[2, 0, 0, 0], [76, 0, 0, 0], [44, 0, 0, 0] ++ b!"JSON" ++ (b!" " ++ wrappedText) ++ b!"   ",
    [4, 0, 0, 0] ++ b!"BIN\x00" ++ [77, 0, 0, 0], rfl, ⟨rfl, rfl⟩, ⟨rfl, rfl⟩, ⟨[44, 0, 0, 0], 3, rfl, by decide, by decide, rfl, rfl⟩,
    ⟨[4, 0, 0, 0], 3, rfl, by decide, by decide, rfl, rfl⟩⟩,
    ⟨[], wrappedText, [], by simp [IsBlank], wrappedText_text, by simp⟩,
    by decide +kernel, by decide +kernel, by decide +kernel, by decide +kernel, by decide +kernel⟩

end Gltf
