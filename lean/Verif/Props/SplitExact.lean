/-
Properties C32, C33 and C71, what happens where they are false: a GLB file that is read in pieces gives the same document as when it is read at
once, or an error, never another document.
-/
import Verif.Props.Truncate

namespace Gltf

open Spec

/-- If the reader is in the padding of the JSON there is an error. -/
theorem decodeBinaryBuffer_padding {r : BufReader} (hr : r.Inv) {b : Buffer} {bin chunk : Bytes} {j : Nat} (h0 : 0 < j) (hj : j < 4)
    (hc : IsChunk b!"BIN\x00" 0 bin chunk) (hp : r.rest = List.replicate j 32 ++ chunk) : (decodeBinaryBuffer b r).1.isErr = true := by
  obtain ⟨len, k, rfl, hk, hk4, hlen⟩ := hc
  obtain ⟨l0, l1, l2, l3, rfl⟩ := le4_split hlen
  unfold decodeBinaryBuffer validateBuffer
  split
  · rfl
  · rename_i e; split at e <;> cases e
  · obtain ⟨r1, ⟨h8, hx, hf, ha⟩ | ⟨hlt, _, hx⟩⟩ := BufReader.full_spec 8 hr
    · rw [hx, hp]
      simp only
      rw [if_pos]
      · rfl
      · left
        have : j = 1 ∨ j = 2 ∨ j = 3 := by omega
        rcases this with rfl | rfl | rfl
        · show l3.toNat + 66 * 256 + 73 * 65536 + 78 * 16777216 ≠ _
          rw [show glbChunkBIN = 5130562 from rfl]; omega
        · show l2.toNat + l3.toNat * 256 + 66 * 65536 + 73 * 16777216 ≠ _
          rw [show glbChunkBIN = 5130562 from rfl]; omega
        · show l1.toNat + l2.toNat * 256 + l3.toNat * 65536 + 66 * 16777216 ≠ _
          rw [show glbChunkBIN = 5130562 from rfl]; omega
    · rw [hx]; rfl

/-- The file is read at once. -/
def Spec.atOnce (s : Source) : Source := { data := s.data, fin := s.fin }

/-- Where the reader is after the JSON of a GLB file: at the end of the padding or before. -/
theorem glb_after (E : DecEnv) {s : Source} {ms : List (Bytes × JVal)} (hd : DepthLe 10000 (.obj ms)) {bin : Option Bytes} {w t : Bytes}
    (hw : IsBlank w) (ht : Text false (.value (.obj ms)) t) (hg : IsGlb (w ++ t) bin s.data) :
    ∃ r c2 j, r.Inv ∧ r.rest = List.replicate j 32 ++ c2 ∧ j < 4 ∧ r.src.fin = s.fin ∧
      (s.Aligned ∨ (w ++ t).length % 4 = 0 → j = 0) ∧
      (match bin with
        | none => c2 = []
        | some data => IsChunk b!"BIN\x00" 0 data c2) ∧
      decodeSource E s = match (documentC E.json).dec (.obj ms) {} with
        | .ok d => decodeRest E true d r
        | .error e => ⟨.err e, [], r⟩ := by
  obtain ⟨g, hdr, k, c2, hs, hl, hh, hj, hk, hk4, hc⟩ := headerOf_glb hg []
  rw [List.append_nil] at hh
  rw [List.append_nil, List.append_nil] at hs
  obtain ⟨pre, r, hr, er, e⟩ := decode_value E hh (jsonOf_file (.inr ⟨_, bin, hg, w, t, [], hw, ht, by simp⟩) hd (.inl ⟨_, rfl⟩))
  obtain ⟨_, pre', hf', hsp⟩ := decodeDocument_spec E (b := newDecoder s) (.inl rfl) {}
  obtain ⟨used, lr, hpre, hus, hen, hal⟩ := hsp (some g) hh
  rw [← er] at hf'
  have hdrop : s.data.drop 20 = w ++ t ++ List.replicate k 32 ++ c2 := by
    rw [hs, List.append_assoc hdr, List.append_assoc hdr, ← hl, List.drop_left]
  have hjs : jsonStream s.data (some g) = w ++ t ++ List.replicate k 32 := by
    show (s.data.drop 20).take g.jsonLength = _
    rw [hdrop, hj]
    conv => lhs; arg 1; rw [← List.length_replicate (n := k) (a := (32 : UInt8)), ← List.length_append]
    rw [List.take_left]
  replace hus : w ++ t ++ List.replicate k 32 = used ++ lr.stream := by rw [← hjs]; exact hus
  have hle := enough_le (parseTop_text hw ht hd _ (.inl ⟨_, rfl⟩)) hus hen
  have hule : used.length ≤ (w ++ t).length + k := by
    have := congrArg List.length hus
    rw [List.length_append (as := w ++ t), List.length_append (as := used), List.length_replicate] at this
    omega
  have hrest : w ++ t ++ (List.replicate k 32 ++ c2) = used ++ r.rest := by
    have := hf'.rest
    rw [hpre] at this
    replace this : s.data = s.data.take 20 ++ used ++ r.rest := this
    conv at this => lhs; rw [← List.take_append_drop 20 s.data]
    rw [List.append_assoc, hdrop, List.append_assoc (w ++ t)] at this
    exact List.append_cancel_left this
  refine ⟨r, c2, k - (used.length - (w ++ t).length), hr.inv, ?_, by omega, hr.fin, ?_, hc, e⟩
  · have hd1 := congrArg (List.drop used.length) hrest
    rw [List.drop_left, List.drop_append, List.drop_eq_nil_of_le hle, List.nil_append,
      List.drop_append_of_le_length (by rw [List.length_replicate]; omega), List.drop_replicate] at hd1
    exact hd1.symm
  · rintro (ha | ha)
    · have := (hal ⟨rfl, ha⟩ (by intro g' hg'; cases hg'; rw [hj]; exact hk4)).1
      omega
    · omega

/-- The length of a GLB file is a multiple of four. -/
theorem glb_length {json : Bytes} {bin : Option Bytes} {s : Bytes} (hg : IsGlb json bin s) : s.length % 4 = 0 := by
  obtain ⟨version, total, c1, c2, hs, hv, hto, ⟨len, k, rfl, hk, hk4, hlen⟩, hc2⟩ := hg
  have l1 := hv.1
  have l2 := hto.1
  have l3 := hlen.1
  have l4 : c2.length % 4 = 0 := by
    cases bin with
    | none => rw [show c2 = [] from hc2]; rfl
    | some bin =>
      obtain ⟨len', k', rfl, hk', hk4', hlen'⟩ := hc2
      have l3 := hlen'.1
      simp only [List.length_append, List.length_replicate, List.length_cons, List.length_nil]
      omega
  rw [hs]
  simp only [List.length_append, List.length_replicate, List.length_cons, List.length_nil] at hk4 ⊢
  omega

/-- C32 where it is false: for a GLB file the result is that of reading it at once, or an error, however the reader splits it and
however the JSON is padded. -/
theorem C32_same_or_error (E : DecEnv) (s : Source) (ms : List (Bytes × JVal)) (hd : DepthLe 10000 (.obj ms)) (bin : Option Bytes)
    (w t : Bytes) (hw : IsBlank w) (ht : Text false (.value (.obj ms)) t) (hg : IsGlb (w ++ t) bin s.data) :
    ((decodeSource E s).result = (decodeSource E (atOnce s)).result ∧ (decodeSource E s).opened = (decodeSource E (atOnce s)).opened) ∨
    ((decodeSource E s).result.isErr = true ∧ (decodeSource E s).opened = []) := by
  have hgl := glb_length hg
  obtain ⟨r1, c1, j1, i1, e1, j14, f1, -, hc1, d1⟩ := glb_after E hd hw ht hg
  obtain ⟨r2, c2, j2, i2, e2, j24, f2, hj2, hc2, d2⟩ := glb_after E (s := atOnce s) hd hw ht hg
  have hj2' : j2 = 0 := hj2 (.inl ⟨hgl, by simp [atOnce]⟩)
  subst hj2'
  have hc : c1 = c2 := by
    cases bin with
    | none => exact hc1.trans hc2.symm
    | some data => exact isChunk_inj hc1 hc2
  subst hc
  rw [d1, d2]
  cases (documentC E.json).dec (.obj ms) {} with
  | error e => exact .inl ⟨rfl, rfl⟩
  | ok d =>
    simp only
    by_cases hj : j1 = 0
    · subst hj
      have := decodeRest_congr ⟨e1.trans e2.symm, f1.trans f2.symm, i1, i2⟩ E true d
      exact .inl ⟨this.1, this.2.1⟩
    · cases hb : mapRes (sanitizeBuffer E.url) d.buffers with
      | err e =>
        unfold decodeRest
        rw [hb]
        exact .inl ⟨rfl, rfl⟩
      | panic e =>
        unfold decodeRest
        rw [hb]
        exact .inl ⟨rfl, rfl⟩
      | ok bs =>
        by_cases hu : usesChunk true bs = true
        · cases bs with
          | nil => cases hu
          | cons b l =>
            have hu' : b.uri = [] := List.isEmpty_iff.1 (by simpa [usesChunk] using hu)
            unfold decodeRest
            rw [hb]
            cases mapRes (sanitizeImage E.url) d.images with
            | err e => exact .inl ⟨rfl, rfl⟩
            | panic e => exact .inl ⟨rfl, rfl⟩
            | ok ims =>
              right
              have hsh : (decodeBinaryBuffer b r1).1.isErr = true := by
                cases bin with
                | none =>
                  rw [show c1 = [] from hc1, List.append_nil] at e1
                  unfold decodeBinaryBuffer validateBuffer
                  split
                  · rfl
                  · rename_i e; split at e <;> cases e
                  · obtain ⟨r1, ⟨h8, _⟩ | ⟨hlt, _, hx⟩⟩ := BufReader.full_spec 8 i1
                    · rw [e1, List.length_replicate] at h8
                      omega
                    · rw [hx]; rfl
                | some bin => exact decodeBinaryBuffer_padding i1 (by omega) j14 hc1 e1
              unfold decodeFirst
              simp only [hu', and_self, if_true]
              rcases hdb : decodeBinaryBuffer b r1 with ⟨y, r'⟩
              rw [hdb] at hsh
              cases y with
              | err e => exact ⟨rfl, rfl⟩
              | panic e => cases hsh
              | ok b' => cases hsh
        · exact .inl (decodeRest_unused E (fun l hl => by
            rw [hb] at hl
            cases hl
            exact Bool.eq_false_iff.2 hu) r1 r2)

/-- `paddedGlb` meets the hypotheses; both cases occur. -/
example : IsGlb ([] ++ b!"{\"buffers\":[{\"byteLength\":1}]}") (some [77]) paddedGlb ∧
    firstData (decodeSource witnessDec { data := paddedGlb, sizes := [(0, 3), (1, 2)] }).result = some [77] ∧
    (decodeSource witnessDec { data := paddedGlb, sizes := [(0, 49)] }).result.isErr = true :=
  ⟨paddedGlb_glb, by decide +kernel, by decide +kernel⟩

/-- C71 where it is false: if two GLB files have the same JSON value and the same data, however it is spelled, padded and read, then
they give the same result, or one of them gives an error and opens nothing. -/
theorem C71_same_or_error (E : DecEnv) (s1 s2 : Source) (ms : List (Bytes × JVal)) (hd : DepthLe 10000 (.obj ms)) (bin : Option Bytes)
    (w1 t1 w2 t2 : Bytes) (hw1 : IsBlank w1) (hw2 : IsBlank w2) (ht1 : Text false (.value (.obj ms)) t1) (ht2 : Text false (.value (.obj ms)) t2)
    (h1 : IsGlb (w1 ++ t1) bin s1.data) (h2 : IsGlb (w2 ++ t2) bin s2.data) (hf : s1.fin = s2.fin) :
    ((decodeSource E s1).result = (decodeSource E s2).result ∧ (decodeSource E s1).opened = (decodeSource E s2).opened) ∨
    ((decodeSource E s1).result.isErr = true ∧ (decodeSource E s1).opened = []) ∨
    ((decodeSource E s2).result.isErr = true ∧ (decodeSource E s2).opened = []) := by
  have k := C71_glb_partial E (atOnce s1) (atOnce s2) ms hd bin w1 t1 w2 t2 hw1 hw2 ht1 ht2 h1 h2 hf
    (.inl ⟨glb_length h1, by simp [atOnce]⟩) (.inl ⟨glb_length h2, by simp [atOnce]⟩)
  rcases C32_same_or_error E s1 ms hd bin w1 t1 hw1 ht1 h1 with ⟨a1, a2⟩ | a
  · rcases C32_same_or_error E s2 ms hd bin w2 t2 hw2 ht2 h2 with ⟨b1, b2⟩ | b
    · exact .inl ⟨by rw [a1, b1, k.1], by rw [a2, b2, k.2]⟩
    · exact .inr (.inr b)
  · exact .inr (.inl a)

/-- The JSON of `paddedGlb` with two more spaces, which fill its chunk. -/
def filledGlb : Bytes :=
  b!"glTF" ++ [2, 0, 0, 0] ++ [64, 0, 0, 0] ++ [32, 0, 0, 0] ++ b!"JSON" ++ b!" {\"buffers\":[{\"byteLength\":1 }]}"
    ++ [4, 0, 0, 0] ++ b!"BIN\x00" ++ [77, 0, 0, 0]

theorem filledGlb_text : Text false (.value (.obj [(b!"buffers", .arr [.obj [(b!"byteLength", .num b!"1")]])])) b!"{\"buffers\":[{\"byteLength\":1 }]}" := by
  have k1 : Chars false b!"buffers" b!"buffers" := plain_chars .nil ['b', 'u', 'f', 'f', 'e', 'r', 's'] (by decide)
  have k2 : Chars false b!"byteLength" b!"byteLength" :=
    plain_chars .nil ['b', 'y', 't', 'e', 'L', 'e', 'n', 'g', 't', 'h'] (by decide)
  have n1 : IsNumber b!"1" := ⟨[], b!"1", [], [], rfl, .inl rfl, .inr ⟨⟨by decide, by decide⟩, by decide⟩, .inl rfl, .inl rfl⟩
  have blank : IsBlank [] := by simp [IsBlank]
  exact .obj (.member blank blank blank blank k1 (.arr (.elem blank blank (.obj (.member (w' := b!" ") blank blank blank (by simp [IsBlank]) k2 (.num n1))))))

theorem filledGlb_glb : IsGlb (b!" " ++ b!"{\"buffers\":[{\"byteLength\":1 }]}") (some [77]) filledGlb :=
  ⟨[2, 0, 0, 0], [64, 0, 0, 0], [32, 0, 0, 0] ++ b!"JSON" ++ b!" {\"buffers\":[{\"byteLength\":1 }]}",
    [4, 0, 0, 0] ++ b!"BIN\x00" ++ [77, 0, 0, 0], rfl, ⟨rfl, rfl⟩, ⟨rfl, rfl⟩, ⟨[32, 0, 0, 0], 0, rfl, by decide, by decide, rfl, rfl⟩,
    ⟨[4, 0, 0, 0], 3, rfl, by decide, by decide, rfl, rfl⟩⟩

/-- C71 is false for GLB files: two files with the same JSON value and the same data, of which only one can be read by the same
reads. -/
theorem C71_full_fails : ∃ ms bin w1 t1 w2 t2 sizes d1 d2, IsBlank w1 ∧ IsBlank w2 ∧ Text false (.value (.obj ms)) t1 ∧
    Text false (.value (.obj ms)) t2 ∧ IsGlb (w1 ++ t1) bin d1 ∧ IsGlb (w2 ++ t2) bin d2 ∧
    firstData (decodeSource witnessDec { data := d1, sizes := sizes }).result = some [77] ∧
    (decodeSource witnessDec { data := d2, sizes := sizes }).result.isErr = true :=
  ⟨_, _, _, _, _, _, [(0, 49)], _, _, by simp [IsBlank], by simp [IsBlank], filledGlb_text, paddedGlb_text, filledGlb_glb, paddedGlb_glb,
    by decide +kernel, by decide +kernel⟩

/-- C33 with all lengths: a GLB is rejected if its first chunk is not JSON, or if the length of this chunk plus that of the header,
modulo 2^32, is more than the declared length. Everything that is accepted has such a header. -/
theorem C33_mod (E : DecEnv) (s : Source) (hl : 20 ≤ s.data.length) (hm : b!"glTF" <+: s.data)
    (h : (s.data.drop 16).take 4 ≠ b!"JSON" ∨
      leNat ((s.data.drop 8).take 4) < (leNat ((s.data.drop 12).take 4) + 20) % 2 ^ 32) :
    (decodeSource E s).result.isErr = true ∧ (decodeSource E s).opened = [] := by
  have hv : validateGLBHeader (GlbHeader.parse (s.data.take 20)) = false := by
    unfold validateGLBHeader
    simp only [GlbHeader.parse, field_eq hl (show 8 ≤ 16 by decide), field_eq hl (show 12 ≤ 16 by decide), field_eq hl (show 16 ≤ 16 by decide),
      Bool.not_eq_eq_eq_not, Bool.not_false, decide_eq_true_eq]
    rcases h with h | h
    · left
      rw [show glbChunkJSON = leNat b!"JSON" by decide]
      exact fun e => h ((leNat_inj4 (by rw [List.length_take, List.length_drop]; omega)).1 e)
    · exact .inr h
  have hh : headerOf (newDecoder s).rest = .err (.msg "gltf: Invalid GLB JSON header") := by
    show headerOf s.data = _
    unfold headerOf
    rw [if_neg (by omega)]
    simp only
    rw [if_neg (fun hn => hn ((magic_iff hl).2 hm)), hv]
    rfl
  have := decode_header_err (E := E) (doc := {}) (newDecoder_same rfl rfl).inva hh
  exact ⟨by unfold decodeSource; rw [this.1]; rfl, this.2⟩

/-- A chunk that claims 4 GiB less ten bytes, in a file that claims nine bytes. -/
example : let s := emptyGlb [9, 0, 0, 0] [246, 255, 255, 255] b!"JSON"
    20 ≤ s.length ∧ b!"glTF" <+: s ∧ leNat ((s.drop 8).take 4) < (leNat ((s.drop 12).take 4) + 20) % 2 ^ 32 ∧
    ¬ leNat ((s.drop 12).take 4) + 20 < 2 ^ 32 :=
  ⟨by decide +kernel, ⟨_, rfl⟩, by decide +kernel, by decide +kernel⟩

end Gltf
