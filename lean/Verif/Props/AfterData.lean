/-
Property C84: what comes after the data of the first buffer of a GLB file does not matter.
-/
import Verif.Props.Truncate
import Verif.Props.Data

namespace Gltf

open Spec

/-- The buffer depends on the header of the chunk and on as many bytes as it declares. -/
theorem decodeBinaryBuffer_take {r r' : BufReader} (hr : r.Inv) (hr' : r'.Inv) {b b' : Buffer} (h : (decodeBinaryBuffer b r).1 = .ok b')
    (e : r.rest.take (8 + b.byteLength.toNat) <+: r'.rest) : (decodeBinaryBuffer b r').1 = .ok b' := by
  unfold decodeBinaryBuffer at h ⊢
  cases hv : validateBuffer b with
  | err e => rw [hv] at h; cases h
  | panic e => rw [hv] at h; cases h
  | ok u =>
  rw [hv] at h
  simp only at h ⊢
  obtain ⟨r1, ⟨h8, hx, hf, -⟩ | ⟨-, -, hx⟩⟩ := BufReader.full_spec 8 hr
  case inr => rw [hx] at h; cases h
  rw [hx] at h
  simp only at h
  obtain ⟨y, hy⟩ := e
  have hlen : 8 ≤ r'.rest.length := by
    rw [← hy, List.length_append, List.length_take]
    omega
  have ht8 : r'.rest.take 8 = r.rest.take 8 := by
    rw [← hy, List.take_append_of_le_length (by rw [List.length_take]; omega), List.take_take, Nat.min_eq_left (by omega)]
  obtain ⟨r1', ⟨-, hx', hf', -⟩ | ⟨hlt, -, -⟩⟩ := BufReader.full_spec 8 hr'
  case inr => omega
  rw [hx', ht8]
  simp only
  have e1 : r.rest.drop 8 = r1.rest := by
    have := hf.rest
    conv at this => lhs; rw [← List.take_append_drop 8 r.rest]
    exact List.append_cancel_left this
  have e1' : r'.rest.drop 8 = r1'.rest := by
    have := hf'.rest
    conv at this => lhs; rw [← List.take_append_drop 8 r'.rest]
    exact List.append_cancel_left this
  split at h
  · cases h
  · rename_i n1
    split at h
    · cases h
    · rename_i n2
      rw [if_neg n1, if_neg n2]
      obtain ⟨r2, ⟨hle, hx2, -, -⟩ | ⟨-, -, hx2⟩⟩ := BufReader.full_spec b.byteLength.toNat hf.inv
      case inr => rw [hx2] at h; cases h
      rw [hx2] at h
      have hl1 : r1.rest.length = r.rest.length - 8 := by rw [← e1, List.length_drop]
      have e2 : r1'.rest = r1.rest.take b.byteLength.toNat ++ y := by
        rw [← e1', ← hy, ← e1, List.drop_append_of_le_length (by rw [List.length_take]; omega), List.drop_take,
          Nat.add_sub_cancel_left]
      obtain ⟨r2', ⟨-, hx2', -, -⟩ | ⟨hlt2, -, -⟩⟩ := BufReader.full_spec b.byteLength.toNat hf'.inv
      · rw [hx2', e2, List.take_append_of_le_length (by rw [List.length_take]; omega), List.take_take, Nat.min_self]
        exact h
      · rw [e2, List.length_append, List.length_take] at hlt2
        omega

/-- What is missing of C84 is exactly the padding: a file that agrees with a GLB file up to the end of the data of its first buffer
gives the same document, and the same files are opened, whatever follows: nothing, less padding, other padding or more data. Both
files are read in multiples of four bytes, or the JSON text fills its chunk (see C32). -/
theorem C84_after_data (E : DecEnv) (s0 s : Source) (ms : List (Bytes × JVal)) (w t bin : Bytes) (hw : IsBlank w)
    (ht : Text false (.value (.obj ms)) t) (hd : DepthLe 10000 (.obj ms)) (hg : IsGlb (w ++ t) (some bin) s0.data)
    (ha : (s0.Aligned ∧ s.Aligned) ∨ (w ++ t).length % 4 = 0)
    (doc : Document) (b : Buffer) (l : List (Option Buffer)) (h0 : (decodeSource E s0).result = .ok doc)
    (hb : doc.buffers = some b :: l) (hu : b.uri = [])
    (hp : s0.data.take (s0.data.length - (bin.length + 3) / 4 * 4 + b.byteLength.toNat) <+: s.data) :
    (decodeSource E s).result = .ok doc ∧ (decodeSource E s).opened = (decodeSource E s0).opened := by
  obtain ⟨g, hdr, k, c2, hs, hhl, hh, hj, hk, hk4, hc⟩ := headerOf_glb hg []
  rw [List.append_nil] at hh
  rw [List.append_nil, List.append_nil] at hs
  obtain ⟨y, hy⟩ := hp
  have hc2 : c2.length = 8 + (bin.length + 3) / 4 * 4 := by
    obtain ⟨len, k2, rfl, hk2, hk24, hlen2⟩ := hc
    have l3 := hlen2.1
    simp only [List.length_append, List.length_replicate, List.length_cons, List.length_nil]
    omega
  have hl0 : s0.data.length = 20 + (w ++ t).length + k + c2.length := by
    rw [hs]
    simp only [List.length_append, List.length_replicate, hhl]
  have hsd : s.data = hdr ++ (w ++ t) ++ List.replicate k 32 ++ (c2.take (8 + b.byteLength.toNat) ++ y) := by
    rw [← hy, hl0, hc2, ← List.append_assoc]
    congr 1
    rw [hs, List.take_append, List.take_of_length_le]
    · congr 2
      simp only [List.length_append, List.length_replicate, hhl]
      omega
    · simp only [List.length_append, List.length_replicate, hhl]
      omega
  have hh' : headerOf s.data = .ok (some g) := by
    have ht20 : s.data.take 20 = s0.data.take 20 := by
      rw [hsd, hs, ← hhl]
      simp only [List.append_assoc, List.take_left]
    have hlen : ¬ s.data.length < 20 := by
      rw [hsd]
      simp only [List.length_append, hhl]
      omega
    unfold headerOf at hh ⊢
    rw [if_neg (by omega)] at hh
    rw [if_neg hlen, ht20]
    exact hh
  have hv : jsonOf s = .ok (.obj ms) := by
    unfold jsonOf
    rw [hh']
    show valueOf (jsonStream s.data (some g)) _ = _
    have : jsonStream s.data (some g) = w ++ t ++ List.replicate k 32 := by
      show (s.data.drop 20).take g.jsonLength = _
      rw [hsd, hj, ← hhl, List.append_assoc hdr, List.append_assoc hdr, List.drop_left,
        List.take_left' (by rw [List.length_append, List.length_replicate])]
    rw [this]
    exact valueOf_text ⟨w, t, _, hw, ht, rfl⟩ hd (.inl ⟨_, rfl⟩) _
  obtain ⟨_, r0, hf0, er0, e0⟩ := decode_value E hh (jsonOf_file (.inr ⟨_, some bin, hg, w, t, [], hw, ht, by simp⟩) hd (.inl ⟨_, rfl⟩))
  obtain ⟨_, r, hf, er, e⟩ := decode_value E hh' hv
  have hpad : ∀ a : BufReader, ((w ++ t).length % 4 ≠ 0 → a.Aligned) → List.replicate k (32 : UInt8) = [] ∨
      (a.Aligned ∧ (List.replicate k (32 : UInt8)).length < 4 ∧ ((w ++ t).length + (List.replicate k (32 : UInt8)).length) % 4 = 0) := by
    intro a h
    by_cases h4 : (w ++ t).length % 4 = 0
    · left
      have : k = 0 := by omega
      rw [this]; rfl
    · exact .inr ⟨h h4, by simpa using hk, by simpa using hk4⟩
  have hrest0 : r0.rest = c2 := by
    rw [er0]
    exact decodeDocument_rest E (.inl rfl) {} (show (newDecoder s0).rest = _ from hs) hhl hh (by rw [List.length_replicate]; exact hj)
      (parseTop_text hw ht hd _ (.inl ⟨ms, rfl⟩)) (hpad _ fun h => ⟨rfl, (ha.resolve_right h).1⟩)
  have hrest : r.rest = c2.take (8 + b.byteLength.toNat) ++ y := by
    rw [er]
    exact decodeDocument_rest E (.inl rfl) {} (show (newDecoder s).rest = _ from hsd) hhl hh' (by rw [List.length_replicate]; exact hj)
      (parseTop_text hw ht hd _ (.inl ⟨ms, rfl⟩)) (hpad _ fun h => ⟨rfl, (ha.resolve_right h).2⟩)
  rw [e0] at h0
  cases hdec : (documentC E.json).dec (.obj ms) {} with
  | error er => rw [hdec] at h0; cases h0
  | ok d =>
    rw [hdec] at h0 e e0
    simp only at h0 e e0
    rw [e, e0]
    have h00 := h0
    obtain ⟨bs, ims, first, rest, bl, h1, h2, h3, h4, rfl⟩ := decodeRest_ok h0
    simp only at hb
    rcases decodeFirst_shape hf0.inv h3 with ⟨rfl, rfl⟩ | ⟨c, c', rfl, rfl, hcc, hcu, -⟩
    · cases bl with
      | nil => cases hb
      | cons b1 bl =>
        obtain ⟨c, -, hc'⟩ := decodeBuffers_shape h4 b1 (.head _)
        have := (decodeBuffer_shape hc').2.1
        injection hb with hb _
        injection hb with hb
        exact absurd (hb ▸ hu) this
    · injection hb with hb _
      injection hb with hb
      subst hb
      have hbin : (decodeBinaryBuffer c r0).1 = .ok c' := by
        unfold decodeFirst at h3
        simp only [hcu, Option.isSome_some, and_self, if_true] at h3
        rcases hdb : decodeBinaryBuffer c r0 with ⟨y, r'⟩
        rw [hdb] at h3
        cases y with
        | err e => cases h3
        | panic e => cases h3
        | ok b' => cases h3; rfl
      have hbl : c'.byteLength = c.byteLength := by rw [hcc]
      have hbin' : (decodeBinaryBuffer c r).1 = .ok c' :=
        decodeBinaryBuffer_take hf0.inv hf.inv hbin ⟨y, by rw [hrest0, hrest, hbl]⟩
      unfold decodeRest at h00 ⊢
      rw [h1, h2] at h00 ⊢
      unfold decodeFirst at h00 ⊢
      simp only [hcu, Option.isSome_some, and_self, if_true] at h00 ⊢
      rcases hdb : decodeBinaryBuffer c r with ⟨z, r'⟩
      rcases hdb0 : decodeBinaryBuffer c r0 with ⟨z0, r0'⟩
      rw [hdb] at hbin'
      rw [hdb0] at hbin h00
      replace hbin' : z = .ok c' := hbin'
      replace hbin : z0 = .ok c' := hbin
      subst hbin' hbin
      exact ⟨h00, rfl⟩

/-- A GLB file like `paddedGlb` whose JSON text fills its chunk: blanks are before it. -/
def blankedGlb : Bytes := b!"glTF" ++ [2, 0, 0, 0] ++ [64, 0, 0, 0] ++ ([32, 0, 0, 0] ++ b!"JSON" ++ b!"  {\"buffers\":[{\"byteLength\":1}]}") ++
  ([4, 0, 0, 0] ++ b!"BIN\x00" ++ [77, 0, 0, 0])

/-- It meets the hypotheses; without its padding it is decoded as well. So is `paddedGlb` with other bytes instead of the padding, and more
of them. -/
example : IsGlb (b!"  " ++ b!"{\"buffers\":[{\"byteLength\":1}]}") (some [77]) blankedGlb ∧
    (b!"  " ++ b!"{\"buffers\":[{\"byteLength\":1}]}").length % 4 = 0 ∧ IsBlank b!"  " ∧
    blankedGlb.take (blankedGlb.length - (1 + 3) / 4 * 4 + 1) = blankedGlb.take 61 ∧ blankedGlb.length = 64 ∧
    firstData (decodeSource witnessDec { data := blankedGlb }).result = some [77] ∧
    firstData (decodeSource witnessDec { data := blankedGlb.take 61 }).result = some [77] ∧
    Source.Aligned { data := paddedGlb } ∧ Source.Aligned { data := paddedGlb.take 61 ++ [1, 2, 3, 4, 5, 6, 7] } ∧
    firstData (decodeSource witnessDec { data := paddedGlb.take 61 ++ [1, 2, 3, 4, 5, 6, 7] }).result = some [77] := by
  refine ⟨⟨[2, 0, 0, 0], [64, 0, 0, 0], [32, 0, 0, 0] ++ b!"JSON" ++ b!"  {\"buffers\":[{\"byteLength\":1}]}",
    [4, 0, 0, 0] ++ b!"BIN\x00" ++ [77, 0, 0, 0], rfl, ⟨rfl, rfl⟩, ⟨rfl, rfl⟩, ⟨[32, 0, 0, 0], 0, rfl, by decide, by decide, rfl, rfl⟩,
    ⟨[4, 0, 0, 0], 3, rfl, by decide, by decide, rfl, rfl⟩⟩, by decide, by simp [IsBlank], by decide, by decide, by decide +kernel,
    by decide +kernel, ⟨by decide, by decide⟩, ⟨by decide, by decide⟩, by decide +kernel⟩

end Gltf
