/-
Property C84: files that were cut short are rejected.
-/
import Verif.Lemmas.Scan
import Verif.Props.Accept

namespace Gltf

open Spec

/-! ### Text that was cut short -/

theorem text_start {lax : Bool} {v : JVal} {t : Bytes} (h : Text lax (.value v) t) :
    ∃ c x, t = c :: x ∧ ¬ (c = 32 ∨ c = 9 ∨ c = 10 ∨ c = 13) := by
  generalize hi : Item.value v = i at h
  cases h with
  | null => exact ⟨_, _, rfl, by decide⟩
  | true => exact ⟨_, _, rfl, by decide⟩
  | false => exact ⟨_, _, rfl, by decide⟩
  | num h =>
    obtain ⟨c, x, e, h | h⟩ := number_head h
    · exact ⟨c, x, e, by rw [h]; decide⟩
    · refine ⟨c, x, e, ?_⟩
      rintro (rfl | rfl | rfl | rfl) <;> exact absurd h (by decide)
  | str _ => exact ⟨_, _, rfl, by decide⟩
  | arrNil _ => exact ⟨_, _, rfl, by decide⟩
  | arr _ => exact ⟨_, _, rfl, by decide⟩
  | objNil _ => exact ⟨_, _, rfl, by decide⟩
  | obj _ => exact ⟨_, _, rfl, by decide⟩
  | elem => cases hi
  | elems => cases hi
  | member => cases hi
  | members => cases hi

/-- A part of the text of an object is not the text of anything. -/
theorem not_startsWith {lax lax' : Bool} {ms : List (Bytes × JVal)} {v : JVal} {w t p x : Bytes} (hw : IsBlank w)
    (ht : Text lax (.value (.obj ms)) t) (e : w ++ t = p ++ x) (hx : x ≠ []) : ¬ StartsWith lax' v p := by
  rintro ⟨w', t', r, hw', ht', rfl⟩
  obtain ⟨c, y, rfl, hc⟩ := text_start ht
  obtain ⟨c', y', rfl, hc'⟩ := text_start ht'
  have : w = w' := by
    rw [List.append_assoc, List.append_assoc] at e
    rcases List.append_eq_append_iff.1 e with ⟨a, rfl, h⟩ | ⟨a, rfl, h⟩
    · cases a with
      | nil => simp
      | cons d a =>
        injection h with h _
        exact absurd (hw' d (by simp)) (h ▸ hc)
    · cases a with
      | nil => simp
      | cons d a =>
        injection h with h _
        exact absurd (hw d (by simp)) (h ▸ hc')
  subst this
  rw [List.append_assoc, List.append_assoc] at e
  have := object_prefix ht ht' (List.append_cancel_left e)
  exact hx (List.append_eq_nil_iff.1 this).2

/-- Without JSON there is an error. -/
theorem decode_noValue (E : DecEnv) (s : Source) (h : ∀ v, jsonOf s ≠ .ok v) :
    (decodeSource E s).result.isErr = true ∧ (decodeSource E s).opened = [] := by
  unfold decodeSource
  rw [decode_eq]
  have h1 := (decodeDocument_spec E (b := newDecoder s) (.inl rfl) {}).1
  rcases hd : decodeDocument E (newDecoder s) {} with ⟨x, r⟩
  rw [hd] at h1
  replace h1 : x = docOf E s.data s.fin {} := h1
  suffices hx : ∃ e, x = .err e by
    obtain ⟨e, rfl⟩ := hx
    exact ⟨rfl, rfl⟩
  unfold jsonOf at h
  unfold docOf at h1
  cases hh : headerOf s.data with
  | err e => rw [hh] at h1; exact ⟨e, h1⟩
  | panic w =>
    exfalso
    unfold headerOf at hh
    split at hh
    · cases hh
    · simp only at hh
      split at hh
      · cases hh
      · split at hh <;> cases hh
  | ok g =>
    rw [hh] at h h1
    simp only at h h1
    cases hv : valueOf (jsonStream s.data g) (jsonFin s.data s.fin g) with
    | err e => rw [hv] at h1; exact ⟨e, h1⟩
    | ok v => exact absurd hv (h v)
    | panic w =>
      exfalso
      unfold valueOf at hv
      split at hv
      · cases hv
      · cases hv
      · split at hv
        · split at hv <;> cases hv
        · cases hv

/-- C84 for text: a file that ends before the end of its JSON object is rejected, wherever it ends and however it is read. -/
theorem C84_text (E : DecEnv) (s : Source) (lax : Bool) (ms : List (Bytes × JVal)) (w t : Bytes) (hw : IsBlank w)
    (ht : Text lax (.value (.obj ms)) t) (hp : s.data <+: w ++ t) (hl : s.data.length < (w ++ t).length) :
    (decodeSource E s).result.isErr = true ∧ (decodeSource E s).opened = [] := by
  obtain ⟨x, e⟩ := hp
  have hx : x ≠ [] := by
    rintro rfl
    rw [← e, List.append_nil] at hl
    exact absurd hl (Nat.lt_irrefl _)
  refine decode_noValue E s fun v hv => ?_
  have h1 := jsonOf_sound hv
  unfold jsonPart at h1
  split at h1
  · rename_i hg
    obtain ⟨y, hy⟩ := hg
    exact startsWith_notGlb ⟨w, t, [], hw, ht, (List.append_nil _).symm⟩ ⟨y ++ x, by rw [← e, ← hy, List.append_assoc]⟩
  · exact not_startsWith hw ht e.symm hx h1

/-- C84 for the JSON of a GLB file: a file that ends in the header or before the end of the JSON object is rejected. -/
theorem C84_json (E : DecEnv) (s : Source) (lax : Bool) (ms : List (Bytes × JVal)) (w t data : Bytes) (bin : Option Bytes)
    (hw : IsBlank w) (ht : Text lax (.value (.obj ms)) t) (hg : IsGlb (w ++ t) bin data) (hp : s.data <+: data)
    (hl : s.data.length < 20 + (w ++ t).length) :
    (decodeSource E s).result.isErr = true ∧ (decodeSource E s).opened = [] := by
  obtain ⟨x, e⟩ := hp
  obtain ⟨g, hdr, k, c2, hs, hhl, -⟩ := headerOf_glb hg []
  obtain ⟨version, total, c1, c2', hs', -⟩ := hg
  rw [List.append_nil, List.append_nil] at hs
  refine decode_noValue E s fun v hv => ?_
  have h1 := jsonOf_sound hv
  unfold jsonPart at h1
  split at h1
  · generalize leNat _ = n at h1
    have e1 : (s.data.drop 20).take n ++ ((s.data.drop 20).drop n ++ (if 20 ≤ s.data.length then x else x.drop (20 - s.data.length))) =
        w ++ t ++ (List.replicate k 32 ++ c2) := by
      rw [← List.append_assoc, List.take_append_drop]
      have : data.drop 20 = w ++ t ++ (List.replicate k 32 ++ c2) := by
        rw [hs, List.append_assoc hdr, List.append_assoc hdr, ← hhl, List.drop_left, List.append_assoc (w ++ t)]
      rw [← this, ← e, List.drop_append]
      split
      · rw [show 20 - s.data.length = 0 by omega, List.drop_zero]
      · rfl
    have hlen : ((s.data.drop 20).take n).length < (w ++ t).length ∨ (w ++ t).length = 0 := by
      rw [List.length_take, List.length_drop]; omega
    rcases hlen with hlen | hlen
    · have hpre : (s.data.drop 20).take n <+: w ++ t :=
        List.prefix_of_prefix_length_le ⟨_, e1⟩ (List.prefix_append _ _) (Nat.le_of_lt hlen)
      obtain ⟨y, hy⟩ := hpre
      refine not_startsWith hw ht hy.symm ?_ h1
      rintro rfl
      rw [← hy, List.append_nil] at hlen
      exact absurd hlen (Nat.lt_irrefl _)
    · have := (text_last ht).1
      rw [List.length_append] at hlen
      exact this (List.eq_nil_of_length_eq_zero (by omega))
  · rename_i hng
    have hpre : b!"glTF" <+: data := ⟨version ++ total ++ c1 ++ c2', by rw [hs']; simp only [List.append_assoc]⟩
    have hlt : s.data.length < 4 := by
      refine Nat.lt_of_not_le fun hle => hng ?_
      exact List.prefix_of_prefix_length_le hpre ⟨x, e⟩ hle
    obtain ⟨y, hy⟩ := List.prefix_of_prefix_length_le ⟨x, e⟩ hpre (Nat.le_of_lt hlt)
    obtain ⟨w', t', r, hw', ht', e'⟩ := h1
    exact startsWith_notGlb (s := b!"glTF") ⟨w', t', r ++ y, hw', ht', by rw [← hy, e', List.append_assoc]⟩ (List.prefix_refl _)

/-! ### The binary chunk -/

/-- The errors of a chunk that is cut short: that of the reader, or that of a chunk that does not fit. -/
def Spec.Short (fin : Err) (unfit : Prop) (e : Err) : Prop :=
  e = fin ∨ (fin = .eof ∧ e = .unexpectedEOF) ∨ (unfit ∧ e = .msg "gltf: Invalid GLB BIN header")

/-- If the reader is at the end of the JSON text or in its padding and the data of the chunk is cut short there is an error. -/
theorem decodeBinaryBuffer_short {r : BufReader} (hr : r.Inv) {b : Buffer} {bin chunk : Bytes} {j : Nat} (hj : j < 4)
    (h0 : 0 < b.byteLength) (hm : b.byteLength ≤ maxAlloc) (hc : IsChunk b!"BIN\x00" 0 bin chunk)
    (hp : r.rest <+: List.replicate j 32 ++ chunk) (hl : r.rest.length < j + 8 + b.byteLength.toNat) :
    ∃ e, (decodeBinaryBuffer b r).1 = .err e ∧ Spec.Short r.src.fin (0 < j ∨ ((bin.length + 3) / 4 * 4 : Nat) < b.byteLength) e := by
  have hend : ∀ y : Bytes, Spec.Short r.src.fin (0 < j ∨ ((bin.length + 3) / 4 * 4 : Nat) < b.byteLength)
      (if r.src.fin = .eof ∧ y ≠ [] then .unexpectedEOF else r.src.fin) := by
    intro y
    split
    · rename_i h
      exact .inr (.inl ⟨h.1, rfl⟩)
    · exact .inl rfl
  obtain ⟨len, k, rfl, hk, hk4, hlen⟩ := hc
  obtain ⟨l0, l1, l2, l3, rfl⟩ := le4_split hlen
  have hv : validateBuffer b = .ok () := by
    unfold validateBuffer
    rw [if_neg (by omega)]
  unfold decodeBinaryBuffer
  rw [hv]
  simp only
  obtain ⟨r1, ⟨h8, hx, hf, ha⟩ | ⟨hlt, _, hx⟩⟩ := BufReader.full_spec 8 hr
  · rw [hx]
    simp only
    have ht : r.rest.take 8 = (List.replicate j 32 ++ ([l0, l1, l2, l3] ++ b!"BIN\x00" ++ bin ++ List.replicate k 0)).take 8 := by
      obtain ⟨y, hy⟩ := hp
      rw [← hy, List.take_append_of_le_length h8]
    have hr1 : r1.rest.length + 8 = r.rest.length := by
      have := congrArg List.length hf.rest
      rw [List.length_append, List.length_take] at this
      omega
    rw [ht]
    split
    · rename_i hbad
      refine ⟨_, rfl, .inr (.inr ⟨?_, rfl⟩)⟩
      rcases Nat.eq_zero_or_pos j with rfl | hj1
      · right
        have hle : le32 ([l0, l1, l2, l3] : Bytes) = bin.length + k := by rw [le32_eq (by simp), ← hlen.2]; rfl
        rcases hbad with hbad | hbad
        · exact absurd rfl hbad
        · have h1 : le32 ([l0, l1, l2, l3] : Bytes) < uint32 b.byteLength := hbad
          rw [hle] at h1
          unfold uint32 at h1
          omega
      · exact .inl hj1
    · rename_i hn
      rw [if_neg (by omega)]
      obtain ⟨r2, ⟨hle, hy, hf2, ha2⟩ | ⟨hlt2, _, hy⟩⟩ := BufReader.full_spec b.byteLength.toNat hf.inv
      · exfalso
        have hj1 : 0 < j := by omega
        refine hn (.inl ?_)
        have : j = 1 ∨ j = 2 ∨ j = 3 := by omega
        rcases this with rfl | rfl | rfl
        · show l3.toNat + 66 * 256 + 73 * 65536 + 78 * 16777216 ≠ _
          rw [show glbChunkBIN = 5130562 from rfl]; omega
        · show l2.toNat + l3.toNat * 256 + 66 * 65536 + 73 * 16777216 ≠ _
          rw [show glbChunkBIN = 5130562 from rfl]; omega
        · show l1.toNat + l2.toNat * 256 + l3.toNat * 65536 + 66 * 16777216 ≠ _
          rw [show glbChunkBIN = 5130562 from rfl]; omega
      · rw [hy, hf.fin]
        exact ⟨_, rfl, hend _⟩
  · rw [hx]
    exact ⟨_, rfl, hend _⟩

/-- The sizes that are accepted. -/
theorem decodeBinaryBuffer_length {b b' : Buffer} {r : BufReader} (h : (decodeBinaryBuffer b r).1 = .ok b') :
    0 < b.byteLength ∧ b.byteLength ≤ maxAlloc := by
  unfold decodeBinaryBuffer validateBuffer at h
  split at h
  · cases h
  · cases h
  · rename_i hv
    split at hv
    · cases hv
    · split at h
      · cases h
      · cases h
      · split at h
        · cases h
        · split at h
          · cases h
          · omega

/-- The error of a file that ends before the end of the data of its first buffer. -/
theorem decode_short (E : DecEnv) (s0 s : Source) (ms : List (Bytes × JVal)) (w t bin : Bytes) (hw : IsBlank w)
    (ht : Text false (.value (.obj ms)) t) (hd : DepthLe 10000 (.obj ms)) (hg : IsGlb (w ++ t) (some bin) s0.data)
    (doc : Document) (b : Buffer) (l : List (Option Buffer)) (h0 : (decodeSource E s0).result = .ok doc)
    (hb : doc.buffers = some b :: l) (hu : b.uri = []) (hp : s.data <+: s0.data)
    (hl : s.data.length + (bin.length + 3) / 4 * 4 < s0.data.length + b.byteLength.toNat) (hshort : ¬ s.data.length < 20 + (w ++ t).length) :
    (∃ e, (decodeSource E s).result = .err e ∧
      Spec.Short s.fin ((w ++ t).length % 4 ≠ 0 ∨ ((bin.length + 3) / 4 * 4 : Nat) < b.byteLength) e) ∧ (decodeSource E s).opened = [] := by
  obtain ⟨g, hdr, k, c2, hs, hhl, hh, hj, hk, hk4, hc⟩ := headerOf_glb hg []
  rw [List.append_nil] at hh
  rw [List.append_nil, List.append_nil] at hs
  obtain ⟨x, hx⟩ := hp
  -- the header and the JSON are those of the whole file
  have hh' : headerOf s.data = .ok (some g) := by
    have hlen : s.data.length ≤ s0.data.length := by rw [← hx, List.length_append]; omega
    have ht20 : s.data.take 20 = s0.data.take 20 := by rw [← hx, List.take_append_of_le_length (by omega)]
    unfold headerOf at hh ⊢
    rw [if_neg (by omega)] at hh
    rw [if_neg (by omega), ht20]
    exact hh
  have hdrop : s.data.drop 20 ++ x = w ++ t ++ (List.replicate k 32 ++ c2) := by
    rw [← List.drop_append_of_le_length (by omega), hx, hs, List.append_assoc hdr, List.append_assoc hdr, ← hhl, List.drop_left,
      List.append_assoc (w ++ t)]
  obtain ⟨q, hq⟩ : w ++ t <+: s.data.drop 20 :=
    List.prefix_of_prefix_length_le (List.prefix_append _ _) ⟨x, hdrop⟩ (by rw [List.length_drop]; omega)
  have hqx : q ++ x = List.replicate k 32 ++ c2 := by
    rw [← hq, List.append_assoc] at hdrop
    exact List.append_cancel_left hdrop
  have hjs : jsonStream s.data (some g) = w ++ t ++ q.take k := by
    show (s.data.drop 20).take g.jsonLength = _
    rw [← hq, hj, List.take_append, List.take_of_length_le (by omega), Nat.add_sub_cancel_left]
  have hv : jsonOf s = .ok (.obj ms) := by
    unfold jsonOf
    rw [hh']
    show valueOf (jsonStream s.data (some g)) _ = _
    rw [hjs]
    exact valueOf_text ⟨w, t, q.take k, hw, ht, rfl⟩ hd (.inl ⟨_, rfl⟩) _
  obtain ⟨_, r0, hf0, -, e0⟩ := decode_value E hh (jsonOf_file (.inr ⟨_, some bin, hg, w, t, [], hw, ht, by simp⟩) hd (.inl ⟨_, rfl⟩))
  obtain ⟨pre, r, hf, er, e⟩ := decode_value E hh' hv
  -- where the reader is
  obtain ⟨_, pre', hf', hsp⟩ := decodeDocument_spec E (b := newDecoder s) (.inl rfl) {}
  obtain ⟨used, lr, hpre, hus, hen, -⟩ := hsp (some g) hh'
  rw [← er] at hf'
  replace hus : w ++ t ++ q.take k = used ++ lr.stream := by rw [← hjs]; exact hus
  have hle := enough_le (parseTop_text hw ht hd _ (.inl ⟨_, rfl⟩)) hus hen
  have hule : used.length ≤ (w ++ t).length + min k q.length := by
    have := congrArg List.length hus
    rw [List.length_append (as := w ++ t), List.length_append (as := used), List.length_take] at this
    omega
  have hrest : w ++ t ++ q = used ++ r.rest := by
    have := hf'.rest
    rw [hpre] at this
    replace this : s.data = s.data.take 20 ++ used ++ r.rest := this
    conv at this => lhs; rw [← List.take_append_drop 20 s.data]
    rw [List.append_assoc] at this
    rw [hq]
    exact List.append_cancel_left this
  obtain ⟨j, hj4, hrp, hrl⟩ : ∃ j, j < 4 ∧ r.rest <+: List.replicate j 32 ++ c2 ∧ r.rest.length = j + q.length - k ∧ k ≤ j + q.length ∧
      (0 < j → (w ++ t).length % 4 ≠ 0) := by
    refine ⟨k - (used.length - (w ++ t).length), by omega, ?_, ?_, by omega, by omega⟩
    · have hd1 := congrArg (List.drop used.length) hrest
      rw [List.drop_left, List.drop_append, List.drop_eq_nil_of_le hle, List.nil_append] at hd1
      rw [← hd1]
      have hd2 := congrArg (List.drop (used.length - (w ++ t).length)) hqx
      rw [List.drop_append_of_le_length (by omega), List.drop_append_of_le_length (by rw [List.length_replicate]; omega),
        List.drop_replicate] at hd2
      exact ⟨x, hd2⟩
    · have hd1 := congrArg List.length hrest
      rw [List.length_append (as := w ++ t), List.length_append (as := used)] at hd1
      omega
  rw [e0] at h0
  cases hdec : (documentC E.json).dec (.obj ms) {} with
  | error er => rw [hdec] at h0; cases h0
  | ok d =>
    rw [hdec] at h0 e
    simp only at h0 e
    obtain ⟨bs, ims, first, rest, bl, h1, h2, h3, h4, rfl⟩ := decodeRest_ok h0
    simp only at hb
    rcases decodeFirst_shape hf0.inv h3 with ⟨rfl, rfl⟩ | ⟨c, c', rfl, rfl, hcc, hcu, -⟩
    · cases bl with
      | nil => cases hb
      | cons b1 bl =>
        obtain ⟨c, -, hc'⟩ := decodeBuffers_shape h4 b1 (.head _)
        have := (decodeBuffer_shape hc').2.1
        injection hb with hb _
        injection hb with hb
        exact absurd (hb ▸ hu) this
    · injection hb with hb _
      injection hb with hb
      subst hb
      have hbin : (decodeBinaryBuffer c r0).1 = .ok c' := by
        unfold decodeFirst at h3
        simp only [hcu, Option.isSome_some, and_self, if_true] at h3
        rcases hdb : decodeBinaryBuffer c r0 with ⟨y, r'⟩
        rw [hdb] at h3
        cases y with
        | err e => cases h3
        | panic e => cases h3
        | ok b' => cases h3; rfl
      obtain ⟨hb0, hbm⟩ := decodeBinaryBuffer_length hbin
      have hbl : c'.byteLength = c.byteLength := by rw [hcc]
      obtain ⟨e2, he2, hsh⟩ : ∃ e, (decodeBinaryBuffer c r).1 = .err e ∧
          Spec.Short r.src.fin (0 < j ∨ ((bin.length + 3) / 4 * 4 : Nat) < c.byteLength) e := by
        refine decodeBinaryBuffer_short hf.inv hj4 hb0 hbm hc hrp ?_
        have l1 := congrArg List.length hs
        have l2 := congrArg List.length hq
        obtain ⟨len, k2, rfl, hk2, hk24, hlen2⟩ := hc
        have l3 := hlen2.1
        rw [List.length_append (as := w ++ t), List.length_drop] at l2
        simp only [List.length_append, List.length_replicate, List.length_cons, List.length_nil] at l1 l2 hl hshort hle hule
        rw [hbl] at hl
        omega
      rw [e]
      unfold decodeRest
      rw [h1, h2]
      unfold decodeFirst
      simp only [hcu, Option.isSome_some, and_self, if_true]
      rcases hdb : decodeBinaryBuffer c r with ⟨y, r'⟩
      rw [hdb] at he2
      replace he2 : y = .err e2 := he2
      subst he2
      refine ⟨⟨e2, rfl, ?_⟩, rfl⟩
      rw [hf.fin] at hsh
      rcases hsh with h | h | ⟨h | h, h'⟩
      · exact .inl h
      · exact .inr (.inl h)
      · exact .inr (.inr ⟨.inl (hrl.2.2 h), h'⟩)
      · exact .inr (.inr ⟨.inr (hbl ▸ h), h'⟩)

/-- C84 for the data of a GLB file, as far as it holds: a file that ends before the end of the data of its first buffer is
rejected, however it is read. The bytes that fill the chunk may be missing. -/
theorem C84_chunk_partial (E : DecEnv) (s0 s : Source) (ms : List (Bytes × JVal)) (w t bin : Bytes) (hw : IsBlank w)
    (ht : Text false (.value (.obj ms)) t) (hd : DepthLe 10000 (.obj ms)) (hg : IsGlb (w ++ t) (some bin) s0.data)
    (doc : Document) (b : Buffer) (l : List (Option Buffer)) (h0 : (decodeSource E s0).result = .ok doc)
    (hb : doc.buffers = some b :: l) (hu : b.uri = []) (hp : s.data <+: s0.data)
    (hl : s.data.length + (bin.length + 3) / 4 * 4 < s0.data.length + b.byteLength.toNat) :
    (decodeSource E s).result.isErr = true ∧ (decodeSource E s).opened = [] := by
  by_cases hshort : s.data.length < 20 + (w ++ t).length
  · exact C84_json E s false ms w t s0.data (some bin) hw ht hg hp hshort
  obtain ⟨⟨e, h1, -⟩, h2⟩ := decode_short E s0 s ms w t bin hw ht hd hg doc b l h0 hb hu hp hl hshort
  exact ⟨by rw [h1]; rfl, h2⟩

/-- C84 is false: the length in the header is not compared with that of the file; a file without the last padding bytes is
accepted. -/
theorem C84_full_fails :
    firstData (decodeSource witnessDec { data := paddedGlb }).result = some [77] ∧
    firstData (decodeSource witnessDec { data := paddedGlb.take 61 }).result = some [77] ∧ paddedGlb.length = 64 := by
  refine ⟨?_, ?_, ?_⟩ <;> decide +kernel

/-- A text that is cut short, and `paddedGlb` without its last four bytes. -/
example : Text false (.value (.obj spelled)) spelling1 ∧ b!" " ++ spelling1.take 7 <+: b!" " ++ spelling1 ∧
    (decodeSource witnessDec { data := b!" " ++ spelling1.take 7 }).result.isErr = true ∧
    (decodeSource witnessDec { data := paddedGlb.take 60 }).result.isErr = true ∧
    (decodeSource witnessDec { data := paddedGlb.take 60, sizes := [(0, 49)] }).result.isErr = true ∧
    paddedGlb.length = 64 := by
  refine ⟨spelling1_text, ⟨spelling1.drop 7, rfl⟩, ?_, ?_, ?_, ?_⟩ <;> decide +kernel

/-- The JSON text of `paddedGlb`. -/
theorem paddedGlb_text : Text false (.value (.obj [(b!"buffers", .arr [.obj [(b!"byteLength", .num b!"1")]])])) b!"{\"buffers\":[{\"byteLength\":1}]}" := by
  have blank : IsBlank [] := by simp [IsBlank]
  have k1 : Chars false b!"buffers" b!"buffers" := plain_chars .nil ['b', 'u', 'f', 'f', 'e', 'r', 's'] (by decide)
  have k2 : Chars false b!"byteLength" b!"byteLength" :=
    plain_chars .nil ['b', 'y', 't', 'e', 'L', 'e', 'n', 'g', 't', 'h'] (by decide)
  have n1 : IsNumber b!"1" := ⟨[], b!"1", [], [], rfl, .inl rfl, .inr ⟨⟨by decide, by decide⟩, by decide⟩, .inl rfl, .inl rfl⟩
  exact .obj (.member blank blank blank blank k1 (.arr (.elem blank blank (.obj (.member blank blank blank blank k2 (.num n1))))))

theorem paddedGlb_glb : IsGlb ([] ++ b!"{\"buffers\":[{\"byteLength\":1}]}") (some [77]) paddedGlb :=
  ⟨[2, 0, 0, 0], [64, 0, 0, 0], [32, 0, 0, 0] ++ b!"JSON" ++ b!"{\"buffers\":[{\"byteLength\":1}]}" ++ b!"  ",
    [4, 0, 0, 0] ++ b!"BIN\x00" ++ [77, 0, 0, 0], rfl, ⟨rfl, rfl⟩, ⟨rfl, rfl⟩, ⟨[32, 0, 0, 0], 2, rfl, by decide, by decide, rfl, rfl⟩,
    ⟨[4, 0, 0, 0], 3, rfl, by decide, by decide, rfl, rfl⟩⟩

/-- `paddedGlb` meets the hypotheses of `C84_chunk_partial` for each part that is at least four bytes shorter. -/
example (n : Nat) (hn : n ≤ 60) (sizes : List (Fin 100 × Nat)) :
    (decodeSource witnessDec { data := paddedGlb.take n, sizes := sizes }).result.isErr = true := by
  have hr : ∃ doc b l, (decodeSource witnessDec { data := paddedGlb }).result = .ok doc ∧ doc.buffers = some b :: l ∧ b.uri = [] ∧
      b.byteLength = 1 := by
    have h : (match (decodeSource witnessDec { data := paddedGlb }).result with
      | .ok doc => match doc.buffers with
        | some b :: _ => decide (b.uri = [] ∧ b.byteLength = 1)
        | _ => false
      | _ => false) = true := by decide +kernel
    split at h
    · rename_i doc hd
      split at h
      · rename_i b l hb
        exact ⟨doc, b, l, hd, hb, (of_decide_eq_true h).1, (of_decide_eq_true h).2⟩
      · cases h
    · cases h
  obtain ⟨doc, b, l, h0, hb, hu, hn1⟩ := hr
  refine (C84_chunk_partial witnessDec { data := paddedGlb } { data := paddedGlb.take n, sizes := sizes } _ [] _ [77] (by simp [IsBlank])
    paddedGlb_text (depthLe_mono (text_depth paddedGlb_text) (by decide)) paddedGlb_glb doc b l h0 hb hu (List.take_prefix _ _) ?_).1
  show (paddedGlb.take n).length + _ < paddedGlb.length + _
  rw [hn1, List.length_take, show paddedGlb.length = 64 by decide]
  show min n 64 + 4 < 64 + 1
  omega

end Gltf
