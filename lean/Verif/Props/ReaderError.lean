/-
Property C106: the error of the reader is the error of Decode.
-/
import Verif.Props.Truncate

namespace Gltf

open Spec

/-- The error for JSON of which only `p` could be read before the reader failed with `fin`: that of the reader; for the regular end of the
input `io.EOF` if nothing but white space was read, `io.ErrUnexpectedEOF` otherwise. -/
def Spec.CutJson (p : Bytes) (fin e : Err) : Prop :=
  (fin ≠ .eof → e = fin) ∧ (fin = .eof → IsBlank p → e = .eof) ∧ (fin = .eof → ¬ IsBlank p → e = .unexpectedEOF)

theorem skipWs_nil_iff {s : Bytes} : skipWs s = [] ↔ IsBlank s := by
  constructor
  · intro h
    induction s with
    | nil => intro c hc; cases hc
    | cons a s ih =>
      cases ha : isSpace a with
      | false => rw [skipWs_cons ha] at h; cases h
      | true =>
        unfold skipWs at h ih
        rw [List.dropWhile_cons_of_pos ha] at h
        intro c hc
        rcases List.mem_cons.1 hc with rfl | hc
        · simp only [isSpace, Bool.or_eq_true, decide_eq_true_eq] at ha
          rcases ha with ((h | h) | h) | h
          · exact .inl h
          · exact .inr (.inl h)
          · exact .inr (.inr (.inl h))
          · exact .inr (.inr (.inr h))
        · exact ih h c hc
  · intro h
    have := skipWs_blank h []
    rw [List.append_nil] at this
    rw [this]
    rfl

/-- A part of the text of an object: more has to be read. -/
theorem valueOf_cut {ms : List (Bytes × JVal)} {w t p x : Bytes} (hw : IsBlank w) (ht : Text false (.value (.obj ms)) t)
    (hd : DepthLe 10000 (.obj ms)) (e : w ++ t = p ++ x) (hx : x ≠ []) (fin : Err) :
    ∃ er, valueOf p fin = .err er ∧ CutJson p fin er := by
  have hno : ∀ v, valueOf p fin ≠ .ok v := fun v hv => not_startsWith hw ht e hx (valueOf_sound hv)
  have hok := parseTop_text hw ht hd [] (.inl ⟨_, rfl⟩)
  rw [List.append_nil, e] at hok
  have hm := parseTop_mono p x
  unfold valueOf at hno ⊢
  cases hp : parseTop p with
  | ok v r => rw [hp] at hno; exact absurd rfl (hno v)
  | bad =>
    rw [hp, hok] at hm
    cases hm
  | more =>
    rw [hp] at hno
    simp only at hno ⊢
    cases fin with
    | eof =>
      simp only at hno ⊢
      cases hq : parseTop (p ++ [32]) with
      | ok v r => rw [hq] at hno; exact absurd rfl (hno v)
      | bad =>
        refine ⟨_, rfl, fun h => absurd rfl h, fun _ h => ?_, fun _ h => ?_⟩
        · rw [if_pos (skipWs_nil_iff.2 h)]
        · rw [if_neg fun h' => h (skipWs_nil_iff.1 h')]
      | more =>
        refine ⟨_, rfl, fun h => absurd rfl h, fun _ h => ?_, fun _ h => ?_⟩
        · rw [if_pos (skipWs_nil_iff.2 h)]
        · rw [if_neg fun h' => h (skipWs_nil_iff.1 h')]
    | _ => exact ⟨_, rfl, fun _ => rfl, (fun h => nomatch h), (fun h => nomatch h)⟩

/-- The error of the JSON is that of Decode. -/
theorem decode_valueErr (E : DecEnv) {s : Source} {g : Option GlbHeader} (hh : headerOf s.data = .ok g) {e : Err}
    (hv : valueOf (jsonStream s.data g) (jsonFin s.data s.fin g) = .err e) :
    (decodeSource E s).result = .err e ∧ (decodeSource E s).opened = [] := by
  unfold decodeSource
  rw [decode_eq]
  have h1 := (decodeDocument_spec E (b := newDecoder s) (.inl rfl) {}).1
  rcases hd : decodeDocument E (newDecoder s) {} with ⟨x, r⟩
  rw [hd] at h1
  replace h1 : x = docOf E s.data s.fin {} := h1
  have hx : x = .err e := by
    rw [h1]
    unfold docOf
    rw [hh]
    simp only
    rw [hv]
  subst hx
  exact ⟨rfl, rfl⟩

/-- C106 for text: if the reader fails within the JSON object, Decode returns the error of the reader, wherever and however it fails. -/
theorem C106_text (E : DecEnv) (s : Source) (ms : List (Bytes × JVal)) (w t : Bytes) (hw : IsBlank w)
    (ht : Text false (.value (.obj ms)) t) (hd : DepthLe 10000 (.obj ms)) (hp : s.data <+: w ++ t) (hl : s.data.length < (w ++ t).length) :
    ∃ e, (decodeSource E s).result = .err e ∧ CutJson s.data s.fin e := by
  obtain ⟨x, e⟩ := hp
  have hx : x ≠ [] := by
    rintro rfl
    rw [← e, List.append_nil] at hl
    exact absurd hl (Nat.lt_irrefl _)
  obtain ⟨er, h1, h2⟩ := valueOf_cut hw ht hd e.symm hx s.fin
  refine ⟨er, (decode_valueErr E (g := none) (headerOf_text ?_) h1).1, h2⟩
  rintro ⟨y, hy⟩
  exact startsWith_notGlb ⟨w, t, [], hw, ht, (List.append_nil _).symm⟩ ⟨y ++ x, by rw [← e, ← hy, List.append_assoc]⟩

/-- C106 for the JSON of a GLB file, as far as it holds: if the reader fails after the headers and before the end of the JSON object, Decode
returns the error of the reader. -/
theorem C106_json_partial (E : DecEnv) (s : Source) (ms : List (Bytes × JVal)) (w t data : Bytes) (bin : Option Bytes)
    (hw : IsBlank w) (ht : Text false (.value (.obj ms)) t) (hd : DepthLe 10000 (.obj ms)) (hg : IsGlb (w ++ t) bin data)
    (hp : s.data <+: data) (h20 : 20 ≤ s.data.length) (hl : s.data.length < 20 + (w ++ t).length) :
    ∃ e, (decodeSource E s).result = .err e ∧ CutJson (s.data.drop 20) s.fin e := by
  obtain ⟨x, hx⟩ := hp
  obtain ⟨g, hdr, k, c2, hs, hhl, hh, hj, -⟩ := headerOf_glb hg []
  rw [List.append_nil] at hh
  rw [List.append_nil, List.append_nil] at hs
  have hlen : s.data.length ≤ data.length := by rw [← hx, List.length_append]; omega
  have hh' : headerOf s.data = .ok (some g) := by
    have ht20 : s.data.take 20 = data.take 20 := by rw [← hx, List.take_append_of_le_length (by omega)]
    unfold headerOf at hh ⊢
    rw [if_neg (by omega)] at hh
    rw [if_neg (by omega), ht20]
    exact hh
  have hdrop : s.data.drop 20 ++ x = w ++ t ++ (List.replicate k 32 ++ c2) := by
    rw [← List.drop_append_of_le_length (by omega), hx, hs, List.append_assoc hdr, List.append_assoc hdr, ← hhl, List.drop_left,
      List.append_assoc (w ++ t)]
  have hdl : (s.data.drop 20).length < (w ++ t).length := by rw [List.length_drop]; omega
  obtain ⟨y, hy⟩ : s.data.drop 20 <+: w ++ t :=
    List.prefix_of_prefix_length_le ⟨x, hdrop⟩ (List.prefix_append _ _) (Nat.le_of_lt hdl)
  have hy0 : y ≠ [] := by
    rintro rfl
    rw [← hy, List.append_nil] at hdl
    exact absurd hdl (Nat.lt_irrefl _)
  obtain ⟨er, h1, h2⟩ := valueOf_cut hw ht hd hy.symm hy0 s.fin
  refine ⟨er, (decode_valueErr E hh' ?_).1, h2⟩
  have e1 : jsonStream s.data (some g) = s.data.drop 20 := by
    show (s.data.drop 20).take g.jsonLength = _
    exact List.take_of_length_le (by omega)
  have e2 : jsonFin s.data s.fin (some g) = s.fin := by
    show (if g.jsonLength ≤ (s.data.drop 20).length then _ else _) = _
    rw [if_neg (by omega)]
  rw [e1, e2]
  exact h1

/-- C106 for the data of a GLB file, as far as it holds: if the reader fails before the end of the data of the first buffer, and the JSON needs
no padding, Decode returns the error of the reader; for the regular end of the input it is `io.EOF` or `io.ErrUnexpectedEOF`. -/
theorem C106_chunk_partial (E : DecEnv) (s0 s : Source) (ms : List (Bytes × JVal)) (w t bin : Bytes) (hw : IsBlank w)
    (ht : Text false (.value (.obj ms)) t) (hd : DepthLe 10000 (.obj ms)) (hg : IsGlb (w ++ t) (some bin) s0.data)
    (doc : Document) (b : Buffer) (l : List (Option Buffer)) (h0 : (decodeSource E s0).result = .ok doc)
    (hb : doc.buffers = some b :: l) (hu : b.uri = []) (hfit : b.byteLength ≤ bin.length) (hpad : (w ++ t).length % 4 = 0)
    (hp : s.data <+: s0.data) (hge : 20 + (w ++ t).length ≤ s.data.length)
    (hl : s.data.length + (bin.length + 3) / 4 * 4 < s0.data.length + b.byteLength.toNat) :
    (s.fin ≠ .eof → (decodeSource E s).result = .err s.fin) ∧
    (s.fin = .eof → (decodeSource E s).result = .err .eof ∨ (decodeSource E s).result = .err .unexpectedEOF) := by
  obtain ⟨⟨e, h1, h2⟩, -⟩ := decode_short E s0 s ms w t bin hw ht hd hg doc b l h0 hb hu hp hl (by omega)
  rw [h1]
  rcases h2 with rfl | ⟨h, rfl⟩ | ⟨h | h, -⟩
  · exact ⟨fun _ => rfl, fun h => .inl (congrArg Res.err h)⟩
  · exact ⟨fun h' => absurd h h', fun _ => .inr rfl⟩
  · exact absurd hpad h
  · exfalso
    omega

/-- C106 where it is false: if the reader fails within the headers of a GLB file, Decode takes what was read for JSON; its error is always that
of a wrong character, and the error of the reader is lost. -/
theorem C106_header (E : DecEnv) (s : Source) (json data : Bytes) (bin : Option Bytes) (hg : IsGlb json bin data) (hp : s.data <+: data)
    (h0 : s.data ≠ []) (hl : s.data.length < 20) : (decodeSource E s).result = .err (.msg "invalid character") := by
  have hh : headerOf s.data = .ok none := by
    unfold headerOf
    rw [if_pos hl]
  refine (decode_valueErr E hh ?_).1
  show valueOf s.data s.fin = _
  obtain ⟨version, total, c1, c2, hs, -⟩ := hg
  obtain ⟨x, hx⟩ := hp
  cases hd : s.data with
  | nil => exact absurd hd h0
  | cons c r =>
    rw [hd, hs] at hx
    have hc : c = 103 := by
      injection hx
    subst hc
    have hm := parseTop_mono [103] r
    have hb : parseTop [103] = .bad := rfl
    rw [hb] at hm
    replace hm : parseTop (103 :: r) = .bad := hm
    unfold valueOf
    rw [hm]

/-- C106 is false: a reader that fails with its own error after ten bytes of a GLB file. The same reader after forty bytes. -/
theorem C106_full_fails :
    (decodeSource witnessDec { data := paddedGlb.take 10, fin := .io 104 }).result = .err (.msg "invalid character") ∧
    (decodeSource witnessDec { data := paddedGlb.take 40, fin := .io 104 }).result = .err (.io 104) := by
  have blank : IsBlank [] := by simp [IsBlank]
  constructor
  · exact C106_header witnessDec _ _ _ _ paddedGlb_glb (List.take_prefix _ _) (by decide) (by decide)
  · obtain ⟨e, h1, h2, -⟩ := C106_json_partial witnessDec { data := paddedGlb.take 40, fin := .io 104 } _ [] _ paddedGlb _ blank
      paddedGlb_text (depthLe_mono (text_depth paddedGlb_text) (by decide)) paddedGlb_glb (List.take_prefix _ _) (by decide) (by decide)
    rw [h1, h2 (by decide)]

/-- A text that is cut short: the error of the reader, `io.ErrUnexpectedEOF`, and `io.EOF`. -/
example : (decodeSource witnessDec { data := b!" {\"buf", fin := .io 104 }).result = .err (.io 104) ∧
    (decodeSource witnessDec { data := b!" {\"buf", sizes := [(3, 0)] }).result = .err .unexpectedEOF ∧
    (decodeSource witnessDec { data := b!" " }).result = .err .eof := by
  have blank : IsBlank b!" " := by intro c hc; exact .inl (List.mem_singleton.1 hc)
  have hd := depthLe_mono (text_depth paddedGlb_text) (by decide : _ ≤ 10000)
  obtain ⟨e1, h1, a1, -, -⟩ := C106_text witnessDec { data := b!" {\"buf", fin := .io 104 } _ b!" " _ blank paddedGlb_text hd
    (by decide) (by decide)
  obtain ⟨e2, h2, -, -, a2⟩ := C106_text witnessDec { data := b!" {\"buf", sizes := [(3, 0)] } _ b!" " _ blank paddedGlb_text hd
    (by decide) (by decide)
  obtain ⟨e3, h3, -, a3, -⟩ := C106_text witnessDec { data := b!" " } _ b!" " _ blank paddedGlb_text hd (by decide) (by decide)
  rw [h1, h2, h3, a1 (by decide), a2 rfl (fun h => absurd (h 123 (by decide)) (by decide)), a3 rfl blank]
  exact ⟨rfl, rfl, rfl⟩

/-- `paddedGlb` with the white space before the JSON instead of after it. -/
def evenGlb : Bytes :=
  b!"glTF" ++ [2, 0, 0, 0] ++ [64, 0, 0, 0] ++ ([32, 0, 0, 0] ++ b!"JSON" ++ (b!"  " ++ b!"{\"buffers\":[{\"byteLength\":1}]}") ++ []) ++
    ([4, 0, 0, 0] ++ b!"BIN\x00" ++ [77] ++ [0, 0, 0])

theorem evenGlb_glb : IsGlb (b!"  " ++ b!"{\"buffers\":[{\"byteLength\":1}]}") (some [77]) evenGlb :=
  ⟨[2, 0, 0, 0], [64, 0, 0, 0], _, _, rfl, ⟨rfl, rfl⟩, ⟨rfl, rfl⟩, ⟨[32, 0, 0, 0], 0, rfl, by decide, by decide, rfl, rfl⟩,
    ⟨[4, 0, 0, 0], 3, rfl, by decide, by decide, rfl, rfl⟩⟩

/-- `evenGlb` meets the hypotheses of `C106_chunk_partial`, cut anywhere in the header of the binary chunk and before its data. -/
example (n : Nat) (hn : 52 ≤ n) (hn' : n ≤ 60) (sizes : List (Fin 100 × Nat)) :
    (decodeSource witnessDec { data := evenGlb.take n, sizes := sizes, fin := .io 104 }).result = .err (.io 104) := by
  have hr : ∃ doc b l, (decodeSource witnessDec { data := evenGlb }).result = .ok doc ∧ doc.buffers = some b :: l ∧ b.uri = [] ∧
      b.byteLength = 1 := by
    have h : (match (decodeSource witnessDec { data := evenGlb }).result with
      | .ok doc => match doc.buffers with
        | some b :: _ => decide (b.uri = [] ∧ b.byteLength = 1)
        | _ => false
      | _ => false) = true := by decide +kernel
    split at h
    · rename_i doc hd
      split at h
      · rename_i b l hb
        exact ⟨doc, b, l, hd, hb, (of_decide_eq_true h).1, (of_decide_eq_true h).2⟩
      · cases h
    · cases h
  obtain ⟨doc, b, l, h0, hb, hu, hn1⟩ := hr
  have hlen : (evenGlb.take n).length = n := by
    rw [List.length_take, show evenGlb.length = 64 by decide]; omega
  refine (C106_chunk_partial witnessDec { data := evenGlb } { data := evenGlb.take n, sizes := sizes, fin := .io 104 } _ b!"  " _ [77]
    (by intro c hc; exact .inl (List.eq_of_mem_replicate (n := 2) hc))
    paddedGlb_text (depthLe_mono (text_depth paddedGlb_text) (by decide)) evenGlb_glb doc b l h0 hb hu (by rw [hn1]; decide) (by decide)
    (List.take_prefix _ _) ?_ ?_).1 (by intro h; cases h)
  · show 20 + 32 ≤ (evenGlb.take n).length
    omega
  · show (evenGlb.take n).length + 4 < evenGlb.length + _
    rw [hn1, hlen, show evenGlb.length = 64 by decide]
    show n + 4 < 64 + 1
    omega

/-- C106 for the data of any GLB file, whatever its padding and the reads: if the reader fails before the end of the data of the first buffer,
Decode returns the error of the reader (for the regular end `io.EOF` or `io.ErrUnexpectedEOF`), or that of a wrong header of the chunk. It
never succeeds or panics, and opens no file. -/
theorem C106_chunk_any (E : DecEnv) (s0 s : Source) (ms : List (Bytes × JVal)) (w t bin : Bytes) (hw : IsBlank w)
    (ht : Text false (.value (.obj ms)) t) (hd : DepthLe 10000 (.obj ms)) (hg : IsGlb (w ++ t) (some bin) s0.data)
    (doc : Document) (b : Buffer) (l : List (Option Buffer)) (h0 : (decodeSource E s0).result = .ok doc)
    (hb : doc.buffers = some b :: l) (hu : b.uri = []) (hp : s.data <+: s0.data) (hge : 20 + (w ++ t).length ≤ s.data.length)
    (hl : s.data.length + (bin.length + 3) / 4 * 4 < s0.data.length + b.byteLength.toNat) :
    ∃ e, (decodeSource E s).result = .err e ∧ (decodeSource E s).opened = [] ∧
      (e = s.fin ∨ (s.fin = .eof ∧ e = .unexpectedEOF) ∨ e = .msg "gltf: Invalid GLB BIN header") := by
  obtain ⟨⟨e, h1, h2⟩, h3⟩ := decode_short E s0 s ms w t bin hw ht hd hg doc b l h0 hb hu hp hl (by omega)
  exact ⟨e, h1, h3, h2.imp_right (Or.imp_right And.right)⟩

/-- `paddedGlb` meets the hypotheses, cut anywhere in the binary chunk before its data; if a read ends inside the padding, the error of the
reader is lost. -/
example : (∃ doc b l, (decodeSource witnessDec { data := paddedGlb }).result = .ok doc ∧ doc.buffers = some b :: l ∧ b.uri = [] ∧
      ∀ n, 50 ≤ n → n ≤ 60 → 20 + ([] ++ b!"{\"buffers\":[{\"byteLength\":1}]}").length ≤ (paddedGlb.take n).length ∧
        (paddedGlb.take n).length + ([77].length + 3) / 4 * 4 < paddedGlb.length + b.byteLength.toNat) ∧
    (decodeSource witnessDec { data := paddedGlb.take 60, fin := .io 104 }).result.isErr = true ∧
    (match (decodeSource witnessDec { data := paddedGlb.take 60, sizes := [(0, 49)], fin := .io 104 }).result with
      | .err e => decide (e = .msg "gltf: Invalid GLB BIN header")
      | _ => false) = true := by
  refine ⟨?_, by decide +kernel, by decide +kernel⟩
  have h : (match (decodeSource witnessDec { data := paddedGlb }).result with
    | .ok doc => match doc.buffers with
      | some b :: _ => decide (b.uri = [] ∧ b.byteLength = 1)
      | _ => false
    | _ => false) = true := by decide +kernel
  split at h
  · rename_i doc hd
    split at h
    · rename_i b l hb
      have h := of_decide_eq_true h
      refine ⟨doc, b, l, hd, hb, h.1, fun n h1 h2 => ?_⟩
      rw [h.2, List.length_take, show paddedGlb.length = 64 by decide]
      refine ⟨?_, ?_⟩
      · show 20 + 30 ≤ _
        omega
      · show _ + 4 < 64 + 1
        omega
    · cases h
  · cases h

end Gltf
