/-
Property C81: files that follow the schema and whose data is there are accepted.
-/
import Verif.Spec.Accept
import Verif.Props.Schema
import Verif.Props.JsonText
import Verif.Props.Buffers
import Verif.Lemmas.Resolve

namespace Gltf

open Spec

/-! ### C81 -/

theorem loads_uri {files : Option (Bytes → Bytes × Option Err)} {b b' : Buffer} (h : Loads files none b b') : b.uri ≠ [] := by
  cases h with
  | chunk data h => cases h
  | embedded t data h => exact octet_ne (octet_of h)
  | file _ _ _ h => exact resolves_ne h.1
  | noFile _ h => exact resolves_ne h.1

/-- A buffer that is not in the binary chunk. -/
theorem loads_decode {E : DecEnv} {b b' : Buffer} (h0 : 0 < b.byteLength) (hd : b.data = []) (h : Loads E.fsys none b b') :
    ∃ c, sanitizeBuffer E.url (some b) = .ok c ∧ c.uri ≠ [] ∧ (decodeBuffer E c).1 = .ok b' := by
  have hu := loads_uri h
  have hv : ∀ uri, validateBuffer { b with uri } = .ok () := fun uri => by
    unfold validateBuffer
    rw [if_neg (by show b.byteLength ≠ 0; omega)]
  cases h with
  | chunk data h => cases h
  | embedded t data h1 h2 =>
    have hem := (embedded_iff b).2 (octet_of h1)
    refine ⟨b, ?_, hu, ?_⟩
    · unfold sanitizeBuffer
      simp only
      rw [if_pos hem]
    · unfold decodeBuffer
      rw [show validateBuffer b = .ok () from hv b.uri]
      simp only
      rw [if_neg hu, if_pos hem, ((C35_decode b t h1).1 data).2 h2]
      rfl
  | file read content name h1 h2 h3 =>
    refine ⟨{ b with uri := name }, ?_, h1.2.2.1.1, ?_⟩
    · unfold sanitizeBuffer
      simp only
      rw [if_neg (by rw [embedded_iff]; exact resolves_not_octet h1.1), sanitize_resolves E.url h1.1 h1.2.1]
    · unfold decodeBuffer
      rw [hv name]
      simp only
      rw [if_neg h1.2.2.1.1, if_neg (by rw [embedded_iff]; exact h1.2.2.2), if_neg (by rw [validate_local E.url h1.2.2.1]; simp), h2]
      simp only [h3]
      split
      · rw [if_neg (by omega)]
      · simp only
        rw [List.take_of_length_le (by omega)]
  | noFile name h1 h2 =>
    refine ⟨{ b with uri := name }, ?_, h1.2.2.1.1, ?_⟩
    · unfold sanitizeBuffer
      simp only
      rw [if_neg (by rw [embedded_iff]; exact resolves_not_octet h1.1), sanitize_resolves E.url h1.1 h1.2.1]
    · unfold decodeBuffer
      rw [hv name]
      simp only
      rw [if_neg h1.2.2.1.1, if_neg (by rw [embedded_iff]; exact h1.2.2.2), if_neg (by rw [validate_local E.url h1.2.2.1]; simp), h2]
      simp only
      rw [← hd]

theorem allLoad_decode {E : DecEnv} : ∀ {l l' : List (Option Buffer)}, AllLoad E.fsys none l l' → (∀ b, some b ∈ l → b.data = []) →
    ∃ cs bs, mapRes (sanitizeBuffer E.url) l = .ok cs ∧ (decodeBuffers E cs).1 = .ok bs ∧ bs.map some = l'
  | [], [], _, _ => ⟨[], [], rfl, rfl, rfl⟩
  | some b :: l, some b' :: l', h, hd => by
    obtain ⟨h0, h1, h2⟩ := h
    obtain ⟨c, e1, -, e2⟩ := loads_decode h0 (hd b (by simp)) h1
    obtain ⟨cs, bs, e3, e4, e5⟩ := allLoad_decode h2 fun x hx => hd x (List.mem_cons_of_mem _ hx)
    refine ⟨c :: cs, b' :: bs, ?_, ?_, by rw [List.map_cons, e5]⟩
    · simp only [mapRes]
      rw [e1, e3]
      rfl
    · simp only [decodeBuffers]
      rcases hx : decodeBuffer E c with ⟨x, t⟩
      rw [hx] at e2
      simp only at e2
      subst e2
      simp only
      rw [e4]
      rfl
  | [], _ :: _, h, _ => h.elim
  | some _ :: _, [], h, _ => h.elim
  | some _ :: _, none :: _, h, _ => h.elim
  | none :: _, [], h, _ => h.elim
  | none :: _, _ :: _, h, _ => h.elim

/-- The binary chunk can be longer than the buffer. -/
theorem decodeBinaryBuffer_prefix {r : BufReader} (hr : r.Inv) {b : Buffer} {data chunk : Bytes} (hb : 0 < b.byteLength)
    (hd : b.byteLength ≤ data.length) (hc : IsChunk b!"BIN\x00" 0 data chunk) (hrest : r.rest = chunk) :
    (decodeBinaryBuffer b r).1 = .ok { b with data := data.take b.byteLength.toNat } := by
  obtain ⟨len, k, rfl, hk, hk4, hlen⟩ := hc
  obtain ⟨l0, l1, l2, l3, rfl⟩ := le4_split hlen
  have hrl : r.rest = [l0, l1, l2, l3, 66, 73, 78, 0] ++ (data ++ List.replicate k 0) := by
    rw [hrest]; simp only [List.append_assoc]; rfl
  have hv : validateBuffer b = .ok () := by
    unfold validateBuffer
    rw [if_neg (by omega)]
  unfold decodeBinaryBuffer
  rw [hv]
  simp only
  obtain ⟨r1, ⟨_, hx, hf, ha⟩ | ⟨hlt, _, _⟩⟩ := BufReader.full_spec 8 hr
  · have htake : r.rest.take 8 = [l0, l1, l2, l3, 66, 73, 78, 0] := by rw [hrl]; rfl
    have hr1 : r1.rest = data ++ List.replicate k 0 := by
      have := hf.rest
      rw [htake, hrl] at this
      exact (List.append_cancel_left this).symm
    rw [hx, htake]
    simp only
    have hl32 : le32 [l0, l1, l2, l3, 66, 73, 78, 0] = data.length + k := by
      rw [le32_eq (by simp), ← hlen.2]; rfl
    have hty : le32 ([l0, l1, l2, l3, 66, 73, 78, 0].drop 4) = glbChunkBIN := by
      show le32 [66, 73, 78, 0] = _
      decide
    have hlt := hlen.2
    have hbound : leNat [l0, l1, l2, l3] < 4294967296 := by
      have h0 := l0.toNat_lt; have h1 := l1.toNat_lt; have h2 := l2.toNat_lt; have h3 := l3.toNat_lt
      show l0.toNat + 256 * (l1.toNat + 256 * (l2.toNat + 256 * (l3.toNat + 256 * 0))) < _
      omega
    rw [if_neg (by rw [hty, hl32, uint32_small (by omega) (by omega)]; omega),
      if_neg (by rw [show maxAlloc = 281474976710656 from rfl]; omega)]
    obtain ⟨r2, ⟨_, hy, hf2, ha2⟩ | ⟨hlt2, _, _⟩⟩ := BufReader.full_spec b.byteLength.toNat hf.inv
    · rw [hy, hr1, List.take_append_of_le_length (by omega)]
    · exfalso
      rw [hr1, List.length_append] at hlt2
      omega
  · exfalso
    rw [hrl] at hlt
    simp only [List.length_append, List.length_cons] at hlt
    omega

/-- Everything after the JSON. -/
theorem decodeRest_load {E : DecEnv} {isBin : Bool} {bin : Option Bytes} {d : Document} {bs : List (Option Buffer)} {r : BufReader}
    (hb : AllLoad E.fsys bin d.buffers bs) (hd : ∀ b, some b ∈ d.buffers → b.data = []) (hi : none ∉ d.images)
    (hr : ∀ data, bin = some data → isBin = true ∧ ((∃ b, d.buffers.head? = some (some b) ∧ b.uri = []) →
      r.Inv ∧ IsChunk b!"BIN\x00" 0 data r.rest)) :
    ∃ ims, (decodeRest E isBin d r).result = .ok { d with buffers := bs, images := ims } ∧ SameImages d.images ims := by
  obtain ⟨ims, hi1, hi2⟩ := mapRes_images E.url hi
  refine ⟨ims.map some, ?_, hi2 ▸ keptImages_same E.url hi⟩
  unfold decodeRest
  rw [hi1]
  match hl : d.buffers, bs, hb with
  | [], [], _ => rfl
  | some b :: l, some b' :: l', hb =>
    obtain ⟨h0, h1, h2⟩ := hb
    rw [hl] at hd hr
    obtain ⟨cs, bs, e3, e4, e5⟩ := allLoad_decode h2 fun x hx => hd x (List.mem_cons_of_mem _ hx)
    have key : (∃ c, sanitizeBuffer E.url (some b) = .ok c ∧ c.uri ≠ [] ∧ (decodeBuffer E c).1 = .ok b') ∨
        (isBin = true ∧ b.uri = [] ∧ sanitizeBuffer E.url (some b) = .ok b ∧ (decodeBinaryBuffer b r).1 = .ok b') := by
      cases h1 with
      | chunk data h3 h4 h5 =>
        obtain ⟨e, hr⟩ := hr data h3
        obtain ⟨hinv, hch⟩ := hr ⟨b, rfl, h4⟩
        refine .inr ⟨e, h4, ?_, decodeBinaryBuffer_prefix hinv h0 h5 hch rfl⟩
        unfold sanitizeBuffer
        simp only
        split
        · rfl
        · rw [h4, sanitize_nil]
          simp only
          rw [← h4]
      | embedded t data h3 h4 => exact .inl (loads_decode h0 (hd b (by simp)) (.embedded t data h3 h4))
      | file read content name h3 h4 h5 => exact .inl (loads_decode h0 (hd b (by simp)) (.file read content name h3 h4 h5))
      | noFile name h3 h4 => exact .inl (loads_decode h0 (hd b (by simp)) (.noFile name h3 h4))
    rcases key with ⟨c, k1, k2, k3⟩ | ⟨rfl, k1, k2, k3⟩
    · have e : mapRes (sanitizeBuffer E.url) (some b :: l) = .ok (c :: cs) := by
        simp only [mapRes]
        rw [k1, e3]
        rfl
      rw [e]
      simp only
      unfold decodeFirst
      simp only
      rw [if_neg fun h => k2 h.2]
      simp only [decodeBuffers]
      rcases hx : decodeBuffer E c with ⟨x, t⟩
      rw [hx] at k3
      simp only at k3
      subst k3
      simp only
      rw [e4]
      show Res.ok _ = _
      simp only [List.nil_append, List.map_cons, e5]
    · have e : mapRes (sanitizeBuffer E.url) (some b :: l) = .ok (b :: cs) := by
        simp only [mapRes]
        rw [k2, e3]
        rfl
      rw [e]
      simp only
      unfold decodeFirst
      simp only
      rw [if_pos ⟨trivial, k1⟩]
      rcases hx : decodeBinaryBuffer b r with ⟨x, t⟩
      rw [hx] at k3
      simp only at k3
      subst k3
      simp only
      rw [e4]
      show Res.ok _ = _
      simp only [List.cons_append, List.nil_append, List.map_cons, e5]
  | [], _ :: _, h => exact h.elim
  | some _ :: _, [], h => exact h.elim
  | some _ :: _, none :: _, h => exact h.elim
  | none :: _, [], h => exact h.elim
  | none :: _, _ :: _, h => exact h.elim

/-- The images that JSON stands for exist. -/
theorem rel_images {E : Env} {d : Document} {v : JVal} (h : (gltfT false E.io E.reg).rel d v) : none ∉ d.images := by
  obtain ⟨ms, rfl, ho⟩ := h
  have hf : objectsF b!"images" (·.images) (objT false (imageF E.io E.reg)) ∈ documentF false E.io E.reg := by simp [documentF]
  by_cases hk : b!"images" ∈ ms.map Prod.fst
  · obtain ⟨m, hm, e⟩ := List.mem_map.1 hk
    obtain ⟨vs, -, hl, he⟩ := ho.present _ hf m.2 (by rw [← show m.1 = b!"images" from e]; exact hm)
    intro hn
    obtain ⟨i, hi, e⟩ := List.mem_iff_getElem.1 hn
    have hi' : i < vs.length := by rw [← hl]; exact hi
    obtain ⟨a, ea, -⟩ := he i none vs[i] (by rw [List.getElem?_eq_getElem hi]; exact congrArg some e) (List.getElem?_eq_getElem hi')
    cases ea
  · rw [show d.images = [] from ho.absent _ hf hk]
    simp

theorem intLit_unique {lit : Bytes} {m n : Int} (h : IntLit lit m) (h' : IntLit lit n) : m = n := by
  have key : ∀ ds : Bytes, ¬ IsDigits (b!"-" ++ ds) := fun ds h => by
    have := h.2 45 (by simp)
    revert this
    decide
  obtain ⟨ds, hd, ⟨rfl, rfl⟩ | ⟨rfl, rfl⟩⟩ := h
  · obtain ⟨ds', hd', ⟨rfl, rfl⟩ | ⟨rfl, rfl⟩⟩ := h'
    · rfl
    · exact absurd hd (key ds')
  · obtain ⟨ds', hd', ⟨rfl, rfl⟩ | ⟨e, rfl⟩⟩ := h'
    · exact absurd hd' (key ds)
    · rw [List.append_cancel_left e]

/-- The same value is given to a field by all objects that stand for it. -/
theorem objRel_same {σ α : Type} {fs : List (Field σ)} {ms : List (Bytes × JVal)} {x y : σ} (hx : ObjRel false fs x ms) (hy : ObjRel false fs y ms)
    {f : Field σ} (hf : f ∈ fs) (get : σ → α) (hp : ∀ v, f.rel x v → f.rel y v → get x = get y)
    (ha : f.absent x → f.absent y → get x = get y) : get x = get y := by
  by_cases hk : f.name ∈ ms.map Prod.fst
  · obtain ⟨m, hm, e⟩ := List.mem_map.1 hk
    have hm : (f.name, m.2) ∈ ms := by rw [← e]; exact hm
    exact hp m.2 (hx.present f hf _ hm) (hy.present f hf _ hm)
  · exact ha (hx.absent f hf hk) (hy.absent f hf hk)

/-- The URI and the length of a buffer are determined by the JSON. -/
theorem buffer_same {E : Env} {x y : Buffer} {v : JVal} (hx : (objT false (bufferF E.io E.reg)).rel x v)
    (hy : (objT false (bufferF E.io E.reg)).rel y v) : x.uri = y.uri ∧ x.byteLength = y.byteLength := by
  obtain ⟨ms, rfl, hx⟩ := hx
  obtain ⟨_, e, hy⟩ := hy
  cases e
  constructor
  · refine objRel_same hx hy (f := opt b!"uri" (·.uri) strT (· = [])) (by simp [bufferF]) (·.uri) ?_ ?_
    · intro v h1 h2
      replace h1 : v = .str x.uri := h1
      replace h2 : v = .str y.uri := h2
      rw [h1] at h2
      injection h2
    · intro h1 h2
      exact (show x.uri = [] from h1).trans (show y.uri = [] from h2).symm
  · refine objRel_same hx hy (f := req b!"byteLength" (·.byteLength) intT) (by simp [bufferF]) (·.byteLength) ?_ ?_
    · rintro v ⟨-, lit, rfl, h1⟩ ⟨-, lit', e, h2⟩
      cases e
      exact intLit_unique h1 h2
    · intro h
      exact h.elim

theorem buffers_same {E : Env} {d d' : Document} {v : JVal} (h : (gltfT false E.io E.reg).rel d v) (h' : (gltfT false E.io E.reg).rel d' v) :
    (d.buffers.map (Option.map fun b => (b.uri, b.byteLength))) = d'.buffers.map (Option.map fun b => (b.uri, b.byteLength)) := by
  obtain ⟨ms, rfl, h⟩ := h
  obtain ⟨_, e, h'⟩ := h'
  cases e
  refine objRel_same h h' (f := objectsF b!"buffers" (·.buffers) (objT false (bufferF E.io E.reg))) (by simp [documentF])
    (fun d => d.buffers.map (Option.map fun b => (b.uri, b.byteLength))) ?_ ?_
  · rintro v ⟨vs, rfl, h1⟩ ⟨vs', e, h2⟩
    cases e
    simp only at h1 h2 ⊢
    generalize d.buffers = l at *
    generalize d'.buffers = l' at *
    induction vs generalizing l l' with
    | nil =>
      rw [List.length_eq_zero_iff.1 h1.1, List.length_eq_zero_iff.1 h2.1]
    | cons v vs ih =>
      match l, l', h1, h2 with
      | a :: l, a' :: l', h1, h2 =>
        obtain ⟨⟨x, rfl, hx⟩, k1⟩ := each_cons_inv h1
        obtain ⟨⟨y, rfl, hy⟩, k2⟩ := each_cons_inv h2
        obtain ⟨e1, e2⟩ := buffer_same hx hy
        rw [List.map_cons, List.map_cons, ih l k1 l' k2]
        simp [e1, e2]
      | [], _, h1, _ => cases h1.1
      | _ :: _, [], _, h2 => cases h2.1
  · intro h1 h2
    rw [show d.buffers = [] from h1, show d'.buffers = [] from h2]

theorem loads_same {files : Option (Bytes → Bytes × Option Err)} {bin : Option Bytes} {b b' c : Buffer} (h : Loads files bin b b')
    (h1 : b.uri = c.uri) (h2 : b.byteLength = c.byteLength) : ∃ c', Loads files bin c c' := by
  cases h with
  | chunk data h3 h4 h5 => exact ⟨_, .chunk data h3 (h1 ▸ h4) (h2 ▸ h5)⟩
  | embedded t data h3 h4 => exact ⟨_, .embedded t data (h1 ▸ h3) h4⟩
  | file read content name h3 h4 h5 => exact ⟨_, .file read content name (h1 ▸ h3) h4 h5⟩
  | noFile name h3 h4 => exact ⟨_, .noFile name (h1 ▸ h3) h4⟩

theorem allLoad_same {files : Option (Bytes → Bytes × Option Err)} : ∀ {bin : Option Bytes} {l l' m : List (Option Buffer)},
    AllLoad files bin l l' → l.map (Option.map fun b => (b.uri, b.byteLength)) = m.map (Option.map fun b => (b.uri, b.byteLength)) →
    ∃ m', AllLoad files bin m m'
  | _, [], [], m, _, e => by
    rw [List.map_nil] at e
    rw [List.map_eq_nil_iff.1 e.symm]
    exact ⟨[], trivial⟩
  | _, some b :: l, some b' :: l', m, h, e => by
    match m, e with
    | some c :: m, e =>
      simp only [List.map_cons, Option.map_some, List.cons.injEq, Option.some.injEq, Prod.mk.injEq] at e
      obtain ⟨⟨e1, e2⟩, e3⟩ := e
      obtain ⟨h0, h1, h2⟩ := h
      obtain ⟨c', hc⟩ := loads_same h1 e1 e2
      obtain ⟨m', hm⟩ := allLoad_same h2 e3
      exact ⟨some c' :: m', e2 ▸ h0, hc, hm⟩
    | none :: m, e => simp at e
    | [], e => simp at e
  | _, [], _ :: _, _, h, _ => h.elim
  | _, some _ :: _, [], _, h, _ => h.elim
  | _, some _ :: _, none :: _, _, h, _ => h.elim
  | _, none :: _, [], _, h, _ => h.elim
  | _, none :: _, _ :: _, _, h, _ => h.elim

/-- C81 for text files: if the JSON follows the schema and the data of its buffers is in data URIs and files, `Decode` succeeds
and returns what the JSON stands for together with this data. -/
theorem C81_text (E : DecEnv) (s : Source) (v : JVal) (hf : StartsWith false v s.data) (hn : DepthLe 10000 v)
    (hs : ∃ d bs, (gltfT false E.json.io E.json.reg).rel d v ∧ AllLoad E.fsys none d.buffers bs) :
    ∃ d bs ims, (decodeSource E s).result = .ok { d with buffers := bs, images := ims } ∧
      (gltfT false E.json.io E.json.reg).rel d v ∧ AllLoad E.fsys none d.buffers bs ∧ SameImages d.images ims := by
  obtain ⟨d', bs', hs, hl⟩ := hs
  obtain ⟨d, e, hrel⟩ := documentC_dec E.json v ⟨d', hs⟩
  obtain ⟨bs, hb⟩ := allLoad_same hl (buffers_same hs hrel)
  obtain ⟨_, r, -, -, e1⟩ := decode_value E (headerOf_text (startsWith_notGlb hf))
    (jsonOf_file (.inl hf) hn (.inl (by obtain ⟨ms, e, _⟩ := hs; exact ⟨ms, e⟩)))
  rw [e] at e1
  obtain ⟨ims, h1, h2⟩ := decodeRest_load (isBin := false) (r := r) hb (noData E.json e) (rel_images hrel) (fun _ h => by cases h)
  exact ⟨d, bs, ims, by rw [e1]; exact h1, hrel, hb, h2⟩

/-- C81 for GLB files: the same, where the first buffer can be in the binary chunk; then the JSON text fills its chunk or every
read returns a multiple of four bytes (see C32). -/
theorem C81_glb (E : DecEnv) (s : Source) (v : JVal) (bin : Option Bytes) (w t : Bytes) (hw : IsBlank w) (ht : Text false (.value v) t)
    (hf : IsGlb (w ++ t) bin s.data) (hn : DepthLe 10000 v)
    (hs : ∃ d bs, (gltfT false E.json.io E.json.reg).rel d v ∧ AllLoad E.fsys bin d.buffers bs)
    (ha : s.Aligned ∨ (w ++ t).length % 4 = 0 ∨ bin = none) :
    ∃ d bs ims, (decodeSource E s).result = .ok { d with buffers := bs, images := ims } ∧
      (gltfT false E.json.io E.json.reg).rel d v ∧ AllLoad E.fsys bin d.buffers bs ∧ SameImages d.images ims := by
  obtain ⟨d', bs', hs, hl⟩ := hs
  obtain ⟨d, e, hrel⟩ := documentC_dec E.json v ⟨d', hs⟩
  obtain ⟨bs, hb⟩ := allLoad_same hl (buffers_same hs hrel)
  have ho : (∃ l, v = .obj l) ∨ (∃ l, v = .arr l) := .inl (by obtain ⟨ms, e, _⟩ := hs; exact ⟨ms, e⟩)
  obtain ⟨g, hdr, k, c2, hs', hl', hh, hj, hk, hk4, hc⟩ := headerOf_glb hf []
  rw [List.append_nil] at hh
  rw [List.append_nil, List.append_nil] at hs'
  obtain ⟨pre, r, hr, er, e1⟩ := decode_value E hh (jsonOf_file (.inr ⟨_, bin, hf, w, t, [], hw, ht, by simp⟩) hn ho)
  rw [e] at e1
  obtain ⟨ims, h1, h2⟩ := decodeRest_load (isBin := true) (r := r) hb (noData E.json e) (rel_images hrel) (by
    rintro data rfl
    refine ⟨rfl, fun ⟨b, hb1, hb2⟩ => ⟨hr.inv, ?_⟩⟩
    have : r.rest = c2 := by
      rw [er]
      refine decodeDocument_rest E (.inl rfl) {} (show (newDecoder s).rest = _ from hs') hl' hh (by rw [List.length_replicate]; exact hj)
        (parseTop_text hw ht hn _ ho) ?_
      rcases ha with ha | ha | ha
      · exact .inr ⟨⟨rfl, ha⟩, by simpa using hk, by simpa using hk4⟩
      · left
        have : k = 0 := by omega
        rw [this]; rfl
      · cases ha
    rw [this]
    exact hc)
  exact ⟨d, bs, ims, by rw [e1]; exact h1, hrel, hb, h2⟩

/-! ### Examples for C81 -/

/-- Three buffers: in the binary chunk, in a data URI, and in a file. -/
def acceptMembers : List (Bytes × JVal) :=
  [(b!"buffers", .arr [.obj [(b!"byteLength", .num b!"3")],
      .obj [(b!"uri", .str b!"data:application/octet-stream;base64,AQI="), (b!"byteLength", .num b!"2")],
      .obj [(b!"uri", .str b!"b%20c.bin"), (b!"byteLength", .num b!"4")]]),
    (b!"asset", .obj [(b!"version", .str b!"2.0")]), (b!"images", .arr [.obj [(b!"uri", .str b!"c.png")]])]

def acceptText : Bytes := b!"{\"buffers\":[{\"byteLength\":3},{\"uri\":\"data:application/octet-stream;base64,AQI=\",\"byteLength\":2},{\"uri\":\"b%20c.bin\",\"byteLength\":4}],\"asset\":{\"version\":\"2.0\"},\"images\":[{\"uri\":\"c.png\"}]}"

def acceptGlb : Bytes :=
  b!"glTF" ++ [2, 0, 0, 0] ++ [220, 0, 0, 0] ++ [188, 0, 0, 0] ++ b!"JSON" ++ acceptText ++ List.replicate 3 32 ++ [4, 0, 0, 0] ++ b!"BIN\x00" ++ [7, 8, 9] ++ [0]

set_option maxRecDepth 20000 in
theorem accept_parses : jsonOf { data := acceptText } = .ok (.obj acceptMembers) := rfl

theorem accept_text : Text false (.value (.obj acceptMembers)) acceptText := by
  have : acceptText = (JVal.obj acceptMembers).print compact 0 := by decide +kernel
  rw [this]
  exact print_text (L := compact) ⟨fun _ => by simp [compact, IsBlank], by simp [compact, IsBlank]⟩ _ (jsonOf_valid accept_parses).ok 0

/-- The document that the JSON stands for. -/
def acceptDoc : Document :=
  { buffers := [some { byteLength := 3 }, some { byteLength := 2, uri := b!"data:application/octet-stream;base64,AQI=" },
      some { byteLength := 4, uri := b!"b%20c.bin" }],
    images := [some { uri := b!"c.png" }] }

theorem accept_rel : (gltfT false witnessEnv.io witnessEnv.reg).rel acceptDoc (.obj acceptMembers) := by
  have hd : (documentC witnessEnv).enc acceptDoc = .ok (.obj acceptMembers) := rfl
  refine documentC_enc exact_laws false _ _ ?_ hd
  have i0 : ∀ n : Int, (n = 2 ∨ n = 3 ∨ n = 4) → IntOk n := by intro n hn; unfold IntOk; omega
  simp only [objT, documentF, List.forall_mem_cons, List.not_mem_nil, false_implies, implies_true, and_true]
  simp [acceptDoc, objectsF, opt, req, listT, ptrT, extF, extrasF, nameF, indexF, bufferF, imageF, assetF, strT, intT, versionT, i0]

theorem accept_loads : AllLoad witnessDec.fsys (some [7, 8, 9]) acceptDoc.buffers
    [some { byteLength := 3, data := [7, 8, 9] }, some { byteLength := 2, uri := b!"data:application/octet-stream;base64,AQI=", data := [1, 2] },
      some { byteLength := 4, uri := b!"b c.bin", data := [0, 0, 0, 0] }] := by
  refine ⟨by decide, .chunk [7, 8, 9] rfl rfl (by decide), by decide, .embedded b!"AQI=" [1, 2] rfl ?_,
    by decide, .file (fun _ => ([0, 0, 0, 0], none)) [0, 0, 0, 0] b!"b c.bin" (file_ref spaceFile) rfl rfl, trivial⟩
  exact ((C35_decode { uri := b!"data:application/octet-stream;base64,AQI=" } b!"AQI=" rfl).1 [1, 2]).1 (by decide +kernel)

set_option maxRecDepth 20000 in
/-- A GLB file whose JSON is padded, and a reader that returns multiples of four bytes. -/
example : IsGlb ([] ++ acceptText) (some [7, 8, 9]) acceptGlb ∧ DepthLe 10000 (.obj acceptMembers) ∧
    (∃ d bs, (gltfT false witnessDec.json.io witnessDec.json.reg).rel d (.obj acceptMembers) ∧ AllLoad witnessDec.fsys (some [7, 8, 9]) d.buffers bs) ∧
    Source.Aligned { data := acceptGlb, sizes := [(1, 3), (0, 7)] } :=
  ⟨⟨[2, 0, 0, 0], [220, 0, 0, 0], _, [4, 0, 0, 0] ++ b!"BIN\x00" ++ [7, 8, 9] ++ [0], rfl, ⟨rfl, rfl⟩, ⟨rfl, rfl⟩,
      ⟨[188, 0, 0, 0], 3, rfl, by decide, by decide, rfl, rfl⟩, [4, 0, 0, 0], 1, rfl, by decide, by decide, rfl, rfl⟩,
    (jsonOf_valid accept_parses).depth, ⟨_, _, accept_rel, accept_loads⟩, ⟨by decide, by decide⟩⟩

/-- A text file with white space around the JSON of a document with a buffer in a file. -/
example : ∃ v, StartsWith false v b!" {\"buffers\":[{\"uri\":\"b%20c.bin\",\"byteLength\":4}],\"asset\":{\"version\":\"2.0\"}}\x0A" ∧
    DepthLe 10000 v ∧ ∃ d bs, (gltfT false witnessDec.json.io witnessDec.json.reg).rel d v ∧ AllLoad witnessDec.fsys none d.buffers bs := by
  have hp : jsonOf { data := b!"{\"buffers\":[{\"uri\":\"b%20c.bin\",\"byteLength\":4}],\"asset\":{\"version\":\"2.0\"}}" } = .ok
      (.obj [(b!"buffers", .arr [.obj [(b!"uri", .str b!"b%20c.bin"), (b!"byteLength", .num b!"4")]]),
        (b!"asset", .obj [(b!"version", .str b!"2.0")])]) := rfl
  have ht := print_text (L := compact) ⟨fun _ => by simp [compact, IsBlank], by simp [compact, IsBlank]⟩ _ (jsonOf_valid hp).ok 0
  have hd : (documentC witnessEnv).enc { buffers := [some { byteLength := 4, uri := b!"b%20c.bin" }] } = .ok
      (.obj [(b!"buffers", .arr [.obj [(b!"uri", .str b!"b%20c.bin"), (b!"byteLength", .num b!"4")]]),
        (b!"asset", .obj [(b!"version", .str b!"2.0")])]) := rfl
  refine ⟨_, ⟨b!" ", _, b!"\x0A", by simp [IsBlank], ht, by decide +kernel⟩, (jsonOf_valid hp).depth, _,
    [some { byteLength := 4, uri := b!"b c.bin", data := [0, 0, 0, 0] }], documentC_enc exact_laws false _ _ ?_ hd, by decide,
    .file (fun _ => ([0, 0, 0, 0], none)) [0, 0, 0, 0] b!"b c.bin" (file_ref spaceFile) rfl rfl, trivial⟩
  have i0 : ∀ n : Int, n = 4 → IntOk n := by intro n hn; unfold IntOk; omega
  simp only [objT, documentF, List.forall_mem_cons, List.not_mem_nil, false_implies, implies_true, and_true]
  simp [objectsF, opt, req, listT, ptrT, extF, extrasF, nameF, indexF, bufferF, assetF, strT, intT, versionT, i0]

end Gltf
