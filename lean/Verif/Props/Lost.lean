/-
Property C49: what is written to a document whose last buffer is embedded is lost.
-/
import Verif.Props.Build

namespace Gltf

open Spec

/-! ### The data of embedded buffers is not written -/

theorem bufferC_data (E : Env) (b : Buffer) (x : Bytes) : (bufferC E).enc { b with data := x } = (bufferC E).enc b := rfl

theorem customBuffer_data {first : Bool} {b : Buffer} (hu : b.uri ≠ []) (x : Bytes) :
    customBuffer first (some { b with data := x }) = .ok { b with data := x } ∧ customBuffer first (some b) = .ok b := by
  unfold customBuffer
  simp [hu]

theorem mapRes_customLast {b : Buffer} (hu : b.uri ≠ []) (x : Bytes) : ∀ (l : List (Option Buffer)),
    mapRes (customBuffer false) (l ++ [some b]) = (do let l ← mapRes (customBuffer false) l; return l ++ [b]) ∧
    mapRes (customBuffer false) (l ++ [some { b with data := x }]) = (do let l ← mapRes (customBuffer false) l; return l ++ [{ b with data := x }])
  | [] => by
    simp only [List.nil_append, mapRes]
    rw [(customBuffer_data hu x).1, (customBuffer_data hu x).2]
    exact ⟨rfl, rfl⟩
  | a :: l => by
    obtain ⟨h1, h2⟩ := mapRes_customLast hu x l
    simp only [List.cons_append, mapRes, h1, h2]
    cases customBuffer false a with
    | err e => exact ⟨rfl, rfl⟩
    | panic e => exact ⟨rfl, rfl⟩
    | ok a =>
      cases mapRes (customBuffer false) l with
      | err e => exact ⟨rfl, rfl⟩
      | panic e => exact ⟨rfl, rfl⟩
      | ok l => exact ⟨rfl, rfl⟩

theorem customBuffers_last {b : Buffer} (hu : b.uri ≠ []) (x : Bytes) (first : Bool) (l : List (Option Buffer)) :
    customBuffers first (l ++ [some b]) = (do let l ← customBuffers first l; return l ++ [b]) ∧
    customBuffers first (l ++ [some { b with data := x }]) = (do let l ← customBuffers first l; return l ++ [{ b with data := x }]) := by
  cases l with
  | nil =>
    simp only [List.nil_append, customBuffers, mapRes]
    rw [(customBuffer_data hu x).1, (customBuffer_data hu x).2]
    exact ⟨rfl, rfl⟩
  | cons a l =>
    obtain ⟨h1, h2⟩ := mapRes_customLast hu x l
    simp only [List.cons_append, customBuffers, h1, h2]
    cases customBuffer first a with
    | err e => exact ⟨rfl, rfl⟩
    | panic e => exact ⟨rfl, rfl⟩
    | ok a =>
      cases mapRes (customBuffer false) l with
      | err e => exact ⟨rfl, rfl⟩
      | panic e => exact ⟨rfl, rfl⟩
      | ok l => exact ⟨rfl, rfl⟩

theorem encList_last {c : JC (Option Buffer)} {a b : Option Buffer} (h : c.enc a = c.enc b) : ∀ l, encList c (l ++ [a]) = encList c (l ++ [b])
  | [] => by simp only [List.nil_append, encList, h]
  | x :: l => by simp only [List.cons_append, encList, encList_last h l]

theorem fc_first {α τ : Type} {name : Bytes} {f : FE α} {r : FC τ} {a b : α} (h : f.enc a = f.enc b) (t : τ) :
    (FC.cons name f r).enc (a, t) = (FC.cons name f r).enc (b, t) := by
  simp only [FC.cons, h]

theorem documentC_last (E : Env) (doc : Document) (l : List (Option Buffer)) (b : Buffer) (x : Bytes) :
    (documentC E).enc { doc with buffers := l ++ [some b] } = (documentC E).enc { doc with buffers := l ++ [some { b with data := x }] } := by
  refine congrArg (Except.map JVal.obj) (fc_first ?_ _)
  have h1 : ∀ y : Option Buffer, (l ++ [y]).isEmpty = false := fun y => by simp
  simp only [JC.omitIf, JC.list, h1]
  rw [encList_last (a := some b) (b := some { b with data := x }) rfl]

theorem encodeBuffers_last (U : UrlLib) {b : Buffer} (hu : b.uri ≠ []) (he : b.isEmbeddedResource = true) (x : Bytes) : ∀ (l : List (Option Buffer)) fs,
    encodeBuffers U (l ++ [some b]) fs = encodeBuffers U (l ++ [some { b with data := x }]) fs
  | [], fs => by
    simp only [List.nil_append, encodeBuffers]
    rw [if_pos (.inr (.inr he)), if_pos (.inr (.inr he))]
  | none :: l, fs => rfl
  | some a :: l, fs => by
    simp only [List.cons_append, encodeBuffers, encodeBuffers_last U hu he x l]

/-- The encoder does not look at the data of a buffer whose URI is a data URI. -/
theorem encode_last (E : Env) (U : UrlLib) (o : EncOpts) (doc : Document) (l : List (Option Buffer)) (b : Buffer) (x : Bytes)
    (hu : b.uri ≠ []) (he : b.isEmbeddedResource = true) (hd : doc.buffers = l ++ [some b]) (w : Sink) (fs : Option CreateFS) :
    encode E U o doc w fs = encode E U o { doc with buffers := l ++ [some { b with data := x }] } w fs := by
  have h1 : marshalJSONDoc E o doc = marshalJSONDoc E o { doc with buffers := l ++ [some { b with data := x }] } := by
    unfold marshalJSONDoc
    rw [hd, (customBuffers_last hu x _ _).1, (customBuffers_last hu x _ _).2]
    cases customBuffers o.asBinary l with
    | err e => rfl
    | panic e => rfl
    | ok l' =>
      simp only [Res.ok_bind, Res.pure_eq, List.map_append, List.map_cons, List.map_nil]
      rw [documentC_last E doc _ b x]
  have h2 : binBuffer doc = binBuffer { doc with buffers := l ++ [some { b with data := x }] } := by
    unfold binBuffer
    rw [hd]
    cases l with
    | nil => simp [hu]
    | cons a l => cases a <;> rfl
  have h3 : ∀ n fs, encodeBuffers U (doc.buffers.drop n) fs = encodeBuffers U ((l ++ [some { b with data := x }]).drop n) fs := by
    intro n fs
    rw [hd]
    by_cases hn : n ≤ l.length
    · rw [List.drop_append_of_le_length hn, List.drop_append_of_le_length hn]
      exact encodeBuffers_last U hu he x _ fs
    · rw [List.drop_of_length_le (by simp; omega), List.drop_of_length_le (by simp; omega)]
  unfold encode
  rw [h1, h2]
  have h0 : ∀ fs, encodeBuffers U doc.buffers fs = encodeBuffers U (l ++ [some { b with data := x }]) fs := h3 0
  simp only [h3, h0]

/-! ### Reading fails -/

theorem readAccessor_short {d d' : Document} {acr : Accessor} {buffer : Bytes} {p : Pools} {x : Slice} {v : Int} {e : Err}
    (h : readAccessor d acr buffer p = .ok x) (hv : acr.bufferView = some v) (he : readBufferViewIndex d' v = .err e) :
    readAccessor d' acr buffer p = .err e := by
  unfold readAccessor at h ⊢
  obtain ⟨y, h1, -⟩ := Res.bind_eq_ok.1 h
  unfold readDense at h1 ⊢
  obtain ⟨z, h2, -⟩ := Res.bind_eq_ok.1 h1
  rw [h2, hv]
  simp only [Res.ok_bind, he]
  rfl

theorem allStorable_embedded {b : Buffer} (hb : 0 < b.byteLength) (hs : ∀ bin, Storable bin b) : ∀ {bin : Bool} {bs : List (Option Buffer)},
    AllStorable bin bs → AllStorable bin (bs ++ [some b])
  | _, [], _ => ⟨hb, hs _, trivial⟩
  | _, none :: _, h => h.elim
  | _, some _ :: _, h => ⟨h.1, h.2.1, allStorable_embedded hb hs h.2.2⟩

/-- The view that `WriteAccessor` adds is behind the data that was in the last buffer. -/
theorem written_view {target : Target} {data : Slice} {d1 d2 : Document} {i : Nat} (h : writeAccessor target data d1 = (d2, .ok i))
    (hne : data.data ≠ []) {bs : List (Option Buffer)} {b : Buffer} (hb : d1.buffers = bs ++ [some b]) :
    ∃ acr v bv, d2.accessors[i]? = some (some acr) ∧ acr.bufferView = some (v : Nat) ∧ d2.bufferViews[v]? = some (some bv) ∧
      bv.buffer = (bs.length : Int) ∧ (b.data.length : Int) < wrap64 (bv.byteOffset + bv.byteLength) := by
  obtain ⟨e1, e2, v, h1, h2, rfl, rfl⟩ := writeAccessor_ok.1 h
  obtain ⟨stride, size, c, bytes, hv, hc, hle, hw, rfl, rfl⟩ := writeBufferViews_ok.1 h2
  have hx := (view_bounds hv hle hw).2 data (by simp)
  have hpos := List.length_pos_iff.2 hne
  have ens : ∀ {d : Document} {bs : List (Option Buffer)} {x : Option Buffer}, d.buffers = bs ++ [x] → ensured d = d := by
    intro d bs x hd
    unfold ensured
    rw [if_neg (by rw [hd]; simp)]
  obtain ⟨q, hq, -, rfl⟩ := ensurePadding_ok.1 h1
  rw [ens hb, hb] at hq
  simp only [List.getLast?_concat, Option.join_some, Option.some.injEq] at hq
  subst hq
  have hb1 : ∀ q, (withLast d1 q).buffers = bs ++ [some q] := fun q => by
    unfold withLast
    rw [ens hb, hb, List.dropLast_concat]
  have hc1 := hc
  rw [ens (hb1 _), hb1] at hc1
  simp only [List.getLast?_concat, Option.join_some, Option.some.injEq] at hc1
  refine ⟨_, _, _, List.getElem?_concat_length, rfl, List.getElem?_concat_length, ?_, ?_⟩
  · rw [ens (hb1 _), hb1]
    simp
  · have hl : b.data.length ≤ c.data.length := by rw [← hc1]; simp
    simp only
    unfold maxAlloc at hle
    rw [wrap64_id (by omega) (by omega)]
    omega

/-- Something that was written to a document is lost when it is saved, although saving and opening succeed: the last buffer of the
document is embedded. -/
theorem C49_embedded_lost (E : Env) (hf : FloatLaws E.io) (U : UrlLib) (base : Bytes) (bin : Bool) (n : Nat) (hn : n + 7 ≤ 10000)
    (d0 d1 d2 d3 : Document) (bs : List (Option Buffer)) (b : Buffer) (t : Bytes) (target : Target) (data : Slice) (i : Nat)
    (hok : DocumentOk E.reg n d0) (hi : none ∉ d0.images) (hbs : d0.buffers = bs ++ [some b]) (hst : AllStorable bin bs)
    (hu : b.uri = octetPrefix ++ t) (ht : IsBase64 t b.data) (hbl : b.byteLength = b.data.length)
    (h1 : PlainHistory d0 d1) (hw : writeAccessor target data d1 = (d2, .ok i)) (hne : data.data ≠ []) (h2 : PlainHistory d2 d3)
    (hs1 : d3.buffers.length < 9223372036854775808) (hs2 : d3.bufferViews.length < 9223372036854775808)
    (hdis : DistinctFiles d3.buffers) (hav : Avoids base d3.buffers) (fs : CreateFS) (hfs : Working fs)
    (hlb : ∀ b, d3.buffers.head? = some (some b) → b.byteLength < 4294967296)
    (hl : (encode E U { asBinary := bin } d3 {} none).sink.out.length < 4294967296) :
    (save E U d3 base bin fs [] none).1 = .ok () ∧
    ∃ doc' acr, openFile E U base (save E U d3 base bin fs [] none).2 = .ok doc' ∧ doc'.accessors[i]? = some (some acr) ∧
      ∀ buffer p, (data.ty = .base .u32 .m3 → buffer = []) →
        readAccessor d3 acr buffer p = .ok (back data) ∧ readAccessor doc' acr buffer p = .err .shortBuffer := by
  have step : PlainHistory d1 d3 := by
    have hr : (WriteOp.accessor target data).run d1 = (d2, .ok ()) := discard_ok.2 ⟨i, hw⟩
    exact .step (.accessor target data) trivial (by rw [hr]; rfl) (by rw [hr]; exact h2)
  have all : PlainHistory d0 d3 := by
    clear hw h2 hok hi hbs hst hdis hav hlb hl
    induction h1 with
    | nil => exact step
    | step op hp hx _ ih => exact .step op hp hx (ih step)
  have g := all.growU (P := fun u => u = octetPrefix ++ t) ⟨hok, hi, .inr ⟨bs, b, hbs, hst, .inr hu, hbl⟩⟩ hs1 hs2
  -- the last buffers
  have hlast : ∀ {d : Document}, Extends d0 d → d.buffers.length = d0.buffers.length →
      ∃ bs' dt len, d.buffers = bs' ++ [some { b with data := dt, byteLength := len }] ∧ b.data <+: dt ∧ bs'.length = bs.length := by
    intro d e hlen
    obtain ⟨p', hp', hbe⟩ := e.buffers bs.length (some b) (by rw [hbs]; exact List.getElem?_concat_length)
    have hlen' : d.buffers.length = bs.length + 1 := by rw [hlen, hbs]; simp
    have hd : d.buffers = d.buffers.dropLast ++ [p'] := by
      have hg : d.buffers.getLast? = some p' := by
        rw [List.getLast?_eq_getElem?, hlen']
        exact hp'
      obtain ⟨l, hl⟩ := List.getLast?_eq_some_iff.1 hg
      rw [hl, List.dropLast_concat]
    have hdl : d.buffers.dropLast.length = bs.length := by rw [List.length_dropLast]; omega
    rcases hbe with h | ⟨b0, dt, len, hb0, hb1, hpre⟩
    · subst h
      exact ⟨_, b.data, b.byteLength, hd, List.prefix_refl _, hdl⟩
    · cases hb0
      subst hb1
      exact ⟨_, dt, len, hd, hpre, hdl⟩
  have hne0 : d0.buffers ≠ [] := by rw [hbs]; simp
  obtain ⟨bs1, dt1, len1, k1, k2, k3⟩ := hlast h1.history.extends (h1.history.buffers_length hne0)
  obtain ⟨bs3, dt3, len3, m1, m2, m3⟩ := hlast all.history.extends (all.history.buffers_length hne0)
  obtain ⟨acr, v, bv, a1, a2, a3, a4, a5⟩ := written_view hw hne k1
  have e := h2.history.extends
  have hne3 : dt3 ≠ [] := by
    obtain ⟨c, hc, hcn⟩ := last_nonempty hw hne
    have hlen := h2.history.buffers_length (by intro h0; rw [h0] at hc; cases hc)
    rw [List.getLast?_eq_getElem?] at hc
    obtain ⟨p', hp', hbe⟩ := e.buffers _ _ hc
    rw [← hlen, ← List.getLast?_eq_getElem?, m1, List.getLast?_concat] at hp'
    cases hp'
    rcases hbe with h | ⟨b0, dt, len, hb0, hb1, hpre⟩
    · have := congrArg (Option.map Buffer.data) h
      simp only [Option.map_some, Option.some.injEq] at this
      rw [← this]; exact hcn
    · cases hb0
      have := congrArg (Option.map Buffer.data) hb1
      simp only [Option.map_some, Option.some.injEq] at this
      rw [← this] at hpre
      intro h0
      rw [h0] at hpre
      exact hcn (List.prefix_nil.1 hpre)
  obtain ⟨g1, g2⟩ : AllStorable bin bs3 ∧ len3 = dt3.length := by
    rcases g.buffers with h | ⟨x, y, h, q1, -, q2⟩
    · rw [h] at m1; simp at m1
    · rw [m1] at h
      obtain ⟨rfl, h'⟩ := List.append_inj' h rfl
      cases h'
      exact ⟨q1, q2⟩
  let b3 : Buffer := { b with byteLength := len3 }
  let d3' : Document := { d3 with buffers := bs3 ++ [some b3] }
  have hue : b.uri ≠ [] := by rw [hu]; simp
  have hem : ({ b with data := dt3, byteLength := len3 } : Buffer).isEmbeddedResource = true := by
    exact (embedded_iff _).2 ⟨b!"," ++ t, hu.symm⟩
  have hen : ∀ o w fs, encode E U o d3 w fs = encode E U o d3' w fs := fun o w fs =>
    encode_last E U o d3 bs3 { b with data := dt3, byteLength := len3 } b.data hue hem m1 w fs
  have hsv : save E U d3 base bin fs [] none = save E U d3' base bin fs [] none := by
    unfold save
    simp only [hen]
  have hpos : 0 < len3 := by
    have := List.length_pos_iff.2 hne3
    omega
  have hdok : DocumentOk E.reg n d3' := by
    refine g.ok.update (forall_mem_concat (fun o ho => g.ok.buffers o (by rw [m1]; simp [ho])) ?_) g.ok.bufferViews g.ok.accessors g.ok.images
    intro a ha
    cases ha
    have := g.ok.buffers (some { b with data := dt3, byteLength := len3 }) (by rw [m1]; simp) _ rfl
    exact ⟨this.extensions, this.extras, this.name, this.uri, this.byteLength⟩
  have hst' : AllStorable bin d3'.buffers := allStorable_embedded (b := b3) hpos (fun _ => .embedded t hu ht) g1
  have hdis' : DistinctFiles d3'.buffers := by
    unfold DistinctFiles at hdis ⊢
    rw [m1] at hdis
    obtain ⟨p1, -, p3⟩ := List.pairwise_append.1 hdis
    refine List.pairwise_append.2 ⟨p1, List.pairwise_singleton .., fun x hx y hy c c' hc hc' hcd hcd' => ?_⟩
    cases List.mem_singleton.1 hy
    cases hc'
    exact p3 x hx _ (List.mem_singleton.2 rfl) c { b with data := dt3, byteLength := len3 } hc rfl hcd hne3
  have hav' : Avoids base d3'.buffers := by
    intro c hc hcd
    rcases List.mem_append.1 hc with hc | hc
    · exact hav c (by rw [m1]; simp [hc]) hcd
    · cases List.mem_singleton.1 hc
      exact hav { b with data := dt3, byteLength := len3 } (by rw [m1]; simp) hne3
  have hlb' : ∀ c, d3'.buffers.head? = some (some c) → c.byteLength < 4294967296 := by
    intro c hc
    replace hc : (bs3 ++ [some b3]).head? = some (some c) := hc
    rw [m1] at hlb
    cases bs3 with
    | nil =>
      cases hc
      exact hlb { b with data := dt3, byteLength := len3 } rfl
    | cons x l =>
      exact hlb c hc
  obtain ⟨r1, ⟨doc', r2, r3⟩, -⟩ := C60_save_open_partial E hf U base bin n hn d3' hdok hst' hdis' hav' g.images fs hfs hlb' (by rw [← hen]; exact hl)
  obtain ⟨q1, q2⟩ := same_data r3
  refine ⟨by rw [hsv]; exact r1, doc', acr, by rw [hsv]; exact r2, by rw [q1]; exact e.accessor a1, fun buffer p hb => ?_⟩
  obtain ⟨acr', c1, c2⟩ := C09_written_reads_back target data d1 d2 i hw
  rw [a1] at c1
  cases c1
  have hread := e.readAccessor (c2 buffer p hb)
  refine ⟨hread, ?_⟩
  rw [q2.readAccessor]
  refine readAccessor_short hread a2 ?_
  have hview : d3'.bufferViews[v]? = some (some bv) := e.view a3
  have hlt := (List.getElem?_eq_some_iff.1 hview).1
  unfold readBufferViewIndex
  rw [if_neg (by omega)]
  have hat : bufferViewAt d3' (v : Int) = .ok bv := by
    unfold bufferViewAt
    rw [if_neg (by omega), Int.toNat_natCast, hview]
  rw [hat, Res.ok_bind]
  unfold readBufferView
  have hblen : d3'.buffers.length = bs3.length + 1 := by simp [d3']
  have hget : d3'.buffers[bv.buffer.toNat]? = some (some b3) := by
    rw [a4, Int.toNat_natCast, k3, ← m3]
    exact List.getElem?_concat_length
  rw [if_neg (by omega), if_neg (by omega), hget]
  have : b.data.length ≤ dt1.length := k2.length_le
  simp only at a5 ⊢
  rw [if_pos (by show (b.data.length : Int) < _; omega)]

/-! ### The hypotheses are met -/

/-- A new document with an embedded buffer of four bytes. -/
def embedded0 : Document :=
  { newDocument with buffers := [some { byteLength := 4, uri := octetPrefix ++ b!"AQIDBA==", data := [1, 2, 3, 4] }] }

/-- After writing two numbers to it. -/
def embedded1 : Document := (writeAccessor targetNone ⟨.base .u16 .sc, [5, 6]⟩ embedded0).1

theorem embedded0_ok (r : Registry) : DocumentOk r 0 embedded0 := by
  refine (newDocument_ok r).update ?_ (newDocument_ok r).bufferViews (newDocument_ok r).accessors (newDocument_ok r).images
  intro o ho a ha
  cases List.mem_singleton.1 ho
  cases ha
  exact ⟨noExtensions _ _, .null 0, utf8Empty, utf8_ascii (by decide), by unfold IntOk; decide⟩

example : DocumentOk witnessEnv.reg 0 embedded0 ∧ none ∉ embedded0.images ∧ AllStorable false [] ∧
    IsBase64 b!"AQIDBA==" [1, 2, 3, 4] ∧ PlainHistory embedded0 embedded0 ∧
    writeAccessor targetNone ⟨.base .u16 .sc, [5, 6]⟩ embedded0 = (embedded1, .ok 0) ∧ PlainHistory embedded1 embedded1 ∧
    DistinctFiles embedded1.buffers ∧ Avoids b!"t.gltf" embedded1.buffers ∧
    (∀ b, embedded1.buffers.head? = some (some b) → b.byteLength < 4294967296) ∧
    (encode witnessEnv witnessUrl { asBinary := false } embedded1 {} none).sink.out.length < 4294967296 ∧ FloatLaws witnessEnv.io := by
  have hb : embedded1.buffers.map (·.map fun b => (b.uri, b.byteLength, b.data)) =
      [some (octetPrefix ++ b!"AQIDBA==", 8, [1, 2, 3, 4, 5, 0, 6, 0])] := by decide +kernel
  have hm : ∀ b, some b ∈ embedded1.buffers → (b.uri, b.byteLength, b.data) = (octetPrefix ++ b!"AQIDBA==", 8, [1, 2, 3, 4, 5, 0, 6, 0]) := by
    intro b h
    have : some (b.uri, b.byteLength, b.data) ∈ embedded1.buffers.map (·.map fun b => (b.uri, b.byteLength, b.data)) :=
      List.mem_map.2 ⟨_, h, rfl⟩
    rw [hb] at this
    simpa using this
  have hu : ∀ b, some b ∈ embedded1.buffers → OctetUri b.uri := fun b h => ⟨_, (congrArg Prod.fst (hm b h)).symm⟩
  have hr : (writeAccessor targetNone ⟨.base .u16 .sc, [5, 6]⟩ embedded0).2 = .ok 0 := by decide +kernel
  refine ⟨embedded0_ok _, by simp [embedded0, newDocument], trivial, ?_, .nil _, Prod.ext rfl hr, .nil _, ?_, ?_, ?_, by decide +kernel, exact_laws⟩
  · exact (b64Groups_iff _ _).1 (by decide +kernel)
  · obtain ⟨x, hx⟩ := List.length_eq_one_iff.1 (show embedded1.buffers.length = 1 by simpa using congrArg List.length hb)
    rw [hx]
    exact List.pairwise_singleton ..
  · intro b h _ hn
    exact path_not_octet hn (hu b h)
  · intro b h
    have e : b.byteLength = 8 := congrArg (fun x => x.2.1) (hm b (List.mem_of_mem_head? h))
    rw [e]
    decide

end Gltf
