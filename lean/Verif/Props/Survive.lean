/-
Property C49: data written to an opened document survives saving.
-/
import Verif.Lemmas.Survive
import Verif.Props.Save

namespace Gltf

open Spec

theorem withLast_length {d : Document} {b : Buffer} (h : d.buffers ≠ []) : (withLast d b).buffers.length = d.buffers.length := by
  have := List.length_pos_iff.2 h
  unfold withLast ensured
  rw [if_neg (by omega)]
  simp
  omega

theorem withLast_ne (d : Document) (b : Buffer) : (withLast d b).buffers ≠ [] := by
  unfold withLast
  simp

theorem core_length {doc d : Document} (h : doc.buffers ≠ []) (c : CoreWrite doc d) : d.buffers.length = doc.buffers.length := by
  have pad : ∀ {d}, ensurePadding doc = (d, .ok ()) → d.buffers.length = doc.buffers.length ∧ d.buffers ≠ [] := by
    intro d hd
    obtain ⟨b, -, -, rfl⟩ := ensurePadding_ok.1 hd
    exact ⟨withLast_length h, withLast_ne _ _⟩
  have view : ∀ {target data doc d v}, doc.buffers ≠ [] → writeBufferViews target data doc = (d, .ok v) → d.buffers.length = doc.buffers.length := by
    intro target data doc d v hne hd
    obtain ⟨stride, size, b, bytes, -, -, -, -, -, rfl⟩ := writeBufferViews_ok.1 hd
    exact withLast_length hne
  cases c with
  | accessor hd =>
    obtain ⟨d1, d2, v, h1, h2, rfl, rfl⟩ := writeAccessor_ok.1 hd
    obtain ⟨k1, k2⟩ := pad h1
    exact (view k2 h2).trans k1
  | interleaved hd =>
    obtain ⟨d1, d2, v, h1, h2, rfl, rfl⟩ := writeAccessorsInterleaved_ok.1 hd
    obtain ⟨k1, k2⟩ := pad h1
    exact (view k2 h2).trans k1
  | view hd =>
    have := view h hd
    exact this

/-- Writing adds no buffer if there is one. -/
theorem History.buffers_length {doc doc' : Document} (h : History doc doc') (hne : doc.buffers ≠ []) :
    doc'.buffers.length = doc.buffers.length := by
  induction h with
  | nil => rfl
  | step op hp rest ih =>
    next doc doc' =>
    have key : (op.run doc).1.buffers.length = doc.buffers.length := by
      cases hr : op.run doc with
      | mk d res =>
        cases res with
        | panic w => rw [hr] at hp; cases hp
        | err e =>
          rcases WriteOp.run_err hr with rfl | h'
          · rfl
          · obtain ⟨b, -, -, rfl⟩ := ensurePadding_ok.1 h'
            exact withLast_length hne
        | ok u =>
          obtain ⟨d1, hc, hs⟩ := WriteOp.run_core hr
          have : d.buffers = d1.buffers := by rw [hs.rest]
          show d.buffers.length = _
          rw [this]
          exact core_length hne hc
    rw [ih (by rw [← List.length_pos_iff, key]; exact List.length_pos_iff.2 hne), key]

/-- After writing at least one element the last buffer is not empty. -/
theorem last_nonempty {target : Target} {data : Slice} {d1 d2 : Document} {i : Nat} (h : writeAccessor target data d1 = (d2, .ok i))
    (hne : data.data ≠ []) : ∃ b, d2.buffers.getLast? = some (some b) ∧ b.data ≠ [] := by
  obtain ⟨e1, e2, v, h1, h2, rfl, rfl⟩ := writeAccessor_ok.1 h
  obtain ⟨stride, size, b, bytes, hv, hb, hle, hw, rfl, rfl⟩ := writeBufferViews_ok.1 h2
  refine ⟨_, List.getLast?_concat, ?_⟩
  have hl := (writeAll_prefix hw).2
  have hx := (view_bounds hv hle hw).2 data (by simp)
  have := List.length_pos_iff.2 hne
  intro h0
  simp only at h0
  rw [h0] at hl
  simp at hl
  omega

/-- Documents that are the same up to how buffers and images are stored read the same. -/
theorem same_data {bin : Bool} {doc doc' : Document} (h : SameDocument bin doc doc') : doc'.accessors = doc.accessors ∧ SameData doc doc' :=
  ⟨show doc'.accessors = _ from (congrArg Document.accessors h.rest :), ⟨(congrArg Document.bufferViews h.rest :), sameBuffers_data h.buffers⟩⟩

/-- C49, reading: everything that can be read from a document can be read in the same way from what was read back, for all
the round trips of C31, C39, C48 and C60. -/
theorem C49_reads_same (bin : Bool) (doc doc' : Document) (h : SameDocument bin doc doc') :
    doc'.accessors = doc.accessors ∧ doc'.bufferViews = doc.bufferViews ∧
    (∀ acr buffer p, readAccessor doc' acr buffer p = readAccessor doc acr buffer p) ∧
    ∀ bv, readBufferView doc' bv = readBufferView doc bv :=
  have hs := (same_data h).2
  ⟨(same_data h).1, hs.views, fun acr buffer p => by rw [hs.readAccessor], hs.readBufferView⟩

theorem grow_storable {r : Registry} {n : Nat} {bin : Bool} {d : Document} (g : Growable r n bin d)
    (h : ∀ b, d.buffers.getLast? = some (some b) → b.data ≠ []) : AllStorable bin d.buffers := by
  rcases g.buffers with h0 | ⟨bs, b, h1, h2, h3, h4⟩
  · rw [h0]; trivial
  · rw [h1] at h ⊢
    exact allStorable_concat h2 h3 h4 (h b List.getLast?_concat)

/-- C49 in part: what `WriteAccessor` wrote to a document, between other calls that JSON can record, is read back after `Save` or
`SaveBinary` and `Open`. The last buffer of the document had no URI or that of a file. Missing: documents whose last buffer is
embedded. -/
theorem C49_written_survives_partial (E : Env) (hf : FloatLaws E.io) (U : UrlLib) (base : Bytes) (bin : Bool) (n : Nat) (hn : n + 7 ≤ 10000)
    (d0 d1 d2 d3 : Document) (target : Target) (data : Slice) (i : Nat) (hg : Growable E.reg n bin d0) (h1 : PlainHistory d0 d1)
    (hw : writeAccessor target data d1 = (d2, .ok i)) (hne : data.data ≠ []) (h2 : PlainHistory d2 d3)
    (hs1 : d3.buffers.length < 9223372036854775808) (hs2 : d3.bufferViews.length < 9223372036854775808)
    (hdis : DistinctFiles d3.buffers) (hav : Avoids base d3.buffers) (fs : CreateFS) (hfs : Working fs)
    (hlb : ∀ b, d3.buffers.head? = some (some b) → b.byteLength < 4294967296)
    (hl : (encode E U { asBinary := bin } d3 {} none).sink.out.length < 4294967296) :
    (save E U d3 base bin fs [] none).1 = .ok () ∧
    ∃ doc' acr, openFile E U base (save E U d3 base bin fs [] none).2 = .ok doc' ∧ doc'.accessors[i]? = some (some acr) ∧
      ∀ buffer p, (data.ty = .base .u32 .m3 → buffer = []) → readAccessor doc' acr buffer p = .ok (back data) := by
  have all : PlainHistory d0 d3 := by
    have step : PlainHistory d1 d3 := by
      have hr : (WriteOp.accessor target data).run d1 = (d2, .ok ()) := discard_ok.2 ⟨i, hw⟩
      exact .step (.accessor target data) trivial (by rw [hr]; rfl) (by rw [hr]; exact h2)
    clear hw h2 hg hdis hav hlb hl
    induction h1 with
    | nil => exact step
    | step op hp hx _ ih => exact .step op hp hx (ih step)
  have g := all.grow hg hs1 hs2
  have e := h2.history.extends
  have hst : AllStorable bin d3.buffers := by
    refine grow_storable g fun b hb => ?_
    obtain ⟨c, hc, hcn⟩ := last_nonempty hw hne
    have hlen := h2.history.buffers_length (by intro h0; rw [h0] at hc; cases hc)
    rw [List.getLast?_eq_getElem?] at hb hc
    obtain ⟨p', hp', hbe⟩ := e.buffers _ _ hc
    rw [hlen, hp'] at hb
    cases hb
    rcases hbe with h | ⟨b0, dt, len, hb0, hb1, hpre⟩
    · cases h; exact hcn
    · cases hb0
      cases hb1
      intro h0
      simp only at h0
      rw [h0] at hpre
      exact hcn (List.prefix_nil.1 hpre)
  obtain ⟨k1, ⟨doc', k2, k3⟩, -⟩ := C60_save_open_partial E hf U base bin n hn d3 g.ok hst hdis hav g.images fs hfs hlb hl
  obtain ⟨acr, a1, a2⟩ := C09_written_reads_back target data d1 d2 i hw
  obtain ⟨q1, q2⟩ := same_data k3
  refine ⟨k1, doc', acr, k2, by rw [q1]; exact e.accessor a1, fun buffer p hb => ?_⟩
  rw [q2.readAccessor]
  exact e.readAccessor (a2 buffer p hb)

theorem threeBuffers_growable (r : Registry) (bin : Bool) : Growable r 0 bin threeBuffers := by
  refine ⟨threeBuffers_ok r, by simp [threeBuffers], .inr ⟨[_, _], _, rfl, ?_, .inr ⟨_, plain_file dirPlain, dirName⟩, rfl⟩⟩
  refine ⟨by decide, ?_, by decide, .inline rfl rfl (by simp), trivial⟩
  cases bin with
  | false => exact .inline rfl rfl (by simp)
  | true => exact .chunk rfl rfl rfl

theorem path_self {u name : Bytes} (h : (37 : UInt8) ∉ u) (hu : UriPath u name) : name = u := escaped_unique hu.2 (escaped_self h)

/-- Files are different if their names are. -/
theorem distinct_of_uris {l : List (Option Buffer)} (hp : ∀ u, some u ∈ l.map (·.map (·.uri)) → (37 : UInt8) ∉ u)
    (h : (l.map (·.map (·.uri))).Pairwise fun x y => x = some [] ∨ x ≠ y) : DistinctFiles l := by
  unfold DistinctFiles
  rw [List.pairwise_map] at h
  refine h.imp_of_mem fun {x y} hx hy hxy b c hb hc _ _ name h1 h2 => ?_
  subst hb hc
  have e1 := path_self (hp b.uri (List.mem_map.2 ⟨_, hx, rfl⟩)) h1
  have e2 := path_self (hp c.uri (List.mem_map.2 ⟨_, hy, rfl⟩)) h2
  rcases hxy with hxy | hxy
  · exact path_ne h1 (by simpa using hxy)
  · exact hxy (by simp [← e1, ← e2])

theorem avoids_of_uris {l : List (Option Buffer)} {base : Bytes} (hp : ∀ u, some u ∈ l.map (·.map (·.uri)) → (37 : UInt8) ∉ u)
    (h : some base ∉ l.map (·.map (·.uri))) : Avoids base l := by
  intro b hb _ hn
  have e := path_self (hp b.uri (List.mem_map.2 ⟨_, hb, rfl⟩)) hn
  exact h (List.mem_map.2 ⟨_, hb, by simp [e]⟩)

/-- The document with three buffers after writing three indices and an image. -/
def withIndices : Document := (writeAccessor targetElementArrayBuffer ⟨.base .u16 .sc, [0, 1, 2]⟩ threeBuffers).1
def withImage : Document := ((WriteOp.image b!"picture" b!"image/png" (.ok [1, 2, 3])).run withIndices).1

theorem withImage_uris : withImage.buffers.map (·.map (·.uri)) = [some [], some [], some b!"dir/a.bin"] := by decide +kernel

theorem withImage_plain : ∀ u, some u ∈ withImage.buffers.map (·.map (·.uri)) → (37 : UInt8) ∉ u := by
  rw [withImage_uris]
  intro u hu
  simp only [List.mem_cons, Option.some.injEq, List.not_mem_nil, or_false] at hu
  rcases hu with rfl | rfl | rfl <;> decide

/-- The hypotheses are met in both formats: the indices are accessor 1. -/
example : Growable [] 0 true threeBuffers ∧ Growable [] 0 false threeBuffers ∧
    (writeAccessor targetElementArrayBuffer ⟨.base .u16 .sc, [0, 1, 2]⟩ threeBuffers).2 = .ok 1 ∧
    PlainHistory withIndices withImage ∧ withImage.buffers.length = 3 ∧ withImage.bufferViews.length = 3 ∧
    DistinctFiles withImage.buffers ∧ Avoids b!"t.gltf" withImage.buffers ∧
    (encode witnessEnv witnessUrl {} withImage {} none).sink.out.length < 4294967296 := by
  have h1 : (writeAccessor targetElementArrayBuffer ⟨.base .u16 .sc, [0, 1, 2]⟩ threeBuffers).2 = .ok 1 := by decide +kernel
  have h2 : withImage.buffers.length = 3 ∧ withImage.bufferViews.length = 3 := by decide +kernel
  have h3 : (encode witnessEnv witnessUrl {} withImage {} none).sink.out.length < 4294967296 := by decide +kernel
  have h4 : PlainHistory withIndices withImage := 
    .step (.image b!"picture" b!"image/png" (.ok [1, 2, 3])) ⟨utf8_ascii (by decide), utf8_ascii (by decide)⟩ (by decide +kernel) (.nil _)
  exact ⟨threeBuffers_growable _ _, threeBuffers_growable _ _, h1, h4, h2.1, h2.2, distinct_of_uris withImage_plain (by rw [withImage_uris]; decide),
    avoids_of_uris withImage_plain (by rw [withImage_uris]; decide), h3⟩

/-- Positions with finite coordinates: the corners of a triangle. -/
example : PlainOp (.position [⟨⟨0⟩, ⟨0⟩, ⟨0⟩⟩, ⟨⟨0x3f800000⟩, ⟨0⟩, ⟨0⟩⟩, ⟨⟨0⟩, ⟨0x3f800000⟩, ⟨0⟩⟩]) := by
  unfold PlainOp FiniteVec
  decide +kernel

/-! ### What is missing is false -/

/-- A document whose buffer of four bytes is embedded. -/
def embeddedText : Bytes := b!"{\"buffers\":[{\"byteLength\":4,\"uri\":\"data:application/octet-stream;base64,AQIDBA==\"}],\"asset\":{\"version\":\"2.0\"}}"

/-- The accessor that was written, read after opening, writing, saving and opening again. -/
def openWriteSave (text : Bytes) (data : Slice) : Option (Nat × Res Slice × Res Slice) :=
  match decodeBytes witnessDec text with
  | .ok d0 =>
    match writeAccessor targetNone data d0 with
    | (d1, .ok i) =>
      match decodeBytes witnessDec (encode witnessEnv witnessUrl { asBinary := false } d1 {} none).sink.out with
      | .ok d2 =>
        let get (d : Document) : Res Slice := match d.accessors[i]? with
          | some (some a) => readAccessor d a [] ⟨[], [], []⟩
          | _ => .panic ""
        some (i, get d1, get d2)
      | _ => none
    | _ => none
  | _ => none

/-- Data of a result. -/
def bytesOf : Res Slice → Option Bytes
  | .ok ⟨.base .u8 .sc, l⟩ => some l
  | _ => none

/-- C49 is false: data written to a document whose last buffer is embedded is lost, because the encoder keeps the data URI
of the buffer. The document is saved and opened without errors. -/
theorem C49_full_fails :
    (openWriteSave embeddedText ⟨.base .u8 .sc, [5, 6, 7, 8]⟩).map (fun r => (r.1, bytesOf r.2.1, bytesOf r.2.2)) = some (0, some [5, 6, 7, 8], none) := by
  decide +kernel

end Gltf
