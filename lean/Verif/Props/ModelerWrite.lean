/-
Properties C09-C15 and C19: the writing functions of package modeler.
-/
import Verif.Lemmas.Back

namespace Gltf

open Spec

/-! ### C09 A written accessor reads back -/

/-- C09: the accessor at the returned index reads back the data that was written (colours as
arrays), whatever the scratch buffer and the pools contain. A scratch buffer cannot be used for
3x3 matrices of 32 bit integers (see C07). -/
theorem C09_written_reads_back (target : Target) (data : Slice) (doc doc' : Document) (i : Nat)
    (h : writeAccessor target data doc = (doc', .ok i)) :
    ∃ acr, doc'.accessors[i]? = some (some acr) ∧
      ∀ buffer p, (data.ty = .base .u32 .m3 → buffer = []) → readAccessor doc' acr buffer p = .ok (back data) := by
  obtain ⟨acr, h1, -, -, -, h2⟩ := written_back h (SameDoc.refl doc')
  refine ⟨acr, h1, fun buffer p hx => h2 buffer p ?_⟩
  rintro ⟨hc, ht, hb⟩
  apply hb
  apply hx
  cases hd : data.ty with
  | base k s => rw [hd] at hc ht; cases k <;> cases s <;> first | rfl | (cases hc; done) | (cases ht; done)
  | rgba => rw [hd] at hc; cases hc
  | rgba64 => rw [hd] at hc; cases hc

/-- C09, success: `WriteAccessor` succeeds whenever the last buffer is not nil and the data fits in
the address space. -/
theorem C09_write_succeeds (target : Target) (data : Slice) (doc : Document) (m : Nat)
    (hl : LastLength doc m) (hr : roundUp4 m + byteCount data ≤ maxAlloc) :
    ∃ doc', writeAccessor target data doc = (doc', .ok doc.accessors.length) := writeAccessor_succeeds hl hr

/-- Two matrices of unsigned bytes written after an odd number of bytes. -/
example : ∃ doc' acr, writeAccessor targetArrayBuffer ⟨.base .u8 .m2, [⟨⟨1, 2⟩, ⟨3, 4⟩⟩, ⟨⟨5, 6⟩, ⟨7, 8⟩⟩]⟩
      { buffers := [some { data := [9, 9, 9] }] } = (doc', .ok 0) ∧ doc'.accessors[0]? = some (some acr) ∧
    ∀ p, readAccessor doc' acr [] p = .ok ⟨.base .u8 .m2, [⟨⟨1, 2⟩, ⟨3, 4⟩⟩, ⟨⟨5, 6⟩, ⟨7, 8⟩⟩]⟩ := by
  obtain ⟨doc', h⟩ := C09_write_succeeds targetArrayBuffer ⟨.base .u8 .m2, [⟨⟨1, 2⟩, ⟨3, 4⟩⟩, ⟨⟨5, 6⟩, ⟨7, 8⟩⟩]⟩
      { buffers := [some { data := [9, 9, 9] }] } 3 (.inr ⟨[], _, rfl, rfl⟩) (by decide)
  obtain ⟨acr, h1, h2⟩ := C09_written_reads_back _ _ _ _ _ h
  exact ⟨doc', acr, h, h1, fun p => h2 [] p (fun _ => rfl)⟩

/-! ### C10 Later writes never disturb earlier accessors -/

/-- C10: whatever was read successfully before a history of writes is read again after it. -/
theorem C10_later_writes_keep (doc doc' : Document) (h : History doc doc') :
    (∀ (i : Nat) (acr : Accessor) buffer p s, doc.accessors[i]? = some (some acr) →
      readAccessor doc acr buffer p = .ok s →
        doc'.accessors[i]? = some (some acr) ∧ readAccessor doc' acr buffer p = .ok s) ∧
    (∀ (i : Nat) (bv : BufferView) bytes, doc.bufferViews[i]? = some (some bv) → readBufferView doc bv = .ok bytes →
        doc'.bufferViews[i]? = some (some bv) ∧ readBufferView doc' bv = .ok bytes) :=
  ⟨fun _ _ _ _ _ h1 h2 => ⟨h.extends.accessor h1, h.extends.readAccessor h2⟩,
    fun _ _ _ h1 h2 => ⟨h.extends.view h1, h.extends.readBufferView h2⟩⟩

/-- A history with an image of five bytes and a failed interleaved write. -/
example : ∃ doc', History {} doc' ∧ doc'.bufferViews.length = 1 ∧
    doc'.buffers.map (·.map fun b => (b.byteLength, b.data)) = [some (8, [1, 2, 3, 4, 5, 0, 0, 0])] := by
  refine ⟨_, .step (.image b!"a" b!"image/png" (.ok [1, 2, 3, 4, 5])) (by decide +kernel)
    (.step (.accessorsInterleaved [⟨.base .u8 .sc, [1]⟩, ⟨.base .u8 .sc, []⟩]) (by decide +kernel) (.nil _)), ?_, ?_⟩ <;>
  decide +kernel

/-! ### C11 Documents built with the modeler stay well formed -/

/-- C11: a well-formed document stays well formed. -/
theorem C11_stays_well_formed (doc doc' : Document) (hw : WellFormed doc) (h : History doc doc') : WellFormed doc' :=
  h.wf hw

/-- C11 for the documents of `NewDocument`. -/
theorem C11_new_document (doc' : Document) (h : History newDocument doc') : WellFormed doc' :=
  h.wf ⟨by simp [newDocument], by simp [newDocument], by simp [newDocument]⟩

example : WellFormed { buffers := [some { byteLength := 8, data := [1, 2, 3, 4, 5, 6, 7, 8] }],
                       bufferViews := [some { buffer := 0, byteOffset := 4, byteLength := 4 }],
                       accessors := [some { bufferView := some 0, componentType := .ushort, type := .scalar, count := 2 }] } := by
  refine ⟨by simp, ?_, ?_⟩
  · simp only [List.mem_singleton, forall_eq]
    exact ⟨_, rfl, 0, 4, 4, rfl, rfl, rfl, _, rfl, by decide⟩
  · simp only [List.mem_singleton, forall_eq]
    exact ⟨_, rfl, 0, 0, 2, 0, 4, _, .u16, .sc, rfl, rfl, rfl, rfl, rfl, rfl, rfl, rfl, by decide⟩

/-! ### C12 Accessor data is four byte aligned -/

/-- C12 for one accessor: at most three zero bytes are inserted, then comes the buffer view of the
accessor, at a multiple of four, and the accessor starts where its buffer view starts. -/
theorem C12_accessor_aligned (target : Target) (data : Slice) (doc doc' : Document) (i : Nat)
    (h : writeAccessor target data doc = (doc', .ok i)) :
    ∃ acr bv old k payload, doc'.accessors[i]? = some (some acr) ∧ acr.byteOffset = 0 ∧ ViewOf doc' acr bv ∧
      LastData doc old ∧ LastData doc' (old ++ List.replicate k 0 ++ payload) ∧ k ≤ 3 ∧
      bv.buffer = (doc'.buffers.length : Int) - 1 ∧ bv.byteOffset = ((old.length + k : Nat) : Int) ∧
      bv.byteLength = payload.length ∧ (old.length + k) % 4 = 0 := by
  obtain ⟨d1, d2, v, h1, h2, rfl, rfl⟩ := writeAccessor_ok.1 h
  obtain ⟨old, k, payload, bv, k1, k2, k3, k4, k5, k6, k7, k8, -⟩ := padded_view h1 h2
  refine ⟨{ bufferView := some (v : Int), byteOffset := 0, componentType := data.ty.c, type := data.ty.t, count := data.data.length },
    bv, old, k, payload, ?_, rfl, ⟨v, rfl, k4⟩, k1, k2, k3, k8, k5, k7, k6⟩
  · show (d2.accessors ++ [_])[d2.accessors.length]? = _
    rw [List.getElem?_append_right (Nat.le_refl _), Nat.sub_self]; rfl

/-- C12 for an interleaved write: the same for its buffer view. -/
theorem C12_interleaved_aligned (data : List Slice) (doc doc' : Document) (is : List Nat)
    (h : writeAccessorsInterleaved data doc = (doc', .ok is)) :
    ∃ bv old k payload, doc'.bufferViews = doc.bufferViews ++ [some bv] ∧
      (∀ i ∈ is, ∃ acr, doc'.accessors[i]? = some (some acr) ∧ ViewOf doc' acr bv) ∧
      LastData doc old ∧ LastData doc' (old ++ List.replicate k 0 ++ payload) ∧ k ≤ 3 ∧
      bv.buffer = (doc'.buffers.length : Int) - 1 ∧ bv.byteOffset = ((old.length + k : Nat) : Int) ∧
      bv.byteLength = payload.length ∧ (old.length + k) % 4 = 0 := by
  obtain ⟨d1, d2, v, h1, h2, rfl, rfl⟩ := writeAccessorsInterleaved_ok.1 h
  obtain ⟨old, k, payload, bv, k1, k2, k3, k4, k5, k6, k7, k8, k9⟩ := padded_view h1 h2
  refine ⟨bv, old, k, payload, ?_, ?_, k1, k2, k3, k8, k5, k7, k6⟩
  · show d2.bufferViews = _
    have hv1 := (ensurePadding_accessors h1).2.1
    have := (writeBufferViews_accessors h2).2.2
    have hpre : d1.bufferViews <+: d2.bufferViews := by
      have := (extends_writeBufferViews targetArrayBuffer data d1).bufferViews
      rwa [h2] at this
    rw [hv1] at hpre
    obtain ⟨l, hl⟩ := hpre
    have hlen := congrArg List.length hl
    simp only [List.length_append] at hlen
    obtain ⟨x, rfl⟩ : ∃ x, l = [x] := List.length_eq_one_iff.1 (by omega)
    rw [← hl] at k4 ⊢
    rw [List.getElem?_append_right (by omega), k9, Nat.sub_self] at k4
    simp only [List.getElem?_cons_zero, Option.some.injEq] at k4
    rw [k4]
  · intro i hi
    simp only [List.mem_map, List.mem_range] at hi
    obtain ⟨j, hj, rfl⟩ := hi
    have hd : data[j]? = some data[j] := List.getElem?_eq_getElem hj
    refine ⟨{ bufferView := some (v : Int), byteOffset := ((0 + rowSize (data.take j) : Nat) : Int),
              componentType := data[j].ty.c, type := data[j].ty.t, count := data[j].data.length }, ?_, ⟨v, rfl, k4⟩⟩
    · show (d2.accessors ++ (newAccessors v 0 data).map some)[d2.accessors.length + j]? = _
      rw [List.getElem?_append_right (by omega), Nat.add_sub_cancel_left, List.getElem?_map, newAccessors_getElem? hd]
      rfl

/-- The buffer views of all accessors are aligned. -/
def AllAligned (doc : Document) : Prop :=
  ∀ (i : Nat) (acr : Accessor), doc.accessors[i]? = some (some acr) → ∃ bv, ViewOf doc acr bv ∧ bv.byteOffset % 4 = 0

theorem allAligned_extends {d d' : Document} (h : AllAligned d) (e : Extends d d')
    (hn : ∀ (i : Nat) (acr : Accessor), d.accessors.length ≤ i → d'.accessors[i]? = some (some acr) →
      ∃ bv, ViewOf d' acr bv ∧ bv.byteOffset % 4 = 0) : AllAligned d' := by
  intro i acr ha
  by_cases hi : i < d.accessors.length
  · have := e.accessor (List.getElem?_eq_getElem hi)
    rw [ha] at this
    have h2 : d.accessors[i]? = some (some acr) := by
      rw [List.getElem?_eq_getElem hi]; exact this.symm
    obtain ⟨bv, ⟨v, hv1, hv2⟩, hb⟩ := h i acr h2
    exact ⟨bv, ⟨v, hv1, e.view hv2⟩, hb⟩
  · exact hn i acr (by omega) ha

/-- C12 over histories: the buffer view of every accessor is aligned, whatever else was written. -/
theorem C12_history_aligned (doc doc' : Document) (ha : AllAligned doc) (h : History doc doc') : AllAligned doc' := by
  induction h with
  | nil => exact ha
  | @step doc doc' op hp _ ih =>
    apply ih
    have hext := op.run_extends doc
    cases hr : op.run doc with
    | mk d r =>
      rw [hr] at hp hext
      cases r with
      | panic w => cases hp
      | err e =>
        rcases WriteOp.run_err hr with rfl | h'
        · exact ha
        · have := (ensurePadding_accessors h').1
          apply allAligned_extends ha hext
          intro i acr hi hget
          have hlt := getElem?_lt hget
          simp only at hlt
          rw [this] at hlt
          omega
      | ok u =>
        obtain ⟨d1, hc, hs⟩ := WriteOp.run_core hr
        have hbv : d.bufferViews = d1.bufferViews := by rw [hs.rest]
        have key : AllAligned d1 := by
          cases hc with
          | @accessor target data _ i hw =>
            have hx := extends_writeAccessor target data doc
            rw [hw] at hx
            have hidx := writeAccessor_index hw
            obtain ⟨acr, bv, old, k, payload, k1, -, k2, -, -, -, -, k3, -, k4⟩ := C12_accessor_aligned _ _ _ _ _ hw
            apply allAligned_extends ha hx
            intro j acr' hj hget
            have := getElem?_lt hget
            simp only at this
            have : j = i := by omega
            subst this
            simp only at hget
            rw [k1] at hget
            cases hget
            exact ⟨bv, k2, by omega⟩
          | @interleaved data _ is hw =>
            have hx := extends_writeAccessorsInterleaved data doc
            rw [hw] at hx
            have hidx := writeAccessorsInterleaved_index hw
            obtain ⟨bv, old, k, payload, -, k1, -, -, -, -, k3, -, k4⟩ := C12_interleaved_aligned _ _ _ _ hw
            apply allAligned_extends ha hx
            intro j acr' hj hget
            have hlt := getElem?_lt hget
            simp only at hlt hget
            obtain ⟨acr, k5, k6⟩ := k1 j (by
              rw [hidx.1]
              simp only [List.mem_map, List.mem_range]
              exact ⟨j - doc.accessors.length, by omega, by omega⟩)
            rw [k5] at hget
            cases hget
            exact ⟨bv, k6, by omega⟩
          | @view target data d2 v images hw =>
            have hx := extends_writeBufferViews target data doc
            rw [hw] at hx
            have hacc := (writeBufferViews_accessors hw).1
            have : AllAligned d2 := by
              apply allAligned_extends ha hx
              intro j acr' hj hget
              have hlt := getElem?_lt hget
              simp only at hlt
              rw [hacc] at hlt
              omega
            exact this
        intro i acr hget
        obtain ⟨a, h1, h2⟩ := hs.back hget
        rcases h2 with rfl | ⟨x, mn, mx, nm, rfl, hx⟩
        · obtain ⟨bv, ⟨v, hv1, hv2⟩, hb⟩ := key i acr h1
          exact ⟨bv, ⟨v, hv1, by rw [hbv]; exact hv2⟩, hb⟩
        · obtain ⟨bv, ⟨v, hv1, hv2⟩, hb⟩ := key i x h1
          cases hx
          exact ⟨bv, ⟨v, hv1, by rw [hbv]; exact hv2⟩, hb⟩

/-- Three bytes of an image, then an accessor: one zero byte of padding. -/
example : ∃ doc', writeAccessor targetArrayBuffer ⟨.base .u16 .sc, [7]⟩
      { buffers := [some { byteLength := 3, data := [9, 9, 9] }] } = (doc', .ok 0) ∧
    doc'.buffers.map (·.map fun b => (b.byteLength, b.data)) = [some (6, [9, 9, 9, 0, 7, 0])] :=
  ⟨_, Prod.ext rfl (by decide +kernel), by decide +kernel⟩

/-! ### C13 Interleaved accessors read back -/

/-- The full statement of C13. -/
def C13_full : Prop :=
  ∀ (data : List Slice) (doc doc' : Document) (is : List Nat), writeAccessorsInterleaved data doc = (doc', .ok is) →
    is.length = data.length ∧
    ∀ (j : Nat) (d : Slice), data[j]? = some d → ∃ i acr, is[j]? = some i ∧ doc'.accessors[i]? = some (some acr) ∧
      ∀ p, readAccessor doc' acr [] p = .ok (back d)

/-- A result with a known outcome. -/
theorem outcome {α : Type} {x : Document × Res α} {r : Res α} (h : x.2 = r) : x = (x.1, r) := by rw [← h]

/-- C13 is false of the code: a `[]uint8` is written without its stride. -/
theorem C13_full_fails : ¬ C13_full := by
  intro h
  have hw : ∃ doc', writeAccessorsInterleaved [⟨.base .u8 .sc, [1, 2]⟩, ⟨.base .u8 .sc, [3, 4]⟩] {} = (doc', .ok [0, 1]) ∧
      (doc'.accessors[0]?.join.map fun acr => readAccessor doc' acr [] ⟨[], [], []⟩)
        = some (.ok ⟨.base .u8 .sc, [1, 3]⟩) := ⟨_, outcome (by decide +kernel), by decide +kernel⟩
  obtain ⟨doc', hw, h3⟩ := hw
  obtain ⟨-, hall⟩ := h _ _ _ _ hw
  obtain ⟨i, acr, hi, ha, hr⟩ := hall 0 _ rfl
  simp only [List.getElem?_cons_zero, Option.some.injEq] at hi
  subst hi
  rw [ha] at h3
  simp only [Option.join_some, Option.map_some, Option.some.injEq] at h3
  have := h3.symm.trans (hr ⟨[], [], []⟩)
  revert this
  decide +kernel

/-- C13 for everything but `[]int8` and `[]uint8` slices interleaved with others (missing part: for
these it is false, except `[]uint8` with at most one element). -/
theorem C13_interleaved_reads_back_partial (data : List Slice) (doc doc' : Document) (is : List Nat)
    (h : writeAccessorsInterleaved data doc = (doc', .ok is)) (hok : Interleavable data) :
    is.length = data.length ∧
    ∀ (j : Nat) (d : Slice), data[j]? = some d → ∃ i acr, is[j]? = some i ∧ doc'.accessors[i]? = some (some acr) ∧
      ∀ p, readAccessor doc' acr [] p = .ok (back d) := by
  refine ⟨?_, fun j d hd => ?_⟩
  · rw [(writeAccessorsInterleaved_index h).1]; simp
  · obtain ⟨i, acr, v, bv, k1, -, k2, -, -, k3⟩ := interleaved_back h hok hd
    exact ⟨i, acr, k1, k2, k3⟩

/-- Positions interleaved with byte joints. -/
example : ∃ doc' is, writeAccessorsInterleaved
      [⟨.base .f32 .v3, [⟨⟨1⟩, ⟨2⟩, ⟨3⟩⟩, ⟨⟨4⟩, ⟨5⟩, ⟨6⟩⟩]⟩, ⟨.base .u8 .v4, [⟨1, 2, 3, 4⟩, ⟨5, 6, 7, 8⟩]⟩] {} = (doc', .ok is) ∧
    Interleavable [⟨.base .f32 .v3, [⟨⟨1⟩, ⟨2⟩, ⟨3⟩⟩, ⟨⟨4⟩, ⟨5⟩, ⟨6⟩⟩]⟩, ⟨.base .u8 .v4, [⟨1, 2, 3, 4⟩, ⟨5, 6, 7, 8⟩]⟩] := by
  obtain ⟨a, b, c⟩ := writeAccessorsInterleaved_succeeds
    (data := [⟨.base .f32 .v3, [⟨⟨1⟩, ⟨2⟩, ⟨3⟩⟩, ⟨⟨4⟩, ⟨5⟩, ⟨6⟩⟩]⟩, ⟨.base .u8 .v4, [⟨1, 2, 3, 4⟩, ⟨5, 6, 7, 8⟩]⟩])
    (doc := {}) (n := 2) (m := 0) (by simp) (.inr (by decide)) (.inl ⟨rfl, rfl⟩) (by decide)
  exact ⟨a, b, c, .inr (by simp)⟩

/-! ### C14 Interleaved writes with different lengths are rejected cleanly -/

/-- Two of the slices have different lengths. -/
def LengthsDiffer (data : List Slice) : Prop := ∃ a ∈ data, ∃ b ∈ data, a.data.length ≠ b.data.length

/-- C14 for `WriteBufferViewInterleaved`: an error exactly for different lengths, and then the
document is as before. -/
theorem C14_buffer_view (data : List Slice) (doc : Document) :
    ((writeBufferViewInterleaved data doc).2.isErr = true ↔ LengthsDiffer data) ∧
    ((writeBufferViewInterleaved data doc).2.isErr = true → (writeBufferViewInterleaved data doc).1 = doc) := by
  have key : ∀ e, (writeBufferViewInterleaved data doc).2 = .err e → LengthsDiffer data ∧ (writeBufferViewInterleaved data doc).1 = doc := by
    intro e he
    have := writeBufferViews_err he
    exact ⟨viewSizes_err_differ this.1, this.2⟩
  refine ⟨⟨fun h => ?_, fun h => ?_⟩, fun h => ?_⟩
  · cases hr : (writeBufferViewInterleaved data doc).2 with
    | err e => exact (key e hr).1
    | ok a => rw [hr] at h; cases h
    | panic w => rw [hr] at h; cases h
  · unfold writeBufferViewInterleaved writeBufferViews
    rw [W.bind_def, viewSizes_differ h]; rfl
  · cases hr : (writeBufferViewInterleaved data doc).2 with
    | err e => exact (key e hr).2
    | ok a => rw [hr] at h; cases h
    | panic w => rw [hr] at h; cases h

/-- C14 for `WriteAccessorsInterleaved`: an error exactly for different lengths. The document has a
last buffer that is not nil and room for the padding. -/
theorem C14_accessors_error_iff (data : List Slice) (doc : Document) (m : Nat) (hl : LastLength doc m)
    (hr : roundUp4 m ≤ maxAlloc) :
    (writeAccessorsInterleaved data doc).2.isErr = true ↔ LengthsDiffer data := by
  constructor
  · intro h
    cases hres : writeAccessorsInterleaved data doc with
    | mk d r =>
      rw [hres] at h
      cases r with
      | ok a => cases h
      | panic w => cases h
      | err e => exact viewSizes_err_differ (writeAccessorsInterleaved_err hres).2
  · intro h
    obtain ⟨d1, h1, -⟩ := ensurePadding_succeeds hl hr
    have h2 := (C14_buffer_view data d1).1.2 h
    unfold writeAccessorsInterleaved
    rw [W.bind_def, h1]
    simp only
    rw [W.bind_def]
    cases hres : writeBufferViewInterleaved data d1 with
    | mk d r =>
      rw [hres] at h2
      cases r with
      | ok a => cases h2
      | panic w => cases h2
      | err e => rfl

/-- C14 for `WriteAccessorsInterleaved`, the document after an error: the same accessors, buffer
views and images; the last buffer, created if there was none, has got at most three zero bytes. -/
theorem C14_accessors_unchanged (data : List Slice) (doc doc' : Document) (e : Err)
    (h : writeAccessorsInterleaved data doc = (doc', .err e)) :
    LengthsDiffer data ∧ doc'.accessors = doc.accessors ∧ doc'.bufferViews = doc.bufferViews ∧ doc'.images = doc.images ∧
      Extends doc doc' ∧
      ∃ old k, LastData doc old ∧ LastData doc' (old ++ List.replicate k 0) ∧ k ≤ 3 := by
  have hx := extends_writeAccessorsInterleaved data doc
  rw [h] at hx
  obtain ⟨h1, h2⟩ := writeAccessorsInterleaved_err h
  obtain ⟨k1, k2, k3⟩ := ensurePadding_accessors h1
  obtain ⟨b, hb, -, rfl⟩ := ensurePadding_ok.1 h1
  refine ⟨viewSizes_err_differ h2, k1, k2, k3, hx, b.data, getPadding b.data.length, lastData_iff.2 ⟨b, hb, rfl⟩, ?_, ?_⟩
  · exact .inr ⟨_, _, rfl, rfl⟩
  · unfold getPadding; dsimp only; split <;> omega

example : LengthsDiffer [⟨.base .u8 .sc, [1, 2]⟩, ⟨.base .f32 .v3, []⟩] :=
  ⟨_, List.mem_cons_self, _, List.mem_cons_of_mem _ List.mem_cons_self, by decide⟩

/-! ### C15 Interleaved writes accept empty slices -/

/-- The full statement of C15. -/
def C15_full : Prop :=
  ∀ (data : List Slice) (doc : Document) (m : Nat), ¬ LengthsDiffer data → LastLength doc m →
    roundUp4 m + byteCounts data ≤ maxAlloc →
    (writeBufferViewInterleaved data doc).2.isPanic = false ∧ (writeAccessorsInterleaved data doc).2.isPanic = false

/-- C15 is false of the code: two empty slices panic. -/
theorem C15_full_fails : ¬ C15_full := by
  intro h
  have := h [⟨.base .u8 .sc, []⟩, ⟨.base .u8 .sc, []⟩] {} 0 (by rintro ⟨a, ha, b, hb, hab⟩; simp at ha hb; subst ha hb; simp at hab)
    (.inl ⟨rfl, rfl⟩) (by decide)
  revert this
  decide +kernel

/-- C15 when the slices are not empty, or there is at most one (missing part: two or more empty
slices, which panic). -/
theorem C15_interleaved_succeeds_partial (data : List Slice) (doc : Document) (m : Nat) (hd : ¬ LengthsDiffer data)
    (h0 : data.length ≤ 1 ∨ ∀ d ∈ data, d.data ≠ []) (hl : LastLength doc m)
    (hr : roundUp4 m + byteCounts data ≤ maxAlloc) :
    (∃ doc' i, writeBufferViewInterleaved data doc = (doc', .ok i)) ∧
    (∃ doc' is, writeAccessorsInterleaved data doc = (doc', .ok is)) := by
  obtain ⟨n, hn, hn0⟩ : ∃ n, (∀ d ∈ data, d.data.length = n) ∧ (data.length ≤ 1 ∨ 0 < n) := by
    cases data with
    | nil => exact ⟨0, by simp, .inl (by simp)⟩
    | cons d ds =>
      refine ⟨d.data.length, ?_, ?_⟩
      · intro x hx
        apply Classical.byContradiction
        intro hne
        exact hd ⟨x, hx, d, List.mem_cons_self, hne⟩
      · rcases h0 with h0 | h0
        · exact .inl h0
        · right; exact List.length_pos_iff.2 (h0 d List.mem_cons_self)
  refine ⟨?_, writeAccessorsInterleaved_succeeds hn hn0 hl hr⟩
  obtain ⟨doc', h⟩ := writeBufferViews_succeeds (target := targetArrayBuffer) hn hn0 hl (by
    have : m ≤ roundUp4 m := by unfold roundUp4; omega
    omega)
  exact ⟨doc', _, h⟩

theorem writeBufferViews_empty {target : Target} {data : List Slice} {doc doc' : Document} {i : Nat}
    (h2 : 2 ≤ data.length) (h0 : ∀ d ∈ data, d.data = []) : writeBufferViews target data doc ≠ (doc', .ok i) := by
  intro h
  obtain ⟨stride, size, b, bytes, hv, -, -, hw, -, -⟩ := writeBufferViews_ok.1 h
  obtain ⟨d, e, ds, rfl⟩ : ∃ d e ds, data = d :: e :: ds := by
    match data, h2 with
    | d :: e :: ds, _ => exact ⟨d, e, ds, rfl⟩
  have hs : size = 0 := by
    rcases viewSizes_cases hv with ⟨h, -⟩ | ⟨n, hn, -, rfl, -⟩
    · cases h
    · have := hn d (by simp)
      rw [h0 d (by simp)] at this
      simp [← this]
  subst hs
  rw [writeAll] at hw
  obtain ⟨b1, h1, hw⟩ := Res.bind_eq_ok.1 hw
  have hl := (withSliceFrom_ok h1 fun t t' h => writeIgnore_length h).1
  rw [writeAll] at hw
  obtain ⟨b2, h3, hw⟩ := Res.bind_eq_ok.1 hw
  unfold withSliceFrom at h3
  split at h3
  · rename_i hh
    have : 0 < sizeOfElement d.ty.c d.ty.t := by
      generalize d.ty = t
      cases t with
      | base k s => cases k <;> cases s <;> decide
      | rgba => decide
      | rgba64 => decide
    simp at hl
    omega
  · cases h3

/-- C15, exactly: slices of the same length make the interleaved writes panic if and only if there are two or more and
they are empty. -/
theorem C15_panic_iff (data : List Slice) (doc : Document) (m : Nat) (hd : ¬ LengthsDiffer data) (hl : LastLength doc m)
    (hr : roundUp4 m + byteCounts data ≤ maxAlloc) :
    ((writeBufferViewInterleaved data doc).2.isPanic = true ↔ 2 ≤ data.length ∧ ∀ d ∈ data, d.data = []) ∧
    ((writeAccessorsInterleaved data doc).2.isPanic = true ↔ 2 ≤ data.length ∧ ∀ d ∈ data, d.data = []) := by
  have key : (2 ≤ data.length ∧ ∀ d ∈ data, d.data = []) ∨ (data.length ≤ 1 ∨ ∀ d ∈ data, d.data ≠ []) := by
    by_cases h2 : 2 ≤ data.length
    · by_cases h : ∃ d ∈ data, d.data = []
      · obtain ⟨d, hm, he⟩ := h
        refine .inl ⟨h2, fun x hx => ?_⟩
        apply Classical.byContradiction
        intro hne
        exact hd ⟨x, hx, d, hm, fun e => hne (by rw [he] at e; simpa using e)⟩
      · exact .inr (.inr fun d hm he => h ⟨d, hm, he⟩)
    · exact .inr (.inl (by omega))
  rcases key with key | key
  · refine ⟨⟨fun _ => key, fun _ => ?_⟩, ⟨fun _ => key, fun _ => ?_⟩⟩
    · cases hx : writeBufferViewInterleaved data doc with
      | mk d r =>
        cases r with
        | panic w => rfl
        | ok i => exact absurd hx (writeBufferViews_empty key.1 key.2)
        | err e => exact absurd ((C14_buffer_view data doc).1.1 (by rw [hx]; rfl)) hd
    · cases hx : writeAccessorsInterleaved data doc with
      | mk d r =>
        cases r with
        | panic w => rfl
        | ok i =>
          obtain ⟨d1, d2, j, -, h2, -⟩ := writeAccessorsInterleaved_ok.1 hx
          exact absurd h2 (writeBufferViews_empty key.1 key.2)
        | err e => exact absurd ((C14_accessors_error_iff data doc m hl (by omega)).1 (by rw [hx]; rfl)) hd
  · obtain ⟨⟨d1, i, h1⟩, d2, is, h2⟩ := C15_interleaved_succeeds_partial data doc m hd key hl hr
    rw [h1, h2]
    have : ¬ (2 ≤ data.length ∧ ∀ d ∈ data, d.data = []) := by
      rintro ⟨h2, h0⟩
      rcases key with h | h
      · omega
      · cases data with
        | nil => simp at h2
        | cons d ds => exact h d (by simp) (h0 d (by simp))
    exact ⟨⟨fun h => (by cases h), fun h => absurd h this⟩, ⟨fun h => (by cases h), fun h => absurd h this⟩⟩

example : ¬ LengthsDiffer [⟨.base .i8 .sc, [1, 2]⟩, ⟨.base .u8 .v3, [⟨1, 2, 3⟩, ⟨1, 2, 3⟩]⟩] := by
  rintro ⟨a, ha, b, hb, hab⟩
  simp at ha hb
  rcases ha with rfl | rfl <;> rcases hb with rfl | rfl <;> simp at hab

/-! ### C19 Writes return the index of what they appended -/

/-- The document has grown by one accessor, at index `i`. -/
def AddsAccessor (doc doc' : Document) (i : Nat) : Prop :=
  Extends doc doc' ∧ i = doc.accessors.length ∧ doc'.accessors.length = i + 1 ∧ doc'.images = doc.images

theorem addsAccessor_writeAccessor {target : Target} {data : Slice} {doc doc' : Document} {i : Nat}
    (h : writeAccessor target data doc = (doc', .ok i)) : AddsAccessor doc doc' i := by
  have hx := extends_writeAccessor target data doc
  rw [h] at hx
  have := writeAccessor_index h
  exact ⟨hx, this.1, this.2.1, this.2.2⟩

theorem addsAccessor_writeNormalized {check : Slice → Res Bool} {data : Slice} {doc doc' : Document} {i : Nat}
    (h : writeNormalized check data doc = (doc', .ok i)) : AddsAccessor doc doc' i := by
  have hx := extends_writeNormalized check data doc
  rw [h] at hx
  obtain ⟨d, b, -, h1, h2⟩ := writeNormalized_core h
  have := writeAccessor_index h1
  have hs := modifyAccessor_same (fun a => sameNorm a b) h2
  refine ⟨hx, this.1, by rw [hs.length]; exact this.2.1, ?_⟩
  have : doc'.images = d.images := by rw [hs.rest]
  simp [*]

/-- C19 for the functions that add one accessor. -/
theorem C19_accessor_index (doc doc' : Document) (i : Nat) :
    (∀ target data, writeAccessor target data doc = (doc', .ok i) → AddsAccessor doc doc' i) ∧
    (∀ data, writeIndices data doc = (doc', .ok i) → AddsAccessor doc doc' i) ∧
    (∀ data, writeNormal data doc = (doc', .ok i) → AddsAccessor doc doc' i) ∧
    (∀ data, writeTangent data doc = (doc', .ok i) → AddsAccessor doc doc' i) ∧
    (∀ data, writeTextureCoord data doc = (doc', .ok i) → AddsAccessor doc doc' i) ∧
    (∀ data, writeWeights data doc = (doc', .ok i) → AddsAccessor doc doc' i) ∧
    (∀ data, writeJoints data doc = (doc', .ok i) → AddsAccessor doc doc' i) ∧
    (∀ data, writeInverseBindMatrices data doc = (doc', .ok i) → AddsAccessor doc doc' i) ∧
    (∀ data, writePosition data doc = (doc', .ok i) → AddsAccessor doc doc' i) ∧
    (∀ data, writeColor data doc = (doc', .ok i) → AddsAccessor doc doc' i) := by
  refine ⟨fun _ _ => addsAccessor_writeAccessor, ?_, fun _ => addsAccessor_writeAccessor, fun _ => addsAccessor_writeAccessor,
    fun _ => addsAccessor_writeNormalized, fun _ => addsAccessor_writeNormalized, ?_, fun _ => addsAccessor_writeAccessor, ?_,
    fun _ => addsAccessor_writeNormalized⟩
  · intro data h
    rcases writeIndices_cases data with ⟨h', -⟩ | h'
    · rw [h'] at h; exact addsAccessor_writeAccessor h
    · rw [h'] at h; exact nomatch (W.lift_ok.1 h).2
  · intro data h
    unfold writeJoints at h
    obtain ⟨d1, _, h1, h2⟩ := W.bind_ok.1 h
    obtain ⟨rfl, -⟩ := W.lift_ok.1 h1
    exact addsAccessor_writeAccessor h2
  · intro data h
    have hx := extends_writePosition data doc
    rw [h] at hx
    obtain ⟨d, d2, h1, h2, h3⟩ := writePosition_core h
    have := writeAccessor_index h1
    have hs := (modifyAccessor_same (fun a => sameMin a _) h2).trans (modifyAccessor_same (fun a => sameMax a _) h3)
    refine ⟨hx, this.1, by rw [hs.length]; exact this.2.1, ?_⟩
    have : doc'.images = d.images := by rw [hs.rest]
    simp [*]

/-- C19 for `WriteAccessorsInterleaved`: consecutive indices from the previous length on. -/
theorem C19_interleaved_index (doc doc' : Document) (data : List Slice) (is : List Nat)
    (h : writeAccessorsInterleaved data doc = (doc', .ok is)) :
    Extends doc doc' ∧ is = (List.range data.length).map (doc.accessors.length + ·) ∧
      doc'.accessors.length = doc.accessors.length + data.length ∧
      doc'.bufferViews.length = doc.bufferViews.length + 1 := by
  have hx := extends_writeAccessorsInterleaved data doc
  rw [h] at hx
  have := writeAccessorsInterleaved_index h
  obtain ⟨bv, -, -, -, hv, -⟩ := C12_interleaved_aligned _ _ _ _ h
  exact ⟨hx, this.1, this.2, by rw [hv]; simp⟩

/-- C19 for the functions that add a buffer view. -/
theorem C19_buffer_view_index (doc doc' : Document) (v : Nat) :
    (∀ target data, writeBufferView target data doc = (doc', .ok v) →
      Extends doc doc' ∧ v = doc.bufferViews.length ∧ doc'.bufferViews.length = v + 1 ∧ doc'.accessors = doc.accessors) ∧
    (∀ data, writeBufferViewInterleaved data doc = (doc', .ok v) →
      Extends doc doc' ∧ v = doc.bufferViews.length ∧ doc'.bufferViews.length = v + 1 ∧ doc'.accessors = doc.accessors) := by
  have key : ∀ target data, writeBufferViews target data doc = (doc', .ok v) →
      Extends doc doc' ∧ v = doc.bufferViews.length ∧ doc'.bufferViews.length = v + 1 ∧ doc'.accessors = doc.accessors := by
    intro target data h
    have hx := extends_writeBufferViews target data doc
    rw [h] at hx
    have := writeBufferViews_accessors h
    exact ⟨hx, this.2.2.1, this.2.2.2, this.1⟩
  exact ⟨fun target data h => key target [data] (by rw [← writeBufferView_eq]; exact h), fun data h => key _ data h⟩

/-- C19 for `WriteImage`: the new image designates a new buffer view with the bytes that were read,
and its name and media type are the given ones. -/
theorem C19_image_index (doc doc' : Document) (name mimeType : Bytes) (r : Except Err Bytes) (i : Nat)
    (h : writeImage name mimeType r doc = (doc', .ok i)) :
    ∃ data im, r = .ok data ∧ Extends doc doc' ∧ i = doc.images.length ∧ doc'.images = doc.images ++ [some im] ∧
      im.name = name ∧ im.mimeType = mimeType ∧ im.bufferView = some (doc.bufferViews.length : Int) ∧
      readBufferViewIndex doc' doc.bufferViews.length = .ok data := by
  have hx := extends_writeImage name mimeType r doc
  rw [h] at hx
  unfold writeImage at h
  cases r with
  | error e => exact nomatch (W.lift_ok.1 h).2
  | ok data =>
    simp only at h
    obtain ⟨d1, v, h1, h2⟩ := W.bind_ok.1 h
    rw [writeBufferView_eq] at h1
    obtain ⟨d2, doc2, h3, h4⟩ := W.bind_ok.1 h2
    simp only [W.get, Prod.mk.injEq, Res.ok.injEq] at h3
    obtain ⟨rfl, rfl⟩ := h3
    obtain ⟨d3, u, h5, h6⟩ := W.bind_ok.1 h4
    obtain ⟨rfl, rfl⟩ := W.pure_ok.1 h6
    simp only [W.put, Prod.mk.injEq, and_true] at h5
    subst h5
    have hacc := writeBufferViews_accessors h1
    obtain ⟨stride, size, bv, b', b, hv, hb, hr, hst, -, hlen, -, -, hmax, hw⟩ := writeBufferViews_view h1
    refine ⟨data, { name := name, mimeType := mimeType, bufferView := some (v : Int) }, rfl, hx, by rw [hacc.2.1], ?_, rfl, rfl, ?_, ?_⟩
    · show d1.images ++ _ = _
      rw [hacc.2.1]
    · rw [← hacc.2.2.1]
    · rw [← hacc.2.2.1]
      have := hr.readIndex.1
      show readBufferViewIndex { d1 with images := _ } v = _
      have e : readBufferViewIndex { d1 with images := d1.images ++ [some { name := name, mimeType := mimeType, bufferView := some ((v : Nat) : Int) }] } v
        = readBufferViewIndex d1 v := rfl
      rw [e, this]
      obtain ⟨hs1, hs2, hs3⟩ := stride_single hv
      have hsz : size = data.length := by simpa [Slice.esz, kind, shape, elemSize, Spec.size] using hs3
      subst hsz
      simp only [writeAll, Res.bind_eq_ok] at hw
      obtain ⟨b1, hw1, hw2⟩ := hw
      cases hw2
      rw [withSliceFrom_eq (by simp)] at hw1
      have hdrop : (b.data ++ List.replicate data.length 0).drop b.data.length = List.replicate data.length (0 : UInt8) := by simp
      have htake : (b.data ++ List.replicate data.length 0).take b.data.length = b.data := by simp
      rw [hdrop, htake] at hw1
      have hwi : writeIgnore (List.replicate data.length 0) stride ⟨.base .u8 .sc, data⟩ = .ok data := by
        unfold writeIgnore
        have heff : effStride (.base .u8 .sc) stride = 1 := hs2
        by_cases h0 : data.length = 0
        · have : data = [] := List.length_eq_zero_iff.1 h0
          subst this
          rfl
        · have hn : needed (.base .u8 .sc) stride data.length = data.length := by
            unfold needed
            rw [if_neg h0, heff]
            show 1 * (data.length - 1) + 1 = _
            omega
          rw [write_eq (t := .base .u8 .sc) (by rw [hn]; unfold maxAlloc at hmax; omega), if_neg h0, hn,
            if_neg (by simp)]
          simp [writeSwitch, goCopy]
      rw [hwi] at hw1
      simp only [Res.map, Res.ok.injEq] at hw1
      rw [← hw1]
      unfold window
      simp

/-- An image of three bytes in a document without buffers. -/
example : ∃ doc', writeImage b!"a" b!"image/png" (.ok [1, 2, 3]) {} = (doc', .ok 0) := ⟨_, rfl⟩

end Gltf
