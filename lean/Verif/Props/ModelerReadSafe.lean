/-
Properties C20-C22: exact bytes of buffer views, malformed documents, sparse accessors.
-/
import Verif.Props.ModelerRead

namespace Gltf

open Spec

/-! ### C20 ReadBufferView returns the exact bytes -/

/-- C20, success: the bytes are those of the designated range. -/
theorem C20_exact_bytes (doc : Document) (bv : BufferView) (bytes : Bytes) (ht : Tame doc) (hl : IsInt bv.byteLength)
    (h : readBufferView doc bv = .ok bytes) :
    ∃ (i o l : Nat) (b : Buffer), bv.buffer = i ∧ bv.byteOffset = o ∧ bv.byteLength = l ∧
      doc.buffers[i]? = some (some b) ∧ o + l ≤ b.data.length ∧ bytes = (b.data.drop o).take l := by
  unfold readBufferView at h
  split at h
  · cases h
  · split at h
    · cases h
    · split at h
      · next b hb =>
        have hs := ht.buffers b (List.mem_of_getElem? hb)
        unfold GoLen at hs
        unfold IsInt at hl
        simp only at h
        split at h
        · cases h
        · next h1 =>
          split at h
          · next h2 =>
            cases h
            have h3 : wrap64 (bv.byteOffset + bv.byteLength) = bv.byteOffset + bv.byteLength := by
              unfold wrap64 at *; omega
            rw [h3] at h1 h2
            refine ⟨bv.buffer.toNat, bv.byteOffset.toNat, bv.byteLength.toNat, b, by omega, by omega, by omega, hb,
              by omega, ?_⟩
            rw [h3, List.drop_take]
            congr 1; omega
          · cases h
      · cases h

/-- C20, failure: the index or the range is past the end. -/
theorem C20_rejects_partial (doc : Document) (bv : BufferView) :
    ((doc.buffers.length : Int) ≤ bv.buffer → (readBufferView doc bv).isErr) ∧
    (∀ (i : Nat) (b : Buffer), bv.buffer = i → doc.buffers[i]? = some (some b) →
      (b.data.length : Int) < bv.byteOffset + bv.byteLength → IsInt (bv.byteOffset + bv.byteLength) →
      readBufferView doc bv = .err .shortBuffer) := by
  constructor
  · intro h
    unfold readBufferView
    rw [if_pos h]; rfl
  · intro i b hi hb hlt hint
    have := getElem?_lt hb
    unfold IsInt at hint
    unfold readBufferView
    rw [if_neg (by omega), if_neg (by omega), show bv.buffer.toNat = i by omega, hb]
    simp only
    rw [wrap64_id (by omega) (by omega), if_pos hlt]

/-- The full statement of C20. -/
def C20_full : Prop :=
  ∀ (doc : Document) (bv : BufferView) (i : Nat) (b : Buffer), bv.buffer = i → doc.buffers[i]? = some (some b) →
    IsInt bv.byteOffset → IsInt bv.byteLength → (b.data.length : Int) < bv.byteOffset + bv.byteLength →
    (readBufferView doc bv).isErr

/-- C20 is false of the code when the end of the range overflows: the check passes and slicing panics. -/
theorem C20_full_fails : ¬ C20_full := by
  intro h
  have := h { buffers := [some { data := [1, 2, 3] }] }
    { buffer := 0, byteOffset := 1, byteLength := 9223372036854775807 } 0 { data := [1, 2, 3] } rfl rfl
    (by unfold IsInt; decide) (by unfold IsInt; decide) (by decide)
  revert this
  decide +kernel

/-- The middle of a buffer. -/
example : ∃ bytes, readBufferView { buffers := [some { data := [1, 2, 3, 4, 5] }] } { buffer := 0, byteOffset := 1, byteLength := 3 }
    = .ok bytes ∧ bytes = [2, 3, 4] := ⟨_, by decide +kernel, rfl⟩

/-! ### C21 Malformed documents -/

/-- The full statement of C21. -/
def C21_full : Prop :=
  ∀ (doc : Document) (acr : Accessor) (buffer : Bytes) (p : Pools), (readAccessor doc acr buffer p).isPanic = false

/-- C21 is false of the code: the byte offset of the accessor lies outside of its buffer view. -/
theorem C21_full_fails : ¬ C21_full := by
  intro h
  have := h { buffers := [some { data := [1, 2, 3, 4] }], bufferViews := [some { buffer := 0, byteLength := 4 }] }
    { componentType := .ubyte, type := .scalar, count := 1, bufferView := some 0, byteOffset := 5 } [] ⟨[], [], []⟩
  revert this
  decide +kernel

/-- Other ways of making `ReadAccessor` panic: a negative count, a negative index of a buffer view, a
negative index of a buffer, an overflowing range, a nil buffer view, more scalar bytes than elements, a
3x3 matrix of 32 bit integers with a scratch buffer, a sparse index out of range. -/
theorem C21_other_panics :
    (readAccessor {} { componentType := .ubyte, type := .scalar, count := -1 } [] ⟨[], [], []⟩).isPanic ∧
    (readAccessor {} { componentType := .ubyte, type := .scalar, bufferView := some (-1) } [] ⟨[], [], []⟩).isPanic ∧
    (readAccessor { bufferViews := [some { buffer := -1 }] }
      { componentType := .ubyte, type := .scalar, bufferView := some 0 } [] ⟨[], [], []⟩).isPanic ∧
    (readAccessor { buffers := [some { data := [1] }],
                    bufferViews := [some { buffer := 0, byteOffset := 1, byteLength := 9223372036854775807 }] }
      { componentType := .ubyte, type := .scalar, bufferView := some 0 } [] ⟨[], [], []⟩).isPanic ∧
    (readAccessor { bufferViews := [none] }
      { componentType := .ubyte, type := .scalar, bufferView := some 0 } [] ⟨[], [], []⟩).isPanic ∧
    (readAccessor { buffers := [some { data := [1, 2] }], bufferViews := [some { buffer := 0, byteLength := 2 }] }
      { componentType := .byte, type := .scalar, count := 1, bufferView := some 0 } [] ⟨[], [], []⟩).isPanic ∧
    (readAccessor {} { componentType := .uint, type := .mat3, count := 1 } [0] ⟨[], [], []⟩).isPanic ∧
    (readAccessor { buffers := [some { data := [3] }], bufferViews := [some { buffer := 0, byteLength := 1 }] }
      { componentType := .ubyte, type := .scalar, count := 1,
        sparse := some { count := 1, indices := { bufferView := 0, componentType := .ubyte },
                         values := { bufferView := 0 } } } [] ⟨[], [], []⟩).isPanic := by decide +kernel

/-- `ReadBufferView` does not panic on sane buffer views, whether or not they fit in their buffer. -/
theorem C21_buffer_view_partial (doc : Document) (bv : BufferView) (h : SaneView doc bv) :
    (readBufferView doc bv).isPanic = false := by
  have h1 := h.buffer
  have h2 := h.nonNil
  have h3 := h.offset
  have h4 := h.length
  have h5 := h.sum
  unfold readBufferView
  split
  · rfl
  · next hlt =>
    rw [if_neg (by omega)]
    have hb : bv.buffer.toNat < doc.buffers.length := by omega
    rw [List.getElem?_eq_getElem hb] at h2 ⊢
    cases hq : doc.buffers[bv.buffer.toNat] with
    | none => rw [hq] at h2; exact absurd rfl h2
    | some b =>
      simp only
      rw [wrap64_id (by omega) (by omega)]
      split
      · rfl
      · rw [if_pos (by omega)]; rfl

/-- The ranges of a buffer of `n` bytes that panic: those with a negative offset or length whose end is not past the end
of the data, and those whose end overflows, downwards only if what is left is not past the end of the data. -/
def Spec.BadRange (bv : BufferView) (n : Nat) : Prop :=
  (-2 ^ 63 ≤ bv.byteOffset + bv.byteLength ∧ bv.byteOffset + bv.byteLength ≤ n ∧ (bv.byteOffset < 0 ∨ bv.byteLength < 0)) ∨
    2 ^ 63 ≤ bv.byteOffset + bv.byteLength ∨ bv.byteOffset + bv.byteLength ≤ n - 2 ^ 64

/-- C21 for `ReadBufferView`, exactly: which buffer views panic, and which are read; the others are errors. -/
theorem C21_buffer_view_iff (doc : Document) (bv : BufferView) (ht : Tame doc) (ho : IsInt bv.byteOffset) (hl : IsInt bv.byteLength) :
    ((readBufferView doc bv).isPanic = true ↔
      bv.buffer < 0 ∨ ∃ i : Nat, bv.buffer = i ∧ (doc.buffers[i]? = some none ∨
        ∃ b, doc.buffers[i]? = some (some b) ∧ BadRange bv b.data.length)) ∧
    ((∃ bytes, readBufferView doc bv = .ok bytes) ↔
      ∃ (i o l : Nat) (b : Buffer), bv.buffer = i ∧ bv.byteOffset = o ∧ bv.byteLength = l ∧
        doc.buffers[i]? = some (some b) ∧ o + l ≤ b.data.length) := by
  unfold IsInt at ho hl
  by_cases h1 : bv.buffer < 0
  · have : readBufferView doc bv = .panic "index out of range" := by
      unfold readBufferView
      rw [if_neg (by omega), if_pos h1]
    rw [this]
    refine ⟨⟨fun _ => .inl h1, fun _ => rfl⟩, ⟨fun ⟨_, h⟩ => (by cases h), ?_⟩⟩
    rintro ⟨i, o, l, b, h, -⟩
    omega
  · obtain ⟨i, hi⟩ : ∃ i : Nat, bv.buffer = i := ⟨bv.buffer.toNat, by omega⟩
    unfold readBufferView
    by_cases h2 : doc.buffers.length ≤ i
    · rw [if_pos (by omega)]
      have hn := List.getElem?_eq_none h2
      refine ⟨⟨fun h => (by cases h), ?_⟩, ⟨fun ⟨_, h⟩ => (by cases h), ?_⟩⟩
      · rintro (h | ⟨j, hj, h | ⟨b, h, -⟩⟩)
        · omega
        · obtain rfl : i = j := by omega
          rw [hn] at h; cases h
        · obtain rfl : i = j := by omega
          rw [hn] at h; cases h
      · rintro ⟨j, o, l, b, hj, -, -, h, -⟩
        obtain rfl : i = j := by omega
        rw [hn] at h; cases h
    · rw [if_neg (by omega), if_neg h1, show bv.buffer.toNat = i by omega]
      have hlt : i < doc.buffers.length := by omega
      cases hb : doc.buffers[i]? with
      | none => rw [List.getElem?_eq_getElem hlt] at hb; cases hb
      | some q =>
        cases q with
        | none =>
          refine ⟨⟨fun _ => .inr ⟨i, hi, .inl hb⟩, fun _ => rfl⟩, ⟨fun ⟨_, h⟩ => (by cases h), ?_⟩⟩
          rintro ⟨j, o, l, b, hj, -, -, h, -⟩
          obtain rfl : i = j := by omega
          rw [hb] at h; cases h
        | some b =>
          have hs := ht.buffers b (List.mem_of_getElem? hb)
          unfold GoLen at hs
          have hP : (bv.buffer < 0 ∨ ∃ i : Nat, bv.buffer = i ∧ (doc.buffers[i]? = some none ∨
              ∃ b, doc.buffers[i]? = some (some b) ∧ BadRange bv b.data.length)) ↔ BadRange bv b.data.length := by
            constructor
            · rintro (h | ⟨j, hj, h | ⟨b', h, hr⟩⟩)
              · omega
              · obtain rfl : i = j := by omega
                rw [hb] at h; cases h
              · obtain rfl : i = j := by omega
                rw [hb] at h; cases h; exact hr
            · exact fun h => .inr ⟨i, hi, .inr ⟨b, hb, h⟩⟩
          have hO : (∃ (i o l : Nat) (b : Buffer), bv.buffer = i ∧ bv.byteOffset = o ∧ bv.byteLength = l ∧
              doc.buffers[i]? = some (some b) ∧ o + l ≤ b.data.length) ↔
              0 ≤ bv.byteOffset ∧ 0 ≤ bv.byteLength ∧ bv.byteOffset + bv.byteLength ≤ b.data.length := by
            constructor
            · rintro ⟨j, o, l, b', hj, e1, e2, h, hle⟩
              obtain rfl : i = j := by omega
              rw [hb] at h; cases h
              omega
            · exact fun ⟨h1, h2, h3⟩ => ⟨i, bv.byteOffset.toNat, bv.byteLength.toNat, b, hi, by omega, by omega, hb, by omega⟩
          rw [hP, hO]
          simp only
          unfold BadRange
          have hw : wrap64 (bv.byteOffset + bv.byteLength) = bv.byteOffset + bv.byteLength ∧
              -2 ^ 63 ≤ bv.byteOffset + bv.byteLength ∧ bv.byteOffset + bv.byteLength < 2 ^ 63 ∨
            wrap64 (bv.byteOffset + bv.byteLength) = bv.byteOffset + bv.byteLength - 2 ^ 64 ∧ 2 ^ 63 ≤ bv.byteOffset + bv.byteLength ∨
            wrap64 (bv.byteOffset + bv.byteLength) = bv.byteOffset + bv.byteLength + 2 ^ 64 ∧ bv.byteOffset + bv.byteLength < -2 ^ 63 := by
            unfold wrap64; omega
          split
          · refine ⟨⟨fun h => (by cases h), fun h => (by omega)⟩, ⟨fun ⟨_, h⟩ => (by cases h), fun h => (by omega)⟩⟩
          · split
            · refine ⟨⟨fun h => (by cases h), fun h => (by omega)⟩, ⟨fun _ => (by omega), fun h => ⟨_, rfl⟩⟩⟩
            · refine ⟨⟨fun _ => (by omega), fun h => rfl⟩, ⟨fun ⟨_, h⟩ => (by cases h), fun h => (by omega)⟩⟩

/-- All three outcomes: a range inside, a range past the end, and a negative length. -/
example : let b : Buffer := { data := [1, 2, 3] }
    ¬ BadRange { buffer := 0, byteOffset := 1, byteLength := 2 } b.data.length ∧
    ¬ BadRange { buffer := 0, byteOffset := 1, byteLength := 3 } b.data.length ∧
    BadRange { buffer := 0, byteOffset := 3, byteLength := -1 } b.data.length := by unfold BadRange; decide

theorem read_no_panic {t : ETy} {data : List t.Elem} {b : Bytes} {stride : Nat} (hb : GoLen b)
    (hov : needed t stride data.length < 2 ^ 63) (h8 : t = .base .i8 .sc → b.length ≤ data.length) :
    (read b (stride : Int) t data).isPanic = false := by
  by_cases h0 : data.length = 0
  · have hd : data = [] := List.length_eq_zero_iff.1 h0
    subst hd
    unfold read
    simp only
    generalize (if (stride : Int) = 0 then ((sizeOfElement t.c t.t : Nat) : Int) else stride) = e
    generalize (if e ≠ _ then _ else _ : Int) = high
    split
    · rfl
    · cases t with
      | base k s =>
        cases k <;> cases s <;> first
          | rfl
          | (have := h8 rfl
             show (readInt8 b []).isPanic = false
             unfold readInt8
             rw [if_pos (by simpa using this)]; rfl)
          | (show (if e ≠ 1 then Res.ok (goCopy [] b) else readLoop Ubyte.scalar b e 0 []).isPanic = false
             split <;> rfl)
      | rgba => rfl
      | rgba64 => rfl
  · have := C04_read_short_partial t data b stride hb (by omega) hov h8
    by_cases hs : b.length < needed t stride data.length
    · rw [this.1.2 hs]; rfl
    · obtain ⟨d, hd, -⟩ := this.2 (by omega)
      rw [hd]; rfl

theorem isPanic_bind {α β : Type} {x : Res α} {f : α → Res β} (h1 : x.isPanic = false)
    (h2 : ∀ a, x = .ok a → (f a).isPanic = false) : (x >>= f).isPanic = false := by
  cases x with
  | ok a => exact h2 a rfl
  | err e => rfl
  | panic w => cases h1

theorem makeSliceBuffer_no_panic {c : ComponentType} {t : AccessorType} {count : Int} {buffer : Bytes}
    (h0 : 0 ≤ count) (hm : count.toNat * (c.byteSize * t.components) ≤ maxAlloc) (hx : ¬ (c = .uint ∧ t = .mat3)) :
    (makeSliceBuffer c t count buffer).isPanic = false := by
  cases hck : checkAccessorType c t with
  | err e => unfold makeSliceBuffer; rw [hck]; rfl
  | panic w =>
    exfalso
    cases c <;> cases t <;> simp [checkAccessorType] at hck
  | ok u =>
    obtain ⟨k, s, rfl, rfl⟩ := checkAccessorType_ok hck
    have := makeSliceBuffer_base (k := k) (s := s) (n := count.toNat) (buffer := buffer)
      (by unfold ETy.memSize; rw [← (ctypes k s).1, ← (ctypes k s).2]; exact hm)
      (by rintro ⟨rfl, rfl, -⟩; exact hx ⟨rfl, rfl⟩)
    rw [← (ctypes k s).1, ← (ctypes k s).2, Int.toNat_of_nonneg h0] at this
    obtain ⟨d, hd, -⟩ := this
    rw [hd]; rfl

theorem readDense_no_panic {doc : Document} {c : ComponentType} {t : AccessorType} {count off : Int} {v : Option Int}
    {buffer : Bytes} (ht : Tame doc) (h0 : 0 ≤ count)
    (hm : count.toNat * (c.byteSize * t.components) ≤ maxAlloc) (hx : ¬ (c = .uint ∧ t = .mat3))
    (hv : ∀ i, v = some i → SaneIndex doc c t count i off) :
    (readDense doc c t count v off buffer).isPanic = false := by
  unfold readDense
  apply isPanic_bind (makeSliceBuffer_no_panic h0 hm hx)
  intro s hs
  obtain ⟨k, sh, rfl, rfl, e3, e4⟩ := makeSliceBuffer_inv hs
  obtain ⟨ty, d⟩ := s
  cases e3
  cases v with
  | none => rfl
  | some i =>
    simp only
    obtain ⟨hi, hview⟩ := hv i rfl
    by_cases hlen : (doc.bufferViews.length : Int) ≤ i
    · unfold readBufferViewIndex; rw [if_pos hlen]; rfl
    have hlt : i.toNat < doc.bufferViews.length := by omega
    obtain ⟨bv, hbv, hsane, ho1, ho2, h8⟩ := hview _ (List.getElem?_eq_getElem hlt)
    have hat : bufferViewAt doc i = .ok bv := by
      unfold bufferViewAt
      rw [if_neg (by omega), List.getElem?_eq_getElem hlt, hbv]
    have hri : readBufferViewIndex doc i = readBufferView doc bv := by
      unfold readBufferViewIndex; rw [if_neg hlen, hat]; rfl
    rw [hri]
    apply isPanic_bind (C21_buffer_view_partial doc bv hsane)
    intro buf hbuf
    have h4 := hsane.length
    have h5 := hsane.sum
    have h6 := hsane.offset
    obtain ⟨bi, o, l, b, -, eo, el, -, hin, rfl⟩ := C20_exact_bytes doc bv buf ht (by unfold IsInt; omega) hbuf
    have hbl : ((b.data.drop o).take l).length = l := by simp; omega
    rw [hat, Res.ok_bind]
    have hsl : sliceFrom ((b.data.drop o).take l) off = .ok (((b.data.drop o).take l).drop off.toNat) := by
      unfold sliceFrom
      rw [if_pos (by rw [hbl]; omega)]
    rw [hsl, Res.ok_bind]
    have hmem : some bv ∈ doc.bufferViews := by
      rw [← hbv]; exact List.getElem_mem hlt
    have hst := ht.strides bv hmem
    obtain ⟨st, hst'⟩ := Int.eq_ofNat_of_zero_le hst.1
    have hgl := readBufferView_len ht hbuf
    have hcnt : d.length ≤ maxAlloc := by
      have hp := memSize_pos k sh
      unfold ETy.memSize at hp
      rw [← (ctypes k sh).1, ← (ctypes k sh).2] at hp
      have := Nat.le_trans (Nat.le_mul_of_pos_right _ hp) hm
      have e5 : (d.length : Int) = count := e4
      omega
    apply isPanic_bind
    · show (read _ bv.byteStride (.base k sh) d).isPanic = false
      rw [hst']
      apply read_no_panic
      · unfold GoLen at *; rw [List.length_drop]; omega
      · exact needed_small (by omega) hcnt
      · intro he
        cases he
        have := h8 ⟨rfl, rfl⟩
        have e5 : (d.length : Int) = count := e4
        rw [List.length_drop, hbl]
        omega
    · intros; rfl

/-- Conditions under which reading an accessor does not panic. -/
structure Spec.SaneAccessor (doc : Document) (acr : Accessor) : Prop where
  count : 0 ≤ acr.count
  view : ∀ i, acr.bufferView = some i → SaneIndex doc acr.componentType acr.type acr.count i acr.byteOffset
  sparse : ∀ sp, acr.sparse = some sp → 0 ≤ sp.count ∧
    SaneIndex doc sp.indices.componentType .scalar sp.count sp.indices.bufferView sp.indices.byteOffset ∧
    SaneIndex doc acr.componentType acr.type sp.count sp.values.bufferView sp.values.byteOffset ∧
    ∀ idx, readIndices doc (indicesAccessor sp) [] [] ⟨[], [], []⟩ = .ok idx → ∀ k ∈ idx, (k.toNat : Int) < acr.count

theorem sparseLoop_no_panic {α : Type} {idx : List UInt32} {vals : List α} {n i : Nat} {s : List α}
    (h1 : i + n ≤ idx.length) (h2 : i + n ≤ vals.length) (h3 : ∀ j k, i ≤ j → j < i + n → idx[j]? = some k → k.toNat < s.length) :
    (sparseLoop idx vals n i s).isPanic = false := by
  induction n generalizing i s with
  | zero => rfl
  | succ n ih =>
    unfold sparseLoop
    rw [List.getElem?_eq_getElem (show i < idx.length by omega), List.getElem?_eq_getElem (show i < vals.length by omega)]
    simp only
    rw [if_pos (h3 i _ (Nat.le_refl _) (by omega) (List.getElem?_eq_getElem (by omega)))]
    apply ih (by omega) (by omega)
    intro j k hj1 hj2 hk
    rw [List.length_set]
    exact h3 j k (by omega) (by omega) hk

/-- C21 for documents whose fields are sane, although indices and ranges may be past the end (missing:
negative or overflowing numbers, nil pointers, offsets outside of the buffer view, scalar bytes with
spare bytes, 3x3 matrices of 32 bit integers and sparse indices out of range, where it is false). -/
theorem C21_no_panic_partial (doc : Document) (acr : Accessor) (buffer : Bytes) (p : Pools)
    (ht : Tame doc) (hm : Modest acr) (hs : SaneAccessor doc acr) : (readAccessor doc acr buffer p).isPanic = false := by
  unfold readAccessor
  apply isPanic_bind (readDense_no_panic ht hs.count hm.count hm.type hs.view)
  intro s hsd
  obtain ⟨k, sh, e1, e2, e3, e4⟩ := readDense_inv hsd
  cases hsp : acr.sparse with
  | none => rfl
  | some sp =>
    simp only
    obtain ⟨c0, i1, i2, i3⟩ := hs.sparse sp hsp
    obtain ⟨m1, m2⟩ := hm.sparse sp hsp
    have hm2 : sp.count.toNat * (sp.indices.componentType.byteSize * AccessorType.scalar.components) ≤ maxAlloc := by
      simpa [AccessorType.components] using m2
    apply isPanic_bind
    · unfold readIndicesDense
      cases hck : checkIndices sp.indices.componentType .scalar with
      | err e => rfl
      | panic w => exfalso; cases hc : sp.indices.componentType <;> simp [checkIndices, hc] at hck
      | ok u =>
        rw [Res.ok_bind]
        apply isPanic_bind (readDense_no_panic ht c0 hm2 (by simp) (by intro i hi; cases hi; exact i1))
        intro d hd
        obtain ⟨k', sh', f1, f2, f3, f4⟩ := readDense_inv hd
        obtain ⟨b, hb, hle, -⟩ := makeBufferOf_le (0 : UInt32) c0 p.idx
        rw [hb, Res.ok_bind]
        obtain ⟨ty, dd⟩ := d
        cases f3
        have f5 : (dd.length : Int) = sp.count := f4
        rw [indices_converts.loop k' sh' dd b (by rw [← f1, ← f2]; exact checkIndices_accepts.1 hck) (by omega)]
        rfl
    · intro idx hidx
      apply isPanic_bind (readDense_no_panic ht c0 m1 hm.type (by intro i hi; cases hi; exact i2))
      intro vals hvals
      obtain ⟨k2, sh2, g1, g2, g3, g4⟩ := readDense_inv hvals
      have hk : k2 = k := by
        have : componentTypeOf k2 = componentTypeOf k := by rw [← g1, e1]
        revert this; cases k <;> cases k2 <;> decide
      have hsh : sh2 = sh := by
        have : accessorTypeOf sh2 = accessorTypeOf sh := by rw [← g2, e2]
        revert this; cases sh <;> cases sh2 <;> decide
      subst hk; subst hsh
      rw [dif_pos (by rw [g3, e3])]
      apply isPanic_bind
      · obtain ⟨ty, d⟩ := s
        obtain ⟨ty2, v⟩ := vals
        cases e3; cases g3
        simp only at e4 g4 ⊢
        have hrel := readIndicesDense_rel (idx := p.idx) (idx' := []) (b1 := p.b1) (b1' := []) (i := sp.indices.bufferView)
          (off := sp.indices.byteOffset) ht m2
        rw [hidx] at hrel
        generalize hr2 : readIndicesDense doc sp.indices.componentType .scalar sp.count (some sp.indices.bufferView)
          sp.indices.byteOffset [] [] = y at hrel
        cases hrel with
        | ok hrel =>
          rename_i idx'
          have hpl : readIndices doc (indicesAccessor sp) [] [] ⟨[], [], []⟩ = .ok idx' := by
            rw [← hr2, ← readIndices_plainAccessor]; rfl
          have hlen := (C23_typed_readers_partial ⟨fun _ => ⟨0, 0, 0⟩, fun _ => ⟨0, 0, 0, 0⟩, fun _ => ⟨0, 0, 0⟩, fun _ => ⟨0, 0, 0, 0⟩⟩).1
            doc (indicesAccessor sp) [] [] [] [] ⟨[], [], []⟩ ⟨[], [], []⟩ (.inr ⟨rfl, rfl⟩) |>.1 idx' hpl
          have hlen : (idx'.length : Int) = sp.count := hlen
          have e5 : (d.length : Int) = acr.count := e4
          have g5 : (v.length : Int) = sp.count := g4
          rcases hrel with h0 | rfl
          · rw [h0]; rfl
          · apply sparseLoop_no_panic (by omega) (by omega)
            intro j k _ _ hk
            have := i3 _ hpl k (List.mem_of_getElem? hk)
            omega
      · intros; rfl

/-- An accessor that designates more elements than its buffer view holds is sane, and is rejected
without panicking. -/
example : ∃ (doc : Document) (acr : Accessor), Tame doc ∧ Modest acr ∧ SaneAccessor doc acr ∧
    (readAccessor doc acr [] ⟨[], [], []⟩).isErr := by
  refine ⟨{ buffers := [some { data := [1, 2, 3, 4] }],
            bufferViews := [some { buffer := 0, byteLength := 4 }] },
    { componentType := .ushort, type := .scalar, count := 3, bufferView := some 0, byteOffset := 1 },
    ⟨?_, ?_⟩, ⟨by simp, by decide, by simp⟩, ⟨by decide, ?_, by simp⟩, by decide +kernel⟩
  · intro b hb; simp at hb; subst hb; unfold GoLen; simp
  · intro bv hb; simp at hb; subst hb; simp
  · intro i hi
    cases hi
    refine ⟨by decide, fun q hq => ?_⟩
    simp at hq
    exact ⟨_, hq.symm, ⟨by decide, by simp, by decide, by decide, by decide⟩, by decide, by decide, by simp⟩

/-! ### C22 Sparse accessors -/

theorem sparseLoop_spec {α : Type} {idx : List UInt32} {vals : List α} {n i : Nat} {s r : List α}
    (h : sparseLoop idx vals n i s = .ok r) :
    i + n ≤ idx.length ∨ n = 0 := by
  induction n generalizing i s with
  | zero => exact .inr rfl
  | succ n ih =>
    unfold sparseLoop at h
    split at h
    · next h1 h2 =>
      split at h
      · rcases ih h with h3 | h3
        · left; omega
        · left; have := getElem?_lt h1; omega
      · cases h
    · cases h

theorem sparseLoop_patched {α : Type} {idx : List UInt32} {vals : List α} {n i : Nat} {s r : List α}
    (h : sparseLoop idx vals n i s = .ok r) :
    (∀ j k, i ≤ j → j < i + n → idx[j]? = some k → (∀ j' k', j < j' → j' < i + n → idx[j']? = some k' → k'.toNat ≠ k.toNat) →
      ∃ x, vals[j]? = some x ∧ r[k.toNat]? = some x) ∧
    (∀ m, (∀ j k, i ≤ j → j < i + n → idx[j]? = some k → k.toNat ≠ m) → r[m]? = s[m]?) := by
  induction n generalizing i s with
  | zero =>
    unfold sparseLoop at h; cases h
    exact ⟨fun j k h1 h2 => by omega, fun m _ => rfl⟩
  | succ n ih =>
    unfold sparseLoop at h
    split at h
    · next k0 v0 hk0 hv0 =>
      split at h
      · next hlt =>
        obtain ⟨a1, a2⟩ := ih h
        refine ⟨fun j k hj1 hj2 hk hlast => ?_, fun m hm => ?_⟩
        · by_cases hj : j = i
          · subst hj
            rw [hk0] at hk; cases hk
            refine ⟨v0, hv0, ?_⟩
            rw [a2 k0.toNat fun j' k' g1 g2 g3 => hlast j' k' (by omega) (by omega) g3]
            rw [List.getElem?_set_self hlt]
          · exact a1 j k (by omega) (by omega) hk fun j' k' g1 g2 g3 => hlast j' k' g1 (by omega) g3
        · rw [a2 m fun j k g1 g2 g3 => hm j k (by omega) (by omega) g3]
          rw [List.getElem?_set_ne (hm i k0 (Nat.le_refl _) (by omega) hk0)]
      · cases h
    · cases h

/-- C22: a sparse accessor that is read successfully is the accessor without its sparse data, patched;
the three parts are read by the functions of the API. The buffer that holds the indices is fresh. -/
theorem C22_sparse (doc : Document) (acr : Accessor) (sp : Sparse) (buffer : Bytes) (p : Pools) (r : Slice)
    (hsp : acr.sparse = some sp) (h : readAccessor doc acr buffer p = .ok r) :
    ∃ (dense values : List r.ty.Elem) (indices : List UInt32),
      readAccessor doc { acr with sparse := none } buffer p = .ok ⟨r.ty, dense⟩ ∧
      readIndices doc (indicesAccessor sp) [] p.b1 p = .ok indices ∧
      readAccessor doc (valuesAccessor acr sp) p.b2 p = .ok ⟨r.ty, values⟩ ∧
      Patched dense (indices.map fun k => k.toNat) values r.data := by
  unfold readAccessor at h
  obtain ⟨s, hs, h⟩ := Res.bind_eq_ok.1 h
  rw [hsp] at h
  simp only at h
  obtain ⟨idx, hidx, h⟩ := Res.bind_eq_ok.1 h
  obtain ⟨vals, hvals, h⟩ := Res.bind_eq_ok.1 h
  by_cases hty : vals.ty = s.ty
  case neg => rw [dif_neg hty] at h; cases h
  rw [dif_pos hty] at h
  obtain ⟨d, hd, h⟩ := Res.bind_eq_ok.1 h
  cases h
  obtain ⟨ty, sd⟩ := s
  obtain ⟨vty, vd⟩ := vals
  simp only at hty
  subst hty
  simp only at hd
  -- the indices read with the recycled buffer and with a fresh one
  rw [← readIndices_plainAccessor (p := p)] at hidx
  have hacc : acceptsIndices sp.indices.componentType .scalar = true := by
    rw [← checkIndices_accepts]
    cases hck : checkIndices sp.indices.componentType .scalar with
    | ok u => rfl
    | err e => unfold readIndices at hidx; rw [show (plainAccessor sp.indices.componentType .scalar sp.count
        (some sp.indices.bufferView) sp.indices.byteOffset).componentType = sp.indices.componentType from rfl,
        show (plainAccessor sp.indices.componentType .scalar sp.count
        (some sp.indices.bufferView) sp.indices.byteOffset).type = .scalar from rfl, hck] at hidx; exact (nomatch hidx)
    | panic e => unfold readIndices at hidx; rw [show (plainAccessor sp.indices.componentType .scalar sp.count
        (some sp.indices.bufferView) sp.indices.byteOffset).componentType = sp.indices.componentType from rfl,
        show (plainAccessor sp.indices.componentType .scalar sp.count
        (some sp.indices.bufferView) sp.indices.byteOffset).type = .scalar from rfl, hck] at hidx; exact (nomatch hidx)
  cases hr : readAccessor doc (plainAccessor sp.indices.componentType .scalar sp.count
        (some sp.indices.bufferView) sp.indices.byteOffset) p.b1 p with
  | err e => rw [show readIndices doc _ _ _ _ = _ from (typedBody_fail (check := checkIndices) (zero := 0)
      (conv := indicesOf) (checkIndices_accepts.2 hacc)).1 e hr] at hidx; cases hidx
  | panic e => rw [show readIndices doc _ _ _ _ = _ from (typedBody_fail (check := checkIndices) (zero := 0)
      (conv := indicesOf) (checkIndices_accepts.2 hacc)).2 e hr] at hidx; cases hidx
  | ok is =>
    obtain ⟨r1, f1, f2⟩ := readIndices_of_ok (buffer := p.idx) hacc hr
    obtain ⟨r2, f3, f4⟩ := readIndices_of_ok (buffer := []) hacc hr
    obtain ⟨rfl, hlen⟩ := f4 (.inr rfl)
    rw [List.append_nil] at f3
    rw [f1] at hidx
    cases hidx
    have hlen : ((indicesFn is).length : Int) = sp.count := hlen
    refine ⟨sd, vd, indicesFn is, ?_, f3, ?_, ?_⟩
    · unfold readAccessor
      simp only
      rw [hs]; rfl
    · exact (readAccessor_plainAccessor (p := p)).trans hvals
    · obtain ⟨a1, a2⟩ := sparseLoop_patched hd
      have hget : ∀ j, j < sp.count.toNat → (indicesFn is ++ r1)[j]? = (indicesFn is)[j]? := by
        intro j hj
        rw [List.getElem?_append_left (by omega)]
      refine ⟨sparseLoop_length hd, fun j i hj hlast => ?_, fun i hi => ?_⟩
      · rw [List.getElem?_map, Option.map_eq_some_iff] at hj
        obtain ⟨k, hk, rfl⟩ := hj
        have hjl := getElem?_lt hk
        apply a1 j k (by omega) (by omega) (by rw [hget j (by omega)]; exact hk)
        intro j' k' g1 g2 g3 g4
        rw [hget j' (by omega)] at g3
        exact hlast j' g1 (by rw [List.getElem?_map, g3, Option.map_some, g4])
      · apply a2
        intro j k _ g2 g3 g4
        rw [hget j (by omega)] at g3
        exact hi (List.mem_map.2 ⟨k, List.mem_of_getElem? g3, g4⟩)

/-- C22, dense part without buffer view: zeros, when no scratch buffer is given. -/
theorem C22_zeros_partial (doc : Document) (acr : Accessor) (p : Pools) (k : Kind) (s : Shape) (n : Nat)
    (h1 : acr.componentType = componentTypeOf k) (h2 : acr.type = accessorTypeOf s) (h3 : acr.count = n)
    (h4 : acr.bufferView = none) (h5 : acr.sparse = none) (hm : n * (ETy.base k s).memSize ≤ maxAlloc) :
    readAccessor doc acr [] p = .ok ⟨.base k s, List.replicate n (ETy.base k s).zero⟩ := by
  unfold readAccessor readDense makeSliceBuffer
  rw [h1, h2, h3, h4, h5]
  have hck : checkAccessorType (componentTypeOf k) (accessorTypeOf s) = .ok () := by cases k <;> cases s <;> rfl
  rw [hck]
  simp only [Res.ok_bind, List.length_nil, if_true]
  rw [makeSlice_types]
  unfold makeZeros
  rw [if_neg (by omega), if_neg (by rw [Int.toNat_natCast]; exact Nat.not_lt.2 hm)]
  simp

/-- C22 is false of the code for accessors without buffer view when a scratch buffer is given: the
elements that are not replaced are whatever the buffer contained. -/
theorem C22_zeros_fails : ∃ (doc : Document) (acr : Accessor), acr.bufferView = none ∧
    readAccessor doc acr [7, 7, 7] ⟨[], [], []⟩ = .ok ⟨.base .u8 .sc, [7, 1, 7]⟩ :=
  ⟨{ buffers := [some { data := [1] }], bufferViews := [some { buffer := 0, byteLength := 1 }] },
    { componentType := .ubyte, type := .scalar, count := 3,
      sparse := some { count := 1, indices := { bufferView := 0, componentType := .ubyte }, values := { bufferView := 0 } } },
    rfl, by decide +kernel⟩

/-- Two sparse values for the same index: the last one wins. -/
example : readAccessor { buffers := [some { data := [1, 1, 8, 9] }],
                         bufferViews := [some { buffer := 0, byteLength := 2 }, some { buffer := 0, byteOffset := 2, byteLength := 2 }] }
    { componentType := .ubyte, type := .scalar, count := 3,
      sparse := some { count := 2, indices := { bufferView := 0, componentType := .ubyte }, values := { bufferView := 1 } } }
    [] ⟨[5, 5, 5], [4], [3]⟩ = .ok ⟨.base .u8 .sc, [0, 9, 0]⟩ := by decide +kernel

end Gltf
