/-
Property C94: which accessors `ReadAccessor` accepts.
-/
import Verif.Spec.ReadExact
import Verif.Props.BinaryExact
import Verif.Props.ModelerReadSafe
import Verif.Props.Placed

namespace Gltf

open Spec

theorem room_unique {doc : Document} {v off : Int} {st st' r r' : Nat} (h : Room doc v off st r) (h' : Room doc v off st' r') : st = st' ∧ r = r' := by
  obtain ⟨v1, n1, s1, l1, o1, bv1, b1, e1, e2, e3, e4, e5, e6, e7, e8, e9, e10⟩ := h
  obtain ⟨v2, n2, s2, l2, o2, bv2, b2, f1, f2, f3, f4, f5, f6, f7, f8, f9, f10⟩ := h'
  obtain rfl : v1 = v2 := by omega
  rw [e2] at f2
  cases f2
  omega

theorem memSize_types (k : Kind) (s : Shape) : (componentTypeOf k).byteSize * (accessorTypeOf s).components = (ETy.base k s).memSize := by
  cases k <;> cases s <;> rfl

/-- A buffer view that can be read is there. -/
theorem room_of_read {doc : Document} {i off : Int} {bv : BufferView} {buf tail : Bytes} (ht : Tame doc) (hd : Ints doc)
    (h1 : readBufferViewIndex doc i = .ok buf) (h2 : bufferViewAt doc i = .ok bv) (h3 : sliceFrom buf off = .ok tail) :
    ∃ st : Nat, Room doc i off st tail.length ∧ bv.byteStride = st ∧ st ≤ 2 ^ 14 ∧ GoLen tail := by
  unfold bufferViewAt at h2
  split at h2
  · cases h2
  · rename_i hi
    split at h2
    · next bv' hv =>
      cases h2
      have hmem := List.mem_of_getElem? hv
      unfold readBufferViewIndex at h1
      split at h1
      · cases h1
      · obtain ⟨bv', h4, h5⟩ := Res.bind_eq_ok.1 h1
        unfold bufferViewAt at h4
        rw [if_neg hi, hv] at h4
        cases h4
        obtain ⟨n, o, l, b, e1, e2, e3, e4, e5, rfl⟩ := C20_exact_bytes doc bv buf ht (hd bv hmem) h5
        unfold sliceFrom at h3
        split at h3
        · next hr =>
          cases h3
          have hs := ht.strides bv hmem
          have hg := ht.buffers b (List.mem_of_getElem? e4)
          have hlen : ((b.data.drop o).take l).length = l := by simp; omega
          rw [hlen] at hr
          refine ⟨bv.byteStride.toNat, ⟨i.toNat, n, o, l, off.toNat, bv, b, by omega, hv, e1, e4, e2, e3, e5, by omega, by omega, ?_⟩, by omega, by omega, ?_⟩
          · rw [List.length_drop, hlen]; omega
          · unfold GoLen at *
            rw [List.length_drop, hlen]; omega
        · cases h3
    · cases h2
    · cases h2

theorem read_of_room {doc : Document} {i off : Int} {st r : Nat} (ht : Tame doc) (h : Room doc i off st r) :
    ∃ buf bv tail, readBufferViewIndex doc i = .ok buf ∧ bufferViewAt doc i = .ok bv ∧ sliceFrom buf off = .ok tail ∧ tail.length = r ∧
      bv.byteStride = st ∧ st ≤ 2 ^ 14 ∧ GoLen tail := by
  obtain ⟨v, n, start, len, o, bv, b, e1, e2, e3, e4, e5, e6, e7, e8, e9, e10⟩ := h
  have hg := ht.buffers b (List.mem_of_getElem? e4)
  have hs := ht.strides bv (List.mem_of_getElem? e2)
  have hin : InRange doc i bv b start len :=
    ⟨by omega, by rw [e1, Int.toNat_natCast]; exact e2, by omega, by rw [e3, Int.toNat_natCast]; exact e4, e5, e6, e7, hg⟩
  have hwl := window_length e7
  refine ⟨_, bv, (window b.data start len).drop o, hin.readIndex.1, hin.readIndex.2, ?_, ?_, e8, by omega, ?_⟩
  · unfold sliceFrom
    rw [e9, if_pos (by rw [hwl]; omega), Int.toNat_natCast]
  · rw [List.length_drop, hwl]; omega
  · unfold GoLen at *
    rw [List.length_drop, hwl]; omega

theorem byteType {k : Kind} {s : Shape} (h1 : componentTypeOf k = .byte) (h2 : accessorTypeOf s = .scalar) : k = .i8 ∧ s = .sc := by
  revert h1 h2
  cases k <;> cases s <;> decide

theorem types_unique {k k' : Kind} {s s' : Shape} (h1 : componentTypeOf k = componentTypeOf k') (h2 : accessorTypeOf s = accessorTypeOf s') :
    k = k' ∧ s = s' := by
  revert h1 h2
  cases k <;> cases k' <;> cases s <;> cases s' <;> decide

/-- The dense part. -/
theorem readDense_iff {doc : Document} {acr : Accessor} {buffer : Bytes} (ht : Tame doc) (hd : Ints doc)
    (hx : ¬ (acr.componentType = .uint ∧ acr.type = .mat3 ∧ buffer ≠ []))
    (hm : acr.count.toNat * (acr.componentType.byteSize * acr.type.components) ≤ maxAlloc) :
    (∃ s, readDense doc acr.componentType acr.type acr.count acr.bufferView acr.byteOffset buffer = .ok s) ↔ FitsIn doc acr ∧ ¬ Unlucky doc acr := by
  constructor
  · rintro ⟨r, h⟩
    obtain ⟨k, s, hc, hty, -, hl⟩ := readDense_inv h
    have hcount : acr.count = (r.data.length : Nat) := hl.symm
    unfold readDense at h
    obtain ⟨d, h1, h⟩ := Res.bind_eq_ok.1 h
    obtain ⟨k', s', hc', ht', hdt, hdl⟩ := makeSliceBuffer_inv h1
    obtain ⟨rfl, rfl⟩ := types_unique (hc.symm.trans hc') (hty.symm.trans ht')
    cases hv : acr.bufferView with
    | none =>
      refine ⟨⟨k, s, _, hc, hty, hcount, fun v e => ?_⟩, ?_⟩
      · rw [hv] at e; cases e
      · rintro ⟨v, _, _, e, -⟩
        rw [hv] at e; cases e
    | some v =>
      rw [hv] at h
      simp only at h
      obtain ⟨buf, h2, h⟩ := Res.bind_eq_ok.1 h
      obtain ⟨bv, h3, h⟩ := Res.bind_eq_ok.1 h
      obtain ⟨tail, h4, h⟩ := Res.bind_eq_ok.1 h
      obtain ⟨d', h5, -⟩ := Res.bind_eq_ok.1 h
      obtain ⟨st, hr, hst, hst2, hg⟩ := room_of_read ht hd h2 h3 h4
      obtain ⟨ty, dd⟩ := d
      simp only at hdt hdl h5
      subst hdt
      rw [hst] at h5
      have hov : needed (.base k s) st dd.length < 2 ^ 63 := by
        refine needed_small hst2 ?_
        rw [hc, hty] at hm
        have h1 : 1 ≤ (componentTypeOf k).byteSize * (accessorTypeOf s).components := by cases k <;> cases s <;> decide
        have h2 := Nat.mul_le_mul_left acr.count.toNat h1
        omega
      obtain ⟨g1, g2, g3⟩ := (C04_read_iff (.base k s) dd tail st hg (by omega) hov).2.2.1 ⟨d', h5⟩
      refine ⟨⟨k, s, _, hc, hty, hdl.symm, fun v' e => ?_⟩, ?_⟩
      · cases hv.symm.trans e
        exact ⟨st, _, hr, g1⟩
      · rintro ⟨v', st', room, e, hr', hu⟩
        cases hv.symm.trans e
        obtain ⟨rfl, rfl⟩ := room_unique hr hr'
        rcases hu with ⟨a1, a2, a3⟩ | ⟨a1, a2, k', s', a3, a4, a5⟩
        · obtain ⟨rfl, rfl⟩ := byteType (hc.symm.trans a1) (hty.symm.trans a2)
          exact g3 ⟨rfl, by omega⟩
        · obtain ⟨rfl, rfl⟩ := types_unique (hc.symm.trans a3) (hty.symm.trans a4)
          exact g2 ⟨List.length_eq_zero_iff.1 (by omega), a2, a5⟩
  · rintro ⟨⟨k, s, count, hc, hty, hcount, hf⟩, hu⟩
    have hm' : count * (ETy.base k s).memSize ≤ maxAlloc := by
      rw [hc, hty, hcount, memSize_types] at hm
      exact hm
    have hx' : ¬ (k = .u32 ∧ s = .m3 ∧ buffer ≠ []) := by
      rintro ⟨rfl, rfl, hne⟩
      exact hx ⟨hc, hty, hne⟩
    obtain ⟨d, h1, hdl⟩ := makeSliceBuffer_base (buffer := buffer) hm' hx'
    rw [← (ctypes k s).1, ← (ctypes k s).2, ← hc, ← hty, ← hcount] at h1
    unfold readDense
    rw [h1, Res.ok_bind]
    cases hv : acr.bufferView with
    | none => exact ⟨_, rfl⟩
    | some v =>
      obtain ⟨st, room, hr, hneed⟩ := hf v hv
      obtain ⟨buf, bv, tail, h2, h3, h4, h5, h6, h7, hg⟩ := read_of_room ht hr
      simp only
      rw [h2, Res.ok_bind, h3, Res.ok_bind, h4, Res.ok_bind, h6]
      have hov : needed (.base k s) st d.length < 2 ^ 63 := by
        refine needed_small h7 ?_
        have h1 : 1 ≤ (ETy.base k s).memSize := by cases k <;> cases s <;> decide
        have h2 := Nat.mul_le_mul_left count h1
        omega
      have n1 : ¬ (d = [] ∧ 0 < st ∧ tail.length + st < elemSize k s) := by
        rintro ⟨a1, a2, a3⟩
        refine hu ⟨v, st, room, hv, hr, .inr ⟨?_, a2, k, s, hc, hty, by rw [← h5]; exact a3⟩⟩
        rw [a1] at hdl
        rw [hcount, ← hdl]; rfl
      have n2 : ¬ (ETy.base k s = .base .i8 .sc ∧ d.length < tail.length) := by
        rintro ⟨a1, a2⟩
        cases a1
        exact hu ⟨v, st, room, hv, hr, .inl ⟨hc, hty, by omega⟩⟩
      obtain ⟨d', h8⟩ := (C04_read_iff (.base k s) d tail st hg (by omega) hov).2.2.2 ⟨by rw [hdl, h5]; exact hneed, n1, n2⟩
      rw [h8]
      exact ⟨_, rfl⟩

theorem readDense_accessor {doc : Document} {acr : Accessor} {buffer : Bytes} {p : Pools} (h : acr.sparse = none) :
    readAccessor doc acr buffer p = readDense doc acr.componentType acr.type acr.count acr.bufferView acr.byteOffset buffer := by
  unfold readAccessor
  rw [h]
  cases readDense doc acr.componentType acr.type acr.count acr.bufferView acr.byteOffset buffer <;> rfl

theorem last_place (i : Nat) (l : List Nat) (h : i ∈ l) : ∃ j : Nat, l[j]? = some i ∧ ∀ j', j < j' → l[j']? ≠ some i := by
  induction l with
  | nil => cases h
  | cons x l ih =>
    by_cases hl : i ∈ l
    · obtain ⟨j, h1, h2⟩ := ih hl
      refine ⟨j + 1, by simpa using h1, fun j' hj => ?_⟩
      cases j' with
      | zero => omega
      | succ j' => simpa using h2 j' (by omega)
    · obtain rfl : i = x := by
        rcases List.mem_cons.1 h with h | h
        · exact h
        · exact absurd h hl
      refine ⟨0, rfl, fun j' hj e => ?_⟩
      cases j' with
      | zero => omega
      | succ j' => exact hl (List.mem_of_getElem? (by simpa using e))

theorem indices_split {doc : Document} {acr : Accessor} {buffer : List UInt32} {b0 : Bytes} {p : Pools} {idx : List UInt32}
    (h : readIndices doc acr buffer b0 p = .ok idx) :
    acceptsIndices acr.componentType acr.type = true ∧ ∃ s, readAccessor doc acr b0 p = .ok s := by
  unfold readIndices at h
  obtain ⟨u, h1, h⟩ := Res.bind_eq_ok.1 h
  obtain ⟨s, h2, -⟩ := Res.bind_eq_ok.1 h
  exact ⟨checkIndices_accepts.1 h1, s, h2⟩

theorem sparseLoop_no_error {α : Type} {idx : List UInt32} {vals : List α} {n i : Nat} {s : List α} {e : Err} :
    sparseLoop idx vals n i s ≠ .err e := by
  induction n generalizing i s with
  | zero => intro h; cases h
  | succ n ih =>
    unfold sparseLoop
    split
    · split
      · exact ih
      · intro h; cases h
    · intro h; cases h

/-- C94, without sparse data: `ReadAccessor` accepts exactly the accessors that fit in their buffer views, apart from the unlucky
ones. -/
theorem C94_dense_partial (doc : Document) (acr : Accessor) (buffer : Bytes) (p : Pools) (ht : Tame doc) (hd : Ints doc) (hm : Modest acr)
    (hs : acr.sparse = none) :
    (∃ s, readAccessor doc acr buffer p = .ok s) ↔ FitsIn doc acr ∧ ¬ Unlucky doc acr := by
  rw [readDense_accessor hs]
  exact readDense_iff ht hd (fun h => hm.type ⟨h.1, h.2.1⟩) hm.count

/-- C94, with sparse data: the values have to fit as well, and the indices have to be readable and lie within the accessor. -/
theorem C94_sparse_partial (doc : Document) (acr : Accessor) (sp : Sparse) (buffer : Bytes) (p : Pools) (ht : Tame doc) (hd : Ints doc)
    (hm : Modest acr) (hs : acr.sparse = some sp) :
    (∃ s, readAccessor doc acr buffer p = .ok s) ↔
      (FitsIn doc acr ∧ ¬ Unlucky doc acr) ∧ (FitsIn doc (valuesAccessor acr sp) ∧ ¬ Unlucky doc (valuesAccessor acr sp)) ∧
      ∃ indices, readIndices doc (indicesAccessor sp) [] p.b1 p = .ok indices ∧ ∀ k ∈ indices, (k.toNat : Int) < acr.count := by
  have hv := readDense_iff (acr := valuesAccessor acr sp) (buffer := p.b2) ht hd (fun h => hm.type ⟨h.1, h.2.1⟩) (hm.sparse sp hs).1
  have hb := readDense_iff (acr := acr) (buffer := buffer) ht hd (fun h => hm.type ⟨h.1, h.2.1⟩) hm.count
  constructor
  · rintro ⟨r, h⟩
    obtain ⟨dense, values, indices, h1, h2, h3, h4⟩ := C22_sparse doc acr sp buffer p r hs h
    rw [readDense_accessor rfl] at h1 h3
    refine ⟨hb.1 ⟨_, h1⟩, hv.1 ⟨_, h3⟩, indices, h2, fun k hk => ?_⟩
    obtain ⟨j, e1, e2⟩ := last_place k.toNat (indices.map fun k => k.toNat) (List.mem_map_of_mem hk)
    obtain ⟨x, -, e3⟩ := h4.replaced j k.toNat e1 e2
    have e4 := getElem?_lt e3
    obtain ⟨k', s', -, -, -, e5⟩ := readAccessor_inv h
    omega
  · rintro ⟨h1, h2, indices, h3, h4⟩
    obtain ⟨⟨ty, d⟩, h5⟩ := hb.2 h1
    obtain ⟨⟨vty, vd⟩, h6⟩ := hv.2 h2
    obtain ⟨k, s, c1, c2, c3, c4⟩ := readDense_inv h5
    obtain ⟨k', s', d1, d2, d3, d4⟩ := readDense_inv h6
    obtain ⟨rfl, rfl⟩ := types_unique (c1.symm.trans d1) (c2.symm.trans d2)
    simp only at c3 d3
    subst c3 d3
    obtain ⟨hacc, is, hr⟩ := indices_split h3
    obtain ⟨r1, f1, f2⟩ := readIndices_of_ok (buffer := p.idx) hacc hr
    obtain ⟨r2, f3, f4⟩ := readIndices_of_ok (buffer := []) hacc hr
    obtain ⟨rfl, hlen⟩ := f4 (.inr rfl)
    rw [List.append_nil, h3] at f3
    injection f3 with f3
    subst f3
    have hlen' : ((indicesFn is).length : Int) = sp.count := hlen
    have d4' : (vd.length : Int) = sp.count := d4
    have c4' : (d.length : Int) = acr.count := c4
    have f1' : readIndicesDense doc sp.indices.componentType .scalar sp.count (some sp.indices.bufferView) sp.indices.byteOffset p.idx p.b1 = .ok (indicesFn is ++ r1) := by
      rw [← readIndices_plainAccessor (p := p)]
      exact f1
    have hsl : ∃ r, sparseLoop (indicesFn is ++ r1) vd sp.count.toNat 0 d = .ok r := by
      have hnp : (sparseLoop (indicesFn is ++ r1) vd sp.count.toNat 0 d).isPanic = false := by
        refine sparseLoop_no_panic (by rw [List.length_append]; omega) (by omega) fun j k _ hj e => ?_
        rw [List.getElem?_append_left (by omega)] at e
        have := h4 k (List.mem_of_getElem? e)
        omega
      cases hx : sparseLoop (indicesFn is ++ r1) vd sp.count.toNat 0 d with
      | ok r => exact ⟨r, rfl⟩
      | err e => exact absurd hx sparseLoop_no_error
      | panic w => rw [hx] at hnp; cases hnp
    obtain ⟨r, hr'⟩ := hsl
    refine ⟨⟨.base k s, r⟩, ?_⟩
    unfold readAccessor
    rw [h5, Res.ok_bind, hs]
    simp only
    rw [f1', Res.ok_bind]
    rw [show readDense doc acr.componentType acr.type sp.count (some sp.values.bufferView) sp.values.byteOffset p.b2 = _ from h6, Res.ok_bind]
    rw [dif_pos rfl]
    simp only
    rw [hr']
    rfl

/-- C94, for `ReadIndices`. -/
theorem C94_indices_partial (doc : Document) (acr : Accessor) (buffer : List UInt32) (b0 : Bytes) (p : Pools) (ht : Tame doc) (hd : Ints doc)
    (hm : Modest acr) (hs : acr.sparse = none) :
    (∃ l, readIndices doc acr buffer b0 p = .ok l) ↔
      (acr.componentType = .ubyte ∨ acr.componentType = .ushort ∨ acr.componentType = .uint) ∧ acr.type = .scalar ∧
      FitsIn doc acr ∧ ¬ Unlucky doc acr := by
  have hacc : acceptsIndices acr.componentType acr.type = true ↔
      (acr.componentType = .ubyte ∨ acr.componentType = .ushort ∨ acr.componentType = .uint) ∧ acr.type = .scalar := by
    cases acr.componentType <;> cases acr.type <;> simp [acceptsIndices]
  rw [← C94_dense_partial doc acr b0 p ht hd hm hs, ← and_assoc, ← hacc]
  constructor
  · rintro ⟨l, h⟩
    exact indices_split h
  · rintro ⟨h1, s, h2⟩
    obtain ⟨r, h3, -⟩ := readIndices_of_ok (buffer := buffer) h1 h2
    exact ⟨_, h3⟩

/-- C94: an accessor that does not fit is never accepted. -/
theorem C94_rejects (doc : Document) (acr : Accessor) (buffer : Bytes) (p : Pools) (s : Slice) (ht : Tame doc) (hd : Ints doc) (hm : Modest acr)
    (h : readAccessor doc acr buffer p = .ok s) : FitsIn doc acr := by
  cases hs : acr.sparse with
  | none => exact ((C94_dense_partial doc acr buffer p ht hd hm hs).1 ⟨s, h⟩).1
  | some sp => exact ((C94_sparse_partial doc acr sp buffer p ht hd hm hs).1 ⟨s, h⟩).1.1

/-- Four bytes, and a buffer view of all of them. -/
def fourBytes : Document :=
  { buffers := [some { data := [1, 2, 3, 4], byteLength := 4 }], bufferViews := [some { buffer := 0, byteLength := 4 }] }

theorem fourBytes_tame : Tame fourBytes ∧ Ints fourBytes := by
  refine ⟨⟨fun b hb => ?_, fun bv hb => ?_⟩, fun bv hb => ?_⟩ <;>
    (simp only [fourBytes, List.mem_singleton, Option.some.injEq] at hb; subst hb; first | decide | (unfold IsInt; decide))

theorem fourBytes_room (o r : Nat) (h : o + r = 4) : Room fourBytes 0 o 0 r :=
  ⟨0, 0, 0, 4, o, { buffer := 0, byteLength := 4 }, { data := [1, 2, 3, 4], byteLength := 4 }, rfl, rfl, rfl, rfl, rfl, rfl, by decide, rfl, rfl, h⟩

/-- Two signed bytes of four. -/
def twoOfFour : Accessor := { componentType := .byte, type := .scalar, count := 2, bufferView := some 0 }

/-- C94 fails in full: an accessor that fits, and that is not accepted. -/
theorem C94_full_fails : ∃ doc acr, Tame doc ∧ Ints doc ∧ Modest acr ∧ acr.sparse = none ∧ FitsIn doc acr ∧
    ∀ buffer p s, readAccessor doc acr buffer p ≠ .ok s := by
  have hm : Modest twoOfFour := ⟨by decide, by decide, fun sp h => nomatch h⟩
  refine ⟨fourBytes, twoOfFour, fourBytes_tame.1, fourBytes_tame.2, hm, rfl, ⟨.i8, .sc, 2, rfl, rfl, rfl, fun v hv => ?_⟩, fun buffer p s h => ?_⟩
  · cases hv
    exact ⟨0, 4, fourBytes_room 0 4 rfl, by decide⟩
  · refine ((C94_dense_partial fourBytes twoOfFour buffer p fourBytes_tame.1 fourBytes_tame.2 hm rfl).1 ⟨s, h⟩).2 ?_
    exact ⟨0, 0, 4, rfl, fourBytes_room 0 4 rfl, .inl ⟨rfl, rfl, by decide⟩⟩

/-- Two unsigned bytes from offset 1 fit; five do not. -/
example (buffer : Bytes) (p : Pools) :
    (∃ s, readAccessor fourBytes { componentType := .ubyte, type := .scalar, count := 2, bufferView := some 0, byteOffset := 1 } buffer p = .ok s) ∧
    ∀ s, readAccessor fourBytes { componentType := .ubyte, type := .scalar, count := 5, bufferView := some 0 } buffer p ≠ .ok s := by
  constructor
  · rw [C94_dense_partial _ _ _ _ fourBytes_tame.1 fourBytes_tame.2 ⟨by decide, by decide, fun sp h => by cases h⟩ rfl]
    refine ⟨⟨.u8, .sc, 2, rfl, rfl, rfl, fun v hv => ?_⟩, ?_⟩
    · cases hv
      exact ⟨0, 3, fourBytes_room 1 3 rfl, by decide⟩
    · rintro ⟨v, st, room, hv, hr, ⟨h, -⟩ | ⟨h, -⟩⟩
      · cases h
      · cases h
  · intro s h
    obtain ⟨k, t, n, e1, e2, e3, hf⟩ := C94_rejects _ _ _ _ s fourBytes_tame.1 fourBytes_tame.2 ⟨by decide, by decide, fun sp h => by cases h⟩ h
    obtain ⟨st, room, hr, hn⟩ := hf 0 rfl
    obtain ⟨rfl, rfl⟩ := room_unique (fourBytes_room 0 4 rfl) hr
    obtain ⟨rfl, rfl⟩ := types_unique (k := .u8) (s := .sc) e1 e2
    obtain rfl : n = 5 := by simp only at e3; omega
    revert hn
    decide

/-- Four zeros, one of which is replaced; the place is in the byte at `off`. -/
def oneReplaced (off : Int) : Accessor :=
  { componentType := .ubyte, type := .scalar, count := 4,
    sparse := some { count := 1, indices := { bufferView := 0, byteOffset := off, componentType := .ubyte }, values := { bufferView := 0, byteOffset := 3 } } }

theorem oneReplaced_modest (off : Int) : Modest (oneReplaced off) :=
  ⟨(fun h => by cases h.1), (by decide : 4 * (1 * 1) ≤ maxAlloc), (fun sp h => by cases h; exact ⟨(by decide : 1 * (1 * 1) ≤ maxAlloc), (by decide : 1 * 1 ≤ maxAlloc)⟩)⟩

/-- Sparse data: the place 1 is accepted, and the place 4 is not. -/
example (buffer : Bytes) : (∃ s, readAccessor fourBytes (oneReplaced 0) buffer ⟨[], [], []⟩ = .ok s) ∧
    ∀ s, readAccessor fourBytes (oneReplaced 3) buffer ⟨[], [], []⟩ ≠ .ok s := by
  constructor
  · rw [C94_sparse_partial _ _ _ _ _ fourBytes_tame.1 fourBytes_tame.2 (oneReplaced_modest 0) rfl]
    refine ⟨⟨⟨.u8, .sc, 4, rfl, rfl, rfl, fun v hv => by cases hv⟩, ?_⟩, ⟨⟨.u8, .sc, 1, rfl, rfl, rfl, fun v hv => ?_⟩, ?_⟩, [1], by rfl, by decide⟩
    · rintro ⟨v, st, room, hv, -⟩
      cases hv
    · cases hv
      exact ⟨0, 1, fourBytes_room 3 1 rfl, by decide⟩
    · rintro ⟨v, st, room, hv, hr, ⟨h, -⟩ | ⟨h, -⟩⟩
      · cases h
      · cases h
  · intro s h
    obtain ⟨-, -, indices, h1, h2⟩ := (C94_sparse_partial _ _ _ _ _ fourBytes_tame.1 fourBytes_tame.2 (oneReplaced_modest 3) rfl).1 ⟨s, h⟩
    have h3 : readIndices fourBytes (indicesAccessor { count := 1, indices := { bufferView := 0, byteOffset := 3, componentType := .ubyte }, values := { bufferView := 0, byteOffset := 3 } }) [] [] ⟨[], [], []⟩ = .ok [4] := by rfl
    rw [h3] at h1
    cases h1
    exact absurd (h2 4 (by simp)) (by decide)

end Gltf
