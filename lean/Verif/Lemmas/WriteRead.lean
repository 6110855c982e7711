/-
What the writing functions wrote can be read back.
-/
import Verif.Lemmas.ReadBack

namespace Gltf

open Spec

/-! ### Errors of the writing functions -/

theorem writeAll_ne_err {stride off : Nat} {b : Bytes} {ds : List Slice} (e : Err) :
    writeAll stride off b ds ≠ .err e := by
  induction ds generalizing off b with
  | nil => simp [writeAll]
  | cons d ds ih =>
    simp only [writeAll]
    have h1 : ∀ e, withSliceFrom b off (fun tail => writeIgnore tail stride d) ≠ .err e := by
      intro e
      unfold withSliceFrom
      split
      · have h2 : ∀ t e, writeIgnore t stride d ≠ .err e := by
          intro t e
          unfold writeIgnore
          split
          · simp
          · next h => intro h'; exact h e h'
        show Res.map _ (writeIgnore (b.drop (off : Int).toNat) stride d) ≠ .err e
        generalize hw : writeIgnore (b.drop (off : Int).toNat) stride d = r
        cases r with
        | ok t => simp
        | err e' => exact absurd hw (h2 _ _)
        | panic w => simp
      · simp
    cases hw : withSliceFrom b off (fun tail => writeIgnore tail stride d) with
    | ok t => exact ih
    | err e' => exact absurd hw (h1 _)
    | panic w => simp

/-- An error of `writeBufferViews` is that of its first loop, and then nothing has changed. -/
theorem writeBufferViews_err {target : Target} {data : List Slice} {doc : Document} {e : Err}
    (h : (writeBufferViews target data doc).2 = .err e) :
    viewSizes target (decide (1 < data.length)) 0 0 0 0 data = .err e ∧ (writeBufferViews target data doc).1 = doc := by
  revert h
  unfold writeBufferViews
  simp only [W.bind_def, lastBuffer_eq, W.lift, setLastBuffer, W.get, W.put, W.pure_def]
  cases viewSizes target (decide (1 < data.length)) 0 0 0 0 data with
  | err e => simp
  | panic e => simp
  | ok s =>
    simp only
    cases hb : (ensured doc).buffers.getLast?.join with
    | none => simp [deref]
    | some b =>
      simp only [deref]
      cases hz : appendZeros b.data s.2 with
      | err e => unfold appendZeros at hz; split at hz <;> cases hz
      | panic e => simp
      | ok z =>
        simp only
        cases hw : writeAll s.1 b.data.length z data with
        | err e => exact absurd hw (writeAll_ne_err e)
        | panic e => simp
        | ok w => simp

theorem writeBufferView_eq (target : Target) (d : Slice) (doc : Document) :
    writeBufferView target d doc = writeBufferViews target [d] doc := by
  unfold writeBufferView
  split
  · next h =>
    have := writeBufferViews_err (target := target) (data := [d]) (doc := doc) (by rw [h])
    rw [viewSizes_single] at this
    exact nomatch this.1
  · rfl

theorem writeAccessor_ok {target : Target} {data : Slice} {doc doc' : Document} {i : Nat} :
    writeAccessor target data doc = (doc', .ok i) ↔
      ∃ d1 d2 v, ensurePadding doc = (d1, .ok ()) ∧ writeBufferViews target [data] d1 = (d2, .ok v) ∧
        i = d2.accessors.length ∧
        doc' = { d2 with accessors := d2.accessors ++ [some
          { bufferView := some (v : Int), byteOffset := 0, componentType := data.ty.c, type := data.ty.t,
            count := data.data.length }] } := by
  unfold writeAccessor
  simp only [W.bind_ok, writeBufferView_eq, appendAccessor_eq, Prod.mk.injEq, Res.ok.injEq]
  constructor
  · rintro ⟨d1, _, h1, d2, v, h2, h3, h4⟩
    exact ⟨d1, d2, v, h1, h2, h4.symm, h3.symm⟩
  · rintro ⟨d1, d2, v, h1, h2, h3, h4⟩
    exact ⟨d1, (), h1, d2, v, h2, h4.symm, h3.symm⟩

theorem writeAccessorsInterleaved_ok {data : List Slice} {doc doc' : Document} {is : List Nat} :
    writeAccessorsInterleaved data doc = (doc', .ok is) ↔
      ∃ d1 d2 v, ensurePadding doc = (d1, .ok ()) ∧ writeBufferViews targetArrayBuffer data d1 = (d2, .ok v) ∧
        is = (List.range data.length).map (d2.accessors.length + ·) ∧
        doc' = { d2 with accessors := d2.accessors ++ (newAccessors v 0 data).map some } := by
  unfold writeAccessorsInterleaved writeBufferViewInterleaved
  simp only [W.bind_ok, appendInterleaved_eq, Prod.mk.injEq, Res.ok.injEq]
  constructor
  · rintro ⟨d1, _, h1, d2, v, h2, h3, h4⟩
    exact ⟨d1, d2, v, h1, h2, h4.symm, h3.symm⟩
  · rintro ⟨d1, d2, v, h1, h2, h3, h4⟩
    exact ⟨d1, (), h1, d2, v, h2, h4.symm, h3.symm⟩

theorem ensurePadding_accessors {doc d1 : Document} (h : ensurePadding doc = (d1, .ok ())) :
    d1.accessors = doc.accessors ∧ d1.bufferViews = doc.bufferViews ∧ d1.images = doc.images := by
  obtain ⟨b, -, -, rfl⟩ := ensurePadding_ok.1 h
  exact ⟨rfl, rfl, rfl⟩

theorem writeBufferViews_accessors {target : Target} {data : List Slice} {doc d1 : Document} {v : Nat}
    (h : writeBufferViews target data doc = (d1, .ok v)) :
    d1.accessors = doc.accessors ∧ d1.images = doc.images ∧ v = doc.bufferViews.length ∧
      d1.bufferViews.length = v + 1 := by
  obtain ⟨stride, size, b, bytes, -, -, -, -, rfl, rfl⟩ := writeBufferViews_ok.1 h
  exact ⟨rfl, rfl, rfl, by simp⟩

/-! ### The view that was written -/

/-- The view appended by a successful write. -/
theorem writeBufferViews_view {target : Target} {data : List Slice} {doc doc' : Document} {v : Nat}
    (h : writeBufferViews target data doc = (doc', .ok v)) :
    ∃ stride size bv b' b, viewSizes target (decide (1 < data.length)) 0 0 0 0 data = .ok (stride, size) ∧
      (ensured doc).buffers.getLast?.join = some b ∧
      InRange doc' (v : Int) bv b' b.data.length size ∧ bv.byteStride = (stride : Nat) ∧ bv.target = target ∧
      b'.data.length = b.data.length + size ∧
      bv.buffer = ((ensured doc).buffers.length : Int) - 1 ∧
      b'.byteLength = wrap64 (b.byteLength + (size : Nat)) ∧
      b.data.length + size ≤ maxAlloc ∧
      writeAll stride b.data.length (b.data ++ List.replicate size 0) data = .ok b'.data := by
  obtain ⟨stride, size, b, bytes, hv, hb, hle, hw, rfl, rfl⟩ := writeBufferViews_ok.1 h
  have hlen := (writeAll_prefix hw).2
  have hpos := List.length_pos_iff.2 (ensured_buffers_ne doc)
  refine ⟨stride, size, { buffer := ((ensured doc).buffers.length : Int) - 1, byteLength := size,
                           byteOffset := b.data.length, byteStride := stride, target := target }, { b with byteLength := wrap64 (b.byteLength + (size : Nat)), data := bytes }, b, hv, hb,
    ⟨by omega, ?_, ?_, ?_, rfl, rfl, by show _ ≤ bytes.length; omega, ?_⟩, rfl, rfl, hlen, rfl, rfl, hle, hw⟩
  · show (doc.bufferViews ++ [some _])[(doc.bufferViews.length : Int).toNat]? = some (some _)
    simp
  · show (0 : Int) ≤ ((ensured doc).buffers.length : Int) - 1
    omega
  · show ((ensured doc).buffers.dropLast ++ [some _])[(((ensured doc).buffers.length : Int) - 1).toNat]? = _
    rw [List.getElem?_append_right (by simp)]
    rw [show ((((ensured doc).buffers.length : Int) - 1).toNat - (ensured doc).buffers.dropLast.length) = 0 by simp]
    rfl
  · unfold GoLen maxAlloc at *
    show bytes.length < 2 ^ 63
    omega

theorem kind_base (k : Kind) (s : Shape) : kind (.base k s) = k := rfl

theorem shape_base (k : Kind) (s : Shape) : shape (.base k s) = s := rfl

theorem base_c_uint (s : Shape) : (ETy.base .u32 s).c = .uint := by cases s <;> rfl

theorem base_t_mat3 (k : Kind) : (ETy.base k .m3).t = .mat3 := by cases k <;> rfl

theorem backTy_eq (t : ETy) : backTy t = .base (kind t) (shape t) := by cases t <;> rfl

theorem back_c (t : ETy) : (ETy.base (kind t) (shape t)).c = t.c ∧ (ETy.base (kind t) (shape t)).t = t.t := by
  cases t <;> exact ⟨rfl, rfl⟩

theorem cells_back (t : ETy) (x : t.Elem) : cells (backTy t) (backElem t x) = cells t x := by
  cases t <;> rfl

theorem effStride_back (t : ETy) (S : Nat) : effStride (.base (kind t) (shape t)) S = effStride t S := by
  cases t <;> rfl

/-- Elements read back from a region where several slices were written. -/
theorem elemAt_allCells {S n E off : Nat} {ds : List Slice} {b : Bytes} (h : Rows S n E ds) (hE : rowSize ds ≤ E)
    (hm : off + rowSize ds + E * (n - 1) ≤ b.length) {j : Nat} {d : Slice} (hd : ds[j]? = some d) :
    (⟨.base (kind d.ty) (shape d.ty), (List.range n).map fun i =>
      elemAt (.base (kind d.ty) (shape d.ty)) (patches b (allCells S off ds)) (off + rowSize (ds.take j) + E * i)⟩ : Slice)
      = back d := by
  have hlen := h.len d (List.mem_of_getElem? hd)
  have key : ∀ i (hi : i < d.data.length), elemAt (backTy d.ty) (patches b (allCells S off ds))
      (off + rowSize (ds.take j) + E * i) = backElem d.ty d.data[i] := by
    intro i hi
    apply elemAt_of_mem (allCells_fits h hm) (allCells_disj h hE)
    intro q hq
    rw [cells_back] at hq
    exact allCells_has h hd (List.getElem?_eq_getElem hi) hq
  unfold back
  rw [← backTy_eq]
  congr 1
  apply List.ext_getElem
  · simp [hlen]
  · intro i h1 h2
    simp only [List.getElem_map, List.getElem_range]
    exact key i (by simpa using h2)

/-- Reading back one of the slices of a buffer view. -/
theorem readDense_written {target : Target} {data : List Slice} {doc doc' : Document} {v n E stride size : Nat}
    {buffer : Bytes}
    (h : writeBufferViews target data doc = (doc', .ok v))
    (hv : viewSizes target (decide (1 < data.length)) 0 0 0 0 data = .ok (stride, size))
    (hrows : Rows stride n E data) (hn : 0 < n) (hE : rowSize data = E) (hsz : size = n * rowSize data)
    {j : Nat} {d : Slice} (hd : data[j]? = some d) (hi8 : d.ty = .base .i8 .sc → data.length = 1)
    (hx : ¬ (d.ty.c = .uint ∧ d.ty.t = .mat3 ∧ buffer ≠ [])) :
    readDense doc' d.ty.c d.ty.t n (some (v : Int)) (rowSize (data.take j) : Nat) buffer = .ok (back d) := by
  obtain ⟨stride', size', bv, b', b, hv', hb, hr, hst, -, hl, -, -, hle, hw⟩ := writeBufferViews_view h
  rw [hv] at hv'
  simp only [Res.ok.injEq, Prod.mk.injEq] at hv'
  obtain ⟨rfl, rfl⟩ := hv'
  have hmem := List.mem_of_getElem? hd
  have hjl := getElem?_lt hd
  have hnE : n * rowSize data = E * (n - 1) + E := by
    obtain ⟨m, rfl⟩ : ∃ m, n = m + 1 := ⟨n - 1, by omega⟩
    rw [hE, Nat.add_mul, Nat.one_mul, Nat.mul_comm]; rfl
  have hbl : b.data.length + rowSize data + E * (n - 1) ≤ (b.data ++ List.replicate size 0).length := by
    simp; omega
  rw [writeAll_eq hrows (by unfold GoLen maxAlloc at *; simp; omega) hn hbl] at hw
  have hw' := (Res.ok.inj hw).symm
  have hrow : rowSize (data.take j) + d.esz ≤ rowSize data := by
    have : data = data.take j ++ d :: data.drop (j + 1) := by
      conv => lhs; rw [← List.take_append_drop j data]
      rw [List.drop_eq_getElem_cons hjl]
      congr 2
      rw [List.getElem?_eq_getElem hjl] at hd; exact Option.some.inj hd
    conv => rhs; rw [this]
    simp [rowSize]
  have hmemsz : n * (ETy.base (kind d.ty) (shape d.ty)).memSize ≤ maxAlloc := by
    have h1 := memSize_le (.base (kind d.ty) (shape d.ty))
    have h2 : n * (ETy.base (kind d.ty) (shape d.ty)).memSize ≤ n * rowSize data := by
      apply Nat.mul_le_mul_left
      simp only [Slice.esz] at hrow
      exact Nat.le_trans h1 (by simp only [kind_base, shape_base]; omega)
    omega
  have hstr := hrows.stride d hmem
  rw [← (back_c d.ty).1, ← (back_c d.ty).2]
  have := readDense_eq (k := kind d.ty) (s := shape d.ty) (n := n) (a := rowSize (data.take j)) (st := stride)
    (buffer := buffer) hmemsz ?_ hr hst (by simp only [Slice.esz] at hrow; omega) ?_ ?_ ?_ (by omega)
  · rw [this, ← elemAt_allCells hrows (by omega) hbl hd, hw', effStride_back, hstr]
  · rintro ⟨h1, h2, h3⟩
    refine hx ⟨?_, ?_, h3⟩
    · rw [← (back_c d.ty).1, h1]; exact base_c_uint _
    · rw [← (back_c d.ty).2, h2]; exact base_t_mat3 _
  · unfold needed
    rw [if_neg (by omega), effStride_back, hstr]
    simp only [Slice.esz] at hrow
    simp only [kind_base, shape_base]
    omega
  · rintro ⟨h1, h2⟩
    rw [effStride_back, hstr]
    apply hrows.u8 d hmem
    cases hty : d.ty with
    | base k s => rw [hty] at h1 h2; simp only [kind, shape] at h1 h2; rw [h1, h2]
    | rgba => rw [hty] at h2; cases h2
    | rgba64 => rw [hty] at h2; cases h2
  · rintro ⟨h1, h2⟩
    have hty : d.ty = .base .i8 .sc := by
      cases hty : d.ty with
      | base k s => rw [hty] at h1 h2; simp only [kind, shape] at h1 h2; rw [h1, h2]
      | rgba => rw [hty] at h2; cases h2
      | rgba64 => rw [hty] at h2; cases h2
    have hl1 := hi8 hty
    have hj : j = 0 := by omega
    subst hj
    have hdata : data = [d] := by
      obtain ⟨x, rfl⟩ := List.length_eq_one_iff.1 hl1
      simp at hd; rw [hd]
    have hR : rowSize data = 1 := by
      rw [hdata]; simp [rowSize, hty, kind, shape, elemSize, Spec.size]
    rw [effStride_back, hstr]
    refine ⟨?_, .inl (by omega)⟩
    rw [hsz, hR]; simp [rowSize]

/-- Reading back an empty slice. -/
theorem readDense_written_empty {target : Target} {doc doc' : Document} {v : Nat} {d : Slice} {buffer : Bytes}
    (h : writeBufferViews target [d] doc = (doc', .ok v)) (h0 : d.data.length = 0)
    (hx : ¬ (d.ty.c = .uint ∧ d.ty.t = .mat3 ∧ buffer ≠ [])) :
    readDense doc' d.ty.c d.ty.t 0 (some (v : Int)) 0 buffer = .ok (back d) := by
  obtain ⟨stride, size, bv, b', b, hv, hb, hr, hst, -, hl, -, -, hle, hw⟩ := writeBufferViews_view h
  rw [viewSizes_single, h0] at hv
  simp only [Res.ok.injEq, Prod.mk.injEq, Nat.zero_mul] at hv
  obtain ⟨hs, rfl⟩ := hv
  have hesz := elemSize_le (kind d.ty) (shape d.ty)
  have hes : elemSize (kind d.ty) (shape d.ty) ≤ effStride (.base (kind d.ty) (shape d.ty)) stride ∧ stride < 2 ^ 63 := by
    rw [effStride_back]
    unfold effStride
    simp only [Slice.esz] at hs
    split at hs <;> (subst hs; split <;> omega)
  rw [← (back_c d.ty).1, ← (back_c d.ty).2]
  have := readDense_eq (k := kind d.ty) (s := shape d.ty) (n := 0) (a := 0) (st := stride)
    (buffer := buffer) (by simp) ?_ hr hst (by omega) (by simp [needed]) (by simp) (by simp) (fun _ => hes)
  · have hnil : d.data = [] := List.length_eq_zero_iff.1 h0
    have hback : back d = ⟨.base (kind d.ty) (shape d.ty), []⟩ := by
      unfold back; rw [hnil]; rw [← backTy_eq]; rfl
    rw [hback]
    exact this
  · rintro ⟨h1, h2, h3⟩
    refine hx ⟨?_, ?_, h3⟩
    · rw [← (back_c d.ty).1, h1]; exact base_c_uint _
    · rw [← (back_c d.ty).2, h2]; exact base_t_mat3 _

theorem stride_single {target : Target} {d : Slice} {stride size : Nat}
    (hv : viewSizes target (decide (1 < [d].length)) 0 0 0 0 [d] = .ok (stride, size)) :
    (stride = 0 ∨ stride = d.esz) ∧ effStride d.ty stride = d.esz ∧ size = d.data.length * d.esz := by
  rw [viewSizes_single] at hv
  simp only [Res.ok.injEq, Prod.mk.injEq] at hv
  obtain ⟨hs, rfl⟩ := hv
  unfold effStride
  split at hs
  · subst hs; simp
  · subst hs; simp

theorem readDense_writtenOne {target : Target} {doc doc' : Document} {v : Nat} {d : Slice} {buffer : Bytes}
    (h : writeBufferViews target [d] doc = (doc', .ok v))
    (hx : ¬ (d.ty.c = .uint ∧ d.ty.t = .mat3 ∧ buffer ≠ [])) :
    readDense doc' d.ty.c d.ty.t d.data.length (some (v : Int)) 0 buffer = .ok (back d) := by
  by_cases h0 : d.data.length = 0
  · rw [h0]; exact readDense_written_empty h h0 hx
  · obtain ⟨stride, size, b, bytes, hv, -⟩ := writeBufferViews_ok.1 h
    obtain ⟨h1, h2, h3⟩ := stride_single hv
    have := readDense_written (buffer := buffer) (n := d.data.length) (E := d.esz) (j := 0) (d := d) h hv
      ⟨by simp, by simpa using h2, ?_⟩ (by omega) (by simp [rowSize]) (by simp [rowSize, h3])
      rfl (by simp) hx
    · simpa [rowSize] using this
    · intro x hx hty
      simp only [List.mem_singleton] at hx
      subst hx
      left; simp [Slice.esz, hty, elemSize, kind, shape, Spec.size]

end Gltf
