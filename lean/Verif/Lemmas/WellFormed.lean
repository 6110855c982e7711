/-
The writing functions keep documents well formed.
-/
import Verif.Lemmas.Core

namespace Gltf

open Spec

theorem Spec.ViewInside.mono {d d' : Document} {bv : BufferView} (e : Extends d d') (h : ViewInside d bv) : ViewInside d' bv := by
  obtain ⟨i, o, l, h1, h2, h3, b, h4, h5⟩ := h
  obtain ⟨p, hp, hb⟩ := e.buffers _ _ h4
  rcases hb with rfl | ⟨b0, data, len, hb0, rfl, hpre⟩
  · exact ⟨i, o, l, h1, h2, h3, b, hp, h5⟩
  · cases hb0
    exact ⟨i, o, l, h1, h2, h3, _, hp, Nat.le_trans h5 hpre.length_le⟩

theorem Spec.AccessorInside.mono {d d' : Document} {a : Accessor} (e : Extends d d') (h : AccessorInside d a) :
    AccessorInside d' a := by
  obtain ⟨v, off, n, st, l, bv, k, s, h1, h2, h3⟩ := h
  exact ⟨v, off, n, st, l, bv, k, s, h1, e.view h2, h3⟩

theorem wf_buffers_ensured {d : Document} (h : WellFormed d) :
    ∀ p ∈ (ensured d).buffers, ∃ b, p = some b ∧ b.byteLength = b.data.length := by
  unfold ensured
  split
  · intro p hp
    simp only [List.mem_append, List.mem_singleton] at hp
    rcases hp with hp | rfl
    · exact h.buffers p hp
    · exact ⟨{}, rfl, rfl⟩
  · exact h.buffers

/-- Replacing the last buffer by a longer one, with the right length. -/
theorem wf_withLast {d : Document} (h : WellFormed d) {b : Buffer} {data : Bytes} {len : Int}
    (hb : (ensured d).buffers.getLast?.join = some b) (hp : b.data <+: data) (hl : len = data.length) :
    WellFormed (withLast d { b with data := data, byteLength := len }) := by
  have e := Extends.withLast (len := len) hb hp
  refine ⟨?_, ?_, ?_⟩
  · intro p hp'
    simp only [withLast, List.mem_append, List.mem_singleton] at hp'
    rcases hp' with hp' | rfl
    · exact wf_buffers_ensured h p ((List.dropLast_sublist _).subset hp')
    · exact ⟨_, rfl, hl⟩
  · intro p hp'
    obtain ⟨bv, rfl, hv⟩ := h.bufferViews p hp'
    exact ⟨bv, rfl, hv.mono e⟩
  · intro p hp'
    obtain ⟨a, rfl, ha⟩ := h.accessors p hp'
    exact ⟨a, rfl, ha.mono e⟩

theorem wf_lastLength {d : Document} (h : WellFormed d) {b : Buffer}
    (hb : (ensured d).buffers.getLast?.join = some b) : b.byteLength = b.data.length := by
  have := last_decomp hb
  obtain ⟨b', h1, h2⟩ := wf_buffers_ensured h (some b) (by rw [this]; simp)
  cases h1; exact h2

theorem wf_ensurePadding {d d' : Document} (h : WellFormed d) (hd : ensurePadding d = (d', .ok ())) : WellFormed d' := by
  obtain ⟨b, hb, hle, rfl⟩ := ensurePadding_ok.1 hd
  apply wf_withLast h hb (List.prefix_append _ _)
  rw [wf_lastLength h hb, wrap64_id (by omega) (by unfold maxAlloc at hle; omega)]
  simp

theorem wf_writeBufferViews {target : Target} {data : List Slice} {d d' : Document} {v : Nat} (h : WellFormed d)
    (hd : writeBufferViews target data d = (d', .ok v)) : WellFormed d' := by
  have hview := writeBufferViews_view hd
  have e : Extends d d' := by
    have := extends_writeBufferViews target data d
    rw [hd] at this; exact this
  obtain ⟨stride, size, b, bytes, -, hb, hle, hw, rfl, rfl⟩ := writeBufferViews_ok.1 hd
  have hlen := writeAll_prefix hw
  have hwf := wf_withLast h hb hlen.1 (len := wrap64 (b.byteLength + (size : Nat))) (by
    rw [wf_lastLength h hb, wrap64_id (by omega) (by unfold maxAlloc at hle; omega)]
    rw [hlen.2]; simp)
  refine ⟨hwf.buffers, ?_, ?_⟩
  · intro p hp
    simp only [List.mem_append, List.mem_singleton] at hp
    rcases hp with hp | rfl
    · obtain ⟨bv, rfl, hv⟩ := h.bufferViews p hp
      exact ⟨bv, rfl, hv.mono e⟩
    · obtain ⟨stride', size', bv, b', b2, -, -, hr, -⟩ := hview
      have hv := hr.view
      simp only [Int.toNat_natCast, List.getElem?_append_right (Nat.le_refl _), Nat.sub_self,
        List.getElem?_cons_zero, Option.some.injEq] at hv
      refine ⟨_, rfl, ?_⟩
      rw [hv]
      have := hr.bufferIndex
      exact ⟨bv.buffer.toNat, _, _, by omega, hr.offset, hr.length, b', hr.buffer, hr.inside⟩
  · intro p hp
    obtain ⟨a, rfl, ha⟩ := h.accessors p hp
    exact ⟨a, rfl, ha.mono e⟩

theorem ETy.c_eq (t : ETy) : t.c = componentTypeOf (kind t) ∧ t.t = accessorTypeOf (shape t) := by
  cases t with
  | base k s => cases k <;> cases s <;> exact ⟨rfl, rfl⟩
  | rgba => exact ⟨rfl, rfl⟩
  | rgba64 => exact ⟨rfl, rfl⟩

theorem wf_append {d : Document} (h : WellFormed d) {l : List Accessor}
    (hl : ∀ a ∈ l, AccessorInside d a) : WellFormed { d with accessors := d.accessors ++ l.map some } := by
  refine ⟨h.buffers, h.bufferViews, ?_⟩
  intro p hp
  simp only [List.mem_append, List.mem_map] at hp
  rcases hp with hp | ⟨a, ha, rfl⟩
  · exact h.accessors p hp
  · exact ⟨a, rfl, hl a ha⟩

theorem needed_back (t : ETy) (st n : Nat) : needed (.base (kind t) (shape t)) st n = needed t st n := by
  cases t <;> rfl

theorem wf_writeAccessor {target : Target} {data : Slice} {d d' : Document} {i : Nat} (h : WellFormed d)
    (hd : writeAccessor target data d = (d', .ok i)) : WellFormed d' := by
  obtain ⟨d1, d2, v, h1, h2, rfl, rfl⟩ := writeAccessor_ok.1 hd
  have w2 := wf_writeBufferViews (wf_ensurePadding h h1) h2
  have := wf_append w2 (l := [{ bufferView := some (v : Int), byteOffset := 0, componentType := data.ty.c,
                                type := data.ty.t, count := data.data.length }]) ?_
  · exact this
  · intro a ha
    rw [List.mem_singleton] at ha
    subst ha
    obtain ⟨stride, size, bv, b', b, hv, hb, hr, hst, -⟩ := writeBufferViews_view h2
    obtain ⟨hs1, hs2, hs3⟩ := stride_single hv
    refine ⟨v, 0, data.data.length, stride, size, bv, kind data.ty, shape data.ty, rfl, hr.view, rfl, rfl, hst, hr.length,
      (ETy.c_eq _).1, (ETy.c_eq _).2, ?_⟩
    rw [needed_back]
    unfold needed
    split
    · omega
    · rw [hs2, hs3]
      obtain ⟨m, hm⟩ : ∃ m, data.data.length = m + 1 := ⟨data.data.length - 1, by omega⟩
      rw [hm, Nat.add_mul, Nat.mul_comm]
      simp

theorem mem_newAccessors {v off : Nat} {ds : List Slice} {a : Accessor} (h : a ∈ newAccessors v off ds) :
    ∃ j d, ds[j]? = some d ∧ a = { bufferView := some (v : Int), byteOffset := ((off + rowSize (ds.take j) : Nat) : Int),
                                   componentType := d.ty.c, type := d.ty.t, count := d.data.length } := by
  induction ds generalizing off with
  | nil => simp [newAccessors] at h
  | cons d ds ih =>
    simp only [newAccessors, List.mem_cons] at h
    rcases h with rfl | h
    · exact ⟨0, d, rfl, by simp [rowSize]⟩
    · obtain ⟨j, x, hx, rfl⟩ := ih h
      refine ⟨j + 1, x, hx, ?_⟩
      rw [sizeOfElement_eq, List.take_succ_cons, rowSize_cons, Nat.add_assoc]

theorem rowSize_take_le {ds : List Slice} {j : Nat} {d : Slice} (h : ds[j]? = some d) :
    rowSize (ds.take j) + d.esz ≤ rowSize ds := by
  have hj := getElem?_lt h
  have : ds = ds.take j ++ d :: ds.drop (j + 1) := by
    conv => lhs; rw [← List.take_append_drop j ds]
    rw [List.drop_eq_getElem_cons hj]
    congr 2
    rw [List.getElem?_eq_getElem hj] at h; exact Option.some.inj h
  conv => rhs; rw [this]
  simp [rowSize]

/-- Sizes and strides of a view that was written. -/
theorem viewSizes_cases {target : Target} {data : List Slice} {stride size : Nat}
    (hv : viewSizes target (decide (1 < data.length)) 0 0 0 0 data = .ok (stride, size)) :
    (data = [] ∧ size = 0) ∨
    ∃ n, (∀ d ∈ data, d.data.length = n) ∧ (∀ d ∈ data, effStride d.ty stride = rowSize data) ∧
      size = n * rowSize data ∧ (data.length ≤ 1 ∨ stride = rowSize data) := by
  cases data with
  | nil =>
    left
    rw [viewSizes_nil] at hv
    simp only [Res.ok.injEq, Prod.mk.injEq] at hv
    exact ⟨rfl, hv.2.symm⟩
  | cons d ds =>
    right
    by_cases hds : ds = []
    · subst hds
      obtain ⟨h1, h2, h3⟩ := stride_single hv
      refine ⟨d.data.length, by simp, ?_, by simpa [rowSize] using h3, .inl (by simp)⟩
      intro x hx
      rw [List.mem_singleton] at hx; subst hx
      simpa [rowSize] using h2
    · rw [viewSizes_cons hds] at hv
      split at hv
      · next hall =>
        simp only [Res.ok.injEq, Prod.mk.injEq] at hv
        obtain ⟨rfl, rfl⟩ := hv
        refine ⟨d.data.length, ?_, ?_, rfl, .inr rfl⟩
        · intro x hx
          rcases List.mem_cons.1 hx with rfl | hx
          · rfl
          · exact hall x hx
        · intro x _
          unfold effStride
          have hpos : 0 < rowSize (d :: ds) := by
            rw [rowSize_cons]
            have := elemSize_pos (kind d.ty) (shape d.ty)
            simp only [Slice.esz]; omega
          rw [if_neg (by omega)]
      · cases hv

/-- A successful second loop never started past the end of the buffer. -/
theorem writeAll_inside {stride off : Nat} {b b' : Bytes} {ds : List Slice} (h : writeAll stride off b ds = .ok b')
    {j : Nat} (hj : j < ds.length) : off + rowSize (ds.take j) ≤ b.length := by
  induction ds generalizing off b j with
  | nil => simp at hj
  | cons d ds ih =>
    simp only [writeAll, Res.bind_eq_ok] at h
    obtain ⟨b1, h1, h2⟩ := h
    cases j with
    | zero =>
      simp only [List.take_zero]
      unfold withSliceFrom at h1
      split at h1
      · simp only [rowSize, List.map_nil, List.sum_nil]; omega
      · cases h1
    | succ j =>
      have hl : b1.length = b.length := by
        have := writeAll_keeps (stride := stride) (off := off) (b := b) (b' := b1) (ds := [d]) (by
          simp only [writeAll, h1]; rfl)
        exact this.1
      have := ih h2 (j := j) (by simpa using hj)
      rw [hl, sizeOfElement_eq] at this
      rw [List.take_succ_cons, rowSize_cons]
      simp only [Slice.esz]
      omega

theorem wf_writeAccessorsInterleaved {data : List Slice} {d d' : Document} {is : List Nat} (h : WellFormed d)
    (hd : writeAccessorsInterleaved data d = (d', .ok is)) : WellFormed d' := by
  obtain ⟨d1, d2, v, h1, h2, rfl, rfl⟩ := writeAccessorsInterleaved_ok.1 hd
  have w2 := wf_writeBufferViews (wf_ensurePadding h h1) h2
  apply wf_append w2
  intro a ha
  obtain ⟨j, x, hx, rfl⟩ := mem_newAccessors ha
  obtain ⟨stride, size, bv, b', b, hv, hb, hr, hst, -, -, -, -, -, hw⟩ := writeBufferViews_view h2
  have hrow := rowSize_take_le hx
  have hmem := List.mem_of_getElem? hx
  rcases viewSizes_cases hv with ⟨rfl, -⟩ | ⟨n, hn, hs, hsz, -⟩
  · simp at hx
  refine ⟨v, 0 + rowSize (data.take j), x.data.length, stride, size, bv, kind x.ty, shape x.ty, rfl, hr.view, rfl, rfl,
    hst, hr.length, (ETy.c_eq _).1, (ETy.c_eq _).2, ?_⟩
  rw [needed_back, hn x hmem]
  unfold needed
  simp only [Slice.esz] at hrow
  split
  · next h0 =>
    have := writeAll_inside hw (getElem?_lt hx)
    simp at this
    omega
  · rw [hs x hmem, hsz]
    obtain ⟨m, hm⟩ : ∃ m, n = m + 1 := ⟨n - 1, by omega⟩
    rw [hm, Nat.add_mul, Nat.mul_comm]
    simp; omega

theorem wf_same {d d' : Document} (s : SameDoc d d') (h : WellFormed d) : WellFormed d' := by
  have hb : d'.buffers = d.buffers := by rw [s.rest]
  have hv : d'.bufferViews = d.bufferViews := by rw [s.rest]
  refine ⟨by rw [hb]; exact h.buffers, ?_, ?_⟩
  · rw [hv]
    intro p hp
    obtain ⟨bv, rfl, h1⟩ := h.bufferViews p hp
    refine ⟨bv, rfl, ?_⟩
    unfold ViewInside at h1 ⊢
    rw [hb]; exact h1
  · intro p hp
    obtain ⟨i, hi⟩ := List.mem_iff_getElem?.1 hp
    obtain ⟨a, ha, hs⟩ := s.back hi
    obtain ⟨x, rfl, h1⟩ := h.accessors a (List.mem_of_getElem? ha)
    rcases hs with rfl | ⟨y, mn, mx, nm, hy, rfl⟩
    · refine ⟨x, rfl, ?_⟩
      unfold AccessorInside at h1 ⊢
      rw [hv]; exact h1
    · cases hy
      refine ⟨_, rfl, ?_⟩
      unfold AccessorInside at h1 ⊢
      rw [hv]; exact h1

theorem wf_core {doc d : Document} (h : WellFormed doc) (c : CoreWrite doc d) : WellFormed d := by
  cases c with
  | accessor hd => exact wf_writeAccessor h hd
  | interleaved hd => exact wf_writeAccessorsInterleaved h hd
  | view hd =>
    have := wf_writeBufferViews h hd
    exact ⟨this.buffers, this.bufferViews, this.accessors⟩

/-- Every call that does not panic keeps documents well formed. -/
theorem WriteOp.run_wf {doc : Document} (op : WriteOp) (h : WellFormed doc) (hp : (op.run doc).2.isPanic = false) :
    WellFormed (op.run doc).1 := by
  cases hr : op.run doc with
  | mk d r =>
    cases r with
    | panic w => rw [hr] at hp; cases hp
    | err e =>
      rcases WriteOp.run_err hr with rfl | h'
      · exact h
      · exact wf_ensurePadding h h'
    | ok u =>
      obtain ⟨d1, hc, hs⟩ := WriteOp.run_core hr
      exact wf_same hs (wf_core h hc)

theorem History.wf {doc doc' : Document} (h : History doc doc') (hw : WellFormed doc) : WellFormed doc' := by
  induction h with
  | nil => exact hw
  | step op hp _ ih => exact ih (op.run_wf hw hp)

end Gltf
