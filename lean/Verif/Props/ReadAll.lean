/-
Property C101: what the writing functions wrote can be read.
-/
import Verif.Props.ReadExact
import Verif.Props.ModelerWrite

namespace Gltf

open Spec

/-- The accessor is not sparse, and elements of its buffer view do not overlap. -/
def Apart (d : Document) (a : Accessor) : Prop :=
  a.sparse = none ∧ ∃ (v st : Nat) (bv : BufferView) (k : Kind) (s : Shape), a.bufferView = some (v : Int) ∧ d.bufferViews[v]? = some (some bv) ∧
    a.componentType = componentTypeOf k ∧ a.type = accessorTypeOf s ∧ bv.byteStride = st ∧ (st = 0 ∨ elemSize k s ≤ st)

/-- All accessors are such, strides are not negative, and the buffers can be allocated. -/
structure Snug (d : Document) : Prop where
  strides : ∀ bv, some bv ∈ d.bufferViews → 0 ≤ bv.byteStride
  data : ∀ b, some b ∈ d.buffers → b.data.length ≤ maxAlloc
  accessors : ∀ a, some a ∈ d.accessors → Apart d a

theorem Apart.mono {d d' : Document} {a : Accessor} (h : Apart d a) (e : d.bufferViews <+: d'.bufferViews) : Apart d' a := by
  obtain ⟨h0, v, st, bv, k, s, h1, h2, h3⟩ := h
  obtain ⟨t, ht⟩ := e
  exact ⟨h0, v, st, bv, k, s, h1, by rw [← ht, List.getElem?_append_left (getElem?_lt h2)]; exact h2, h3⟩

theorem snug_buffers {d : Document} {b : Buffer} (h : ∀ c, some c ∈ d.buffers → c.data.length ≤ maxAlloc) (hb : b.data.length ≤ maxAlloc) :
    ∀ c, some c ∈ (withLast d b).buffers → c.data.length ≤ maxAlloc := by
  intro c hc
  rcases List.mem_append.1 hc with hc | hc
  · have hm := List.dropLast_subset _ hc
    unfold ensured at hm
    split at hm
    · rcases List.mem_append.1 hm with hm | hm
      · exact h c hm
      · cases List.mem_singleton.1 hm; exact Nat.zero_le _
    · exact h c hm
  · cases List.mem_singleton.1 hc
    exact hb

theorem snug_padding {d d' : Document} (h : Snug d) (hr : ensurePadding d = (d', .ok ())) : Snug d' := by
  obtain ⟨b, -, hle, rfl⟩ := ensurePadding_ok.1 hr
  exact ⟨h.strides, snug_buffers h.data (by simpa using hle), fun a ha => (h.accessors a ha).mono (List.prefix_refl _)⟩

theorem snug_views {target : Target} {data : List Slice} {d d' : Document} {v : Nat} (h : Snug d)
    (hr : writeBufferViews target data d = (d', .ok v)) : Snug d' := by
  obtain ⟨stride, size, b, bytes, -, -, hle, hw, rfl, rfl⟩ := writeBufferViews_ok.1 hr
  have hl := (writeAll_prefix hw).2
  have hb := snug_buffers (b := { b with byteLength := wrap64 (b.byteLength + (size : Nat)), data := bytes }) h.data (by
    rw [hl]; simpa using hle)
  refine ⟨fun bv hv => ?_, hb, fun a ha => (h.accessors a ha).mono (List.prefix_append _ _)⟩
  rcases List.mem_append.1 hv with hv | hv
  · exact h.strides bv hv
  · cases List.mem_singleton.1 hv
    exact Int.natCast_nonneg _

theorem snug_append {d : Document} (h : Snug d) {l : List Accessor} (hl : ∀ a ∈ l, Apart d a) :
    Snug { d with accessors := d.accessors ++ l.map some } := by
  refine ⟨h.strides, h.data, fun a ha => ?_⟩
  simp only [List.mem_append, List.mem_map, Option.some.injEq, exists_eq_right] at ha
  rcases ha with ha | ha
  · exact h.accessors a ha
  · exact hl a ha

theorem snug_core {d d' : Document} (h : Snug d) (c : CoreWrite d d') : Snug d' := by
  cases c with
  | @accessor target data d' i hd =>
    obtain ⟨d1, d2, v, h1, h2, rfl, rfl⟩ := writeAccessor_ok.1 hd
    have w := snug_views (snug_padding h h1) h2
    have := snug_append w (l := [{ bufferView := some (v : Int), byteOffset := 0, componentType := data.ty.c,
                                   type := data.ty.t, count := data.data.length }]) ?_
    · exact this
    · intro a ha
      rw [List.mem_singleton] at ha
      subst ha
      obtain ⟨stride, size, bv, b', b, hv, -, hr, hst, -⟩ := writeBufferViews_view h2
      obtain ⟨hs1, -, -⟩ := stride_single hv
      refine ⟨rfl, v, stride, bv, kind data.ty, shape data.ty, rfl, hr.view, (ETy.c_eq _).1, (ETy.c_eq _).2, hst, ?_⟩
      rcases hs1 with h0 | h0
      · exact .inl h0
      · exact .inr (Nat.le_of_eq h0.symm)
  | interleaved hd =>
    obtain ⟨d1, d2, v, h1, h2, rfl, rfl⟩ := writeAccessorsInterleaved_ok.1 hd
    have w := snug_views (snug_padding h h1) h2
    refine snug_append w fun a ha => ?_
    obtain ⟨j, x, hx, rfl⟩ := mem_newAccessors ha
    obtain ⟨stride, size, bv, b', b, hv, -, hr, hst, -⟩ := writeBufferViews_view h2
    refine ⟨rfl, v, stride, bv, kind x.ty, shape x.ty, rfl, hr.view, (ETy.c_eq _).1, (ETy.c_eq _).2, hst, ?_⟩
    have hrow := rowSize_take_le hx
    rcases viewSizes_cases hv with ⟨rfl, -⟩ | ⟨n, -, hs, -, -⟩
    · simp at hx
    have he := hs x (List.mem_of_getElem? hx)
    unfold effStride at he
    split at he
    · next h0 => exact .inl h0
    · refine .inr ?_
      simp only [Slice.esz] at hrow
      omega
  | view hd =>
    have w := snug_views h hd
    exact ⟨w.strides, w.data, fun a ha => w.accessors a ha⟩

theorem snug_same {d d' : Document} (s : SameDoc d d') (h : Snug d) : Snug d' := by
  have hb : d'.buffers = d.buffers := by rw [s.rest]
  have hv : d'.bufferViews = d.bufferViews := by rw [s.rest]
  refine ⟨by rw [hv]; exact h.strides, by rw [hb]; exact h.data, fun a ha => ?_⟩
  obtain ⟨i, hi⟩ := List.mem_iff_getElem?.1 ha
  obtain ⟨x, hx, hs⟩ := s.back hi
  rcases hs with rfl | ⟨y, mn, mx, nm, rfl, hy⟩
  · exact (h.accessors a (List.mem_of_getElem? hx)).mono (by rw [hv]; exact List.prefix_refl _)
  · cases hy
    have := (h.accessors y (List.mem_of_getElem? hx)).mono (d' := d') (by rw [hv]; exact List.prefix_refl _)
    exact this

theorem snug_history {d d' : Document} (h : Snug d) (hh : History d d') : Snug d' := by
  induction hh with
  | nil => exact h
  | step op hp rest ih =>
    next d d' =>
    refine ih ?_
    cases hr : op.run d with
    | mk e res =>
      cases res with
      | panic w => rw [hr] at hp; cases hp
      | err x =>
        rcases WriteOp.run_err hr with rfl | h'
        · exact h
        · exact snug_padding h h'
      | ok u =>
        obtain ⟨d1, hc, hs⟩ := WriteOp.run_core hr
        exact snug_same hs (snug_core h hc)

theorem componentTypeOf_inj {k k' : Kind} (h : componentTypeOf k = componentTypeOf k') : k = k' := by
  cases k <;> cases k' <;> first | rfl | cases h

theorem accessorTypeOf_inj {s s' : Shape} (h : accessorTypeOf s = accessorTypeOf s') : s = s' := by
  cases s <;> cases s' <;> first | rfl | cases h

theorem memSize_le_elemSize (k : Kind) (s : Shape) : (componentTypeOf k).byteSize * (accessorTypeOf s).components ≤ elemSize k s := by
  cases k <;> cases s <;> decide

/-- C101: in a document that was built from `NewDocument` by any calls of the writing functions, `ReadAccessor` accepts every
accessor, except signed scalar bytes that are followed by further bytes in their buffer view (interleaved ones), and gives all of
its elements. The buffer views have strides up to 2^14; 3 by 3 matrices of unsigned integers are read without a buffer (see C08). -/
theorem C101_readable (doc : Document) (h : History newDocument doc) (hst : ∀ bv, some bv ∈ doc.bufferViews → bv.byteStride ≤ 2 ^ 14)
    (acr : Accessor) (ha : some acr ∈ doc.accessors) (buffer : Bytes)
    (hm : ¬ (acr.componentType = .uint ∧ acr.type = .mat3 ∧ buffer ≠ [])) (p : Pools) :
    (∃ s, readAccessor doc acr buffer p = .ok s ∧ (s.data.length : Int) = acr.count) ↔ ¬ BytesBehind doc acr := by
  have wf := C11_new_document doc h
  have sn : Snug doc := snug_history ⟨by simp [newDocument], by simp [newDocument], by simp [newDocument]⟩ h
  obtain ⟨a, e, hin⟩ := wf.accessors _ ha
  cases e
  obtain ⟨hsp, v, st, bv, k, s, h1, h2, h3, h4, h5, h6⟩ := sn.accessors _ ha
  obtain ⟨v', off, n, st', l, bv', k', s', g1, g2, g3, g4, g5, g6, g7, g8, g9⟩ := hin
  rw [h1] at g1
  cases g1
  rw [h2] at g2
  cases g2
  obtain rfl := componentTypeOf_inj (h3.symm.trans g7)
  obtain rfl := accessorTypeOf_inj (h4.symm.trans g8)
  obtain rfl : st = st' := by omega
  obtain ⟨bv2, e2, ib, ob, lb, q1, q2, q3, b, q4, q5⟩ := wf.bufferViews _ (List.mem_of_getElem? h2)
  cases e2
  obtain rfl : l = lb := by omega
  have hdata := sn.data b (List.mem_of_getElem? q4)
  have hle : off ≤ l := by omega
  have hroom : Room doc (v : Int) acr.byteOffset st (l - off) :=
    ⟨v, ib, ob, l, off, bv, b, rfl, h2, q1, q4, q2, q3, q5, h5, g3, by omega⟩
  have ht : Tame doc := by
    refine ⟨fun b hb => ?_, fun bv hb => ⟨sn.strides bv hb, hst bv hb⟩⟩
    have := sn.data b hb
    unfold GoLen
    unfold maxAlloc at this
    omega
  have hd : Ints doc := by
    intro bv hb
    obtain ⟨bv2, e2, i, o, l, r1, r2, r3, b, r4, r5⟩ := wf.bufferViews _ hb
    cases e2
    have := sn.data b (List.mem_of_getElem? r4)
    unfold IsInt
    unfold maxAlloc at this
    omega
  have hneed : needed (.base k s) st n = if n = 0 then 0 else effStride (.base k s) st * (n - 1) + elemSize k s := rfl
  have heff : elemSize k s ≤ effStride (.base k s) st := by
    unfold effStride
    split
    · exact Nat.le_refl _
    · rcases h6 with h6 | h6
      · contradiction
      · exact h6
  have hcount : n * elemSize k s ≤ needed (.base k s) st n := by
    rw [hneed]
    split
    · next h0 => simp [h0]
    · obtain ⟨m, rfl⟩ : ∃ m, n = m + 1 := ⟨n - 1, by omega⟩
      have := Nat.mul_le_mul_right m heff
      rw [Nat.add_mul, Nat.mul_comm m, Nat.add_sub_cancel]
      omega
  have hmod : acr.count.toNat * (acr.componentType.byteSize * acr.type.components) ≤ maxAlloc := by
    rw [g4, Int.toNat_natCast, h3, h4]
    have := Nat.mul_le_mul_left n (memSize_le_elemSize k s)
    omega
  have hfit : FitsIn doc acr := by
    refine ⟨k, s, n, h3, h4, g4, fun w hw => ?_⟩
    rw [h1] at hw
    cases hw
    exact ⟨st, l - off, hroom, by omega⟩
  have key : (∃ s, readAccessor doc acr buffer p = .ok s) ↔ FitsIn doc acr ∧ ¬ Unlucky doc acr := by
    rw [readDense_accessor hsp]
    exact readDense_iff ht hd hm hmod
  have hun : Unlucky doc acr ↔ BytesBehind doc acr := by
    constructor
    · rintro ⟨w, st2, room, u1, u2, u3⟩
      rcases u3 with ⟨u3, u4, u5⟩ | ⟨u3, u4, k2, s2, u5, u6, u7⟩
      · exact ⟨u3, u4, w, st2, room, u1, u2, u5⟩
      · rw [h1] at u1
        cases u1
        obtain ⟨rfl, rfl⟩ := room_unique hroom u2
        obtain rfl := componentTypeOf_inj (h3.symm.trans u5)
        obtain rfl := accessorTypeOf_inj (h4.symm.trans u6)
        omega
    · rintro ⟨u3, u4, w, st2, room, u1, u2, u5⟩
      exact ⟨w, st2, room, u1, u2, .inl ⟨u3, u4, u5⟩⟩
  constructor
  · rintro ⟨r, hr, -⟩ hb
    exact (key.1 ⟨r, hr⟩).2 (hun.2 hb)
  · intro hb
    obtain ⟨r, hr⟩ := key.2 ⟨hfit, fun hu => hb (hun.1 hu)⟩
    refine ⟨r, hr, ?_⟩
    rw [readDense_accessor hsp] at hr
    obtain ⟨-, -, -, -, -, hl⟩ := readDense_inv hr
    exact hl

/-- Two calls: positions, and scalar bytes that are interleaved with other bytes. -/
def bytesWritten : Document :=
  let d1 := ((WriteOp.position [⟨⟨0⟩, ⟨0⟩, ⟨0⟩⟩, ⟨⟨0x3f800000⟩, ⟨0⟩, ⟨0⟩⟩]).run newDocument).1
  ((WriteOp.accessorsInterleaved [⟨.base .i8 .sc, [1, 2]⟩, ⟨.base .u8 .sc, [3, 4]⟩]).run d1).1

theorem bytesWritten_history : History newDocument bytesWritten :=
  .step (.position [⟨⟨0⟩, ⟨0⟩, ⟨0⟩⟩, ⟨⟨0x3f800000⟩, ⟨0⟩, ⟨0⟩⟩]) (by decide +kernel)
    (.step (.accessorsInterleaved [⟨.base .i8 .sc, [1, 2]⟩, ⟨.base .u8 .sc, [3, 4]⟩]) (by decide +kernel) (.nil _))

/-- The hypotheses are met. The first and the third accessor can be read, the second one cannot: it is the exception. -/
example : bytesWritten.bufferViews.map (·.map (·.byteStride)) = [some 0, some 2] ∧
    (bytesWritten.accessors.map fun a => a.map fun a => (readAccessor bytesWritten a [] ⟨[], [], []⟩).isPanic) = [some false, some true, some false] ∧
    (bytesWritten.accessors.map fun a => a.map fun a => (decide (a.componentType = .byte), a.count)) = [some (false, 2), some (true, 2), some (false, 2)] :=
  ⟨by decide +kernel, by decide +kernel, by decide +kernel⟩

end Gltf
