/-
The writing functions only append.
-/
import Verif.Spec.Document
import Verif.Lemmas.Write

namespace Gltf

open Spec

theorem Spec.BufferExtends.refl (p : Option Buffer) : BufferExtends p p := .inl rfl

theorem Spec.BufferExtends.trans {p q r : Option Buffer} (h1 : BufferExtends p q) (h2 : BufferExtends q r) :
    BufferExtends p r := by
  rcases h1 with rfl | ⟨b, data, len, rfl, rfl, hp⟩
  · exact h2
  · rcases h2 with rfl | ⟨b', data', len', h, rfl, hp'⟩
    · exact .inr ⟨b, data, len, rfl, rfl, hp⟩
    · cases h
      exact .inr ⟨b, data', len', rfl, rfl, hp.trans hp'⟩

theorem Spec.Extends.refl (d : Document) : Extends d d where
  accessors := List.prefix_refl _
  bufferViews := List.prefix_refl _
  images := List.prefix_refl _
  buffers := fun _ p h => ⟨p, h, .refl p⟩
  rest := rfl

theorem Spec.Extends.trans {a b c : Document} (h1 : Extends a b) (h2 : Extends b c) : Extends a c where
  accessors := h1.accessors.trans h2.accessors
  bufferViews := h1.bufferViews.trans h2.bufferViews
  images := h1.images.trans h2.images
  buffers := fun i p h => by
    obtain ⟨q, hq, e1⟩ := h1.buffers i p h
    obtain ⟨r, hr, e2⟩ := h2.buffers i q hq
    exact ⟨r, hr, e1.trans e2⟩
  rest := by
    have e1 := h1.rest
    have e2 := h2.rest
    rw [← e2] at e1
    exact e1

theorem Spec.Extends.ensured (d : Document) : Extends d (ensured d) where
  accessors := by rw [ensured_eq]; exact List.prefix_refl _
  bufferViews := by rw [ensured_eq]; exact List.prefix_refl _
  images := by rw [ensured_eq]; exact List.prefix_refl _
  buffers := fun i p h => by
    unfold Gltf.ensured
    split
    · next h0 => simp [List.length_eq_zero_iff.1 h0] at h
    · exact ⟨p, h, .refl p⟩
  rest := by rw [ensured_eq]

/-- Replacing the last buffer by an extension of it. -/
theorem Spec.Extends.withLast {d : Document} {b : Buffer} {data : Bytes} {len : Int}
    (hb : (Gltf.ensured d).buffers.getLast?.join = some b) (hp : b.data <+: data) :
    Extends d (withLast d { b with data := data, byteLength := len }) := by
  have h := last_decomp hb
  refine ⟨List.prefix_refl _, List.prefix_refl _, List.prefix_refl _, ?_, rfl⟩
  intro i p hi
  obtain ⟨q, hq, e1⟩ := (Extends.ensured d).buffers i p hi
  show ∃ p', ((Gltf.ensured d).buffers.dropLast ++ [some _])[i]? = some p' ∧ _
  rw [h] at hq
  by_cases hlt : i < (Gltf.ensured d).buffers.dropLast.length
  · rw [List.getElem?_append_left hlt] at hq ⊢
    exact ⟨q, hq, e1⟩
  · rw [List.getElem?_append_right (by omega)] at hq ⊢
    generalize i - (Gltf.ensured d).buffers.dropLast.length = j at hq ⊢
    cases j with
    | zero =>
      simp only [List.getElem?_cons_zero, Option.some.injEq] at hq ⊢
      subst hq
      exact ⟨_, rfl, e1.trans (.inr ⟨b, data, len, rfl, rfl, hp⟩)⟩
    | succ j => simp at hq

/-! ### Length and prefix of what is written -/

theorem storeAt_length {b b' : Bytes} {o : Nat} {bs : Bytes} (h : storeAt b o bs = .ok b') :
    b'.length = b.length := by
  unfold storeAt at h
  split at h
  · next hle => cases h; simp; omega
  · cases h

theorem storesAt_length {b b' : Bytes} {l : List Cell} (h : storesAt b l = .ok b') : b'.length = b.length := by
  induction l generalizing b with
  | nil => simp only [storesAt] at h; cases h; rfl
  | cons p l ih =>
    rw [storesAt_cons, Res.bind_eq_ok] at h
    obtain ⟨b1, h1, h2⟩ := h
    rw [ih h2, storeAt_length h1]

theorem withSliceFrom_ok {b b' : Bytes} {off : Int} {f : Bytes → Res Bytes} (h : withSliceFrom b off f = .ok b')
    (hf : ∀ t t', f t = .ok t' → t'.length = t.length) :
    b'.length = b.length ∧ b'.take off.toNat = b.take off.toNat := by
  unfold withSliceFrom at h
  split at h
  · next hr =>
    rw [Res.map_eq_ok] at h
    obtain ⟨t, ht, rfl⟩ := h
    have := hf _ _ ht
    simp only [List.length_drop] at this
    have hl : (b.take off.toNat).length = off.toNat := by simp; omega
    refine ⟨by simp; omega, ?_⟩
    rw [List.take_append_of_le_length (by omega), List.take_take, Nat.min_self]
  · cases h

theorem writeLoop_length {t : ETy} {e : Int} {i : Nat} {b b' : Bytes} {data : List t.Elem}
    (h : writeLoop (elemPut t) e i b data = .ok b') : b'.length = b.length := by
  induction data generalizing i b with
  | nil => simp only [writeLoop] at h; cases h; rfl
  | cons x xs ih =>
    simp only [writeLoop, Res.bind_eq_ok] at h
    obtain ⟨b1, h1, h2⟩ := h
    rw [ih h2]
    exact (withSliceFrom_ok h1 fun t t' ht => by rw [elemPut_eq] at ht; exact storesAt_length ht).1

theorem write_length {t : ETy} {stride : Int} {b b' : Bytes} {data : List t.Elem}
    (h : write b stride t data = .ok b') : b'.length = b.length := by
  unfold write at h
  dsimp only at h
  generalize (ite (stride = 0) _ _) = e at h
  by_cases h0 : data.length = 0
  · rw [if_pos h0] at h; cases h; rfl
  · rw [if_neg h0] at h
    split at h
    · cases h
    · by_cases hu : t = .base .u8 .sc
      · subst hu
        simp only [writeSwitch] at h
        cases h
        simp [goCopy]; omega
      · rw [writeSwitch_eq hu] at h
        exact writeLoop_length h

theorem writeIgnore_length {b b' : Bytes} {stride : Nat} {d : Slice} (h : writeIgnore b stride d = .ok b') :
    b'.length = b.length := by
  unfold writeIgnore at h
  split at h
  · cases h; rfl
  · exact write_length h

theorem writeAll_keeps {stride off : Nat} {b b' : Bytes} {ds : List Slice} (h : writeAll stride off b ds = .ok b') :
    b'.length = b.length ∧ b'.take off = b.take off := by
  induction ds generalizing off b with
  | nil => simp only [writeAll] at h; cases h; exact ⟨rfl, rfl⟩
  | cons d ds ih =>
    simp only [writeAll, Res.bind_eq_ok] at h
    obtain ⟨b1, h1, h2⟩ := h
    have k1 := withSliceFrom_ok h1 fun t t' ht => writeIgnore_length ht
    have k2 := ih h2
    refine ⟨by omega, ?_⟩
    have k3 := congrArg (List.take off) k2.2
    simp only [List.take_take] at k3
    rw [Nat.min_eq_left (by omega)] at k3
    rw [k3]; exact k1.2

/-- The bytes before the written ones are kept. -/
theorem writeAll_prefix {stride size : Nat} {b bytes : Bytes} {ds : List Slice}
    (h : writeAll stride b.length (b ++ List.replicate size 0) ds = .ok bytes) :
    b <+: bytes ∧ bytes.length = b.length + size := by
  have k := writeAll_keeps h
  rw [List.take_left] at k
  refine ⟨?_, by simpa using k.1⟩
  rw [← k.2]; exact List.take_prefix _ _

/-! ### Every write extends the document -/

theorem extends_bind {α β : Type} {x : W α} {f : α → W β} {d d0 : Document} (hx : Extends d (x d0).1)
    (hf : ∀ d1 a, x d0 = (d1, .ok a) → Extends d d1 → Extends d (f a d1).1) : Extends d ((x >>= f) d0).1 := by
  rw [W.bind_def]
  split
  · next d1 a h => exact hf d1 a h (by rw [h] at hx; exact hx)
  · next d1 a h => rw [h] at hx; exact hx
  · next d1 a h => rw [h] at hx; exact hx

theorem extends_ensurePadding (d : Document) : Extends d (ensurePadding d).1 := by
  rcases h : ensurePadding d with ⟨d', r⟩
  cases r with
  | ok u =>
    obtain ⟨b, hb, -, rfl⟩ := ensurePadding_ok.1 h
    exact Extends.withLast hb (List.prefix_append _ _)
  | err e =>
    have : d' = ensured d := by
      unfold ensurePadding at h
      simp only [W.bind_def, lastBuffer_eq, W.lift, setLastBuffer] at h
      grind
    rw [this]; exact Extends.ensured d
  | panic e =>
    have : d' = ensured d := by
      unfold ensurePadding at h
      simp only [W.bind_def, lastBuffer_eq, W.lift, setLastBuffer] at h
      grind
    rw [this]; exact Extends.ensured d

theorem writeBufferViews_not_ok {target : Target} {data : List Slice} {d : Document}
    (h : ∀ i, (writeBufferViews target data d).2 ≠ .ok i) :
    (writeBufferViews target data d).1 = d ∨ (writeBufferViews target data d).1 = ensured d := by
  revert h
  unfold writeBufferViews
  simp only [W.bind_def, lastBuffer_eq, W.lift, setLastBuffer, W.get, W.put, W.pure_def]
  cases viewSizes target (decide (1 < data.length)) 0 0 0 0 data with
  | err e => simp
  | panic e => simp
  | ok s =>
    simp only
    cases deref (ensured d).buffers.getLast?.join with
    | err e => simp
    | panic e => simp
    | ok b =>
      simp only
      cases appendZeros b.data s.2 with
      | err e => simp
      | panic e => simp
      | ok z =>
        simp only
        cases writeAll s.1 b.data.length z data with
        | err e => simp
        | panic e => simp
        | ok w => simp only; intro h; exact absurd rfl (h _)

theorem extends_writeBufferViews (target : Target) (data : List Slice) (d : Document) :
    Extends d (writeBufferViews target data d).1 := by
  rcases h : writeBufferViews target data d with ⟨d', r⟩
  by_cases hr : ∃ i, r = .ok i
  · obtain ⟨i, rfl⟩ := hr
    obtain ⟨stride, size, b, bytes, -, hb, -, hw, -, rfl⟩ := writeBufferViews_ok.1 h
    have h1 := Extends.withLast (len := wrap64 (b.byteLength + (size : Nat))) hb (writeAll_prefix hw).1
    exact ⟨h1.accessors, List.prefix_append _ _, h1.images, h1.buffers, h1.rest⟩
  · have := writeBufferViews_not_ok (target := target) (data := data) (d := d) (by
      intro i hi; rw [h] at hi; exact hr ⟨i, hi⟩)
    rw [h] at this
    rcases this with rfl | rfl
    · exact Extends.refl _
    · exact Extends.ensured _

theorem extends_writeBufferView (target : Target) (data : Slice) (d : Document) :
    Extends d (writeBufferView target data d).1 := by
  have := extends_writeBufferViews target [data] d
  unfold writeBufferView
  split
  · next h => rw [h] at this; exact this
  · exact this

theorem extends_appendAccessor {acr : Accessor} {d d1 : Document} (h : Extends d d1) :
    Extends d (appendAccessor acr d1).1 :=
  ⟨h.accessors.trans (List.prefix_append _ _), h.bufferViews, h.images, h.buffers, h.rest⟩

theorem extends_writeAccessor (target : Target) (data : Slice) (d : Document) :
    Extends d (writeAccessor target data d).1 := by
  unfold writeAccessor
  refine extends_bind (extends_ensurePadding d) fun d1 _ _ h1 => ?_
  have h2 := h1.trans (extends_writeBufferView target data d1)
  rw [W.bind_def]
  split
  · next h => rw [h] at h2; exact extends_appendAccessor h2
  · next h => rw [h] at h2; exact h2
  · next h => rw [h] at h2; exact h2

theorem appendAccessor_eq (acr : Accessor) (d : Document) :
    appendAccessor acr d = ({ d with accessors := d.accessors ++ [some acr] }, .ok d.accessors.length) := rfl

/-- The accessors that an interleaved write appends. -/
def newAccessors (index : Nat) : (off : Nat) → List Slice → List Accessor
  | _, [] => []
  | off, d :: ds =>
    { bufferView := some (index : Int), byteOffset := off, componentType := d.ty.c, type := d.ty.t, count := d.data.length }
      :: newAccessors index (off + sizeOfElement d.ty.c d.ty.t) ds

theorem newAccessors_length (index off : Nat) (ds : List Slice) : (newAccessors index off ds).length = ds.length := by
  induction ds generalizing off with
  | nil => rfl
  | cons d ds ih => simp [newAccessors, ih]

theorem appendInterleaved_eq (index off : Nat) (ds : List Slice) (d : Document) :
    appendInterleaved index off ds d =
      ({ d with accessors := d.accessors ++ (newAccessors index off ds).map some },
        .ok ((List.range ds.length).map (d.accessors.length + ·))) := by
  induction ds generalizing off d with
  | nil => simp [appendInterleaved, newAccessors, W.pure_def]
  | cons s ds ih =>
    unfold appendInterleaved
    simp only [W.bind_def, appendAccessor_eq, ih, W.pure_def]
    simp only [newAccessors, List.map_cons, typeOf, Slice.len, List.length_cons]
    rw [List.range_succ_eq_map]
    simp
    intro a _; omega

theorem extends_appendInterleaved {index off : Nat} {ds : List Slice} {d d1 : Document} (h : Extends d d1) :
    Extends d (appendInterleaved index off ds d1).1 := by
  rw [appendInterleaved_eq]
  exact ⟨h.accessors.trans (List.prefix_append _ _), h.bufferViews, h.images, h.buffers, h.rest⟩

theorem extends_writeAccessorsInterleaved (data : List Slice) (d : Document) :
    Extends d (writeAccessorsInterleaved data d).1 := by
  unfold writeAccessorsInterleaved
  refine extends_bind (extends_ensurePadding d) fun d1 _ _ h1 => ?_
  have h2 := h1.trans (extends_writeBufferViews targetArrayBuffer data d1)
  rw [W.bind_def]
  unfold writeBufferViewInterleaved
  split
  · next h => rw [h] at h2; exact extends_appendInterleaved h2
  · next h => rw [h] at h2; exact h2
  · next h => rw [h] at h2; exact h2

theorem extends_modifyAccessor {i : Nat} {f : Accessor → Accessor} {d d1 : Document} (h : Extends d d1)
    (hi : d.accessors.length ≤ i) : Extends d (modifyAccessor i f d1).1 := by
  unfold modifyAccessor
  split
  · exact h
  · exact h
  · next a ha =>
    refine ⟨?_, h.bufferViews, h.images, h.buffers, h.rest⟩
    obtain ⟨l, hl⟩ := h.accessors
    show d.accessors <+: d1.accessors.set i (some (f a))
    rw [← hl, List.set_append_right _ _ hi]
    exact List.prefix_append _ _

end Gltf
