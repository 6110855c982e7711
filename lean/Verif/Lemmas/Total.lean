/-
When the writing functions succeed.
-/
import Verif.Lemmas.WellFormed
import Verif.Props.Binary

namespace Gltf

open Spec

theorem lastLength_iff {doc : Document} {n : Nat} :
    LastLength doc n ↔ ∃ b, (ensured doc).buffers.getLast?.join = some b ∧ b.data.length = n := by
  unfold LastLength ensured
  constructor
  · rintro (⟨h, rfl⟩ | ⟨bs, b, h, rfl⟩)
    · exact ⟨{}, by simp [h], rfl⟩
    · exact ⟨b, by simp [h], rfl⟩
  · rintro ⟨b, h, rfl⟩
    by_cases h0 : doc.buffers = []
    · left
      simp [h0] at h
      subst h; exact ⟨h0, rfl⟩
    · right
      have h1 : ¬ doc.buffers.length = 0 := by simpa using h0
      rw [if_neg h1] at h
      exact ⟨_, b, last_decomp h, rfl⟩

theorem ensured_withLast (doc : Document) (b : Buffer) : ensured (withLast doc b) = withLast doc b := by
  have : ¬ (withLast doc b).buffers.length = 0 := by simp [withLast]
  unfold ensured
  rw [if_neg this]

theorem lastLength_withLast (doc : Document) (b : Buffer) : LastLength (withLast doc b) b.data.length :=
  .inr ⟨_, b, rfl, rfl⟩

theorem getPadding_add (n : Nat) : n + getPadding n = roundUp4 n := by
  unfold getPadding roundUp4
  dsimp only
  split <;> omega

theorem ensurePadding_succeeds {doc : Document} {n : Nat} (h : LastLength doc n) (hr : roundUp4 n ≤ maxAlloc) :
    ∃ d1, ensurePadding doc = (d1, .ok ()) ∧ LastLength d1 (roundUp4 n) := by
  obtain ⟨b, hb, rfl⟩ := lastLength_iff.1 h
  refine ⟨_, ensurePadding_ok.2 ⟨b, hb, by rw [getPadding_add]; exact hr, rfl⟩, ?_⟩
  have := lastLength_withLast doc { b with
    data := b.data ++ List.replicate (getPadding b.data.length) 0,
    byteLength := wrap64 (b.byteLength + (getPadding b.data.length : Nat)) }
  simpa [getPadding_add] using this

theorem writeIgnore_succeeds {b : Bytes} {S : Nat} {d : Slice} (hb : GoLen b)
    (hn : needed d.ty S d.data.length < 2 ^ 63) : ∃ b', writeIgnore b S d = .ok b' := by
  have h := C04_write_short d.ty d.data b S hb hn
  unfold writeIgnore
  by_cases hlt : b.length < needed d.ty S d.data.length
  · rw [h.1.2 hlt]; exact ⟨b, rfl⟩
  · obtain ⟨b', h', -⟩ := h.2 (by omega)
    rw [h']; exact ⟨b', rfl⟩

theorem writeAll_succeeds {S off : Nat} {b : Bytes} {ds : List Slice} (hb : GoLen b)
    (hn : ∀ d ∈ ds, needed d.ty S d.data.length < 2 ^ 63)
    (ho : ∀ j < ds.length, off + rowSize (ds.take j) ≤ b.length) : ∃ b', writeAll S off b ds = .ok b' := by
  induction ds generalizing off b with
  | nil => exact ⟨b, rfl⟩
  | cons d ds ih =>
    simp only [writeAll]
    have h0 := ho 0 (by simp)
    obtain ⟨t, ht⟩ := writeIgnore_succeeds (b := b.drop off) (by unfold GoLen at *; simp; omega) (hn d (by simp))
    rw [withSliceFrom_eq (by omega), ht]
    have hl := writeIgnore_length ht
    have hlen : (b.take off ++ t).length = b.length := by
      simp [hl]; omega
    simp only [Res.map, Res.ok_bind]
    apply ih (by unfold GoLen at *; omega) (fun x hx => hn x (by simp [hx]))
    intro j hj
    have := ho (j + 1) (by simpa using hj)
    rw [List.take_succ_cons, rowSize_cons] at this
    rw [hlen, sizeOfElement_eq]
    simp only [Slice.esz] at this
    omega

theorem byteCounts_eq {ds : List Slice} {n : Nat} (h : ∀ d ∈ ds, d.data.length = n) : byteCounts ds = n * rowSize ds := by
  induction ds with
  | nil => simp [byteCounts, rowSize]
  | cons d ds ih =>
    have := ih fun x hx => h x (by simp [hx])
    simp only [byteCounts, rowSize, List.map_cons, List.sum_cons, byteCount] at this ⊢
    rw [this, h d (by simp), Nat.mul_add]

theorem rowSize_take_mono (ds : List Slice) (j : Nat) : rowSize (ds.take j) ≤ rowSize ds := by
  have : rowSize (ds.take j ++ ds.drop j) = rowSize (ds.take j) + rowSize (ds.drop j) := by
    unfold rowSize; rw [List.map_append, List.sum_append]
  rw [List.take_append_drop] at this
  omega

/-- When all slices have the same length, the first loop succeeds. -/
theorem viewSizes_same {target : Target} {data : List Slice} {n : Nat} (h : ∀ d ∈ data, d.data.length = n) :
    ∃ stride size, viewSizes target (decide (1 < data.length)) 0 0 0 0 data = .ok (stride, size) := by
  cases data with
  | nil => exact ⟨_, _, viewSizes_nil target⟩
  | cons d ds =>
    by_cases hds : ds = []
    · subst hds; exact ⟨_, _, viewSizes_single target d⟩
    · rw [viewSizes_cons hds, if_pos]
      · exact ⟨_, _, rfl⟩
      · intro x hx
        rw [h x (by simp [hx]), h d (by simp)]

theorem viewSizes_differ {target : Target} {data : List Slice} (h : ∃ a ∈ data, ∃ b ∈ data, a.data.length ≠ b.data.length) :
    viewSizes target (decide (1 < data.length)) 0 0 0 0 data =
      .err (.msg "gltf: interleaved data shall have the same number of elements in all chunks") := by
  obtain ⟨a, ha, b, hb, hab⟩ := h
  cases data with
  | nil => simp at ha
  | cons d ds =>
    by_cases hds : ds = []
    · subst hds
      simp only [List.mem_singleton] at ha hb
      subst ha hb; exact absurd rfl hab
    · rw [viewSizes_cons hds, if_neg]
      intro hall
      apply hab
      have : ∀ x ∈ d :: ds, x.data.length = d.data.length := by
        intro x hx
        rcases List.mem_cons.1 hx with rfl | hx
        · rfl
        · exact hall x hx
      rw [this a ha, this b hb]

theorem viewSizes_err_differ {target : Target} {data : List Slice} {e : Err}
    (h : viewSizes target (decide (1 < data.length)) 0 0 0 0 data = .err e) :
    ∃ a ∈ data, ∃ b ∈ data, a.data.length ≠ b.data.length := by
  cases data with
  | nil => rw [viewSizes_nil] at h; cases h
  | cons d ds =>
    by_cases hds : ds = []
    · subst hds; rw [viewSizes_single] at h; cases h
    · rw [viewSizes_cons hds] at h
      split at h
      · cases h
      · next hn =>
        obtain ⟨x, hn⟩ := Classical.not_forall.1 hn
        obtain ⟨hx, hne⟩ := Classical.not_imp.1 hn
        exact ⟨x, by simp [hx], d, by simp, hne⟩

theorem effStride_pos (t : ETy) (S : Nat) : 0 < effStride t S := by
  have := elemSize_pos (kind t) (shape t)
  unfold effStride; split <;> omega

/-- `writeBufferViews` succeeds for slices of the same length, unless there are at least two and
they are empty. -/
theorem writeBufferViews_succeeds {target : Target} {data : List Slice} {doc : Document} {n m : Nat}
    (h : ∀ d ∈ data, d.data.length = n) (h0 : data.length ≤ 1 ∨ 0 < n)
    (hl : LastLength doc m) (hr : m + byteCounts data ≤ maxAlloc) :
    ∃ doc', writeBufferViews target data doc = (doc', .ok doc.bufferViews.length) := by
  obtain ⟨b, hb, rfl⟩ := lastLength_iff.1 hl
  obtain ⟨stride, size, hv⟩ := viewSizes_same (target := target) h
  have hsz : size = byteCounts data ∧ (∀ d ∈ data, effStride d.ty stride = rowSize data) := by
    rcases viewSizes_cases hv with ⟨rfl, rfl⟩ | ⟨n', hn', hs, hsz, -⟩
    · simp [byteCounts]
    · refine ⟨?_, hs⟩
      rw [hsz, byteCounts_eq hn']
  obtain ⟨rfl, hs⟩ := hsz
  obtain ⟨bytes, hw⟩ := writeAll_succeeds (S := stride) (off := b.data.length)
    (b := b.data ++ List.replicate (byteCounts data) 0) (ds := data)
    (by unfold GoLen maxAlloc at *; simp; omega)
    (by
      intro d hd
      unfold needed
      split
      · omega
      · next hne =>
        rw [hs d hd]
        rw [byteCounts_eq h] at hr
        have h1 := h d hd
        have h2 := elemSize_le (kind d.ty) (shape d.ty)
        have : rowSize data * (d.data.length - 1) ≤ n * rowSize data := by
          rw [Nat.mul_comm]; exact Nat.mul_le_mul_right _ (by omega)
        unfold maxAlloc at hr
        omega)
    (by
      intro j hj
      simp only [List.length_append, List.length_replicate]
      rcases h0 with h0 | h0
      · have : j = 0 := by omega
        subst this; simp [rowSize]
      · have := rowSize_take_mono data j
        rw [byteCounts_eq h]
        have : 1 * rowSize data ≤ n * rowSize data := Nat.mul_le_mul_right _ (by omega)
        omega)
  exact ⟨_, writeBufferViews_ok.2 ⟨stride, _, b, bytes, hv, hb, hr, hw, rfl, rfl⟩⟩

/-- `WriteAccessor` succeeds. -/
theorem writeAccessor_succeeds {target : Target} {data : Slice} {doc : Document} {m : Nat}
    (hl : LastLength doc m) (hr : roundUp4 m + byteCount data ≤ maxAlloc) :
    ∃ doc', writeAccessor target data doc = (doc', .ok doc.accessors.length) := by
  obtain ⟨d1, h1, hl1⟩ := ensurePadding_succeeds hl (by omega)
  obtain ⟨d2, h2⟩ := writeBufferViews_succeeds (target := target) (data := [data]) (n := data.data.length)
    (by simp) (by simp) hl1 (by simpa [byteCounts] using hr)
  have := ensurePadding_accessors h1
  have := writeBufferViews_accessors h2
  exact ⟨_, writeAccessor_ok.2 ⟨d1, d2, _, h1, h2, by simp [*], rfl⟩⟩

/-- `WriteAccessorsInterleaved` succeeds for slices of the same non-zero length, or for at most one. -/
theorem writeAccessorsInterleaved_succeeds {data : List Slice} {doc : Document} {m n : Nat}
    (h : ∀ d ∈ data, d.data.length = n) (h0 : data.length ≤ 1 ∨ 0 < n)
    (hl : LastLength doc m) (hr : roundUp4 m + byteCounts data ≤ maxAlloc) :
    ∃ doc' is, writeAccessorsInterleaved data doc = (doc', .ok is) := by
  obtain ⟨d1, h1, hl1⟩ := ensurePadding_succeeds hl (by omega)
  obtain ⟨d2, h2⟩ := writeBufferViews_succeeds (target := targetArrayBuffer) h h0 hl1 hr
  exact ⟨_, _, writeAccessorsInterleaved_ok.2 ⟨d1, d2, _, h1, h2, rfl, rfl⟩⟩

end Gltf
