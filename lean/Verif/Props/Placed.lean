/-
Property C86: accessor data is where the glTF specification puts it.
-/
import Verif.Spec.Placed
import Verif.Props.BinaryRead
import Verif.Props.ModelerWrite
import Verif.Props.ModelerRead
import Verif.Props.Describe

namespace Gltf

open Spec

theorem gltfStride_eq {t : ETy} {stride : Nat} (h : stride ≠ 0 ∨ ¬ OddVector t) :
    gltfStride (kind t) (shape t) stride = effStride t stride := by
  unfold gltfStride effStride
  split
  · next h0 =>
    have h := h.resolve_left (by simp [h0])
    unfold OddVector at h
    generalize kind t = k, shape t = s at h ⊢
    revert h
    cases k <;> cases s <;> decide
  · rfl

theorem placed_congr {f g : Nat → Nat} {doc : Document} {acr : Accessor} {s : Slice} (h : PlacedWith f doc acr s)
    (hfg : ∀ bv (n : Nat), ViewOf doc acr bv → bv.byteStride = n → f n = g n) : PlacedWith g doc acr s := by
  obtain ⟨bv, b, n, start, stride, off, hv, h1, h2, h3, h4, h5, h6⟩ := h
  refine ⟨bv, b, n, start, stride, off, hv, h1, h2, h3, h4, h5, ?_⟩
  rw [← hfg bv stride hv h3]; exact h6

/-! ### Reading -/

/-- What `readBufferView` returns are bytes of the buffer. -/
theorem readBufferView_bytes {doc : Document} {bv : BufferView} {bytes : Bytes} (h : readBufferView doc bv = .ok bytes) :
    ∃ (n start : Nat) (b : Buffer), bv.buffer = n ∧ bv.byteOffset = start ∧ doc.buffers[n]? = some (some b) ∧
      bytes.length ≤ b.data.length ∧ ∀ (j : Nat) (x : UInt8), bytes[j]? = some x → b.data[start + j]? = some x := by
  unfold readBufferView at h
  split at h
  · cases h
  split at h
  · cases h
  split at h
  · next b hb =>
    simp only at h
    split at h
    · cases h
    split at h
    · next hc =>
      cases h
      refine ⟨bv.buffer.toNat, bv.byteOffset.toNat, b, by omega, by omega, hb, by simp; omega, ?_⟩
      intro j x hx
      rw [List.getElem?_drop, List.getElem?_take] at hx
      split at hx
      · exact hx
      · cases hx
    · cases h
  · cases h

theorem bufferViewAt_view {doc : Document} {i : Int} {bv : BufferView} (h : bufferViewAt doc i = .ok bv) :
    ∃ v : Nat, i = v ∧ doc.bufferViews[v]? = some (some bv) := by
  unfold bufferViewAt at h
  split at h
  · cases h
  split at h
  · next hb => cases h; exact ⟨i.toNat, by omega, hb⟩
  · cases h
  · cases h

theorem sliceFrom_bytes {b tail : Bytes} {off : Int} (h : sliceFrom b off = .ok tail) :
    ∃ n : Nat, off = n ∧ tail.length ≤ b.length ∧ ∀ j : Nat, tail[j]? = b[n + j]? := by
  have hl := sliceFrom_len h
  unfold sliceFrom at h
  split at h
  · cases h
    refine ⟨off.toNat, by omega, hl, ?_⟩
    intro j; rw [List.getElem?_drop]
  · cases h

/-- What `ReadAccessor` returns is in the buffer, with the distance of the code. -/
theorem readAccessor_placed {doc : Document} {acr : Accessor} {buffer : Bytes} {p : Pools} {s : Slice}
    (hg : ∀ b, some b ∈ doc.buffers → GoLen b.data) (hv : acr.bufferView ≠ none) (hs : acr.sparse = none)
    (hst : ∀ bv, ViewOf doc acr bv → 0 ≤ bv.byteStride ∧ needed s.ty bv.byteStride.toNat s.data.length < 2 ^ 63 ∧
      (s.ty = .base .u8 .sc → bv.byteStride ≤ 1 ∨ s.data.length ≤ 1))
    (h : readAccessor doc acr buffer p = .ok s) : PlacedWith (effStride s.ty) doc acr s := by
  unfold readAccessor at h
  obtain ⟨d, hd, h⟩ := Res.bind_eq_ok.1 h
  simp only [hs] at h
  cases h
  unfold readDense at hd
  obtain ⟨m, -, hd⟩ := Res.bind_eq_ok.1 hd
  obtain ⟨v, hv⟩ := Option.ne_none_iff_exists'.1 hv
  simp only [hv] at hd
  obtain ⟨bytes, hbytes, hd⟩ := Res.bind_eq_ok.1 hd
  obtain ⟨bv, hbv, hd⟩ := Res.bind_eq_ok.1 hd
  obtain ⟨tail, htail, hd⟩ := Res.bind_eq_ok.1 hd
  obtain ⟨e, he, hd⟩ := Res.bind_eq_ok.1 hd
  cases hd
  obtain ⟨w, rfl, hw⟩ := bufferViewAt_view hbv
  have hview : ViewOf doc acr bv := ⟨w, hv, hw⟩
  obtain ⟨h0, hn, hu⟩ := hst bv hview
  unfold readBufferViewIndex at hbytes
  split at hbytes
  · cases hbytes
  rw [hbv, Res.ok_bind] at hbytes
  obtain ⟨n, start, b, h1, h2, h3, h4, h5⟩ := readBufferView_bytes hbytes
  obtain ⟨off, h6, h7, h8⟩ := sliceFrom_bytes htail
  have hlen : e.length = m.data.length := read_length he
  have hstr : ((bv.byteStride.toNat : Nat) : Int) = bv.byteStride := by omega
  rw [← hstr] at he
  have hb := hg b (List.mem_of_getElem? h3)
  have hpl := C59_read_layout_partial m.ty m.data e tail bv.byteStride.toNat (by unfold GoLen at *; omega)
    (by rw [← hlen]; exact hn) (by intro ht; rw [← hlen]; exact (hu ht).imp (by omega) id) he
  refine ⟨bv, b, n, start, bv.byteStride.toNat, off, hview, h1, h2, hstr.symm, h6, h3, ?_⟩
  intro i x r c u j hi hr hc hx hj
  have := hpl i x r c u j hi hr hc hx hj
  rw [h8] at this
  have := h5 _ _ this
  rw [← Nat.add_assoc, ← Nat.add_assoc, ← Nat.add_assoc] at this
  exact this

/-! ### Writing -/

/-- A successful write puts the components of every slice at their places. -/
theorem writeBufferViews_placed {target : Target} {data : List Slice} {doc doc' : Document} {v : Nat}
    (h : writeBufferViews target data doc = (doc', .ok v))
    (hu : ∀ d ∈ data, d.ty = .base .u8 .sc → data.length ≤ 1 ∨ d.data.length ≤ 1) :
    ∃ bv, doc'.bufferViews[v]? = some (some bv) ∧
      (1 < data.length → bv.byteStride ≠ 0) ∧
      (∀ d, data = [d] → bv.byteStride = (strideFor target d.ty : Int)) ∧
      ∀ (j : Nat) (d : Slice) (acr : Accessor), data[j]? = some d → acr.bufferView = some (v : Int) →
        acr.byteOffset = (rowSize (data.take j) : Nat) → PlacedWith (effStride d.ty) doc' acr d := by
  obtain ⟨stride, size, bv, b', b, hv, hb, hr, hst, htg, hl, -, -, hle, hw⟩ := writeBufferViews_view h
  have hvv : doc'.bufferViews[v]? = some (some bv) := hr.view
  refine ⟨bv, hvv, ?_, ?_, ?_⟩
  · intro hm h0
    rcases viewSizes_cases hv with ⟨rfl, -⟩ | ⟨n, -, -, -, h1⟩
    · simp at hm
    · have hs : stride = rowSize data := h1.resolve_left (by omega)
      cases data with
      | nil => simp at hm
      | cons d ds =>
        rw [rowSize_cons] at hs
        have := elemSize_pos (kind d.ty) (shape d.ty)
        simp only [Slice.esz] at hs
        omega
  · rintro d rfl
    rw [viewSizes_single, strideFor_eq] at hv
    simp only [Res.ok.injEq, Prod.mk.injEq] at hv
    rw [hst, ← hv.1]
  · intro j d acr hd ha hoff
    refine ⟨bv, b', bv.buffer.toNat, b.data.length, stride, rowSize (data.take j), ⟨v, ha, hvv⟩, ?_, hr.offset, hst, hoff,
      hr.buffer, ?_⟩
    · have := hr.bufferIndex; omega
    intro i x r c u k hi hrr hc hx hk
    have hmem := List.mem_of_getElem? hd
    rcases viewSizes_cases hv with ⟨rfl, -⟩ | ⟨n, hn, hs, hsz, hone⟩
    · simp at hd
    have hn0 : 0 < n := by rw [← hn d hmem]; have := getElem?_lt hi; omega
    have hrows : Rows stride n (rowSize data) data := by
      refine ⟨hn, hs, ?_⟩
      intro y hy ht
      rcases hu y hy ht with h1 | h1
      · left
        obtain ⟨z, rfl⟩ := List.length_eq_one_iff.1 (show data.length = 1 by have := List.length_pos_of_mem hy; omega)
        rw [List.mem_singleton] at hy; subst hy
        simp [rowSize, ht, kind, shape, elemSize, Spec.size]
      · right; rw [← hn y hy]; exact h1
    have hnE : n * rowSize data = rowSize data * (n - 1) + rowSize data := by
      obtain ⟨m, rfl⟩ : ∃ m, n = m + 1 := ⟨n - 1, by omega⟩
      rw [Nat.add_mul, Nat.one_mul, Nat.mul_comm]; rfl
    have hbl : b.data.length + rowSize data + rowSize data * (n - 1) ≤ (b.data ++ List.replicate size 0).length := by
      simp; omega
    rw [writeAll_eq hrows (by unfold GoLen maxAlloc at *; simp; omega) hn0 hbl] at hw
    have hw' := (Res.ok.inj hw).symm
    have hcell := allCells_has (off := b.data.length) hrows hd hi (mem_cells hrr hc hx)
    have := patches_hit (allCells_fits hrows hbl) (allCells_disj hrows (Nat.le_refl _)) hcell (j := k)
      (by simpa [shiftCell] using hk)
    rw [hw', hs d hmem]
    simp only [shiftCell] at this
    rw [encBytes_getElem? _ _ _ hk] at this
    exact this

theorem strideFor_odd {target : Target} {t : ETy} (h : target = 34962 ∨ ¬ OddVector t) : strideFor target t ≠ 0 ∨ ¬ OddVector t := by
  rcases h with rfl | h
  · unfold strideFor OddVector plainSize
    generalize kind t = k, shape t = s
    cases k <;> cases s <;> decide
  · exact .inr h

/-! ### C86 Accessor data is where glTF puts it -/

/-- The accessor at index `i` of the document and its data are as glTF says. -/
def HasPlaced (doc : Document) (i : Nat) (data : Slice) : Prop :=
  ∃ acr, doc.accessors[i]? = some (some acr) ∧ PlacedAsGltf doc acr data

/-- The full statement of C86 for `WriteAccessor`. -/
def C86_write_full : Prop :=
  ∀ target data doc doc' i, writeAccessor target data doc = (doc', .ok i) → HasPlaced doc' i data

/-- The full statement of C86 for `WriteAccessorsInterleaved`. -/
def C86_interleaved_full : Prop :=
  ∀ data doc doc' is, writeAccessorsInterleaved data doc = (doc', .ok is) →
    ∀ (j : Nat) (d : Slice), data[j]? = some d → ∃ i, is[j]? = some i ∧ HasPlaced doc' i d

/-- The full statement of C86 for `ReadAccessor` of an accessor without sparse data. -/
def C86_read_full : Prop :=
  ∀ doc acr buffer p s, Tame doc → Modest acr → acr.bufferView ≠ none → acr.sparse = none →
    readAccessor doc acr buffer p = .ok s → PlacedAsGltf doc acr s

theorem writeAccessor_placed {target : Target} {data : Slice} {doc doc' : Document} {i : Nat}
    (h : writeAccessor target data doc = (doc', .ok i)) :
    ∃ acr bv, doc'.accessors[i]? = some (some acr) ∧ ViewOf doc' acr bv ∧ bv.byteStride = (strideFor target data.ty : Int) ∧
      PlacedWith (effStride data.ty) doc' acr data := by
  obtain ⟨d1, d2, v, h1, h2, rfl, rfl⟩ := writeAccessor_ok.1 h
  obtain ⟨bv, e1, -, e3, e4⟩ := writeBufferViews_placed h2 (by simp)
  refine ⟨{ bufferView := some (v : Int), byteOffset := 0, componentType := data.ty.c, type := data.ty.t, count := data.data.length },
    bv, by simp, ⟨v, rfl, e1⟩, e3 data rfl, ?_⟩
  exact e4 0 data _ rfl rfl rfl

/-- C86 for `WriteAccessor`, for vertex attributes and for all but the vectors whose size is not a multiple of four (where
it is false). -/
theorem C86_write_partial (target : Target) (data : Slice) (doc doc' : Document) (i : Nat)
    (h : writeAccessor target data doc = (doc', .ok i)) (ho : target = 34962 ∨ ¬ OddVector data.ty) :
    HasPlaced doc' i data := by
  obtain ⟨acr, bv, h1, ⟨v, hv, h2⟩, h3, h4⟩ := writeAccessor_placed h
  refine ⟨acr, h1, placed_congr h4 ?_⟩
  rintro bv' n ⟨v', hv', h2'⟩ hn
  rw [hv] at hv'
  have : v = v' := by injection hv' with hv'; omega
  subst this
  rw [h2] at h2'
  simp only [Option.some.injEq] at h2'
  subst h2'
  rw [hn] at h3
  have : n = strideFor target data.ty := by omega
  rw [this, gltfStride_eq (strideFor_odd ho)]

/-- Where `WriteAccessor` puts the other vectors: it says nothing about a stride, but the elements are four or eight bytes
apart and not two, three or six as glTF says. -/
theorem C86_write_odd (target : Target) (data : Slice) (doc doc' : Document) (i : Nat)
    (h : writeAccessor target data doc = (doc', .ok i)) (ht : target ≠ 34962) (ho : OddVector data.ty) :
    ∃ acr bv, doc'.accessors[i]? = some (some acr) ∧ ViewOf doc' acr bv ∧ bv.byteStride = 0 ∧
      PlacedWith (fun _ => roundUp4 (packedSize (kind data.ty) (shape data.ty))) doc' acr data ∧
      packedSize (kind data.ty) (shape data.ty) < roundUp4 (packedSize (kind data.ty) (shape data.ty)) := by
  obtain ⟨acr, bv, h1, ⟨v, hv, h2⟩, h3, h4⟩ := writeAccessor_placed h
  have hz : strideFor target data.ty = 0 := by unfold strideFor; rw [if_neg (fun h => ht h.1)]
  rw [hz] at h3
  have key : elemSize (kind data.ty) (shape data.ty) = roundUp4 (packedSize (kind data.ty) (shape data.ty)) ∧
      packedSize (kind data.ty) (shape data.ty) < roundUp4 (packedSize (kind data.ty) (shape data.ty)) := by
    revert ho
    unfold OddVector
    generalize kind data.ty = k, shape data.ty = s
    cases k <;> cases s <;> decide
  refine ⟨acr, bv, h1, ⟨v, hv, h2⟩, h3, placed_congr h4 ?_, key.2⟩
  rintro bv' n ⟨v', hv', h2'⟩ hn
  rw [hv] at hv'
  have : v = v' := by injection hv' with hv'; omega
  subst this
  rw [h2] at h2'
  simp only [Option.some.injEq] at h2'
  subst h2'
  have : n = 0 := by omega
  subst this
  show effStride data.ty 0 = _
  rw [← key.1]; rfl

/-- C86 for `WriteAccessorsInterleaved`, for everything but several slices with a `[]uint8` of two or more elements among
them (where it is false). -/
theorem C86_interleaved_partial (data : List Slice) (doc doc' : Document) (is : List Nat)
    (h : writeAccessorsInterleaved data doc = (doc', .ok is))
    (hu : ∀ d ∈ data, d.ty = .base .u8 .sc → data.length ≤ 1 ∨ d.data.length ≤ 1) (j : Nat) (d : Slice)
    (hd : data[j]? = some d) : ∃ i, is[j]? = some i ∧ HasPlaced doc' i d := by
  obtain ⟨d1, d2, v, h1, h2, rfl, rfl⟩ := writeAccessorsInterleaved_ok.1 h
  obtain ⟨bv, e1, e2, e3, e4⟩ := writeBufferViews_placed h2 hu
  have hj := getElem?_lt hd
  refine ⟨d2.accessors.length + j, by simp [hj],
    { bufferView := some (v : Int), byteOffset := (rowSize (data.take j) : Nat), componentType := d.ty.c, type := d.ty.t,
      count := d.data.length }, ?_, ?_⟩
  · show (d2.accessors ++ (newAccessors v 0 data).map some)[d2.accessors.length + j]? = _
    rw [List.getElem?_append_right (by omega), Nat.add_sub_cancel_left, List.getElem?_map, newAccessors_getElem? hd,
      Nat.zero_add]; rfl
  · refine placed_congr (f := effStride d.ty) (e4 j d _ hd rfl rfl) ?_
    rintro bv' n ⟨v', hv', h2'⟩ hn
    have : v = v' := by injection hv' with hv'; omega
    subst this
    change d2.bufferViews[v]? = _ at h2'
    rw [e1] at h2'
    simp only [Option.some.injEq] at h2'
    subst h2'
    rw [gltfStride_eq]
    by_cases hm : 1 < data.length
    · left
      have := e2 hm
      omega
    · obtain ⟨x, rfl⟩ := List.length_eq_one_iff.1 (show data.length = 1 by omega)
      have : j = 0 := by simpa using hj
      subst this
      simp only [List.getElem?_cons_zero, Option.some.injEq] at hd
      subst hd
      have h3 := e3 x rfl
      rw [hn] at h3
      have : n = strideFor 34962 x.ty := by exact_mod_cast h3
      rw [this]
      exact strideFor_odd (.inl rfl)

/-- C86 for `ReadAccessor`, for everything but vectors whose size is not a multiple of four in a buffer view without
stride, and `[]uint8` with a stride (for both it is false). -/
theorem C86_read_partial (doc : Document) (acr : Accessor) (buffer : Bytes) (p : Pools) (s : Slice) (ht : Tame doc)
    (hm : Modest acr) (hv : acr.bufferView ≠ none) (hs : acr.sparse = none) (h : readAccessor doc acr buffer p = .ok s)
    (hn : ∀ bv, ViewOf doc acr bv → (bv.byteStride = 0 → ¬ OddVector s.ty) ∧ (s.ty = .base .u8 .sc → bv.byteStride ≤ 1)) :
    PlacedAsGltf doc acr s := by
  have hp : PlacedWith (effStride s.ty) doc acr s := by
    refine readAccessor_placed ht.buffers hv hs ?_ h
    intro bv hview
    obtain ⟨v, h1, h2⟩ := id hview
    have hstr := ht.strides bv (List.mem_of_getElem? h2)
    refine ⟨hstr.1, ?_, fun h => .inl ((hn bv hview).2 h)⟩
    obtain ⟨k, sh, hc, hty, hst, hl⟩ := readAccessor_inv h
    have hcount := hm.count
    obtain ⟨ty, sd⟩ := s
    simp only at hst
    subst hst
    apply needed_small (by omega)
    rw [hc, hty] at hcount
    simp only at hl ⊢
    have h1 : 1 ≤ (componentTypeOf k).byteSize * (accessorTypeOf sh).components := by cases k <;> cases sh <;> decide
    have h2 := Nat.mul_le_mul_left acr.count.toNat h1
    omega
  refine placed_congr hp ?_
  intro bv n hview hst
  rw [gltfStride_eq]
  by_cases h0 : n = 0
  · exact .inr ((hn bv hview).1 (by omega))
  · exact .inl h0

/-- Two triples of bytes written without a target. -/
def oddData : Slice := ⟨.base .u8 .v3, [⟨1, 2, 3⟩, ⟨4, 5, 6⟩]⟩

/-- The document with them. -/
def oddDoc : Document := (writeAccessor 0 oddData {}).1

/-- What `PlacedAsGltf` says about a byte when the parts of the document are known. -/
theorem placed_byte {doc : Document} {acr : Accessor} {s : Slice} {bv : BufferView} {b : Buffer} {v n start stride off : Nat}
    (h : PlacedAsGltf doc acr s) (h1 : acr.bufferView = some (v : Int)) (h2 : doc.bufferViews[v]? = some (some bv))
    (h3 : bv.buffer = n) (h4 : bv.byteOffset = start) (h5 : bv.byteStride = stride) (h6 : acr.byteOffset = off)
    (h7 : doc.buffers[n]? = some (some b)) {i : Nat} {x : s.ty.Elem} {r c j : Nat} {u : (kind s.ty).T} (hi : s.data[i]? = some x)
    (hr : r < rows (shape s.ty)) (hc : c < cols (shape s.ty)) (hx : component s.ty x r c = some u) (hj : j < size (kind s.ty)) :
    b.data[start + off + gltfStride (kind s.ty) (shape s.ty) stride * i + componentOffset (kind s.ty) (shape s.ty) r c + j]? =
        some (byteOf (kind s.ty) u j) := by
  obtain ⟨bv', b', n', start', stride', off', ⟨v', hv', e1⟩, e2, e3, e4, e5, e6, e7⟩ := h
  rw [h1] at hv'
  have : v = v' := by injection hv' with hv'; omega
  subst this
  rw [h2] at e1
  simp only [Option.some.injEq] at e1
  subst e1
  have : n = n' := by omega
  subst this
  rw [h7] at e6
  simp only [Option.some.injEq] at e6
  subst e6
  have : start = start' := by omega
  have : stride = stride' := by omega
  have : off = off' := by omega
  subst_vars
  exact e7 i x r c u j hi hr hc hx hj

/-- C86 is false of `WriteAccessor`: triples of bytes that are not vertex attributes are written four bytes apart without
saying so. -/
theorem C86_write_full_fails : ¬ C86_write_full := by
  intro h
  obtain ⟨acr, h1, h2⟩ := h 0 oddData {} oddDoc 0 rfl
  have : oddDoc.accessors[0]? = some (some { bufferView := some 0, componentType := .ubyte, type := .vec3, count := 2 }) := rfl
  rw [this] at h1
  simp only [Option.some.injEq] at h1
  subst h1
  have := placed_byte (v := 0) (n := 0) (start := 0) (stride := 0) (off := 0) (i := 1) (x := (⟨4, 5, 6⟩ : V3 UInt8)) (r := 0) (c := 0) (j := 0)
    (u := (4 : UInt8)) h2 rfl rfl rfl rfl rfl rfl rfl rfl (by decide) (by decide) rfl (by decide)
  revert this
  decide +kernel

/-- Two triples of bytes in a buffer view without stride. -/
def packedDoc (data : Bytes) : Document :=
  { buffers := [some { byteLength := data.length, data := data }],
    bufferViews := [some { buffer := 0, byteLength := data.length }] }

/-- Their accessor. -/
def packedAcr : Accessor := { bufferView := some 0, componentType := .ubyte, type := .vec3, count := 2 }

/-- C86 is false of `ReadAccessor`: triples of bytes in a buffer view without stride are looked for four bytes apart. -/
theorem C86_read_full_fails : ¬ C86_read_full := by
  intro h
  have h2 := h (packedDoc [1, 2, 3, 4, 5, 6, 7, 8]) packedAcr [] ⟨[], [], []⟩ ⟨.base .u8 .v3, [⟨1, 2, 3⟩, ⟨5, 6, 7⟩]⟩
    ⟨by intro b hb
        cases List.mem_singleton.1 hb; decide,
      by intro b hb
         cases List.mem_singleton.1 hb; decide⟩
    ⟨by decide, by decide, by intro sp h; cases h⟩ (by decide) rfl (by decide +kernel)
  have := placed_byte (v := 0) (n := 0) (start := 0) (stride := 0) (off := 0) (i := 1) (x := (⟨5, 6, 7⟩ : V3 UInt8)) (r := 0) (c := 0) (j := 0)
    (u := (5 : UInt8)) h2 rfl rfl rfl rfl rfl rfl rfl rfl (by decide) (by decide) rfl (by decide)
  revert this
  decide +kernel

/-- `ReadAccessor` rejects vectors whose size is not a multiple of four when they are tightly packed, as glTF says that they
are in a buffer view without stride, and fill the rest of the buffer view. -/
theorem C86_read_rejects (doc : Document) (acr : Accessor) (buffer : Bytes) (p : Pools) (bv : BufferView) (b : Buffer)
    (k : Kind) (s : Shape) (v n start len off count : Nat) (ho : OddVector (.base k s))
    (h1 : acr.bufferView = some (v : Int)) (h2 : doc.bufferViews[v]? = some (some bv)) (h3 : bv.buffer = n)
    (h4 : bv.byteOffset = start) (h5 : bv.byteStride = 0) (h6 : bv.byteLength = len) (h7 : acr.byteOffset = off)
    (h8 : doc.buffers[n]? = some (some b)) (h9 : start + len ≤ b.data.length) (hb : GoLen b.data)
    (hc : acr.componentType = componentTypeOf k) (ht : acr.type = accessorTypeOf s) (hn : acr.count = count) (h0 : 0 < count)
    (hm : count * 8 ≤ maxAlloc) (hl : off + packedSize k s * count = len) :
    readAccessor doc acr buffer p = .err .shortBuffer := by
  have hin : InRange doc (v : Int) bv b start len :=
    ⟨by omega, by rw [Int.toNat_natCast]; exact h2, by omega, by rw [h3, Int.toNat_natCast]; exact h8, h4, h6, h9, hb⟩
  have key : packedSize k s < elemSize k s ∧ (ETy.base k s).memSize ≤ 8 ∧ elemSize k s ≤ 8 ∧ k ≠ .u32 := by
    revert ho
    unfold OddVector
    cases k <;> cases s <;> decide
  have hmem : count * (ETy.base k s).memSize ≤ maxAlloc := Nat.le_trans (Nat.mul_le_mul_left _ key.2.1) hm
  obtain ⟨d, hd, hdl⟩ := makeSliceBuffer_base (k := k) (s := s) (n := count) (buffer := buffer) hmem
    (fun h => key.2.2.2 h.1)
  have hdense : readDense doc acr.componentType acr.type acr.count acr.bufferView acr.byteOffset buffer = .err .shortBuffer := by
    unfold readDense
    rw [hc, ht, hn, ← show (ETy.base k s).c = componentTypeOf k from (ETy.c_eq _).1,
      ← show (ETy.base k s).t = accessorTypeOf s from (ETy.c_eq _).2, hd, Res.ok_bind, h1]
    simp only
    rw [hin.readIndex.1, hin.readIndex.2, Res.ok_bind, Res.ok_bind]
    have hwl := window_length h9
    unfold sliceFrom
    rw [h7, if_pos (by rw [hwl]; omega), Res.ok_bind, h5, Int.toNat_natCast]
    have htl : ((window b.data start len).drop off).length = len - off := by rw [List.length_drop, hwl]
    have hneed : needed (.base k s) 0 d.length = elemSize k s * count := by
      unfold needed effStride
      rw [if_neg (by omega), if_pos rfl, hdl]
      simp only [kind_base, shape_base]
      obtain ⟨m, rfl⟩ : ∃ m, count = m + 1 := ⟨count - 1, by omega⟩
      rw [Nat.mul_add]; simp
    have e1 : packedSize k s * count < elemSize k s * count := Nat.mul_lt_mul_of_pos_right key.1 h0
    have e2 : elemSize k s * count ≤ 8 * count := Nat.mul_le_mul_right _ key.2.2.1
    have := read_eq (t := .base k s) (data := d) (b := (window b.data start len).drop off) (stride := 0) (by omega)
      (by rw [hneed]; unfold maxAlloc at hm; omega)
    rw [show ((0 : Nat) : Int) = 0 from rfl] at this
    rw [this, hneed, htl, if_pos (by omega)]
    rfl
  unfold readAccessor
  rw [hdense]; rfl

theorem hasPlaced_modify {doc doc' : Document} {i : Nat} {data : Slice} {f : Accessor → Accessor}
    (hm : modifyAccessor i f doc = (doc', .ok ())) (h : HasPlaced doc i data)
    (hf : ∀ a, (f a).bufferView = a.bufferView ∧ (f a).byteOffset = a.byteOffset) : HasPlaced doc' i data := by
  obtain ⟨acr, h1, bv, b, n, start, stride, off, ⟨v, hv, e1⟩, e2, e3, e4, e5, e6⟩ := h
  obtain ⟨a, ha, rfl⟩ := modifyAccessor_ok.1 hm
  rw [h1] at ha
  simp only [Option.some.injEq] at ha
  subst ha
  refine ⟨f acr, ?_, bv, b, n, start, stride, off, ⟨v, by rw [(hf acr).1, hv], e1⟩, e2, e3, e4, by rw [(hf acr).2, e5], e6⟩
  show (doc.accessors.set i _)[i]? = _
  rw [List.getElem?_set_self (getElem?_lt h1)]

/-- C86 for the other writing functions, for all their data. -/
theorem C86_helpers (doc doc' : Document) (i : Nat) :
    (∀ data, writeIndices data doc = (doc', .ok i) → HasPlaced doc' i data) ∧
    (∀ data, writePosition data doc = (doc', .ok i) → HasPlaced doc' i ⟨.base .f32 .v3, data⟩) ∧
    (∀ data, writeNormal data doc = (doc', .ok i) → HasPlaced doc' i ⟨.base .f32 .v3, data⟩) ∧
    (∀ data, writeTangent data doc = (doc', .ok i) → HasPlaced doc' i ⟨.base .f32 .v4, data⟩) ∧
    (∀ data, writeInverseBindMatrices data doc = (doc', .ok i) → HasPlaced doc' i ⟨.base .f32 .m4, data⟩) ∧
    (∀ data, writeJoints data doc = (doc', .ok i) → HasPlaced doc' i data) ∧
    (∀ data, writeTextureCoord data doc = (doc', .ok i) → HasPlaced doc' i data) ∧
    (∀ data, writeWeights data doc = (doc', .ok i) → HasPlaced doc' i data) ∧
    (∀ data, writeColor data doc = (doc', .ok i) → HasPlaced doc' i data) := by
  have arr : ∀ {data d}, writeAccessor targetArrayBuffer data doc = (d, .ok i) → HasPlaced d i data :=
    fun h => C86_write_partial _ _ _ _ _ h (.inl rfl)
  have norm : ∀ {check data}, writeNormalized check data doc = (doc', .ok i) → HasPlaced doc' i data := by
    intro check data h
    obtain ⟨d, b, -, h1, h2⟩ := writeNormalized_core h
    exact hasPlaced_modify h2 (arr h1) (fun a => ⟨rfl, rfl⟩)
  refine ⟨?_, ?_, fun _ => arr, fun _ => arr, fun _ => arr, ?_, fun _ => norm, fun _ => norm, fun _ => norm⟩
  · intro data h
    rcases writeIndices_cases data with ⟨h', ht⟩ | h'
    · rw [h'] at h
      refine C86_write_partial _ _ _ _ _ h (.inr ?_)
      rcases ht with ht | ht <;> (rw [ht]; unfold OddVector; decide)
    · rw [h'] at h; exact nomatch (W.lift_ok.1 h).2
  · intro data h
    obtain ⟨d, d2, h1, h2, h3⟩ := writePosition_core h
    exact hasPlaced_modify h3 (hasPlaced_modify h2 (arr h1) (fun a => ⟨rfl, rfl⟩)) (fun a => ⟨rfl, rfl⟩)
  · intro data h
    unfold writeJoints at h
    obtain ⟨d1, _, h1, h2⟩ := W.bind_ok.1 h
    obtain ⟨rfl, -⟩ := W.lift_ok.1 h1
    exact arr h2

/-- Bytes and 32 bit numbers. -/
def mixedData : List Slice := [⟨.base .u8 .sc, [1, 2]⟩, ⟨.base .u32 .sc, [3, 4]⟩]

/-- C86 is false of `WriteAccessorsInterleaved`: a `[]uint8` is written without its stride. -/
theorem C86_interleaved_full_fails : ¬ C86_interleaved_full := by
  intro h
  have hw : ∃ doc', writeAccessorsInterleaved mixedData {} = (doc', .ok [0, 1]) ∧
      (doc'.accessors[0]?.join.map fun a => (a.bufferView, a.byteOffset)) = some (some 0, 0) ∧
      (doc'.bufferViews[0]?.join.map fun v => (v.buffer, v.byteOffset, v.byteStride)) = some (0, 0, 5) ∧
      (doc'.buffers[0]?.join.map fun b => b.data) = some [1, 3, 0, 0, 0, 0, 4, 0, 0, 0] :=
    ⟨_, outcome (by decide +kernel), by decide +kernel, by decide +kernel, by decide +kernel⟩
  obtain ⟨doc', hw, e1, e2, e3⟩ := hw
  obtain ⟨i, hi, acr, h1, h2⟩ := h mixedData {} doc' [0, 1] hw 0 ⟨.base .u8 .sc, [1, 2]⟩ rfl
  simp only [List.getElem?_cons_zero, Option.some.injEq] at hi
  subst hi
  simp only [h1, Option.join_some, Option.map_some, Option.some.injEq, Prod.mk.injEq] at e1
  simp only [Option.map_eq_some_iff, Prod.mk.injEq] at e2 e3
  obtain ⟨bv, e4, e5, e6, e7⟩ := e2
  obtain ⟨b, e8, e9⟩ := e3
  have := placed_byte (v := 0) (n := 0) (start := 0) (stride := 5) (off := 0) (i := 1) (x := (2 : UInt8)) (r := 0) (c := 0) (j := 0)
    (u := (2 : UInt8)) h2 e1.1 (Option.join_eq_some_iff.1 e4) e5 e6 e7 e1.2 (Option.join_eq_some_iff.1 e8) rfl (by decide) (by decide) rfl (by decide)
  rw [e9] at this
  revert this
  decide +kernel

/-- The hypotheses of C86 are met by colours without alpha as vertex attributes, and C86 finds the second one. -/
example : ∃ doc' acr, writeAccessor 34962 oddData {} = (doc', .ok 0) ∧ doc'.accessors[0]? = some (some acr) ∧
    PlacedAsGltf doc' acr oddData := by
  obtain ⟨acr, h1, h2⟩ := C86_write_partial 34962 oddData {} _ 0 rfl (.inl rfl)
  exact ⟨_, acr, rfl, h1, h2⟩

/-- The hypotheses of the theorem about rejected data are met by two tightly packed triples. -/
example : readAccessor (packedDoc [1, 2, 3, 4, 5, 6]) packedAcr [] ⟨[], [], []⟩ = .err .shortBuffer :=
  C86_read_rejects _ _ _ _ { buffer := 0, byteLength := 6 } { byteLength := 6, data := [1, 2, 3, 4, 5, 6] } .u8 .v3 0 0 0 6 0 2
    (by unfold OddVector; decide) rfl rfl rfl rfl rfl rfl rfl rfl (by decide) (by decide) rfl rfl rfl (by decide) (by decide) rfl

/-- The hypotheses of C86 for interleaved writes are met by triples of bytes and 32 bit numbers. -/
example : ∃ doc', writeAccessorsInterleaved [oddData, ⟨.base .u32 .sc, [3, 4]⟩] {} = (doc', .ok [0, 1]) ∧
    HasPlaced doc' 0 oddData := by
  have hw := outcome (x := writeAccessorsInterleaved [oddData, ⟨.base .u32 .sc, [3, 4]⟩] {}) (r := .ok [0, 1]) (by decide +kernel)
  obtain ⟨i, hi, h⟩ := C86_interleaved_partial _ _ _ _ hw (by decide) 0 oddData rfl
  simp only [List.getElem?_cons_zero, Option.some.injEq] at hi
  subst hi
  exact ⟨_, hw, h⟩

/-- The hypotheses of C86 for reading are met by two triples of bytes with a stride. -/
example (doc : Document) (hd : doc = { packedDoc [1, 2, 3, 4, 5, 6, 7, 8] with
    bufferViews := [some { buffer := 0, byteLength := 8, byteStride := 4 }] }) :
    PlacedAsGltf doc packedAcr ⟨.base .u8 .v3, [⟨1, 2, 3⟩, ⟨5, 6, 7⟩]⟩ := by
  subst hd
  refine C86_read_partial _ _ [] ⟨[], [], []⟩ _
    ⟨by intro b hb
        cases List.mem_singleton.1 hb; decide,
      by intro b hb
         cases List.mem_singleton.1 hb; decide⟩
    ⟨by decide, by decide, by intro sp h; cases h⟩ (by decide) rfl (by decide +kernel) ?_
  rintro bv ⟨v, hv, h⟩
  have hv0 : v = 0 := by injection hv with hv; omega
  subst hv0
  cases h
  exact ⟨fun h => absurd h (by decide), fun h => by cases h⟩

end Gltf
