/-
What was written with several accessors at once is read back; alignment.
-/
import Verif.Lemmas.Total

namespace Gltf

open Spec

theorem readAccessor_plain {doc : Document} {acr : Accessor} {buffer : Bytes} {p : Pools} {s : Slice}
    (hs : acr.sparse = none)
    (h : readDense doc acr.componentType acr.type acr.count acr.bufferView acr.byteOffset buffer = .ok s) :
    readAccessor doc acr buffer p = .ok s := by
  unfold readAccessor
  rw [h, hs]; rfl

theorem newAccessors_getElem? {v off : Nat} {ds : List Slice} {j : Nat} {d : Slice} (h : ds[j]? = some d) :
    (newAccessors v off ds)[j]? = some
      { bufferView := some (v : Int), byteOffset := ((off + rowSize (ds.take j) : Nat) : Int),
        componentType := d.ty.c, type := d.ty.t, count := d.data.length } := by
  induction ds generalizing off j with
  | nil => simp at h
  | cons x ds ih =>
    cases j with
    | zero =>
      simp only [List.getElem?_cons_zero, Option.some.injEq] at h
      subst h
      simp [newAccessors, rowSize]
    | succ j =>
      simp only [newAccessors, List.getElem?_cons_succ] at h ⊢
      rw [ih h, sizeOfElement_eq, List.take_succ_cons, rowSize_cons, Nat.add_assoc]

theorem extends_appendAccessors (d : Document) (l : List (Option Accessor)) :
    Extends d { d with accessors := d.accessors ++ l } :=
  ⟨List.prefix_append _ _, List.prefix_rfl, List.prefix_rfl, fun _ p h => ⟨p, h, .refl p⟩, rfl⟩

/-- Slices that survive an interleaved write: `[]int8` must be alone, `[]uint8` must be alone or
have at most one element. -/
def Interleavable (data : List Slice) : Prop :=
  data.length ≤ 1 ∨ ∀ d ∈ data, d.ty ≠ .base .i8 .sc ∧ (d.ty = .base .u8 .sc → d.data.length ≤ 1)

/-- Every accessor of an interleaved write reads back. -/
theorem interleaved_back {data : List Slice} {doc doc' : Document} {is : List Nat}
    (h : writeAccessorsInterleaved data doc = (doc', .ok is)) (hok : Interleavable data)
    {j : Nat} {d : Slice} (hd : data[j]? = some d) :
    ∃ (i : Nat) (acr : Accessor) (v : Nat) (bv : BufferView), is[j]? = some i ∧ i = doc.accessors.length + j ∧
      doc'.accessors[i]? = some (some acr) ∧
      acr = { bufferView := some (v : Int), byteOffset := (rowSize (data.take j) : Nat),
              componentType := d.ty.c, type := d.ty.t, count := d.data.length } ∧
      doc'.bufferViews[v]? = some (some bv) ∧
      ∀ p, readAccessor doc' acr [] p = .ok (back d) := by
  obtain ⟨d1, d2, v, h1, h2, rfl, rfl⟩ := writeAccessorsInterleaved_ok.1 h
  have hj := getElem?_lt hd
  have ha1 := (ensurePadding_accessors h1).1
  have ha2 := (writeBufferViews_accessors h2).1
  obtain ⟨stride, size, bv, b', b, hv, hb, hr, hst, -, -, -, -, -, hw⟩ := writeBufferViews_view h2
  refine ⟨d2.accessors.length + j, _, v, bv, ?_, by rw [ha2, ha1], ?_, rfl, hr.view, ?_⟩
  · simp [hj]
  · show (d2.accessors ++ (newAccessors v 0 data).map some)[d2.accessors.length + j]? = _
    rw [List.getElem?_append_right (by omega), Nat.add_sub_cancel_left, List.getElem?_map, newAccessors_getElem? hd,
      Nat.zero_add]; rfl
  · intro p
    apply readAccessor_plain rfl
    apply (extends_appendAccessors d2 ((newAccessors v 0 data).map some)).readDense
    have hmem := List.mem_of_getElem? hd
    rcases viewSizes_cases hv with ⟨rfl, -⟩ | ⟨n, hn, hs, hsz, -⟩
    · simp at hd
    by_cases hn0 : n = 0
    · have hin := writeAll_inside hw hj
      subst hn0
      simp only [Nat.zero_mul] at hsz
      subst hsz
      simp only [List.length_append, List.length_replicate] at hin
      have hone : data.length = 1 := by
        by_cases hlt : 1 < data.length
        · have hin2 := writeAll_inside hw hlt
          cases data with
          | nil => simp at hj
          | cons x xs =>
            rw [List.take_succ_cons, rowSize_cons] at hin2
            simp only [List.length_append, List.length_replicate, Slice.esz] at hin2
            have := elemSize_pos (kind x.ty) (shape x.ty)
            omega
        · omega
      obtain ⟨x, rfl⟩ := List.length_eq_one_iff.1 hone
      have : j = 0 := by simpa using hj
      subst this
      simp only [List.getElem?_cons_zero, Option.some.injEq] at hd
      subst hd
      have := readDense_writtenOne (buffer := []) h2 (by simp)
      simpa [rowSize] using this
    · have hrows : Rows stride n (rowSize data) data := by
        refine ⟨hn, hs, ?_⟩
        intro x hx hu
        rcases hok with hle | hok
        · left
          have hone : data.length = 1 := by
            have := List.length_pos_of_mem hx; omega
          obtain ⟨y, rfl⟩ := List.length_eq_one_iff.1 hone
          rw [List.mem_singleton] at hx; subst hx
          simp [rowSize, hu, kind, shape, elemSize, Spec.size]
        · right
          rw [← hn x hx]; exact (hok x hx).2 hu
      have := readDense_written (buffer := []) h2 hv hrows (by omega) rfl hsz hd (by
        intro h8
        rcases hok with hle | hok
        · have := List.length_pos_of_mem hmem; omega
        · exact absurd h8 (hok d hmem).1) (by simp)
      rw [← hn d hmem] at this
      exact this

theorem lastData_iff {doc : Document} {data : Bytes} :
    LastData doc data ↔ ∃ b, (ensured doc).buffers.getLast?.join = some b ∧ b.data = data := by
  unfold LastData ensured
  constructor
  · rintro (⟨h, rfl⟩ | ⟨bs, b, h, rfl⟩)
    · exact ⟨{}, by simp [h], rfl⟩
    · exact ⟨b, by simp [h], rfl⟩
  · rintro ⟨b, h, rfl⟩
    by_cases h0 : doc.buffers = []
    · left
      simp [h0] at h
      subst h; exact ⟨h0, rfl⟩
    · right
      have h1 : ¬ doc.buffers.length = 0 := by simpa using h0
      rw [if_neg h1] at h
      exact ⟨_, b, last_decomp h, rfl⟩

/-- Where the data of a padded write goes. -/
theorem padded_view {target : Target} {data : List Slice} {doc d1 d2 : Document} {v : Nat}
    (h1 : ensurePadding doc = (d1, .ok ())) (h2 : writeBufferViews target data d1 = (d2, .ok v)) :
    ∃ old k payload bv, LastData doc old ∧ LastData d2 (old ++ List.replicate k 0 ++ payload) ∧ k ≤ 3 ∧
      d2.bufferViews[v]? = some (some bv) ∧ bv.byteOffset = ((old.length + k : Nat) : Int) ∧ (old.length + k) % 4 = 0 ∧
      bv.byteLength = payload.length ∧ bv.buffer = (d2.buffers.length : Int) - 1 ∧ v = doc.bufferViews.length := by
  obtain ⟨b, hb, hle, rfl⟩ := ensurePadding_ok.1 h1
  have hview := writeBufferViews_view h2
  obtain ⟨stride, size, bv, b', b1, hv, hb1, hr, hst, htg, hlen, hbuf, hbl, hmax, hw⟩ := hview
  obtain ⟨stride', size', b1', bytes, hv', hb1', hle', hw', hvv, rfl⟩ := writeBufferViews_ok.1 h2
  rw [ensured_withLast] at hb1 hb1' hbuf
  have e1 : b1' = b1 := by rw [hb1] at hb1'; exact (Option.some.inj hb1').symm
  subst e1
  have e2 : b1'.data = b.data ++ List.replicate (getPadding b.data.length) 0 := by
    have : (withLast doc { b with
          data := b.data ++ List.replicate (getPadding b.data.length) 0,
          byteLength := wrap64 (b.byteLength + (getPadding b.data.length : Nat)) }).buffers.getLast?.join
        = some { b with
          data := b.data ++ List.replicate (getPadding b.data.length) 0,
          byteLength := wrap64 (b.byteLength + (getPadding b.data.length : Nat)) } := by
      simp [withLast]
    rw [this] at hb1; cases hb1; rfl
  obtain ⟨payload, hpay⟩ := (writeAll_prefix hw').1
  have hpl := (writeAll_prefix hw').2
  rw [hv] at hv'
  cases hv'
  have hp4 := getPadding_add b.data.length
  refine ⟨b.data, getPadding b.data.length, payload, bv, lastData_iff.2 ⟨b, hb, rfl⟩, ?_, ?_, hr.view, ?_, ?_, ?_, ?_, hvv⟩
  · right
    refine ⟨_, _, rfl, ?_⟩
    show bytes = _
    rw [← e2, hpay]
  · unfold getPadding; dsimp only; split <;> omega
  · rw [hr.offset, e2]; simp
  · rw [hp4]; unfold roundUp4; omega
  · rw [hr.length]
    rw [← hpay] at hpl
    rw [List.length_append] at hpl
    have : payload.length = size := by omega
    rw [this]
  · rw [hbuf]
    simp [withLast, ensured]

theorem modifyAccessor_ok {i : Nat} {f : Accessor → Accessor} {d d' : Document} :
    modifyAccessor i f d = (d', .ok ()) ↔
      ∃ a, d.accessors[i]? = some (some a) ∧ d' = { d with accessors := d.accessors.set i (some (f a)) } := by
  unfold modifyAccessor
  split
  · next h => simp [h]
  · next h => simp [h]
  · next a h => simp [h, eq_comm]

theorem modifyAccessor_get {i j : Nat} {f : Accessor → Accessor} {d d' : Document} (h : modifyAccessor i f d = (d', .ok ())) :
    d'.accessors[j]? = if i = j then (d.accessors[j]?).map (·.map f) else d.accessors[j]? := by
  obtain ⟨a, ha, rfl⟩ := modifyAccessor_ok.1 h
  simp only [List.getElem?_set]
  split
  · next e =>
    subst e
    rw [if_pos (getElem?_lt ha), ha]; rfl
  · rfl

/-- Reading an accessor does not look at the list of accessors, nor at `Min`, `Max` and `Normalized`. -/
theorem readAccessor_same {d d' : Document} {a : Accessor} {buffer : Bytes} {p : Pools}
    (hs : SameDoc d d') (mn mx : List F64) (nm : Bool) :
    readAccessor d' { a with min := mn, max := mx, normalized := nm } buffer p = readAccessor d a buffer p := by
  rw [hs.rest]; rfl

/-- A written accessor reads back, also after assignments to fields that do not matter for reading. -/
theorem written_back {target : Target} {data : Slice} {doc d doc' : Document} {i : Nat}
    (h : writeAccessor target data doc = (d, .ok i)) (hs : SameDoc d doc') :
    ∃ acr, doc'.accessors[i]? = some (some acr) ∧ acr.componentType = data.ty.c ∧ acr.type = data.ty.t ∧
      acr.count = data.data.length ∧
      ∀ buffer p, ¬ (data.ty.c = .uint ∧ data.ty.t = .mat3 ∧ buffer ≠ []) →
        readAccessor doc' acr buffer p = .ok (back data) := by
  obtain ⟨d1, d2, v, h1, h2, rfl, rfl⟩ := writeAccessor_ok.1 h
  generalize ha : ({ bufferView := some (v : Int), componentType := data.ty.c, count := data.data.length, type := data.ty.t } : Accessor) = a at hs
  have hacr : (d2.accessors ++ [some a])[d2.accessors.length]? = some (some a) := by
    rw [List.getElem?_append_right (Nat.le_refl _), Nat.sub_self]; rfl
  obtain ⟨a', ha', hsame⟩ := hs.acr _ _ hacr
  have hread : ∀ buffer p, ¬ (data.ty.c = .uint ∧ data.ty.t = .mat3 ∧ buffer ≠ []) →
      readAccessor { d2 with accessors := d2.accessors ++ [some a] } a buffer p = .ok (back data) := fun buffer p hx =>
    readAccessor_plain (p := p) (by rw [← ha])
      ((extends_appendAccessors d2 _).readDense (by rw [← ha]; exact readDense_writtenOne (buffer := buffer) h2 hx))
  have hc : a.componentType = data.ty.c := by rw [← ha]
  have ht : a.type = data.ty.t := by rw [← ha]
  have hn : a.count = data.data.length := by rw [← ha]
  rcases hsame with rfl | ⟨x, mn, mx, nm, hx, rfl⟩
  · refine ⟨a, ha', hc, ht, hn, fun buffer p hx => ?_⟩
    rw [hs.rest]
    exact hread buffer p hx
  · cases hx
    refine ⟨_, ha', hc, ht, hn, fun buffer p hx => ?_⟩
    rw [readAccessor_same hs]
    exact hread buffer p hx

end Gltf
