/-
Property C95: slices that were read stay as they are while more data is written.
-/
import Verif.Lemmas.HeapSim
import Verif.Props.ModelerWrite

namespace Gltf

open Spec Heap

theorem heapRange_safe {d : MDoc} (h : Own d) {i lo hi : Nat} {s : GoSlice} (hs : d.data[i]? = some s) (h1 : lo ≤ hi) (h2 : hi ≤ s.len) :
    Safe d (s.range lo hi) := by
  have hv := h.valid s (List.mem_of_getElem? hs)
  refine ⟨⟨?_, ?_⟩, fun x hx => ?_⟩
  · show hi - lo ≤ s.cap - lo
    have := hv.1
    omega
  · rcases hv.2 with h0 | ⟨a, e1, e2⟩
    · exact .inl (by show s.cap - lo = 0; omega)
    · refine .inr ⟨a, e1, ?_⟩
      have := hv.1
      show s.off + lo + (s.cap - lo) ≤ a.length
      omega
  · by_cases hl : i = d.data.length - 1
    · subst hl
      rw [← List.getLast?_eq_getElem?, hx] at hs
      cases hs
      refine .inr (.inr (.inl ?_))
      show s.off + lo + (hi - lo) ≤ s.off + s.len
      omega
    · have hi' := (List.getElem?_eq_some_iff.1 hs).1
      have hm : s ∈ d.data.dropLast := by
        refine List.mem_of_getElem? (i := i) ?_
        rw [List.getElem?_dropLast, if_pos (by omega)]
        exact hs
      rcases h.apart x hx s hm with g | g | g | g
      · exact .inl (by show hi - lo = 0; omega)
      · exact .inr (.inl g)
      · refine .inr (.inr (.inl ?_))
        show s.off + lo + (hi - lo) ≤ x.off + x.len
        omega
      · refine .inr (.inr (.inr ?_))
        show x.off + x.cap ≤ s.off + lo
        omega

/-- The slice that `ReadBufferView` returns shows the bytes that the buffer view designates, and nothing of the spare capacity. -/
theorem heapView_spec {d : MDoc} (h : Own d) {bv : BufferView} {t : GoSlice} (hr : Heap.readBufferView d bv = .ok t) :
    Safe d t ∧ readBufferView d.value bv = .ok (t.bytes d.mem) := by
  unfold Heap.readBufferView at hr
  unfold readBufferView
  rw [value_length h]
  split at hr
  · cases hr
  · rename_i h1
    rw [if_neg h1]
    split at hr
    · cases hr
    · rename_i h2
      rw [if_neg h2, value_get]
      split at hr
      · rename_i b s hb hs
        rw [hb, hs]
        have hv := h.valid s (List.mem_of_getElem? hs)
        simp only [Option.map_some] at hr ⊢
        rw [bytes_length hv]
        split at hr
        · cases hr
        · rename_i h3
          rw [if_neg h3]
          split at hr
          · rename_i h4
            rw [if_pos h4]
            cases hr
            refine ⟨heapRange_safe h hs (by omega) (by omega), ?_⟩
            unfold GoSlice.bytes GoSlice.range
            rw [List.take_take, Nat.min_eq_left (by omega), List.drop_take, List.drop_drop]
          · cases hr
      · cases hr

/-- C95: a slice that `ReadBufferView` returned shows the same bytes after any calls of the writing functions, and `ReadBufferView`
returns these bytes also then. -/
theorem C95_stays (d d' : MDoc) (bv : BufferView) (t : GoSlice) (h : Own d) (hc : Calls d d') (hr : Heap.readBufferView d bv = .ok t) :
    readBufferView d.value bv = .ok (t.bytes d.mem) ∧ t.bytes d'.mem = t.bytes d.mem ∧ readBufferView d'.value bv = .ok (t.bytes d'.mem) := by
  obtain ⟨hk, hh⟩ := calls_spec hc h
  obtain ⟨h1, h2⟩ := heapView_spec h hr
  have h3 := (hk.2 t h1).2
  refine ⟨h2, h3, ?_⟩
  rw [h3]
  exact hh.extends.readBufferView h2

/-- C95: the same is true of any other slice that shows nothing of the spare capacity of the last buffer. -/
theorem C95_others (d d' : MDoc) (t : GoSlice) (h : Own d) (hc : Calls d d') (ht : Safe d t) : t.bytes d'.mem = t.bytes d.mem :=
  ((calls_spec hc h).1.2 t ht).2

/-- C95: what happens to the document does not depend on how memory is shared, so that slices may be taken for values. -/
theorem C95_values (d d' : MDoc) (h : Own d) (hc : Calls d d') : History d.value d'.value ∧ Own d' :=
  ⟨(calls_spec hc h).2, (calls_spec hc h).1.1⟩

/-- A document whose buffers have arrays of their own, without spare capacity, as `Decode` makes them. -/
def loaded (doc : Document) : MDoc where
  mem := doc.buffers.map fun b => (b.map (·.data)).getD []
  doc := doc
  data := doc.buffers.mapIdx fun i b => ⟨i, 0, ((b.map (·.data)).getD []).length, ((b.map (·.data)).getD []).length⟩

/-- C95: every document can be had in memory in this way. -/
theorem C95_every_document (doc : Document) : Own (loaded doc) ∧ (loaded doc).value = doc := by
  have hget : ∀ i, (loaded doc).data[i]? = doc.buffers[i]?.map fun b => (⟨i, 0, ((b.map (·.data)).getD []).length, ((b.map (·.data)).getD []).length⟩ : GoSlice) := by
    intro i
    show (doc.buffers.mapIdx _)[i]? = _
    rw [List.getElem?_mapIdx]
  have hmem : ∀ i : Nat, (loaded doc).mem[i]? = doc.buffers[i]?.map fun b : Option Buffer => (b.map (·.data)).getD [] := by
    intro i
    show (doc.buffers.map _)[i]? = _
    rw [List.getElem?_map]
  refine ⟨⟨?_, ?_, ?_⟩, ?_⟩
  · show (doc.buffers.mapIdx _).length = doc.buffers.length
    rw [List.length_mapIdx]
  · intro s hs
    obtain ⟨i, hi⟩ := List.mem_iff_getElem?.1 hs
    rw [hget] at hi
    obtain ⟨b, hb, rfl⟩ := Option.map_eq_some_iff.1 hi
    refine ⟨Nat.le_refl _, .inr ⟨_, by rw [hmem, hb]; rfl, ?_⟩⟩
    exact Nat.le_of_eq (Nat.zero_add _)
  · intro s hs t ht
    obtain ⟨j, hj⟩ := List.mem_iff_getElem?.1 ht
    rw [List.getElem?_dropLast] at hj
    split at hj
    · rename_i hlt
      rw [List.getLast?_eq_getElem?, hget] at hs
      rw [hget] at hj
      obtain ⟨b, hb, rfl⟩ := Option.map_eq_some_iff.1 hs
      obtain ⟨c, hc, rfl⟩ := Option.map_eq_some_iff.1 hj
      refine .inr (.inl ?_)
      show j ≠ (loaded doc).data.length - 1
      omega
    · cases hj
  · have hb : (loaded doc).value.buffers = doc.buffers := by
      apply List.ext_getElem?
      intro i
      rw [value_get, hget]
      rw [show (loaded doc).doc = doc from rfl]
      cases hx : doc.buffers[i]? with
      | none => rfl
      | some b =>
        cases b with
        | none => rfl
        | some b =>
          simp only [Option.map_some, Option.getD_some]
          unfold GoSlice.bytes
          simp only [hmem, hx, Option.map_some, Option.getD_some, List.drop_zero, List.take_length]
    rw [value_eq, hb]
    rfl

/-- Eight bytes from a file; the second half is the first buffer of the document, and the first half is the last buffer. -/
def halves : MDoc where
  mem := [[1, 2, 3, 4, 5, 6, 7, 8]]
  doc := { buffers := [some { byteLength := 4 }, some { byteLength := 4 }], bufferViews := [some { buffer := 0, byteLength := 4 }] }
  data := [⟨0, 4, 4, 4⟩, ⟨0, 0, 4, 8⟩]

/-- C95 needs buffers that do not lie in the spare capacity of the last one: here a byte that is written changes what was read. -/
theorem C95_shared_fails : ∃ d d' bv t, Calls d d' ∧ Heap.readBufferView d bv = .ok t ∧ t.bytes d.mem = [5, 6, 7, 8] ∧ t.bytes d'.mem = [9, 6, 7, 8] ∧
    ¬ Own d := by
  refine ⟨halves, _, { buffer := 0, byteLength := 4 }, ⟨0, 4, 4, 4⟩,
    .step (fun _ _ _ => 0) (.bufferView targetNone ⟨.base .u8 .sc, [9]⟩) (by decide +kernel) (.nil _), by decide +kernel, by decide +kernel, by decide +kernel, fun h => ?_⟩
  rcases h.apart ⟨0, 0, 4, 8⟩ rfl ⟨0, 4, 4, 4⟩ (by decide) with g | g | g | g
  · cases g
  · exact g rfl
  · revert g; decide
  · revert g; decide

/-- The two halves in the usual order. -/
def halvesInOrder : MDoc := { halves with data := [⟨0, 0, 4, 8⟩, ⟨0, 4, 4, 4⟩] }

/-- Then a write moves the last buffer to another array, and later ones fill the spare capacity of that; what was read stays. -/
example : Own halvesInOrder ∧ ∃ d', Calls halvesInOrder d' ∧ d'.data = [⟨0, 0, 4, 8⟩, ⟨1, 0, 8, 15⟩] ∧
    Heap.readBufferView halvesInOrder { buffer := 1, byteLength := 4 } = .ok ⟨0, 4, 4, 4⟩ ∧ (⟨0, 4, 4, 4⟩ : GoSlice).bytes d'.mem = [5, 6, 7, 8] := by
  refine ⟨⟨rfl, ?_, ?_⟩, _, .step (fun _ _ _ => 10) (.bufferView targetNone ⟨.base .u8 .sc, [9]⟩) (by decide +kernel)
    (.step (fun _ _ _ => 10) (.bufferView targetNone ⟨.base .u8 .sc, [10, 11, 12]⟩) (by decide +kernel) (.nil _)),
    by decide +kernel, by decide +kernel, by decide +kernel⟩
  · intro s hs
    simp only [halvesInOrder, List.mem_cons, List.not_mem_nil, or_false] at hs
    rcases hs with rfl | rfl
    · exact ⟨by decide, .inr ⟨_, rfl, by decide⟩⟩
    · exact ⟨by decide, .inr ⟨_, rfl, by decide⟩⟩
  · intro s hs t ht
    cases hs
    simp only [halvesInOrder, List.dropLast_cons_cons, List.dropLast_singleton, List.mem_singleton] at ht
    subst ht
    exact .inr (.inr (.inl (by decide)))

end Gltf
