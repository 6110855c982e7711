/-
Property C104: what appending to a slice that was read does to the document.
-/
import Verif.Props.Heap

namespace Gltf

open Spec Heap

/-- `append(t, bs...)` of the Go language, as a caller of the package may use it on bytes that were read: in place if the capacity
suffices, and otherwise in a new array. -/
def Spec.appendBytes (G : Grow) (m : Mem) (t : GoSlice) (bs : Bytes) : Mem × GoSlice :=
  if t.len + bs.length ≤ t.cap then (t.store m t.len bs, { t with len := t.len + bs.length })
  else (m ++ [t.bytes m ++ bs ++ List.replicate (G m t bs.length) 0], ⟨m.length, 0, t.len + bs.length, t.len + bs.length + G m t bs.length⟩)

/-- The document after a caller appended to a slice. -/
def Spec.afterAppend (G : Grow) (d : MDoc) (t : GoSlice) (bs : Bytes) : MDoc := { d with mem := (appendBytes G d.mem t bs).1 }

theorem value_of_bytes {d : MDoc} {m : Mem} (h : ∀ s ∈ d.data, s.bytes m = s.bytes d.mem) : MDoc.value { d with mem := m } = d.value := by
  have hb : (MDoc.value { d with mem := m }).buffers = d.value.buffers := by
    apply List.ext_getElem?
    intro i
    rw [value_get, value_get]
    show (match d.doc.buffers[i]?, d.data[i]? with | some b, some s => some (b.map fun b : Buffer => { b with data := s.bytes m }) | _, _ => none) = _
    cases hd : d.data[i]? with
    | none => cases d.doc.buffers[i]? <;> rfl
    | some s =>
      cases d.doc.buffers[i]? with
      | none => rfl
      | some b =>
        simp only
        rw [h s (List.mem_of_getElem? hd)]
  rw [value_eq, hb]
  rfl

/-- C104: appending to a slice, which `ReadBufferView` or another function returned, that cannot grow in place does not change the document. -/
theorem C104_append_partial (G : Grow) (d : MDoc) (t : GoSlice) (bs : Bytes) (h : Own d) (hc : t.cap < t.len + bs.length) :
    (afterAppend G d t bs).value = d.value := by
  unfold afterAppend appendBytes
  rw [if_neg (by omega)]
  exact value_of_bytes fun s hs => bytes_append (h.valid s hs)

/-- Where a slice that was read lies. -/
theorem heapView_place {d : MDoc} {bv : BufferView} {t : GoSlice} (hr : Heap.readBufferView d bv = .ok t) :
    ∃ (i lo : Nat) (b : Buffer) (s : GoSlice), (i : Int) = bv.buffer ∧ (lo : Int) = bv.byteOffset ∧ d.doc.buffers[i]? = some (some b) ∧
      d.data[i]? = some s ∧ lo + t.len ≤ s.len ∧ t = s.range lo (lo + t.len) := by
  unfold Heap.readBufferView at hr
  split at hr
  · cases hr
  split at hr
  · cases hr
  split at hr
  · rename_i b s hb hs
    simp only at hr
    split at hr
    · cases hr
    split at hr
    · rename_i h1 h2 h3 h4
      cases hr
      refine ⟨bv.buffer.toNat, bv.byteOffset.toNat, b, s, by omega, by omega, hb, hs, ?_, ?_⟩
      · show bv.byteOffset.toNat + ((wrap64 (bv.byteOffset + bv.byteLength)).toNat - bv.byteOffset.toNat) ≤ s.len
        omega
      · unfold GoSlice.range
        simp only [GoSlice.mk.injEq, true_and, and_true]
        omega
    · cases hr
  · cases hr

/-- What happens to the buffer of the slice that is appended to. -/
theorem append_bytes {G : Grow} {m : Mem} {s : GoSlice} {lo n : Nat} {bs : Bytes} (hv : Valid m s) (h : lo + n + bs.length ≤ s.len) :
    s.bytes (appendBytes G m (s.range lo (lo + n)) bs).1 = (s.bytes m).take (lo + n) ++ bs ++ (s.bytes m).drop (lo + n + bs.length) := by
  unfold appendBytes
  have hc := hv.1
  rw [if_pos (by show lo + n - lo + bs.length ≤ s.cap - lo; omega)]
  rw [← store_bytes hv h]
  show s.bytes (m.modify s.arr fun a => splice a (s.off + lo + (lo + n - lo)) bs) = s.bytes (m.modify s.arr fun a => splice a (s.off + (lo + n)) bs)
  rw [show s.off + lo + (lo + n - lo) = s.off + (lo + n) by omega]

theorem drop_take_splice {X bs : Bytes} {a hi : Nat} (h1 : a + bs.length ≤ hi) (h2 : hi ≤ X.length) :
    ((X.take a ++ bs ++ X.drop (a + bs.length)).take hi).drop a = bs ++ ((X.take hi).drop a).drop bs.length := by
  have hl : (X.take a).length = a := by rw [List.length_take]; omega
  rw [List.drop_take, List.append_assoc, List.drop_append_of_le_length (by omega), List.drop_of_length_le (by omega), List.nil_append,
    List.take_append, List.take_of_length_le (by omega), List.drop_drop, List.drop_take, show hi - a - bs.length = hi - (a + bs.length) by omega]

/-- C104 fails for every buffer view that other data follows in its buffer: if `next` is a buffer view that begins where the bytes that
were read end, `ReadBufferView` shows the bytes that were appended in the place of its own. -/
theorem C104_append_overwrites (G : Grow) (d : MDoc) (bv next : BufferView) (t : GoSlice) (bs old : Bytes) (h : Own d)
    (hr : Heap.readBufferView d bv = .ok t) (hb : next.buffer = bv.buffer) (ho : next.byteOffset = bv.byteOffset + t.len)
    (hn : readBufferView d.value next = .ok old) (hl : bs.length ≤ old.length) :
    readBufferView (afterAppend G d t bs).value next = .ok (bs ++ old.drop bs.length) := by
  obtain ⟨i, lo, b, s, hi, hlo, hbi, hs, hle, ht⟩ := heapView_place hr
  have hv := h.valid s (List.mem_of_getElem? hs)
  have hlen := bytes_length hv
  unfold readBufferView at hn ⊢
  have hvl : d.value.buffers.length = (afterAppend G d t bs).value.buffers.length := by
    unfold afterAppend MDoc.value
    simp only [List.length_zipWith]
  rw [← hvl]
  split at hn
  · cases hn
  rename_i h1
  rw [if_neg h1]
  split at hn
  · cases hn
  rename_i h2
  rw [if_neg h2]
  have hti : next.buffer.toNat = i := by omega
  rw [hti] at hn ⊢
  rw [value_get, hbi, hs] at hn
  rw [value_get, show (afterAppend G d t bs).doc = d.doc from rfl, show (afterAppend G d t bs).data = d.data from rfl, hbi, hs]
  simp only [Option.map_some] at hn ⊢
  rw [hlen] at hn
  split at hn
  · cases hn
  rename_i h3
  split at hn
  · rename_i h4
    have hlo' : next.byteOffset.toNat = lo + t.len := by omega
    rw [hlo'] at hn
    have hold := (Res.ok.inj hn).symm
    have holen : old.length = (wrap64 (next.byteOffset + next.byteLength)).toNat - (lo + t.len) := by
      rw [hold]
      simp only [List.length_drop, List.length_take, hlen]
      omega
    have hnew : s.bytes (afterAppend G d t bs).mem = (s.bytes d.mem).take (lo + t.len) ++ bs ++ (s.bytes d.mem).drop (lo + t.len + bs.length) := by
      have := append_bytes (G := G) (lo := lo) (n := t.len) (bs := bs) hv (by omega)
      rw [← ht] at this
      exact this
    have hnl : (s.bytes (afterAppend G d t bs).mem).length = s.len := by
      rw [hnew]
      simp only [List.length_append, List.length_drop, List.length_take, hlen]
      omega
    rw [hnl, if_neg h3, if_pos h4, hlo', hnew]
    rw [hold] at hl ⊢
    rw [← hold] at hl
    rw [drop_take_splice (by omega) (by omega)]
  · cases hn

/-- C104: nor does appending to the bytes at the end of the last buffer. -/
theorem C104_append_end (G : Grow) (d : MDoc) (bv : BufferView) (t : GoSlice) (bs : Bytes) (b : Buffer) (h : Own d)
    (hr : Heap.readBufferView d bv = .ok t) (hb : d.value.buffers.getLast? = some (some b)) (hlast : bv.buffer + 1 = d.value.buffers.length)
    (he : bv.byteOffset + t.len = b.data.length) : (afterAppend G d t bs).value = d.value := by
  obtain ⟨i, lo, b', s, hi, hlo, hbi, hs, hle, ht⟩ := heapView_place hr
  have hv := h.valid s (List.mem_of_getElem? hs)
  have hlen := bytes_length hv
  have hc := hv.1
  have hil : d.value.buffers.length - 1 = i := by omega
  have hb' := hb
  rw [List.getLast?_eq_getElem?, hil, value_get, hbi, hs] at hb'
  have hbd : s.bytes d.mem = b.data := by
    simp only [Option.map_some, Option.some.injEq] at hb'
    rw [← hb']
  rw [← hbd, hlen] at he
  have hsl : d.data.getLast? = some s := by
    rw [List.getLast?_eq_getElem?, h.length, ← value_length h, hil]
    exact hs
  unfold afterAppend appendBytes
  split
  · rename_i hfit
    have hfit' : s.len + bs.length ≤ s.cap := by
      rw [ht] at hfit
      have : lo + t.len - lo + bs.length ≤ s.cap - lo := hfit
      omega
    have hst : t.store d.mem t.len bs = s.store d.mem s.len bs := by
      rw [ht]
      show (d.mem.modify s.arr fun a => splice a (s.off + lo + (lo + t.len - lo)) bs) = d.mem.modify s.arr fun a => splice a (s.off + s.len) bs
      rw [show s.off + lo + (lo + t.len - lo) = s.off + s.len by omega]
    rw [hst]
    refine value_of_bytes fun x hx => ?_
    refine store_away hv hfit' (Nat.le_refl _) ?_
    obtain ⟨j, hj⟩ := List.mem_iff_getElem?.1 hx
    by_cases hjl : j = d.data.length - 1
    · rw [hjl, ← List.getLast?_eq_getElem?, hsl] at hj
      cases hj
      exact .inr (.inr (.inl (Nat.le_refl _)))
    · refine h.apart s hsl x (List.mem_of_getElem? (i := j) ?_)
      have := (List.getElem?_eq_some_iff.1 hj).1
      rw [List.getElem?_dropLast, if_pos (by omega)]
      exact hj
  · exact value_of_bytes fun x hx => bytes_append (h.valid x hx)

/-- A document with eight bytes, in two buffer views. -/
def twoViews : Document where
  buffers := [some { byteLength := 8, data := [1, 2, 3, 4, 5, 6, 7, 8] }]
  bufferViews := [some { byteLength := 4 }, some { byteOffset := 4, byteLength := 4 }]

/-- C104 as stated fails: two bytes appended to the first buffer view are read from the second one. -/
theorem C104_full_fails : ¬ ∀ (G : Grow) (d : MDoc) (bv : BufferView) (t : GoSlice) (bs : Bytes), Own d →
    Heap.readBufferView d bv = .ok t → (afterAppend G d t bs).value = d.value := fun h => by
  have := h (fun _ _ _ => 0) (loaded twoViews) { byteLength := 4 } ⟨0, 0, 4, 8⟩ [9, 9] (C95_every_document _).1 (by decide +kernel)
  have := congrArg (fun d => readBufferViewIndex d 1) this
  revert this
  decide +kernel

/-- The hypotheses of `C104_append_overwrites`, `C104_append_end` and `C104_append_partial` can be met. -/
example : Own (loaded twoViews) ∧ Heap.readBufferView (loaded twoViews) { byteLength := 4 } = .ok ⟨0, 0, 4, 8⟩ ∧
    readBufferView (loaded twoViews).value { byteOffset := 4, byteLength := 4 } = .ok [5, 6, 7, 8] ∧
    readBufferView (afterAppend (fun _ _ _ => 0) (loaded twoViews) ⟨0, 0, 4, 8⟩ [9, 9]).value { byteOffset := 4, byteLength := 4 } = .ok [9, 9, 7, 8] ∧
    Heap.readBufferView (loaded twoViews) { byteOffset := 4, byteLength := 4 } = .ok ⟨0, 4, 4, 4⟩ ∧
    (loaded twoViews).value.buffers.getLast?.join.map (·.data.length) = some 8 :=
  ⟨(C95_every_document _).1, by decide +kernel, by decide +kernel, by decide +kernel, by decide +kernel, by decide +kernel⟩

end Gltf
