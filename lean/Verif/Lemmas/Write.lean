/-
Lemmas about the writing functions of the modeler.
-/
import Verif.Model.Write
import Verif.Lemmas.ReadWrite

namespace Gltf

open Spec

/-! ### The monad -/

namespace W

theorem bind_def {α β : Type} (x : W α) (f : α → W β) (doc : Document) :
    (x >>= f) doc = match x doc with
      | (doc, .ok a) => f a doc
      | (doc, .err e) => (doc, .err e)
      | (doc, .panic w) => (doc, .panic w) := rfl

theorem pure_def {α : Type} (a : α) (doc : Document) : (Pure.pure a : W α) doc = (doc, .ok a) := rfl

theorem bind_ok {α β : Type} {x : W α} {f : α → W β} {doc doc' : Document} {b : β} :
    (x >>= f) doc = (doc', .ok b) ↔ ∃ doc1 a, x doc = (doc1, .ok a) ∧ f a doc1 = (doc', .ok b) := by
  rw [bind_def]
  constructor
  · intro h
    split at h
    · next doc1 a hx => exact ⟨doc1, a, hx, h⟩
    · simp at h
    · simp at h
  · rintro ⟨doc1, a, hx, h⟩
    rw [hx]; exact h

theorem lift_ok {α : Type} {r : Res α} {doc doc' : Document} {a : α} :
    W.lift r doc = (doc', .ok a) ↔ doc' = doc ∧ r = .ok a := by
  unfold W.lift
  rw [Prod.mk.injEq, eq_comm (a := doc)]

theorem pure_ok {α : Type} {a b : α} {doc doc' : Document} :
    (Pure.pure a : W α) doc = (doc', .ok b) ↔ doc' = doc ∧ a = b := by
  rw [pure_def, Prod.mk.injEq, Res.ok.injEq, eq_comm (a := doc)]

end W

/-! ### The last buffer -/

/-- The document with at least one buffer. -/
def ensured (doc : Document) : Document :=
  if doc.buffers.length = 0 then { doc with buffers := doc.buffers ++ [some {}] } else doc

theorem lastBuffer_eq (doc : Document) :
    lastBuffer doc = (ensured doc, .ok (ensured doc).buffers.getLast?.join) := rfl

theorem ensured_buffers_ne (doc : Document) : (ensured doc).buffers ≠ [] := by
  unfold ensured; split
  · simp
  · next h => intro h'; simp [h'] at h

theorem ensured_eq (doc : Document) : ensured doc = { doc with buffers := (ensured doc).buffers } := by
  unfold ensured; split <;> rfl

theorem deref_ok {α : Type} {p : Option α} {a : α} : deref p = .ok a ↔ p = some a := by
  cases p <;> simp [deref]

theorem last_decomp {doc : Document} {b : Buffer} (h : doc.buffers.getLast?.join = some b) :
    doc.buffers = doc.buffers.dropLast ++ [some b] := by
  cases hl : doc.buffers.getLast? with
  | none => simp [hl] at h
  | some x =>
    rw [hl] at h
    simp at h
    subst h
    have := List.getLast?_eq_some_iff.1 hl
    obtain ⟨ys, hys⟩ := this
    rw [hys]; simp

theorem appendZeros_ok {b b' : Bytes} {n : Nat} :
    appendZeros b n = .ok b' ↔ b.length + n ≤ maxAlloc ∧ b' = b ++ List.replicate n 0 := by
  unfold appendZeros
  split
  · next h => simp [h, eq_comm]
  · next h => simp [h]

/-- The document with a new last buffer. -/
def withLast (doc : Document) (b : Buffer) : Document :=
  { doc with buffers := (ensured doc).buffers.dropLast ++ [some b] }

/-- Effect of `ensurePadding`. -/
theorem ensurePadding_ok {doc doc' : Document} :
    ensurePadding doc = (doc', .ok ()) ↔
      ∃ b, (ensured doc).buffers.getLast?.join = some b ∧
        b.data.length + getPadding b.data.length ≤ maxAlloc ∧
        doc' = withLast doc { b with
          data := b.data ++ List.replicate (getPadding b.data.length) 0,
          byteLength := wrap64 (b.byteLength + (getPadding b.data.length : Nat)) } := by
  unfold ensurePadding
  simp only [W.bind_ok, lastBuffer_eq, W.lift_ok, deref_ok, appendZeros_ok, Prod.mk.injEq, Res.ok.injEq]
  constructor
  · rintro ⟨d1, p, ⟨rfl, rfl⟩, d2, b, ⟨rfl, hb⟩, d3, bytes, ⟨rfl, hle, rfl⟩, h⟩
    refine ⟨b, hb, hle, ?_⟩
    simp only [setLastBuffer, Prod.mk.injEq] at h
    rw [← h.1, withLast]; rw [ensured_eq doc]
  · rintro ⟨b, hb, hle, rfl⟩
    refine ⟨_, _, ⟨rfl, rfl⟩, _, b, ⟨rfl, hb⟩, _, _, ⟨rfl, hle, rfl⟩, ?_⟩
    simp only [setLastBuffer, Prod.mk.injEq, and_true]
    rw [withLast]; rw [ensured_eq doc]

/-- Effect of `writeBufferViews`. -/
theorem writeBufferViews_ok {target : Target} {data : List Slice} {doc doc' : Document} {i : Nat} :
    writeBufferViews target data doc = (doc', .ok i) ↔
      ∃ stride size b bytes, viewSizes target (decide (1 < data.length)) 0 0 0 0 data = .ok (stride, size) ∧
        (ensured doc).buffers.getLast?.join = some b ∧
        b.data.length + size ≤ maxAlloc ∧
        writeAll stride b.data.length (b.data ++ List.replicate size 0) data = .ok bytes ∧
        i = doc.bufferViews.length ∧
        doc' = { withLast doc { b with byteLength := wrap64 (b.byteLength + (size : Nat)), data := bytes } with
          bufferViews := doc.bufferViews ++ [some
            { buffer := ((ensured doc).buffers.length : Int) - 1, byteLength := size, byteOffset := b.data.length,
              byteStride := stride, target := target }] } := by
  unfold writeBufferViews
  have hlen : ∀ b, ((ensured doc).buffers.dropLast ++ [some b]).length = (ensured doc).buffers.length := by
    intro b
    have := List.length_pos_iff.2 (ensured_buffers_ne doc)
    simp; omega
  have hbv : (ensured doc).bufferViews = doc.bufferViews := by rw [ensured_eq]
  simp only [W.bind_ok, lastBuffer_eq, W.lift_ok, deref_ok, appendZeros_ok, Prod.mk.injEq, Res.ok.injEq,
    setLastBuffer, W.get, W.put]
  constructor
  · rintro ⟨d0, ⟨stride, size⟩, ⟨rfl, hv⟩, d1, p, ⟨rfl, rfl⟩, d2, b, ⟨rfl, hb⟩, d3, bytes0, ⟨rfl, hle, rfl⟩, d4, bytes,
      ⟨rfl, hw⟩, d5, _, ⟨rfl, -⟩, d6, d6', ⟨rfl, rfl⟩, d7, _, ⟨rfl, -⟩, rfl, rfl⟩
    refine ⟨stride, size, b, bytes, hv, hb, hle, hw, ?_, ?_⟩
    · rw [hbv]
    · simp only [hlen, hbv]
      rw [withLast]; rw [ensured_eq]
  · rintro ⟨stride, size, b, bytes, hv, hb, hle, hw, rfl, rfl⟩
    refine ⟨_, (stride, size), ⟨rfl, hv⟩, _, _, ⟨rfl, rfl⟩, _, b, ⟨rfl, hb⟩, _, _, ⟨rfl, hle, rfl⟩, _, bytes,
      ⟨rfl, hw⟩, _, (), ⟨rfl, trivial⟩, _, _, ⟨rfl, rfl⟩, _, (), ⟨rfl, trivial⟩, ?_⟩
    rw [W.pure_def]
    simp only [hlen, hbv]
    rw [withLast]; rw [ensured_eq]

end Gltf
