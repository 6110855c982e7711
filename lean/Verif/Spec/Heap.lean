/-
Specification: slices that share memory.
-/
import Verif.Model.Heap

namespace Gltf.Spec

open Gltf Heap

/-- The slice is a part of an array that exists. A slice without capacity needs none. -/
def Valid {α : Type} (m : List (List α)) (s : GoSlice) : Prop :=
  s.len ≤ s.cap ∧ (s.cap = 0 ∨ ∃ a, m[s.arr]? = some a ∧ s.off + s.cap ≤ a.length)

/-- The slice `t` shows nothing of the memory from place `k` of `s` to the end of the capacity of `s`. -/
def Away (s : GoSlice) (k : Nat) (t : GoSlice) : Prop :=
  t.len = 0 ∨ t.arr ≠ s.arr ∨ t.off + t.len ≤ s.off + k ∨ s.off + s.cap ≤ t.off

/-- The slice `t` shows nothing of the spare capacity of the last buffer of the document. -/
def Safe (d : MDoc) (t : GoSlice) : Prop := Valid d.mem t ∧ ∀ s, d.data.getLast? = some s → Away s s.len t

/-- The slices of the document are valid, and no buffer lies in the spare capacity of the last one. -/
structure Own (d : MDoc) : Prop where
  length : d.data.length = d.doc.buffers.length
  valid : ∀ s ∈ d.data, Valid d.mem s
  apart : ∀ s, d.data.getLast? = some s → ∀ t ∈ d.data.dropLast, Away s s.len t

end Gltf.Spec
