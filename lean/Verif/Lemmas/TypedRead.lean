/-
The typed readers share one body; their conversions are maps over the elements.
-/
import Verif.Lemmas.ReadInv
import Verif.Spec.Readers

namespace Gltf

open Spec

/-- The common body of the typed readers. -/
def typedBody {β : Type} (check : ComponentType → AccessorType → Res Unit) (zero : β)
    (conv : List β → Slice → Res (List β)) (doc : Document) (acr : Accessor) (buffer : List β) (b0 : Bytes) (p : Pools) :
    Res (List β) := do
  check acr.componentType acr.type
  let data ← readAccessor doc acr b0 p
  let buffer ← makeBufferOf zero acr.count buffer
  conv buffer data

theorem makeBufferOf_le {α : Type} (zero : α) {count : Int} (hc : 0 ≤ count) (buffer : List α) :
    ∃ b, makeBufferOf zero count buffer = .ok b ∧ count ≤ b.length ∧ (count ≠ 0 ∨ buffer = [] → (b.length : Int) = count) := by
  unfold makeBufferOf
  split
  · refine ⟨_, rfl, ?_, fun _ => ?_⟩ <;> simp <;> omega
  · split
    · refine ⟨_, rfl, ?_, fun _ => ?_⟩ <;> simp <;> omega
    · refine ⟨_, rfl, by omega, ?_⟩
      rintro (h | h)
      · contradiction
      · subst h; simp; omega

/-- What is known of the conversion loop of a typed reader: it replaces the first elements of the
buffer by a function of the slice. -/
structure Converts {β : Type} (acc : ComponentType → AccessorType → Bool) (conv : List β → Slice → Res (List β))
    (f : Slice → List β) : Prop where
  loop : ∀ k s (d : List (s.A k.T)) (buffer : List β), acc (componentTypeOf k) (accessorTypeOf s) = true →
    d.length ≤ buffer.length →
    conv buffer ⟨.base k s, d⟩ = .ok (f ⟨.base k s, d⟩ ++ buffer.drop d.length)
  length : ∀ k s (d : List (s.A k.T)), acc (componentTypeOf k) (accessorTypeOf s) = true →
    (f ⟨.base k s, d⟩).length = d.length

theorem fill_le {α β : Type} {buffer : List β} {f : α → β} {data : List α} (h : data.length ≤ buffer.length) :
    fill buffer f data = .ok (data.map f ++ buffer.drop data.length) := by
  unfold fill; rw [if_pos h]

theorem goCopy_le {α : Type} {dst src : List α} (h : src.length ≤ dst.length) :
    goCopy dst src = src ++ dst.drop src.length := by
  unfold goCopy; rw [List.take_of_length_le h]

/-- After the checks, a typed reader succeeds exactly when `ReadAccessor` does. -/
theorem typedBody_of_ok {β : Type} {check : ComponentType → AccessorType → Res Unit} {zero : β}
    {conv : List β → Slice → Res (List β)} {acc : ComponentType → AccessorType → Bool} {f : Slice → List β}
    (hc : Converts acc conv f) {doc : Document} {acr : Accessor} {buffer : List β} {b0 : Bytes} {p : Pools} {s : Slice}
    (hck : check acr.componentType acr.type = .ok ()) (ha : acc acr.componentType acr.type = true)
    (hr : readAccessor doc acr b0 p = .ok s) :
    ∃ rest, typedBody check zero conv doc acr buffer b0 p = .ok (f s ++ rest) ∧
      (acr.count ≠ 0 ∨ buffer = [] → rest = [] ∧ ((f s).length : Int) = acr.count) := by
  obtain ⟨k, sh, h1, h2, h3, h4⟩ := readAccessor_inv hr
  obtain ⟨ty, d⟩ := s
  simp only at h3; subst h3
  rw [h1, h2] at ha
  obtain ⟨b, hb, hle, hlen⟩ := makeBufferOf_le zero (count := acr.count) (by omega) buffer
  simp only at h4
  refine ⟨b.drop d.length, ?_, fun h => ?_⟩
  · unfold typedBody
    rw [hck, Res.ok_bind, hr, Res.ok_bind, hb, Res.ok_bind]
    exact hc.loop k sh d b ha (by have : (d.length : Int) = acr.count := h4
                                  omega)
  · have h5 := hlen h
    have h6 : (d.length : Int) = acr.count := h4
    exact ⟨List.drop_of_length_le (by omega), by rw [hc.length k sh d ha]; exact h4⟩

end Gltf
