/-
Property C87: exactly what the modeler writes against the alignment rules of glTF.
-/
import Verif.Props.Aligned

namespace Gltf

open Spec

/-- C87 exactly for `WriteAccessor`: only numbers of one or two bytes as vertex attributes break the rules, and they always do. -/
theorem C87_write_iff (target : Target) (data : Slice) (doc doc' : Document) (i : Nat)
    (h : writeAccessor target data doc = (doc', .ok i)) : HasAligned doc' i data.ty ↔ target ≠ 34962 ∨ ¬ SmallScalar data.ty := by
  refine ⟨?_, C87_write_partial target data doc doc' i h⟩
  rintro ⟨acr, bv, h1, ⟨v, hv, h2⟩, h3⟩
  obtain ⟨acr', bv', e1, e2, e3, e4, e5, -⟩ := (C63_accessor_described doc doc' i).1 target data h
  have hi := (C19_accessor_index doc doc' i).1 target data h
  rw [e1, hi.2.1, List.getElem?_append_right (Nat.le_refl _), Nat.sub_self] at h1
  simp only [List.getElem?_cons_zero, Option.some.injEq] at h1
  subst h1
  rw [e3.bufferView] at hv
  have hv' : doc.bufferViews.length = v := by injection hv with hv; omega
  subst hv'
  rw [e2, List.getElem?_append_right (Nat.le_refl _), Nat.sub_self] at h2
  simp only [List.getElem?_cons_zero, Option.some.injEq] at h2
  subst h2
  by_cases ht : target = 34962
  · right
    subst ht
    have hx := (h3.vertex e4).2
    rw [e5] at hx
    revert hx
    unfold SmallScalar gltfStride strideFor plainSize
    generalize kind data.ty = k, shape data.ty = s
    cases k <;> cases s <;> decide
  · exact .inl ht

theorem smallScalar_of_esz {d : Slice} (h : d.esz % 4 = 0) : ¬ SmallScalar d.ty := by
  unfold Slice.esz at h
  revert h
  unfold SmallScalar
  generalize kind d.ty = k, shape d.ty = s
  cases k <;> cases s <;> decide

/-- C87 exactly for several interleaved slices: all accessors follow the rules if and only if there are no numbers of one or two bytes
and the rows have at most 252 bytes. -/
theorem C87_interleaved_iff (data : List Slice) (doc doc' : Document) (is : List Nat)
    (h : writeAccessorsInterleaved data doc = (doc', .ok is)) (hm : 1 < data.length) :
    (∀ (j : Nat) (d : Slice), data[j]? = some d → ∃ i, is[j]? = some i ∧ HasAligned doc' i d.ty) ↔
    (∀ d ∈ data, ¬ SmallScalar d.ty) ∧ rowSize data ≤ 252 := by
  refine ⟨?_, fun ⟨h1, h2⟩ j d hd => C87_interleaved_partial data doc doc' is h h1 h2 j d hd⟩
  intro hal
  obtain ⟨bv', f1, f2, f3, -, f4⟩ := C63_interleaved_described doc doc' data is h hm
  have key : ∀ (j : Nat) (d : Slice), data[j]? = some d → rowSize (data.take j) % 4 = 0 ∧ rowSize data % 4 = 0 ∧ rowSize data ≤ 252 := by
    intro j d hd
    obtain ⟨i, hi, acr, bv, h1, ⟨v, hv, h2⟩, h3⟩ := hal j d hd
    obtain ⟨i', acr', hi', ha, hda⟩ := f4 j d hd
    rw [hi] at hi'
    injection hi' with hi'
    subst hi'
    rw [h1] at ha
    simp only [Option.some.injEq] at ha
    subst ha
    rw [hda.bufferView] at hv
    have hv' : doc.bufferViews.length = v := by injection hv with hv; omega
    subst hv'
    rw [f1, List.getElem?_append_right (Nat.le_refl _), Nat.sub_self] at h2
    simp only [List.getElem?_cons_zero, Option.some.injEq] at h2
    subst h2
    have ho := hda.byteOffset
    have hx := (h3.vertex f2).1
    have hst := h3.stride
    have hpos : 0 < rowSize data := by
      cases data with
      | nil => simp at hm
      | cons x xs =>
        rw [rowSize_cons]
        have := elemSize_pos (kind x.ty) (shape x.ty)
        unfold Slice.esz; omega
    omega
  have hlast : ∃ d, data[0]? = some d := ⟨data[0], by rw [List.getElem?_eq_getElem (by omega)]⟩
  obtain ⟨d0, hd0⟩ := hlast
  refine ⟨?_, (key 0 d0 hd0).2.2⟩
  intro d hd
  obtain ⟨j, hj⟩ := List.mem_iff_getElem?.1 hd
  have h1 := key j d hj
  have hsplit : rowSize (data.take (j + 1)) = rowSize (data.take j) + d.esz := by
    rw [List.take_add_one, hj]
    have : ∀ (a : List Slice), rowSize (a ++ [d]) = rowSize a + d.esz := by
      intro a
      induction a with
      | nil => simp only [List.nil_append, rowSize_cons]; simp [rowSize]
      | cons x a ih => rw [List.cons_append, rowSize_cons, rowSize_cons, ih]; omega
    exact this _
  apply smallScalar_of_esz
  have hnext : rowSize (data.take (j + 1)) % 4 = 0 := by
    by_cases hl : j + 1 < data.length
    · exact (key (j + 1) data[j + 1] (List.getElem?_eq_getElem hl)).1
    · rw [List.take_of_length_le (by omega)]; exact h1.2.1
  omega

/-- Bytes and floats. -/
example : ∃ doc', writeAccessorsInterleaved [⟨.base .u16 .sc, [1]⟩, ⟨.base .f32 .sc, [⟨0⟩]⟩] {} = (doc', .ok [0, 1]) :=
  ⟨_, outcome (by decide +kernel)⟩

/-- Bytes as vertex attributes. -/
example : ∃ doc', writeAccessor 34962 ⟨.base .u8 .sc, [1, 2]⟩ {} = (doc', .ok 0) ∧ SmallScalar (.base .u8 .sc) :=
  ⟨_, rfl, rfl, by decide⟩

end Gltf
