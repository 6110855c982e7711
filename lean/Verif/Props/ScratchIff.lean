/-
Property C08, exactly: which accessors are read independently of the scratch buffer.
-/
import Verif.Props.Scratch
import Verif.Props.ModelerRead
import Verif.Props.ModelerReadSafe

namespace Gltf

open Spec

/-- C08, exactly, for accessors without sparse data: what is read does not depend on the scratch buffers just if there is a buffer view
or nothing to be read. -/
theorem C08_iff (doc : Document) (acr : Accessor) (k : Kind) (sh : Shape) (n : Nat) (ht : Tame doc) (hm : Modest acr)
    (hc : acr.componentType = (ETy.base k sh).c) (hty : acr.type = (ETy.base k sh).t) (hn : acr.count = n) (hs : acr.sparse = none) :
    (∀ buffer buffer' p p', SameOutcome (readAccessor doc acr buffer p) (readAccessor doc acr buffer' p')) ↔
      acr.bufferView ≠ none ∨ n = 0 := by
  have hx : ¬ (k = .u32 ∧ sh = .m3) := by
    rintro ⟨rfl, rfl⟩
    exact hm.type ⟨hc, hty⟩
  have hms : (ETy.base k sh).c.byteSize * (ETy.base k sh).t.components = rows sh * cols sh * size k := memSize_base k sh
  have hma : n * (rows sh * cols sh * size k) ≤ maxAlloc := by
    have := hm.count
    rw [hc, hty, hn, hms, Int.toNat_natCast] at this
    exact this
  have hpos : 0 < rows sh * cols sh * size k := by cases k <;> cases sh <;> decide
  constructor
  · intro h
    refine Classical.byContradiction fun hcon => ?_
    have hv : acr.bufferView = none := Classical.byContradiction fun h' => hcon (.inl h')
    have hn0 : 0 < n := Nat.pos_of_ne_zero fun h' => hcon (.inr h')
    have ne : ∀ x : UInt8, List.replicate (rows sh * cols sh * size k) x ≠ [] := fun x h0 => by
      have := congrArg List.length h0
      rw [List.length_replicate, List.length_nil] at this
      omega
    let p : Pools := ⟨[], [], []⟩
    obtain ⟨d, h1, h2⟩ := C83_read_no_view doc acr k sh n (List.replicate (rows sh * cols sh * size k) 0) p (ne 0) hx hma hc hty hn hv hs
    obtain ⟨d', h3, h4⟩ := C83_read_no_view doc acr k sh n (List.replicate (rows sh * cols sh * size k) 1) p (ne 1) hx hma hc hty hn hv hs
    have hsame := h (List.replicate (rows sh * cols sh * size k) 0) (List.replicate (rows sh * cols sh * size k) 1) p p
    rw [h1, h3] at hsame
    replace hsame : d = d' := by
      have : (⟨.base k sh, d⟩ : Slice) = ⟨.base k sh, d'⟩ := hsame
      cases this
      rfl
    subst hsame
    have hl : 0 < d.length := by rw [h2.1]; exact hn0
    have i1 := h2.2 0 hl
    have i2 := h4.2 0 hl
    rw [if_pos (by simp)] at i1 i2
    obtain ⟨x, x1, x2⟩ := i1 0 0 (by cases sh <;> decide) (by cases sh <;> decide)
    obtain ⟨y, y1, y2⟩ := i2 0 0 (by cases sh <;> decide) (by cases sh <;> decide)
    rw [x1] at y1
    cases y1
    have hk : 0 < size k := by cases k <;> decide
    have z1 := x2 0 hk
    have z2 := y2 0 hk
    simp only [Nat.zero_mul, Nat.add_zero, List.getElem?_replicate_of_lt hpos] at z1 z2
    rw [← z1] at z2
    revert z2
    decide
  · rintro (hv | h0)
    · exact fun buffer buffer' p p' => C08_scratch_partial doc acr buffer buffer' p p' ht hm hv
    · subst h0
      have key : ∀ buffer p, acr.bufferView = none → readAccessor doc acr buffer p = .ok ⟨.base k sh, []⟩ := by
        intro buffer p hv
        by_cases hb : buffer = []
        · subst hb
          have := C22_zeros_partial doc acr p k sh 0 (by rw [hc]; exact (ctypes k sh).1.symm) (by rw [hty]; exact (ctypes k sh).2.symm) hn hv hs (by omega)
          exact this
        · obtain ⟨d, h1, h2⟩ := C83_read_no_view doc acr k sh 0 buffer p hb hx hma hc hty hn hv hs
          rw [h1, List.eq_nil_of_length_eq_zero h2.1]
      intro buffer buffer' p p'
      by_cases hv : acr.bufferView = none
      · rw [key buffer p hv, key buffer' p' hv]
        rfl
      · exact C08_scratch_partial doc acr buffer buffer' p p' ht hm hv

/-- Both sides are possible: two numbers without buffer view, and with one. -/
example : Tame {} ∧ Modest { componentType := .ubyte, type := .scalar, count := 2 } ∧
    (ComponentType.ubyte = (ETy.base .u8 .sc).c) ∧ (AccessorType.scalar = (ETy.base .u8 .sc).t) ∧
    Modest { componentType := .ubyte, type := .scalar, count := 2, bufferView := some 0 } :=
  ⟨⟨by simp, by simp⟩, ⟨by decide, by decide, by simp⟩, rfl, rfl, ⟨by decide, by decide, by simp⟩⟩

end Gltf
