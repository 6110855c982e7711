/-
Property C16: what two attributes of bytes are read as.
-/
import Verif.Props.ByteSlices
import Verif.Props.Attributes

namespace Gltf

open Spec

/-- C16 is false of all attributes of bytes: if `WritePrimitiveAttributes` writes two of them, the second reads back, the first has its
first byte followed by those of the second. -/
theorem C16_two_bytes (m n : Bytes) (hmn : m ≠ n) (a b : List UInt8) (ha : a ≠ []) (hb : b ≠ []) (doc doc' : Document)
    (attrs : PrimitiveAttributes)
    (h : writePrimitiveAttributes [⟨m, some ⟨.base .u8 .sc, a⟩⟩, ⟨n, some ⟨.base .u8 .sc, b⟩⟩] doc = (doc', .ok attrs)) :
    ∃ (i j : Nat) (acr acr' : Accessor), mapGet attrs m = some (i : Int) ∧ mapGet attrs n = some (j : Int) ∧
      doc'.accessors[i]? = some (some acr) ∧ doc'.accessors[j]? = some (some acr') ∧
      ∀ p, readAccessor doc' acr [] p = .ok ⟨.base .u8 .sc, a.take 1 ++ b.take (a.length - 1)⟩ ∧
        readAccessor doc' acr' [] p = .ok ⟨.base .u8 .sc, b⟩ := by
  obtain ⟨st, d, is, d2, hc, hw, has, hpos⟩ := writePrimitiveAttributes_core h
  rw [collectAttrs_eq] at hc
  have hne : nonEmpty [⟨m, some ⟨.base .u8 .sc, a⟩⟩, ⟨n, some ⟨.base .u8 .sc, b⟩⟩] = [(m, ⟨.base .u8 .sc, a⟩), (n, ⟨.base .u8 .sc, b⟩)] := by
    simp [nonEmpty, ha, hb]
  rw [hne] at hc
  split at hc
  case isFalse => cases hc
  rename_i hall
  simp only [List.nil_append, Res.ok.injEq] at hc
  have hdata : st.data = [⟨.base .u8 .sc, a⟩, ⟨.base .u8 .sc, b⟩] := by rw [← hc]; rfl
  have hprops : st.props = [(m, IsNormalized m (.base .u8 .sc)), (n, IsNormalized n (.base .u8 .sc))] := by rw [← hc]; rfl
  clear hc
  rw [hdata] at hw
  have his := (writeAccessorsInterleaved_index hw).1
  obtain ⟨i, j, acr, acr', rfl, k1, k2, hread⟩ := C13_two_bytes a b (List.length_pos_iff.2 ha) doc d is hw
  have hij : i ≠ j := by
    simp only [List.length_cons, List.length_nil, show List.range (0 + 1 + 1) = [0, 1] from rfl, List.map_cons, List.map_nil, List.cons.injEq] at his
    omega
  rw [hprops] at has
  simp only [List.zip_cons_cons, List.zip_nil_right] at has
  obtain ⟨s1, -, s3, s4⟩ := assignAttrs_spec has (by simpa using hij)
  have hP : m ≠ POSITION ∧ n ≠ POSITION := by
    simp only [List.all_cons, List.all_nil, Bool.and_true, Bool.and_eq_true] at hall
    constructor
    · rintro rfl
      exact absurd hall.1 (by decide)
    · rintro rfl
      exact absurd hall.2 (by decide)
  have hm : mapGet attrs m = some (i : Int) := by
    obtain ⟨x, hx⟩ := Option.isSome_iff_exists.1 (s4 m (.inr ⟨_, List.mem_cons_self, rfl⟩))
    rcases s3 m x hx with ⟨e, -⟩ | ⟨q, i', b', e, e', -⟩
    · simp [mapGet] at e
    · match q with
      | 0 =>
        simp only [List.getElem?_cons_zero, Option.some.injEq, Prod.mk.injEq] at e
        rw [hx, e', e.1]
      | 1 =>
        simp only [List.getElem?_cons_succ, List.getElem?_cons_zero, Option.some.injEq, Prod.mk.injEq] at e
        exact absurd e.2.1.symm hmn
      | q + 2 => simp at e
  have hn : mapGet attrs n = some (j : Int) := by
    obtain ⟨x, hx⟩ := Option.isSome_iff_exists.1 (s4 n (.inr ⟨_, List.mem_cons_of_mem _ List.mem_cons_self, rfl⟩))
    rcases s3 n x hx with ⟨e, -⟩ | ⟨q, i', b', e, e', -⟩
    · simp [mapGet] at e
    · match q with
      | 0 =>
        simp only [List.getElem?_cons_zero, Option.some.injEq, Prod.mk.injEq] at e
        exact absurd e.2.1 hmn
      | 1 =>
        simp only [List.getElem?_cons_succ, List.getElem?_cons_zero, Option.some.injEq, Prod.mk.injEq] at e
        rw [hx, e', e.1]
      | q + 2 => simp at e
  have hd : doc' = d2 := by
    rcases hpos with ⟨-, e⟩ | ⟨pos, d3, e, -⟩
    · exact e
    · exfalso
      rcases s3 _ _ e with ⟨e, -⟩ | ⟨q, i', b', e, -⟩
      · simp [mapGet] at e
      · match q with
        | 0 =>
          simp only [List.getElem?_cons_zero, Option.some.injEq, Prod.mk.injEq] at e
          exact hP.1 e.2.1
        | 1 =>
          simp only [List.getElem?_cons_succ, List.getElem?_cons_zero, Option.some.injEq, Prod.mk.injEq] at e
          exact hP.2 e.2.1
        | q + 2 => simp at e
  subst hd
  have hsame : SameDoc d doc' := same_assignAttrs has
  refine ⟨i, j, { acr with normalized := IsNormalized m (.base .u8 .sc) },
    { acr' with normalized := IsNormalized n (.base .u8 .sc) }, hm, hn, ?_, ?_, fun p => ⟨?_, ?_⟩⟩
  · rw [s1 i m _ List.mem_cons_self, k1]; rfl
  · rw [s1 j n _ (List.mem_cons_of_mem _ List.mem_cons_self), k2]; rfl
  · rw [← (hread p).1]
    exact readAccessor_same (a := acr) hsame acr.min acr.max _
  · rw [← (hread p).2]
    exact readAccessor_same (a := acr') hsame acr'.min acr'.max _

/-- Two attributes of three bytes: `1, 2, 3` and `4, 5, 6` are read as `1, 4, 5` and `4, 5, 6`. -/
example : ∃ doc', writePrimitiveAttributes [⟨b!"_A", some ⟨.base .u8 .sc, [1, 2, 3]⟩⟩, ⟨b!"_B", some ⟨.base .u8 .sc, [4, 5, 6]⟩⟩] {}
      = (doc', .ok [(b!"_A", 0), (b!"_B", 1)]) ∧
    (doc'.accessors[0]?.join.map fun acr => readAccessor doc' acr [] ⟨[], [], []⟩) = some (.ok ⟨.base .u8 .sc, [1, 4, 5]⟩) :=
  ⟨_, outcome (by decide +kernel), by decide +kernel⟩

end Gltf
