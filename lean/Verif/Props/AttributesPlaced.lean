/-
C86 and C87 for `WritePrimitiveAttributes`: where the data of attributes is put, and how it is aligned.
-/
import Verif.Props.Attributes
import Verif.Props.Aligned

namespace Gltf

open Spec

/-- `WritePrimitiveAttributes` is one call of `WriteAccessorsInterleaved` and assignments to fields that say nothing about
the place of the data. -/
theorem attributes_located {attr : List PrimitiveAttribute} {doc doc' : Document} {attrs : PrimitiveAttributes}
    (h : writePrimitiveAttributes attr doc = (doc', .ok attrs)) :
    ∃ d is, writeAccessorsInterleaved ((nonEmpty attr).map (·.2)) doc = (d, .ok is) ∧ SameDoc d doc' ∧
      ∀ name i, mapGet attrs name = some i → ∃ (n j : Nat) (dd : Slice), i = n ∧ LastNamed (nonEmpty attr) name j dd ∧
        is[j]? = some n := by
  obtain ⟨st, d, is, d2, hc, hw, ha, hpos⟩ := writePrimitiveAttributes_core h
  rw [collectAttrs_eq] at hc
  by_cases hall : (nonEmpty attr).all (fun x => Allowed x.1 x.2.ty) = true
  case neg => rw [if_neg hall] at hc; cases hc
  rw [if_pos hall] at hc
  simp only [List.nil_append, Res.ok.injEq] at hc
  have hdata : st.data = (nonEmpty attr).map (·.2) := by rw [← hc]
  have hprops : st.props = (nonEmpty attr).map (fun x => (x.1, IsNormalized x.1 x.2.ty)) := by rw [← hc]
  clear hc
  rw [hdata] at hw
  have his := (writeAccessorsInterleaved_index hw).1
  rw [List.length_map] at his
  have hzip : ∀ j x, (nonEmpty attr)[j]? = some x →
      (is.zip st.props)[j]? = some (doc.accessors.length + j, x.1, IsNormalized x.1 x.2.ty) := by
    intro j x hx
    have hj := getElem?_lt hx
    rw [hprops, his, List.getElem?_zip_eq_some]
    constructor
    · simp [hj]
    · rw [List.getElem?_map, hx]; rfl
  have hzip' : ∀ (j i : Nat) n b, (is.zip st.props)[j]? = some (i, n, b) →
      ∃ x, (nonEmpty attr)[j]? = some x ∧ is[j]? = some i ∧ n = x.1 := by
    intro j i n b hl
    rw [hprops, List.getElem?_zip_eq_some] at hl
    obtain ⟨h1, h2⟩ := hl
    rw [List.getElem?_map] at h2
    obtain ⟨x, hx, he⟩ := Option.map_eq_some_iff.1 h2
    cases he
    exact ⟨x, hx, h1, rfl⟩
  have hnd : ((is.zip st.props).map (·.1)).Nodup := by
    have hlen : is.length = st.props.length := by rw [his, hprops]; simp
    have : (is.zip st.props).map (·.1) = is := by
      rw [← List.unzip_fst, List.unzip_zip (by omega)]
    rw [this, his]
    apply List.Pairwise.map _ _ List.nodup_range
    intro a b hab; omega
  obtain ⟨-, -, k3, -⟩ := assignAttrs_spec ha hnd
  have hsame1 : SameDoc d d2 := same_assignAttrs ha
  have hsame2 : SameDoc d2 doc' := by
    rcases hpos with ⟨-, rfl⟩ | ⟨pos, d3, -, h3, h4⟩
    · exact .refl _
    · exact (modifyAccessor_same (fun a => sameMin a _) h3).trans (modifyAccessor_same (fun a => sameMax a _) h4)
  refine ⟨d, is, hw, hsame1.trans hsame2, fun name i hi => ?_⟩
  rcases k3 name i hi with ⟨h3, -⟩ | ⟨j, i', b, h3, h4, h5⟩
  · simp [mapGet] at h3
  · obtain ⟨x, hx, hi', rfl⟩ := hzip' j i' name b h3
    refine ⟨i', j, x.2, h4, ⟨hx, ?_⟩, hi'⟩
    intro k e hk hl
    exact h5 k _ _ hk (hzip k (x.1, e) hl)

theorem hasPlaced_same {d d' : Document} (hs : SameDoc d d') {i : Nat} {s : Slice} (h : HasPlaced d i s) : HasPlaced d' i s := by
  obtain ⟨acr, h1, bv, b, n, start, stride, off, ⟨v, hv, e1⟩, e2, e3, e4, e5, e6, e7⟩ := h
  obtain ⟨a', ha, hsa⟩ := hs.acr i _ h1
  rw [hs.rest]
  rcases hsa with rfl | ⟨x, mn, mx, nm, hx, rfl⟩
  · exact ⟨acr, ha, bv, b, n, start, stride, off, ⟨v, hv, e1⟩, e2, e3, e4, e5, e6, e7⟩
  · cases hx
    exact ⟨_, ha, bv, b, n, start, stride, off, ⟨v, hv, e1⟩, e2, e3, e4, e5, e6, e7⟩

theorem hasAligned_same {d d' : Document} (hs : SameDoc d d') {i : Nat} {t : ETy} (h : HasAligned d i t) : HasAligned d' i t := by
  obtain ⟨acr, bv, h1, ⟨v, hv, e1⟩, e2⟩ := h
  obtain ⟨a', ha, hsa⟩ := hs.acr i _ h1
  rw [hs.rest]
  rcases hsa with rfl | ⟨x, mn, mx, nm, hx, rfl⟩
  · exact ⟨acr, bv, ha, ⟨v, hv, e1⟩, e2⟩
  · cases hx
    exact ⟨_, bv, ha, ⟨v, hv, e1⟩, ⟨e2.offset, e2.total, e2.stride, e2.vertex⟩⟩

/-- The full statement of C86 for `WritePrimitiveAttributes`. -/
def C86_attributes_full : Prop :=
  ∀ attr doc doc' attrs, writePrimitiveAttributes attr doc = (doc', .ok attrs) →
    ∀ name i, mapGet attrs name = some i → ∃ (n j : Nat) (d : Slice), i = n ∧ LastNamed (nonEmpty attr) name j d ∧ HasPlaced doc' n d

/-- C86 for `WritePrimitiveAttributes`, for everything but several attributes with a `[]uint8` of two or more elements among
them (where it is false; only attributes with custom names can be of this type). -/
theorem C86_attributes_partial (attr : List PrimitiveAttribute) (doc doc' : Document) (attrs : PrimitiveAttributes)
    (h : writePrimitiveAttributes attr doc = (doc', .ok attrs))
    (hu : ∀ x ∈ nonEmpty attr, x.2.ty = .base .u8 .sc → (nonEmpty attr).length ≤ 1 ∨ x.2.data.length ≤ 1) (name : Bytes) (i : Int)
    (hi : mapGet attrs name = some i) :
    ∃ (n j : Nat) (d : Slice), i = n ∧ LastNamed (nonEmpty attr) name j d ∧ HasPlaced doc' n d := by
  obtain ⟨d, is, hw, hsame, hloc⟩ := attributes_located h
  obtain ⟨n, j, dd, hn, hl, hj⟩ := hloc name i hi
  have hdj : ((nonEmpty attr).map (·.2))[j]? = some dd := by rw [List.getElem?_map, hl.1]; rfl
  obtain ⟨n', hn', hp⟩ := C86_interleaved_partial _ _ _ _ hw (by
    intro x hx hty
    obtain ⟨y, hy, rfl⟩ := List.mem_map.1 hx
    rw [List.length_map]
    exact hu y hy hty) j dd hdj
  rw [hj] at hn'
  cases hn'
  exact ⟨n, j, dd, hn, hl, hasPlaced_same hsame hp⟩

/-- Two `[]uint8` attributes with custom names. -/
def byteAttributes : List PrimitiveAttribute :=
  [⟨b!"_A", some ⟨.base .u8 .sc, [1, 2]⟩⟩, ⟨b!"_B", some ⟨.base .u8 .sc, [3, 4]⟩⟩]

/-- C86 is false of `WritePrimitiveAttributes`: the stride of `[]uint8` attributes is not the one they are written with. -/
theorem C86_attributes_full_fails : ¬ C86_attributes_full := by
  intro h
  have hw : ∃ doc', writePrimitiveAttributes byteAttributes {} = (doc', .ok [(b!"_A", 0), (b!"_B", 1)]) ∧
      (doc'.accessors[0]?.join.map fun a => (a.bufferView, a.byteOffset)) = some (some 0, 0) ∧
      (doc'.bufferViews[0]?.join.map fun v => (v.buffer, v.byteOffset, v.byteStride)) = some (0, 0, 2) ∧
      (doc'.buffers[0]?.join.map fun b => b.data) = some [1, 3, 4, 0] :=
    ⟨_, outcome (by decide +kernel), by decide +kernel, by decide +kernel, by decide +kernel⟩
  obtain ⟨doc', hw, e1, e2, e3⟩ := hw
  obtain ⟨n, j, d, hn, hl, acr, h1, h2⟩ := h _ _ _ _ hw b!"_A" 0 rfl
  have hn0 : n = 0 := by omega
  subst hn0
  have hj : j = 0 := by
    have h1 := hl.1
    match j with
    | 0 => rfl
    | 1 => simp [nonEmpty, byteAttributes] at h1
    | j + 2 => simp [nonEmpty, byteAttributes] at h1
  subst hj
  have hd : d = ⟨.base .u8 .sc, [1, 2]⟩ := by
    have h1 := hl.1
    simp [nonEmpty, byteAttributes] at h1
    exact h1.symm
  subst hd
  simp only [h1, Option.join_some, Option.map_some, Option.some.injEq, Prod.mk.injEq] at e1
  simp only [Option.map_eq_some_iff, Prod.mk.injEq] at e2 e3
  obtain ⟨bv, e4, e5, e6, e7⟩ := e2
  obtain ⟨b, e8, e9⟩ := e3
  have := placed_byte (v := 0) (n := 0) (start := 0) (stride := 2) (off := 0) (i := 1) (x := (2 : UInt8)) (r := 0) (c := 0) (j := 0)
    (u := (2 : UInt8)) h2 e1.1 (Option.join_eq_some_iff.1 e4) e5 e6 e7 e1.2 (Option.join_eq_some_iff.1 e8) rfl (by decide) (by decide) rfl (by decide)
  rw [e9] at this
  revert this
  decide +kernel

/-- C87 for `WritePrimitiveAttributes` of attributes without numbers of one or two bytes whose rows have at most 252 bytes (for
the others it is false; all attributes that glTF names are like this). -/
theorem C87_attributes_partial (attr : List PrimitiveAttribute) (doc doc' : Document) (attrs : PrimitiveAttributes)
    (h : writePrimitiveAttributes attr doc = (doc', .ok attrs)) (hs : ∀ x ∈ nonEmpty attr, ¬ SmallScalar x.2.ty)
    (hrow : rowSize ((nonEmpty attr).map (·.2)) ≤ 252) (name : Bytes) (i : Int) (hi : mapGet attrs name = some i) :
    ∃ (n j : Nat) (d : Slice), i = n ∧ LastNamed (nonEmpty attr) name j d ∧ HasAligned doc' n d.ty := by
  obtain ⟨d, is, hw, hsame, hloc⟩ := attributes_located h
  obtain ⟨n, j, dd, hn, hl, hj⟩ := hloc name i hi
  have hdj : ((nonEmpty attr).map (·.2))[j]? = some dd := by rw [List.getElem?_map, hl.1]; rfl
  obtain ⟨n', hn', hp⟩ := C87_interleaved_partial _ _ _ _ hw (by
    intro x hx
    obtain ⟨y, hy, rfl⟩ := List.mem_map.1 hx
    exact hs y hy) hrow j dd hdj
  rw [hj] at hn'
  cases hn'
  exact ⟨n, j, dd, hn, hl, hasAligned_same hsame hp⟩

/-- Triples of bytes with a custom name beside positions. -/
def twoAttributes : List PrimitiveAttribute :=
  [⟨b!"_A", some oddData⟩, ⟨b!"POSITION", some ⟨.base .f32 .v3, [⟨⟨0⟩, ⟨0⟩, ⟨0⟩⟩, ⟨⟨0⟩, ⟨0⟩, ⟨0⟩⟩]⟩⟩]

/-- The hypotheses of both are met by them. -/
example : ∃ doc', writePrimitiveAttributes twoAttributes {} = (doc', .ok [(b!"_A", 0), (b!"POSITION", 1)]) ∧
    (∃ (n j : Nat) (d : Slice), (1 : Int) = n ∧ LastNamed (nonEmpty twoAttributes) b!"POSITION" j d ∧ HasPlaced doc' n d) ∧
    ∃ (n j : Nat) (d : Slice), (1 : Int) = n ∧ LastNamed (nonEmpty twoAttributes) b!"POSITION" j d ∧ HasAligned doc' n d.ty := by
  have hw := outcome (x := writePrimitiveAttributes twoAttributes {}) (r := .ok [(b!"_A", 0), (b!"POSITION", 1)]) (by decide +kernel)
  have hne : nonEmpty twoAttributes = [(b!"_A", oddData), (b!"POSITION", ⟨.base .f32 .v3, [⟨⟨0⟩, ⟨0⟩, ⟨0⟩⟩, ⟨⟨0⟩, ⟨0⟩, ⟨0⟩⟩]⟩)] := by
    simp [nonEmpty, twoAttributes, oddData]
  refine ⟨_, hw, C86_attributes_partial _ _ _ _ hw ?_ _ _ (by decide +kernel), C87_attributes_partial _ _ _ _ hw ?_ ?_ _ _ (by decide +kernel)⟩
  · intro x hx
    rw [hne] at hx
    rcases List.mem_cons.1 hx with rfl | hx
    · intro ht; cases ht
    · cases List.mem_singleton.1 hx
      intro ht; cases ht
  · intro x hx
    rw [hne] at hx
    rcases List.mem_cons.1 hx with rfl | hx
    · rintro ⟨ht, -⟩; cases ht
    · cases List.mem_singleton.1 hx
      rintro ⟨ht, -⟩; cases ht
  · rw [hne]
    decide

end Gltf
