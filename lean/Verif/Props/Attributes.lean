/-
Properties C16 and C17: WritePrimitiveAttributes.
-/
import Verif.Props.ModelerWrite
import Verif.Spec.Attributes

namespace Gltf

open Spec

/-! ### The first loop -/

/-- Bounds of a slice of positions. -/
def boundsOf (acc : V3 F64 × V3 F64) (x : Bytes × Slice) : V3 F64 × V3 F64 :=
  if x.1 = POSITION then
    match x.2 with
    | ⟨.base .f32 .v3, v⟩ => minMaxFloat32 v
    | _ => acc
  else acc

theorem names_ne : POSITION ≠ TEXCOORD_0 ∧ POSITION ≠ TEXCOORD_1 ∧ POSITION ≠ WEIGHTS_0 ∧ POSITION ≠ JOINTS_0 ∧
    POSITION ≠ COLOR_0 ∧ TEXCOORD_0 ≠ WEIGHTS_0 ∧ TEXCOORD_0 ≠ JOINTS_0 ∧ TEXCOORD_0 ≠ COLOR_0 ∧ TEXCOORD_1 ≠ WEIGHTS_0 ∧
    TEXCOORD_1 ≠ JOINTS_0 ∧ TEXCOORD_1 ≠ COLOR_0 ∧ WEIGHTS_0 ≠ JOINTS_0 ∧ WEIGHTS_0 ≠ COLOR_0 ∧ JOINTS_0 ≠ COLOR_0 := by
  decide

theorem checkTextureCoord_eq (d : Slice) :
    checkTextureCoord d = if (decide (shape d.ty = .v2) && smallOrFloat (kind d.ty)) = true then .ok (decide (kind d.ty ≠ .f32))
      else .err (.msg "invalid type") := by
  obtain ⟨ty, data⟩ := d
  cases ty with
  | base k s => cases k <;> cases s <;> rfl
  | rgba => rfl
  | rgba64 => rfl

theorem checkWeights_eq (d : Slice) :
    checkWeights d = if (decide (d.ty = .base .u8 .v4) || decide (d.ty = .base .u16 .v4) || decide (d.ty = .base .f32 .v4)) = true
      then .ok (decide (kind d.ty ≠ .f32)) else .err (.msg "invalid type") := by
  obtain ⟨ty, data⟩ := d
  cases ty with
  | base k s => cases k <;> cases s <;> rfl
  | rgba => rfl
  | rgba64 => rfl

theorem checkJoints_eq (d : Slice) :
    checkJoints d = if (decide (d.ty = .base .u8 .v4) || decide (d.ty = .base .u16 .v4)) = true
      then .ok () else .err (.msg "invalid type") := by
  obtain ⟨ty, data⟩ := d
  cases ty with
  | base k s => cases k <;> cases s <;> rfl
  | rgba => rfl
  | rgba64 => rfl

theorem checkColor_eq (d : Slice) :
    checkColor d = if ((decide (shape d.ty = .v3) || decide (shape d.ty = .v4)) && smallOrFloat (kind d.ty)) = true
      then .ok (decide (kind d.ty ≠ .f32)) else .err (.msg "invalid type") := by
  obtain ⟨ty, data⟩ := d
  cases ty with
  | base k s => cases k <;> cases s <;> rfl
  | rgba => rfl
  | rgba64 => rfl

/-- The switch on the name: allowed types, the flag and the bounds. -/
theorem checkAttr_eq (name : Bytes) (d : Slice) (min max : V3 F64) :
    checkAttr name d min max =
      if Allowed name d.ty = true then .ok (IsNormalized name d.ty, boundsOf (min, max) (name, d))
      else .err (.msg "invalid type") := by
  obtain ⟨n1, n2, n3, n4, n5, n6, n7, n8, n9, n10, n11, n12, n13, n14⟩ := names_ne
  have eP : b!"POSITION" = POSITION := rfl
  have eT0 : b!"TEXCOORD_0" = TEXCOORD_0 := rfl
  have eT1 : b!"TEXCOORD_1" = TEXCOORD_1 := rfl
  have eW : b!"WEIGHTS_0" = WEIGHTS_0 := rfl
  have eJ : b!"JOINTS_0" = JOINTS_0 := rfl
  have eC : b!"COLOR_0" = COLOR_0 := rfl
  unfold checkAttr Allowed IsNormalized boundsOf
  simp only [eP, eT0, eT1, eW, eJ, eC]
  by_cases hP : name = POSITION
  · subst hP
    simp only [if_true, n1, n2, n3, n5, decide_false, Bool.false_or, Bool.false_and]
    obtain ⟨ty, data⟩ := d
    cases ty with
    | base k s => cases k <;> cases s <;> rfl
    | rgba => rfl
    | rgba64 => rfl
  · simp only [if_neg hP]
    by_cases hT : name = TEXCOORD_0 ∨ name = TEXCOORD_1
    · simp only [if_pos hT]
      rw [checkTextureCoord_eq]
      have : (decide (name = TEXCOORD_0) || decide (name = TEXCOORD_1)) = true := by
        rcases hT with h | h <;> simp [h]
      rw [this]
      simp only [Bool.true_or, Bool.true_and]
      split <;> rfl
    · simp only [if_neg hT]
      rw [not_or] at hT
      simp only [decide_eq_false hT.1, decide_eq_false hT.2, Bool.false_or]
      by_cases hW : name = WEIGHTS_0
      · simp only [if_pos hW]
        rw [checkWeights_eq, decide_eq_true hW]
        simp only [Bool.true_or, Bool.true_and]
        split <;> rfl
      · simp only [if_neg hW, decide_eq_false hW, Bool.false_or]
        by_cases hJ : name = JOINTS_0
        · simp only [if_pos hJ]
          rw [checkJoints_eq]
          have : ¬ name = COLOR_0 := by rw [hJ]; exact n14
          simp only [decide_eq_false this, Bool.false_and]
          split <;> rfl
        · simp only [if_neg hJ]
          by_cases hC : name = COLOR_0
          · simp only [if_pos hC]
            rw [checkColor_eq, decide_eq_true hC]
            simp only [Bool.true_and]
            split <;> rfl
          · simp only [if_neg hC, decide_eq_false hC, Bool.false_and, if_true]

/-- The first loop, in terms of the attributes that have data. -/
theorem collectAttrs_eq (attr : List PrimitiveAttribute) (st : AttrState) :
    collectAttrs st attr =
      if (nonEmpty attr).all (fun x => Allowed x.1 x.2.ty) = true then
        .ok { data := st.data ++ (nonEmpty attr).map (·.2),
              props := st.props ++ (nonEmpty attr).map (fun x => (x.1, IsNormalized x.1 x.2.ty)),
              min := ((nonEmpty attr).foldl boundsOf (st.min, st.max)).1,
              max := ((nonEmpty attr).foldl boundsOf (st.min, st.max)).2 }
      else .err (.msg "invalid type") := by
  induction attr generalizing st with
  | nil => simp [collectAttrs, nonEmpty]
  | cons a rest ih =>
    obtain ⟨name, data⟩ := a
    cases data with
    | none => simp only [collectAttrs, nonEmpty]; exact ih st
    | some d =>
      simp only [collectAttrs, nonEmpty, Slice.len]
      by_cases h0 : d.data = []
      · simp only [h0, List.length_nil, if_true]; exact ih st
      · have h1 : ¬ d.data.length = 0 := by simpa using h0
        simp only [if_neg h0, if_neg h1, checkAttr_eq, List.all_cons, List.map_cons, List.foldl_cons]
        by_cases hA : Allowed name d.ty = true
        · simp only [hA, if_true, Res.ok_bind, Bool.true_and]
          rw [ih]
          simp only [List.append_assoc, List.singleton_append]
        · have hA' : Allowed name d.ty = false := by simpa using hA
          simp [hA']

/-! ### C17 -/

/-- C17: an attribute with data of a wrong type is an error, and the document is as before. -/
theorem C17_wrong_type_rejected (attr : List PrimitiveAttribute) (doc : Document) (name : Bytes) (d : Slice)
    (ha : ⟨name, some d⟩ ∈ attr) (h0 : d.data ≠ []) (hw : Allowed name d.ty = false) :
    ∃ e, writePrimitiveAttributes attr doc = (doc, .err e) := by
  have hmem : (name, d) ∈ nonEmpty attr := by
    induction attr with
    | nil => simp at ha
    | cons a rest ih =>
      rcases List.mem_cons.1 ha with rfl | hr
      · simp [nonEmpty, h0]
      · obtain ⟨n, x⟩ := a
        cases x with
        | none => exact ih hr
        | some x =>
          simp only [nonEmpty]
          split
          · exact ih hr
          · exact List.mem_cons_of_mem _ (ih hr)
  refine ⟨.msg "invalid type", ?_⟩
  unfold writePrimitiveAttributes
  rw [W.bind_def, collectAttrs_eq, if_neg]
  · rfl
  · simp only [List.all_eq_true]
    intro hall
    have := hall _ hmem
    rw [hw] at this; cases this

example : Allowed b!"POSITION" (.base .f32 .v4) = false ∧ Allowed b!"JOINTS_0" .rgba = false ∧
    Allowed b!"COLOR_0" .rgba = true ∧ Allowed b!"_CUSTOM" (.base .i8 .m3) = true := by decide

/-- The outcome of `WritePrimitiveAttributes` is an error exactly for a wrong type or different
lengths. -/
theorem C17_error_iff (attr : List PrimitiveAttribute) (doc : Document) (m : Nat) (hl : LastLength doc m)
    (hr : roundUp4 m ≤ maxAlloc) :
    (writePrimitiveAttributes attr doc).2.isErr = true ↔
      (∃ x ∈ nonEmpty attr, Allowed x.1 x.2.ty = false) ∨ LengthsDiffer ((nonEmpty attr).map (·.2)) := by
  by_cases hall : (nonEmpty attr).all (fun x => Allowed x.1 x.2.ty) = true
  · have h1 : ¬ ∃ x ∈ nonEmpty attr, Allowed x.1 x.2.ty = false := by
      rintro ⟨x, hx, hf⟩
      rw [List.all_eq_true] at hall
      have := hall x hx
      rw [hf] at this; cases this
    have hc := collectAttrs_eq attr {}
    rw [if_pos hall] at hc
    simp only [List.nil_append] at hc
    rw [or_iff_right h1, ← C14_accessors_error_iff _ doc m hl hr]
    constructor
    · intro h
      cases hres : writePrimitiveAttributes attr doc with
      | mk d r =>
        rw [hres] at h
        cases r with
        | ok a => cases h
        | panic w => cases h
        | err e =>
          rcases writePrimitiveAttributes_err hres with ⟨-, h2⟩ | ⟨st, h2, h3⟩
          · rw [hc] at h2; cases h2
          · rw [hc] at h2; cases h2
            rw [h3]; rfl
    · intro h
      unfold writePrimitiveAttributes
      rw [W.bind_def, hc]
      simp only [W.lift]
      rw [W.bind_def]
      cases hres : writeAccessorsInterleaved ((nonEmpty attr).map (·.2)) doc with
      | mk d r =>
        rw [hres] at h
        cases r with
        | ok a => cases h
        | panic w => cases h
        | err e => rfl
  · have hc : collectAttrs {} attr = .err (.msg "invalid type") := by rw [collectAttrs_eq, if_neg hall]
    constructor
    · intro _
      left
      simp only [List.all_eq_true, Classical.not_forall] at hall
      obtain ⟨x, hx, hf⟩ := hall
      exact ⟨x, hx, by simpa using hf⟩
    · intro _
      unfold writePrimitiveAttributes
      rw [W.bind_def, hc]; rfl

/-! ### C16 -/

/-- The second loop: the flags that it sets and the map that it builds. -/
theorem assignAttrs_spec {l : List (Nat × Bytes × Bool)} {attrs attrs' : PrimitiveAttributes} {d d' : Document}
    (h : assignAttrs attrs l d = (d', .ok attrs')) (hnd : (l.map (·.1)).Nodup) :
    (∀ i n b, (i, n, b) ∈ l → d'.accessors[i]? = (d.accessors[i]?).map (·.map fun a => { a with normalized := b })) ∧
    (∀ i, i ∉ l.map (·.1) → d'.accessors[i]? = d.accessors[i]?) ∧
    (∀ k i, mapGet attrs' k = some i → (mapGet attrs k = some i ∧ ∀ x ∈ l, x.2.1 ≠ k) ∨
      ∃ (j i' : Nat) (b : Bool), l[j]? = some (i', k, b) ∧ i = i' ∧
        ∀ (m i'' : Nat) (b' : Bool), j < m → l[m]? = some (i'', k, b') → False) ∧
    (∀ k, (mapGet attrs k).isSome ∨ (∃ x ∈ l, x.2.1 = k) → (mapGet attrs' k).isSome) := by
  induction l generalizing attrs d with
  | nil =>
    obtain ⟨rfl, rfl⟩ := W.pure_ok.1 h
    refine ⟨by simp, by simp, fun k i hk => .inl ⟨hk, by simp⟩, fun k hk => ?_⟩
    rcases hk with hk | ⟨x, hx, -⟩
    · exact hk
    · simp at hx
  | cons x l ih =>
    obtain ⟨index, name, normalized⟩ := x
    simp only [assignAttrs] at h
    obtain ⟨d1, _, h1, h2⟩ := W.bind_ok.1 h
    simp only [List.map_cons, List.nodup_cons] at hnd
    obtain ⟨k1, k2, k3, k4⟩ := ih h2 hnd.2
    have hget := fun j => modifyAccessor_get (j := j) h1
    refine ⟨?_, ?_, ?_, ?_⟩
    · intro i n b hmem
      rcases List.mem_cons.1 hmem with heq | hmem
      · cases heq
        rw [k2 index hnd.1, hget index, if_pos rfl]
      · have hi : i ∈ l.map (·.1) := List.mem_map.2 ⟨_, hmem, rfl⟩
        have hne : index ≠ i := by rintro rfl; exact hnd.1 hi
        rw [k1 i n b hmem, hget i, if_neg hne]
    · intro i hi
      simp only [List.map_cons, List.mem_cons, not_or] at hi
      rw [k2 i hi.2, hget i, if_neg (Ne.symm hi.1)]
    · intro k i hk
      rcases k3 k i hk with ⟨h3, h4⟩ | ⟨j, i', b, h3, h4, h5⟩
      · rw [mapGet_mapSet] at h3
        split at h3
        · next e =>
          subst e
          right
          refine ⟨0, index, normalized, rfl, (Option.some.inj h3).symm, ?_⟩
          intro m i'' b' hm hl
          cases m with
          | zero => omega
          | succ m =>
            rw [List.getElem?_cons_succ] at hl
            exact h4 _ (List.mem_of_getElem? hl) rfl
        · next e =>
          left
          refine ⟨h3, ?_⟩
          intro x hx
          rcases List.mem_cons.1 hx with rfl | hx
          · exact e
          · exact h4 x hx
      · right
        refine ⟨j + 1, i', b, by rw [List.getElem?_cons_succ]; exact h3, h4, ?_⟩
        intro m i'' b' hm hl
        cases m with
        | zero => omega
        | succ m =>
          rw [List.getElem?_cons_succ] at hl
          exact h5 m i'' b' (by omega) hl
    · intro k hk
      apply k4
      rw [mapGet_mapSet]
      rcases hk with hk | ⟨x, hx, rfl⟩
      · left; split
        · rfl
        · exact hk
      · rcases List.mem_cons.1 hx with rfl | hx
        · left; simp
        · right; exact ⟨x, hx, rfl⟩

/-- The bounds after a list of attributes are those of the last attribute named POSITION. -/
theorem foldl_bounds {l : List (Bytes × Slice)} {j : Nat} {v : List (V3 F32)} (acc : V3 F64 × V3 F64)
    (h : LastNamed l POSITION j ⟨.base .f32 .v3, v⟩) : l.foldl boundsOf acc = minMaxFloat32 v := by
  induction l generalizing acc j with
  | nil => simp [LastNamed] at h
  | cons x l ih =>
    obtain ⟨h1, h2⟩ := h
    cases j with
    | succ j =>
      exact ih _ ⟨by rw [List.getElem?_cons_succ] at h1; exact h1, fun k e hk hl => h2 (k + 1) e (by omega) (by
        rw [List.getElem?_cons_succ]; exact hl)⟩
    | zero =>
      simp only [List.getElem?_cons_zero, Option.some.injEq] at h1
      subst h1
      have hrest : ∀ (l : List (Bytes × Slice)) (acc), (∀ x ∈ l, x.1 ≠ POSITION) → l.foldl boundsOf acc = acc := by
        intro l
        induction l with
        | nil => intros; rfl
        | cons y l ih2 =>
          intro acc hn
          rw [List.foldl_cons, ih2 _ fun z hz => hn z (List.mem_cons_of_mem _ hz)]
          simp [boundsOf, hn y List.mem_cons_self]
      rw [List.foldl_cons, hrest]
      · simp [boundsOf]
      · intro y hy hn
        obtain ⟨k, hk⟩ := List.mem_iff_getElem?.1 hy
        exact h2 (k + 1) y.2 (by omega) (by rw [List.getElem?_cons_succ, hk, ← hn])

/-- The statement of C16. -/
def AttributesWritten (attr : List PrimitiveAttribute) (doc' : Document) (attrs : PrimitiveAttributes) : Prop :=
  (∀ name i, mapGet attrs name = some i →
    ∃ (n j : Nat) (d : Slice) (acr : Accessor), i = n ∧ LastNamed (nonEmpty attr) name j d ∧
      doc'.accessors[n]? = some (some acr) ∧
      (∀ p, readAccessor doc' acr [] p = .ok (back d)) ∧
      acr.normalized = IsNormalized name d.ty ∧
      (∀ v, d = ⟨.base .f32 .v3, v⟩ → name = b!"POSITION" →
        acr.min = (minMaxFloat32 v).1.toList ∧ acr.max = (minMaxFloat32 v).2.toList) ∧
      (name ≠ b!"POSITION" → acr.min = [] ∧ acr.max = [])) ∧
  (∀ x ∈ nonEmpty attr, (mapGet attrs x.1).isSome) ∧
  (∀ x ∈ nonEmpty attr, Allowed x.1 x.2.ty = true)

/-- The full statement of C16. -/
def C16_full : Prop :=
  ∀ (attr : List PrimitiveAttribute) (doc doc' : Document) (attrs : PrimitiveAttributes),
    writePrimitiveAttributes attr doc = (doc', .ok attrs) → AttributesWritten attr doc' attrs

/-- C16 except for `[]int8` and `[]uint8` attributes with custom names that are interleaved with
others (missing part: these do not read back, see C13). -/
theorem C16_attributes_partial (attr : List PrimitiveAttribute) (doc doc' : Document) (attrs : PrimitiveAttributes)
    (h : writePrimitiveAttributes attr doc = (doc', .ok attrs)) (hok : Interleavable ((nonEmpty attr).map (·.2))) :
    AttributesWritten attr doc' attrs := by
  obtain ⟨st, d, is, d2, hc, hw, ha, hpos⟩ := writePrimitiveAttributes_core h
  rw [collectAttrs_eq] at hc
  by_cases hall : (nonEmpty attr).all (fun x => Allowed x.1 x.2.ty) = true
  case neg => rw [if_neg hall] at hc; cases hc
  rw [if_pos hall] at hc
  simp only [List.nil_append, Res.ok.injEq] at hc
  have hdata : st.data = (nonEmpty attr).map (·.2) := by rw [← hc]
  have hprops : st.props = (nonEmpty attr).map (fun x => (x.1, IsNormalized x.1 x.2.ty)) := by rw [← hc]
  have hmin : st.min = ((nonEmpty attr).foldl boundsOf (({} : AttrState).min, ({} : AttrState).max)).1 := by rw [← hc]
  have hmax : st.max = ((nonEmpty attr).foldl boundsOf (({} : AttrState).min, ({} : AttrState).max)).2 := by rw [← hc]
  clear hc
  rw [hdata] at hw
  have his := (writeAccessorsInterleaved_index hw).1
  rw [List.length_map] at his
  -- the list given to the second loop
  have hzip : ∀ j x, (nonEmpty attr)[j]? = some x →
      (is.zip st.props)[j]? = some (doc.accessors.length + j, x.1, IsNormalized x.1 x.2.ty) := by
    intro j x hx
    have hj := getElem?_lt hx
    rw [hprops, his, List.getElem?_zip_eq_some]
    constructor
    · simp [hj]
    · rw [List.getElem?_map, hx]; rfl
  have hzip' : ∀ (j i : Nat) n b, (is.zip st.props)[j]? = some (i, n, b) →
      ∃ x, (nonEmpty attr)[j]? = some x ∧ i = doc.accessors.length + j ∧ n = x.1 ∧ b = IsNormalized x.1 x.2.ty := by
    intro j i n b hl
    rw [hprops, his, List.getElem?_zip_eq_some] at hl
    obtain ⟨h1, h2⟩ := hl
    rw [List.getElem?_map] at h1 h2
    obtain ⟨x, hx, he⟩ := Option.map_eq_some_iff.1 h2
    obtain ⟨y, hy, he2⟩ := Option.map_eq_some_iff.1 h1
    cases he
    have hj := getElem?_lt hx
    rw [List.getElem?_range hj] at hy
    cases hy
    exact ⟨x, hx, he2.symm, rfl, rfl⟩
  have hnd : ((is.zip st.props).map (·.1)).Nodup := by
    have hlen : is.length = st.props.length := by rw [his, hprops]; simp
    have : (is.zip st.props).map (·.1) = is := by
      rw [← List.unzip_fst, List.unzip_zip (by omega)]
    rw [this, his]
    apply List.Pairwise.map _ _ List.nodup_range
    intro a b hab; omega
  obtain ⟨k1, k2, k3, k4⟩ := assignAttrs_spec ha hnd
  have hsame1 : SameDoc d d2 := same_assignAttrs ha
  have hsame2 : SameDoc d2 doc' := by
    rcases hpos with ⟨-, rfl⟩ | ⟨pos, d3, -, h3, h4⟩
    · exact .refl _
    · exact (modifyAccessor_same (fun a => sameMin a _) h3).trans (modifyAccessor_same (fun a => sameMax a _) h4)
  have hsame := hsame1.trans hsame2
  have hloc : ∀ name i, mapGet attrs name = some i → ∃ (j : Nat) (dd : Slice), LastNamed (nonEmpty attr) name j dd ∧
      i = ((doc.accessors.length + j : Nat) : Int) := by
    intro name i hi
    rcases k3 name i hi with ⟨h3, -⟩ | ⟨j, i', b, h3, h4, h5⟩
    · simp [mapGet] at h3
    · obtain ⟨x, hx, rfl, rfl, -⟩ := hzip' j i' name b h3
      refine ⟨j, x.2, ⟨hx, ?_⟩, h4⟩
      intro k e hk hl
      exact h5 k _ _ hk (hzip k (x.1, e) hl)
  refine ⟨?_, ?_, ?_⟩
  · intro name i hi
    obtain ⟨j, dd, hlast, rfl⟩ := hloc name i hi
    have hdj : ((nonEmpty attr).map (·.2))[j]? = some dd := by rw [List.getElem?_map, hlast.1]; rfl
    obtain ⟨n, acr, v, bv, -, hn, hacr, hshape, -, hread⟩ := interleaved_back hw hok hdj
    subst hn
    -- after the second loop
    have hd2 : d2.accessors[doc.accessors.length + j]? = some (some { acr with normalized := IsNormalized name dd.ty }) := by
      rw [k1 _ _ _ (List.mem_of_getElem? (hzip j _ hlast.1)), hacr]; rfl
    have hallj : Allowed name dd.ty = true := by
      rw [List.all_eq_true] at hall
      exact hall _ (List.mem_of_getElem? hlast.1)
    by_cases hP : name = POSITION
    · rcases hpos with ⟨hnone, -⟩ | ⟨pos, d3, hsome, h3, h4⟩
      · rw [hP, hnone] at hi; cases hi
      · rw [hP, hsome] at hi
        cases hi
        have hty : dd.ty = .base .f32 .v3 := by
          rw [hP] at hallj
          have hPP : POSITION = b!"POSITION" := rfl
          simpa [Allowed, hPP] using hallj
        obtain ⟨ty, v⟩ := dd
        simp only at hty
        subst hty
        have hb := foldl_bounds (({} : AttrState).min, ({} : AttrState).max) (hP ▸ hlast)
        rw [hb] at hmin hmax
        have hd' : doc'.accessors[doc.accessors.length + j]? = some (some { acr with
            min := (minMaxFloat32 v).1.toList, max := (minMaxFloat32 v).2.toList, normalized := IsNormalized name (.base .f32 .v3) }) := by
          rw [modifyAccessor_get h4, Int.toNat_natCast, if_pos rfl, modifyAccessor_get h3, Int.toNat_natCast, if_pos rfl, hd2, hmin, hmax]
          rfl
        refine ⟨_, j, _, _, rfl, hlast, hd', ?_, rfl, ?_, ?_⟩
        · intro p
          rw [readAccessor_same hsame]; exact hread p
        · intro v' hv _
          cases hv; exact ⟨rfl, rfl⟩
        · intro hne; exact absurd hP hne
    · have hd' : doc'.accessors[doc.accessors.length + j]? = some (some { acr with normalized := IsNormalized name dd.ty }) := by
        rcases hpos with ⟨-, rfl⟩ | ⟨pos, d3, hsome, h3, h4⟩
        · exact hd2
        · obtain ⟨jp, dp, hlp, rfl⟩ := hloc _ _ hsome
          have hne : ¬ doc.accessors.length + jp = doc.accessors.length + j := by
            intro he
            have : jp = j := by omega
            subst this
            have := hlp.1.symm.trans hlast.1
            simp only [Option.some.injEq, Prod.mk.injEq] at this
            exact hP this.1.symm
          rw [modifyAccessor_get h4, Int.toNat_natCast, if_neg hne, modifyAccessor_get h3, Int.toNat_natCast, if_neg hne, hd2]
      refine ⟨_, j, dd, _, rfl, hlast, hd', ?_, rfl, ?_, ?_⟩
      · intro p
        rw [← hread p]
        exact readAccessor_same (a := acr) hsame acr.min acr.max _
      · intro v' _ hn; exact absurd hn hP
      · intro _; rw [hshape]; exact ⟨rfl, rfl⟩
  · intro x hx
    obtain ⟨j, hj⟩ := List.mem_iff_getElem?.1 hx
    exact k4 x.1 (.inr ⟨_, List.mem_of_getElem? (hzip j x hj), rfl⟩)
  · rw [List.all_eq_true] at hall
    exact hall

/-- C16 is false of the code for two `[]uint8` attributes with custom names. -/
theorem C16_full_fails : ¬ C16_full := by
  intro h
  have hw : ∃ doc', writePrimitiveAttributes [⟨b!"_A", some ⟨.base .u8 .sc, [1, 2]⟩⟩, ⟨b!"_B", some ⟨.base .u8 .sc, [3, 4]⟩⟩] {}
        = (doc', .ok [(b!"_A", 0), (b!"_B", 1)]) ∧
      (doc'.accessors[0]?.join.map fun acr => readAccessor doc' acr [] ⟨[], [], []⟩)
        = some (.ok ⟨.base .u8 .sc, [1, 3]⟩) := ⟨_, outcome (by decide +kernel), by decide +kernel⟩
  obtain ⟨doc', hw, h3⟩ := hw
  obtain ⟨hall, -⟩ := h _ _ _ _ hw
  obtain ⟨n, j, d, acr, hn, hl, ha, hr, -⟩ := hall b!"_A" 0 rfl
  have hn0 : n = 0 := by omega
  subst hn0
  rw [ha] at h3
  simp only [Option.join_some, Option.map_some, Option.some.injEq] at h3
  have hj : j = 0 := by
    have h1 := hl.1
    match j with
    | 0 => rfl
    | 1 => simp [nonEmpty] at h1
    | j + 2 => simp [nonEmpty] at h1
  subst hj
  have hd : d = ⟨.base .u8 .sc, [1, 2]⟩ := by
    have h1 := hl.1
    simp [nonEmpty] at h1
    exact h1.symm
  subst hd
  have := h3.symm.trans (hr ⟨[], [], []⟩)
  revert this
  decide +kernel

/-- Two attributes with the same name, an empty one and a nil one. -/
example : nonEmpty [⟨b!"POSITION", some ⟨.base .f32 .v3, [⟨⟨1⟩, ⟨2⟩, ⟨3⟩⟩]⟩⟩, ⟨b!"NORMAL", none⟩,
      ⟨b!"COLOR_0", some ⟨.rgba, []⟩⟩, ⟨b!"POSITION", some ⟨.base .f32 .v3, [⟨⟨4⟩, ⟨5⟩, ⟨6⟩⟩]⟩⟩]
    = [(b!"POSITION", ⟨.base .f32 .v3, [⟨⟨1⟩, ⟨2⟩, ⟨3⟩⟩]⟩), (b!"POSITION", ⟨.base .f32 .v3, [⟨⟨4⟩, ⟨5⟩, ⟨6⟩⟩]⟩)] := by
  simp [nonEmpty]

example : ∃ doc', writePrimitiveAttributes [⟨b!"POSITION", some ⟨.base .f32 .v3, [⟨⟨1⟩, ⟨2⟩, ⟨3⟩⟩]⟩⟩,
      ⟨b!"COLOR_0", some ⟨.rgba, [⟨1, 2, 3, 4⟩]⟩⟩] {} = (doc', .ok [(b!"POSITION", 0), (b!"COLOR_0", 1)]) :=
  ⟨_, outcome (by decide +kernel)⟩

end Gltf
