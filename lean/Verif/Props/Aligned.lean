/-
Property C87: strides and offsets of what the modeler writes follow the alignment rules of glTF.
-/
import Verif.Props.Placed

namespace Gltf.Spec

open Gltf

/-- The rules of glTF 2.0, chapters 3.6.2.4 and 5.11, for an accessor with components of kind `k` and its buffer view: offsets are
multiples of the component size; a stride is a multiple of four from 4 to 252; the elements of vertex attributes (target
34962) start at multiples of four. -/
structure AlignedAsGltf (acr : Accessor) (bv : BufferView) (t : ETy) : Prop where
  offset : acr.byteOffset % (size (kind t) : Nat) = 0
  total : (bv.byteOffset + acr.byteOffset) % (size (kind t) : Nat) = 0
  stride : bv.byteStride = 0 ∨ (4 ≤ bv.byteStride ∧ bv.byteStride ≤ 252 ∧ bv.byteStride % 4 = 0)
  vertex : bv.target = 34962 → acr.byteOffset % 4 = 0 ∧ gltfStride (kind t) (shape t) bv.byteStride.toNat % 4 = 0

/-- Numbers of one or two bytes. -/
def SmallScalar (t : ETy) : Prop := shape t = .sc ∧ size (kind t) < 4

end Gltf.Spec

namespace Gltf

open Spec

/-- The accessor at index `i` of the document follows the rules. -/
def HasAligned (doc : Document) (i : Nat) (t : ETy) : Prop :=
  ∃ acr bv, doc.accessors[i]? = some (some acr) ∧ ViewOf doc acr bv ∧ AlignedAsGltf acr bv t

/-- The full statement of C87 for `WriteAccessor`. -/
def C87_write_full : Prop :=
  ∀ target data doc doc' i, writeAccessor target data doc = (doc', .ok i) → HasAligned doc' i data.ty

/-- The full statement of C87 for `WriteAccessorsInterleaved`. -/
def C87_interleaved_full : Prop :=
  ∀ data doc doc' is, writeAccessorsInterleaved data doc = (doc', .ok is) →
    ∀ (j : Nat) (d : Slice), data[j]? = some d → ∃ i, is[j]? = some i ∧ HasAligned doc' i d.ty

theorem emod_size {x : Int} (k : Kind) (h : x % 4 = 0) : x % (size k : Nat) = 0 := by
  cases k <;> simp only [size] <;> omega

/-- C87 for `WriteAccessor` of anything but numbers of one or two bytes as vertex attributes (where it is false). -/
theorem C87_write_partial (target : Target) (data : Slice) (doc doc' : Document) (i : Nat)
    (h : writeAccessor target data doc = (doc', .ok i)) (hs : target ≠ 34962 ∨ ¬ SmallScalar data.ty) :
    HasAligned doc' i data.ty := by
  obtain ⟨acr, bv, old, k, payload, h1, h2, h3, -, -, -, -, h4, -, h5⟩ := C12_accessor_aligned target data doc doc' i h
  obtain ⟨acr', bv', e1, e2, e3, e4, e5, -⟩ := (C63_accessor_described doc doc' i).1 target data h
  have hi := (C19_accessor_index doc doc' i).1 target data h
  rw [e1, hi.2.1, List.getElem?_append_right (Nat.le_refl _), Nat.sub_self] at h1
  simp only [List.getElem?_cons_zero, Option.some.injEq] at h1
  subst h1
  have hbv : bv = bv' := by
    obtain ⟨v, hv, h3⟩ := id h3
    rw [e3.bufferView] at hv
    have : doc.bufferViews.length = v := by injection hv with hv; omega
    subst this
    rw [e2, List.getElem?_append_right (Nat.le_refl _), Nat.sub_self] at h3
    simp only [List.getElem?_cons_zero, Option.some.injEq] at h3
    exact h3.symm
  subst hbv
  refine ⟨acr', bv, ?_, h3, ?_, ?_, ?_, ?_⟩
  · rw [e1, hi.2.1, List.getElem?_append_right (Nat.le_refl _), Nat.sub_self]; rfl
  · exact emod_size _ (by omega)
  · exact emod_size _ (by omega)
  · rw [e5]
    unfold strideFor
    unfold plainSize
    generalize kind data.ty = k, shape data.ty = s
    split
    · next hc =>
      right
      have hc := hc.2
      revert hc
      cases k <;> cases s <;> decide
    · exact .inl rfl
  · intro ht
    refine ⟨by omega, ?_⟩
    rw [e4] at ht
    have hs := hs.resolve_left (by simp [ht])
    rw [e5, ht]
    revert hs
    unfold SmallScalar gltfStride strideFor plainSize
    generalize kind data.ty = k, shape data.ty = s
    cases k <;> cases s <;> decide

/-- C87 is false of `WriteAccessor`: bytes as vertex attributes are tightly packed. -/
theorem C87_write_full_fails : ¬ C87_write_full := by
  intro h
  obtain ⟨acr, bv, h1, ⟨v, hv, h2⟩, h3⟩ := h 34962 ⟨.base .u8 .sc, [1, 2]⟩ {} _ 0 rfl
  cases h1
  have hv : some (0 : Int) = some (v : Int) := hv
  have : v = 0 := by injection hv with hv; omega
  subst this
  cases h2
  have := (h3.vertex rfl).2
  revert this
  decide

theorem rowSize_mod {ds : List Slice} (h : ∀ d ∈ ds, ¬ SmallScalar d.ty) : rowSize ds % 4 = 0 := by
  induction ds with
  | nil => rfl
  | cons d ds ih =>
    rw [rowSize_cons]
    have h1 := ih fun x hx => h x (List.mem_cons_of_mem _ hx)
    have h2 : d.esz % 4 = 0 := by
      have := h d (by simp)
      unfold Slice.esz
      revert this
      unfold SmallScalar
      generalize kind d.ty = k, shape d.ty = s
      cases k <;> cases s <;> decide
    omega

/-- One slice is written like by `WriteAccessor`. -/
theorem interleaved_single {x : Slice} {doc doc' : Document} {is : List Nat} (h : writeAccessorsInterleaved [x] doc = (doc', .ok is)) :
    ∃ i, is = [i] ∧ writeAccessor targetArrayBuffer x doc = (doc', .ok i) := by
  obtain ⟨d1, d2, v, h1, h2, rfl, rfl⟩ := writeAccessorsInterleaved_ok.1 h
  exact ⟨d2.accessors.length, by simp [List.range_succ], writeAccessor_ok.2 ⟨d1, d2, v, h1, h2, rfl, rfl⟩⟩

/-- C87 for `WriteAccessorsInterleaved` of slices without numbers of one or two bytes whose rows have at most 252 bytes (for
the others it is false). -/
theorem C87_interleaved_partial (data : List Slice) (doc doc' : Document) (is : List Nat)
    (h : writeAccessorsInterleaved data doc = (doc', .ok is)) (hs : ∀ d ∈ data, ¬ SmallScalar d.ty)
    (hrow : rowSize data ≤ 252) (j : Nat) (d : Slice) (hd : data[j]? = some d) :
    ∃ i, is[j]? = some i ∧ HasAligned doc' i d.ty := by
  by_cases hm : 1 < data.length
  case neg =>
    have hj : j < data.length := getElem?_lt hd
    obtain ⟨x, rfl⟩ := List.length_eq_one_iff.1 (show data.length = 1 by omega)
    have : j = 0 := by simpa using hj
    subst this
    simp only [List.getElem?_cons_zero, Option.some.injEq] at hd
    subst hd
    obtain ⟨i, rfl, hi⟩ := interleaved_single h
    exact ⟨i, rfl, C87_write_partial _ _ _ _ _ hi (.inr (hs x (by simp)))⟩
  obtain ⟨bv, old, k, payload, e1, e2, -, -, -, -, e3, -, e4⟩ := C12_interleaved_aligned data doc doc' is h
  obtain ⟨bv', f1, f2, f3, -, f4⟩ := C63_interleaved_described doc doc' data is h hm
  have hbv : bv = bv' := by
    rw [e1] at f1
    simpa using f1
  subst hbv
  obtain ⟨i, acr, hi, ha, hda⟩ := f4 j d hd
  refine ⟨i, hi, acr, bv, ha, ⟨doc.bufferViews.length, hda.bufferView, by rw [e1, List.getElem?_append_right (Nat.le_refl _), Nat.sub_self]; rfl⟩, ?_⟩
  have hoff : rowSize (data.take j) % 4 = 0 := rowSize_mod fun x hx => hs x (List.mem_of_mem_take hx)
  have hall : rowSize data % 4 = 0 := rowSize_mod hs
  have hpos : 0 < rowSize data := by
    cases data with
    | nil => simp at hm
    | cons x xs =>
      rw [rowSize_cons]
      have := elemSize_pos (kind x.ty) (shape x.ty)
      unfold Slice.esz; omega
  have ho := hda.byteOffset
  refine ⟨emod_size _ (by omega), emod_size _ (by omega), .inr (by omega), fun _ => ⟨by omega, ?_⟩⟩
  unfold gltfStride
  rw [f3, Int.toNat_natCast, if_neg (by omega)]
  exact hall

/-- C87 is false of `WriteAccessorsInterleaved`: after 16 bit numbers come floats at an odd multiple of two. -/
theorem C87_interleaved_full_fails : ¬ C87_interleaved_full := by
  intro h
  have hw : ∃ doc', writeAccessorsInterleaved [⟨.base .u16 .sc, [1]⟩, ⟨.base .f32 .sc, [⟨0⟩]⟩] {} = (doc', .ok [0, 1]) ∧
      (doc'.accessors[1]?.join.map fun a => a.byteOffset) = some 2 := ⟨_, outcome (by decide +kernel), by decide +kernel⟩
  obtain ⟨doc', hw, e1⟩ := hw
  obtain ⟨i, hi, acr, bv, h1, -, h2⟩ := h _ _ _ _ hw 1 ⟨.base .f32 .sc, [⟨0⟩]⟩ rfl
  simp only [List.getElem?_cons_succ, List.getElem?_cons_zero, Option.some.injEq] at hi
  subst hi
  simp only [h1, Option.join_some, Option.map_some, Option.some.injEq] at e1
  have := h2.offset
  rw [e1] at this
  revert this
  decide

/-- A second way in which C87 is false of `WriteAccessorsInterleaved`: nothing limits the stride. -/
theorem C87_stride_unlimited : ∃ data doc' is bv, writeAccessorsInterleaved data {} = (doc', .ok is) ∧
    (∀ d ∈ data, ¬ SmallScalar d.ty) ∧ doc'.bufferViews = [some bv] ∧ 252 < bv.byteStride := by
  let m : Slice := ⟨.base .f32 .m4, [(ETy.base .f32 .m4).zero]⟩
  have hw := outcome (x := writeAccessorsInterleaved [m, m, m, m] {}) (r := .ok [0, 1, 2, 3]) (by decide +kernel)
  obtain ⟨bv, f1, f2, f3, -⟩ := C63_interleaved_described {} _ [m, m, m, m] _ hw (by decide)
  refine ⟨_, _, _, bv, hw, ?_, f1, ?_⟩
  · unfold SmallScalar; decide
  · rw [f3]; decide

theorem hasAligned_modify {doc doc' : Document} {i : Nat} {t : ETy} {f : Accessor → Accessor}
    (hm : modifyAccessor i f doc = (doc', .ok ())) (h : HasAligned doc i t)
    (hf : ∀ a, (f a).bufferView = a.bufferView ∧ (f a).byteOffset = a.byteOffset) : HasAligned doc' i t := by
  obtain ⟨acr, bv, h1, ⟨v, hv, e1⟩, e2⟩ := h
  obtain ⟨a, ha, rfl⟩ := modifyAccessor_ok.1 hm
  rw [h1] at ha
  simp only [Option.some.injEq] at ha
  subst ha
  have hoff := (hf acr).2
  refine ⟨f acr, bv, ?_, ⟨v, by rw [(hf acr).1, hv], e1⟩, ⟨by rw [hoff]; exact e2.offset, by rw [hoff]; exact e2.total, e2.stride,
    by rw [hoff]; exact e2.vertex⟩⟩
  show (doc.accessors.set i _)[i]? = _
  rw [List.getElem?_set_self (getElem?_lt h1)]

/-- C87 for the other writing functions, for all their data. -/
theorem C87_helpers (doc doc' : Document) (i : Nat) :
    (∀ data, writeIndices data doc = (doc', .ok i) → HasAligned doc' i data.ty) ∧
    (∀ data, writePosition data doc = (doc', .ok i) → HasAligned doc' i (.base .f32 .v3)) ∧
    (∀ data, writeNormal data doc = (doc', .ok i) → HasAligned doc' i (.base .f32 .v3)) ∧
    (∀ data, writeTangent data doc = (doc', .ok i) → HasAligned doc' i (.base .f32 .v4)) ∧
    (∀ data, writeInverseBindMatrices data doc = (doc', .ok i) → HasAligned doc' i (.base .f32 .m4)) ∧
    (∀ data, writeJoints data doc = (doc', .ok i) → HasAligned doc' i data.ty) ∧
    (∀ data, writeTextureCoord data doc = (doc', .ok i) → HasAligned doc' i data.ty) ∧
    (∀ data, writeWeights data doc = (doc', .ok i) → HasAligned doc' i data.ty) ∧
    (∀ data, writeColor data doc = (doc', .ok i) → HasAligned doc' i data.ty) := by
  have arr : ∀ {data d}, ¬ SmallScalar data.ty → writeAccessor targetArrayBuffer data doc = (d, .ok i) → HasAligned d i data.ty :=
    fun hs h => C87_write_partial _ _ _ _ _ h (.inr hs)
  have norm : ∀ {check data}, (∀ b, check data = .ok b → ¬ SmallScalar data.ty) →
      writeNormalized check data doc = (doc', .ok i) → HasAligned doc' i data.ty := by
    intro check data hc h
    obtain ⟨d, b, hb, h1, h2⟩ := writeNormalized_core h
    exact hasAligned_modify h2 (arr (hc b hb) h1) (fun a => ⟨rfl, rfl⟩)
  have f3 : ¬ SmallScalar (.base .f32 .v3) := by unfold SmallScalar; decide
  have f4 : ¬ SmallScalar (.base .f32 .v4) := by unfold SmallScalar; decide
  have m4 : ¬ SmallScalar (.base .f32 .m4) := by unfold SmallScalar; decide
  refine ⟨?_, ?_, fun _ => arr f3, fun _ => arr f4, fun _ => arr m4, ?_, fun _ => norm ?_, fun _ => norm ?_, fun _ => norm ?_⟩
  · intro data h
    rcases writeIndices_cases data with ⟨h', ht⟩ | h'
    · rw [h'] at h
      exact C87_write_partial _ _ _ _ _ h (.inl (by decide))
    · rw [h'] at h; exact nomatch (W.lift_ok.1 h).2
  · intro data h
    obtain ⟨d, d2, h1, h2, h3⟩ := writePosition_core h
    exact hasAligned_modify h3 (hasAligned_modify h2 (arr (data := ⟨.base .f32 .v3, data⟩) f3 h1) (fun a => ⟨rfl, rfl⟩)) (fun a => ⟨rfl, rfl⟩)
  · intro data h
    unfold writeJoints at h
    obtain ⟨d1, _, h1, h2⟩ := W.bind_ok.1 h
    obtain ⟨rfl, hc⟩ := W.lift_ok.1 h1
    refine arr ?_ h2
    rintro ⟨hs, -⟩
    unfold checkJoints at hc
    split at hc
    · next ht => rw [ht] at hs; cases hs
    · next ht => rw [ht] at hs; cases hs
    · cases hc
  · rintro b hc ⟨hs, -⟩
    unfold checkTextureCoord at hc
    split at hc
    all_goals first | (next ht => rw [ht] at hs; cases hs) | cases hc
  · rintro b hc ⟨hs, -⟩
    unfold checkWeights at hc
    split at hc
    all_goals first | (next ht => rw [ht] at hs; cases hs) | cases hc
  · rintro b hc ⟨hs, -⟩
    unfold checkColor at hc
    split at hc
    all_goals first | (next ht => rw [ht] at hs; cases hs) | cases hc

/-- The hypotheses of C87 are met by triples of bytes as vertex attributes, alone and with 32 bit numbers. -/
example : (∃ doc', writeAccessor 34962 oddData {} = (doc', .ok 0) ∧ HasAligned doc' 0 oddData.ty) ∧
    ∃ doc', writeAccessorsInterleaved [oddData, ⟨.base .u32 .sc, [3, 4]⟩] {} = (doc', .ok [0, 1]) ∧
      HasAligned doc' 1 (.base .u32 .sc) := by
  refine ⟨⟨_, rfl, C87_write_partial 34962 oddData {} _ 0 rfl (.inr (by unfold SmallScalar; decide))⟩, ?_⟩
  have hw := outcome (x := writeAccessorsInterleaved [oddData, ⟨.base .u32 .sc, [3, 4]⟩] {}) (r := .ok [0, 1]) (by decide +kernel)
  obtain ⟨i, hi, h⟩ := C87_interleaved_partial _ _ _ _ hw (by unfold SmallScalar; decide) (by decide) 1 _ rfl
  simp only [List.getElem?_cons_succ, List.getElem?_cons_zero, Option.some.injEq] at hi
  subst hi
  exact ⟨_, hw, h⟩

end Gltf
