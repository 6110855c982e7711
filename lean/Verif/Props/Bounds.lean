/-
Property C18: the bounds of positions.
-/
import Verif.Lemmas.Float
import Verif.Props.Attributes
import Verif.Spec.Bounds

namespace Gltf

open Spec

/-- One component of the loop. -/
def foldMinMax (acc : F64 × F64) (xs : List F32) : F64 × F64 := xs.foldl minMaxStep acc

theorem minMaxFloat32_fold (data : List (V3 F32)) (mn mx : V3 F64) :
    data.foldl (fun (mn, mx) v =>
      ((⟨(minMaxStep (mn.x0, mx.x0) v.x0).1, (minMaxStep (mn.x1, mx.x1) v.x1).1, (minMaxStep (mn.x2, mx.x2) v.x2).1⟩ : V3 F64),
       (⟨(minMaxStep (mn.x0, mx.x0) v.x0).2, (minMaxStep (mn.x1, mx.x1) v.x1).2, (minMaxStep (mn.x2, mx.x2) v.x2).2⟩ : V3 F64)))
      (mn, mx) =
    (⟨(foldMinMax (mn.x0, mx.x0) (data.map (·.x0))).1, (foldMinMax (mn.x1, mx.x1) (data.map (·.x1))).1,
      (foldMinMax (mn.x2, mx.x2) (data.map (·.x2))).1⟩,
     ⟨(foldMinMax (mn.x0, mx.x0) (data.map (·.x0))).2, (foldMinMax (mn.x1, mx.x1) (data.map (·.x1))).2,
      (foldMinMax (mn.x2, mx.x2) (data.map (·.x2))).2⟩) := by
  induction data generalizing mn mx with
  | nil => rfl
  | cons v data ih =>
    rw [List.foldl_cons, ih]
    rfl

theorem foldMinMax_spec (xs : List F32) (acc : F64 × F64) (hx : ∀ x ∈ xs, x.finite = true)
    (h1 : acc.1.finite = true) (h2 : acc.2.finite = true) :
    let r := foldMinMax acc xs
    r.1.finite = true ∧ r.2.finite = true ∧ r.1.val ≤ acc.1.val ∧ acc.2.val ≤ r.2.val ∧
    (∀ x ∈ xs, r.1.val ≤ x.val * 2 ^ 925 ∧ x.val * 2 ^ 925 ≤ r.2.val) ∧
    (r.1 = acc.1 ∨ ∃ x ∈ xs, x.val * 2 ^ 925 = r.1.val) ∧ (r.2 = acc.2 ∨ ∃ x ∈ xs, x.val * 2 ^ 925 = r.2.val) := by
  induction xs generalizing acc with
  | nil => exact ⟨h1, h2, Int.le_refl _, Int.le_refl _, by simp, .inl rfl, .inl rfl⟩
  | cons x xs ih =>
    obtain ⟨e1, e2⟩ := F32.toF64_val (hx x List.mem_cons_self)
    obtain ⟨a1, a2, a3⟩ := F64.min_val h1 e2
    obtain ⟨b1, b2, b3⟩ := F64.max_val h2 e2
    have f1 : (acc.1.min x.toF64).finite = true := by
      rcases a1 with h | h
      · rw [h]; exact h1
      · rw [h]; exact e2
    have f2 : (acc.2.max x.toF64).finite = true := by
      rcases b1 with h | h
      · rw [h]; exact h2
      · rw [h]; exact e2
    obtain ⟨i1, i2, i3, i4, i5, i6, i7⟩ := ih (minMaxStep acc x) (fun y hy => hx y (List.mem_cons_of_mem _ hy)) f1 f2
    have hr : foldMinMax acc (x :: xs) = foldMinMax (minMaxStep acc x) xs := rfl
    rw [hr]
    generalize foldMinMax (minMaxStep acc x) xs = r at *
    simp only [minMaxStep] at i3 i4 i6 i7
    rw [e1] at a3 b3
    refine ⟨i1, i2, Int.le_trans i3 a2, Int.le_trans b2 i4, ?_, ?_, ?_⟩
    · intro y hy
      rcases List.mem_cons.1 hy with rfl | hy
      · exact ⟨Int.le_trans i3 a3, Int.le_trans b3 i4⟩
      · exact i5 y hy
    · rcases i6 with h | ⟨y, hy, h⟩
      · rcases a1 with h' | h'
        · exact .inl (h.trans h')
        · exact .inr ⟨x, List.mem_cons_self, by rw [h, h', e1]⟩
      · exact .inr ⟨y, List.mem_cons_of_mem _ hy, h⟩
    · rcases i7 with h | ⟨y, hy, h⟩
      · rcases b1 with h' | h'
        · exact .inl (h.trans h')
        · exact .inr ⟨x, List.mem_cons_self, by rw [h, h', e1]⟩
      · exact .inr ⟨y, List.mem_cons_of_mem _ hy, h⟩

/-- A `float32` is smaller than the bounds the loop starts with. -/
theorem val_lt_max {x : F32} (h : x.finite = true) :
    x.val * 2 ^ 925 < maxFloat64.val ∧ negMaxFloat64.val < x.val * 2 ^ 925 := by
  have h1 := F32.finite_lt h
  have hm : ((2 ^ 277 : Nat) : Int) * 2 ^ 925 ≤ maxFloat64.val := by decide +kernel
  have hm' : negMaxFloat64.val ≤ -(((2 ^ 277 : Nat) : Int) * 2 ^ 925) := by decide +kernel
  have hb : x.val < ((2 ^ 277 : Nat) : Int) ∧ -((2 ^ 277 : Nat) : Int) < x.val := by
    rw [F32.val_eq]
    rw [← Nat.pow_add] at h1
    unfold signed
    split <;> omega
  have hp : (0 : Int) < 2 ^ 925 := by decide +kernel
  have c1 := Int.mul_lt_mul_of_pos_right hb.1 hp
  have c2 := Int.mul_lt_mul_of_pos_right hb.2 hp
  rw [Int.neg_mul] at c2
  exact ⟨Int.lt_of_lt_of_le c1 hm, Int.lt_of_le_of_lt hm' c2⟩

theorem foldMinMax_exact (xs : List F32) (hx : ∀ x ∈ xs, x.finite = true) :
    ExactBounds xs (foldMinMax (maxFloat64, negMaxFloat64) xs).1 (foldMinMax (maxFloat64, negMaxFloat64) xs).2 := by
  obtain ⟨i1, i2, -, -, i5, i6, i7⟩ := foldMinMax_spec xs (maxFloat64, negMaxFloat64) hx (by decide +kernel) (by decide +kernel)
  generalize foldMinMax (maxFloat64, negMaxFloat64) xs = r at *
  refine ⟨i1, i2, i5, fun hne => ?_⟩
  obtain ⟨x, hxm⟩ := List.exists_mem_of_ne_nil _ hne
  obtain ⟨h3, h4⟩ := val_lt_max (hx x hxm)
  obtain ⟨h5, h6⟩ := i5 x hxm
  constructor
  · rcases i6 with h | h
    · rw [h] at h5; exact absurd h5 (Int.not_le.2 h3)
    · exact h
  · rcases i7 with h | h
    · rw [h] at h6; exact absurd h6 (Int.not_le.2 h4)
    · exact h

theorem minMaxFloat32_exact (data : List (V3 F32)) (hfin : ∀ v ∈ data, FiniteVec v) :
    BoundsOf data (minMaxFloat32 data).1.toList (minMaxFloat32 data).2.toList := by
  have h := minMaxFloat32_fold data ⟨maxFloat64, maxFloat64, maxFloat64⟩ ⟨negMaxFloat64, negMaxFloat64, negMaxFloat64⟩
  have h' : minMaxFloat32 data = _ := h
  rw [h']
  refine ⟨_, _, _, _, _, _, rfl, rfl, foldMinMax_exact _ ?_, foldMinMax_exact _ ?_, foldMinMax_exact _ ?_⟩
  · intro x hx; obtain ⟨v, hv, rfl⟩ := List.mem_map.1 hx; exact (hfin v hv).1
  · intro x hx; obtain ⟨v, hv, rfl⟩ := List.mem_map.1 hx; exact (hfin v hv).2.1
  · intro x hx; obtain ⟨v, hv, rfl⟩ := List.mem_map.1 hx; exact (hfin v hv).2.2

/-- C18: the minimum and the maximum stored by `WritePosition` are exact for finite positions. -/
theorem C18_position_bounds (data : List (V3 F32)) (doc doc' : Document) (i : Nat)
    (h : writePosition data doc = (doc', .ok i)) (hfin : ∀ v ∈ data, FiniteVec v) :
    ∃ acr, doc'.accessors[i]? = some (some acr) ∧ BoundsOf data acr.min acr.max := by
  obtain ⟨d, d2, h1, h2, h3⟩ := writePosition_core h
  obtain ⟨a, ha, -⟩ := modifyAccessor_ok.1 h3
  have hg := modifyAccessor_get (j := i) h3
  rw [if_pos rfl, ha] at hg
  have hg2 := modifyAccessor_get (j := i) h2
  obtain ⟨a0, ha0, -⟩ := modifyAccessor_ok.1 h2
  rw [if_pos rfl, ha0, ha] at hg2
  simp only [Option.map_some, Option.some.injEq] at hg2
  refine ⟨_, hg, ?_⟩
  subst hg2
  exact minMaxFloat32_exact data hfin

/-- C18 for the positions written by `WritePrimitiveAttributes`. -/
theorem C18_attribute_bounds (attr : List PrimitiveAttribute) (doc doc' : Document) (attrs : PrimitiveAttributes)
    (h : writePrimitiveAttributes attr doc = (doc', .ok attrs)) (hok : Interleavable ((nonEmpty attr).map (·.2)))
    (i : Nat) (hi : mapGet attrs b!"POSITION" = some (i : Int)) :
    ∃ (data : List (V3 F32)) (j : Nat) (acr : Accessor), LastNamed (nonEmpty attr) b!"POSITION" j ⟨.base .f32 .v3, data⟩ ∧
      doc'.accessors[i]? = some (some acr) ∧ ((∀ v ∈ data, FiniteVec v) → BoundsOf data acr.min acr.max) := by
  obtain ⟨h1, -, h3⟩ := C16_attributes_partial attr doc doc' attrs h hok
  obtain ⟨n, j, d, acr, hn, hl, ha, -, -, hm, -⟩ := h1 _ _ hi
  have hn : i = n := by omega
  subst hn
  have hall := h3 _ (List.mem_of_getElem? hl.1)
  have hty : d.ty = .base .f32 .v3 := by
    unfold Allowed at hall
    rw [if_pos rfl] at hall
    simpa using hall
  obtain ⟨ty, v⟩ := d
  cases hty
  obtain ⟨m1, m2⟩ := hm v rfl rfl
  exact ⟨v, j, acr, hl, ha, fun hf => by rw [m1, m2]; exact minMaxFloat32_exact v hf⟩

/-- Two positions: `(1, -2, 0.5)` and `(-1, 3, 0.5)`. -/
example : (∃ doc' i, writePosition [⟨⟨0x3F800000⟩, ⟨0xC0000000⟩, ⟨0x3F000000⟩⟩, ⟨⟨0xBF800000⟩, ⟨0x40400000⟩, ⟨0x3F000000⟩⟩] {}
      = (doc', .ok i) ∧ (doc'.accessors[i]?.join.map fun a => (a.min, a.max)) =
        some ([⟨0xBFF0000000000000⟩, ⟨0xC000000000000000⟩, ⟨0x3FE0000000000000⟩],
              [⟨0x3FF0000000000000⟩, ⟨0x4008000000000000⟩, ⟨0x3FE0000000000000⟩])) ∧
    ∀ v ∈ [(⟨⟨0x3F800000⟩, ⟨0xC0000000⟩, ⟨0x3F000000⟩⟩ : V3 F32), ⟨⟨0xBF800000⟩, ⟨0x40400000⟩, ⟨0x3F000000⟩⟩],
      FiniteVec v := by
  refine ⟨⟨_, 0, rfl, ?_⟩, ?_⟩
  · decide +kernel
  · unfold FiniteVec; decide

end Gltf
