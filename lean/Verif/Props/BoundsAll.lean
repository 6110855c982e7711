/-
Property C98: the bounds of positions that are not all finite.
-/
import Verif.Props.Bounds
import Verif.Props.Encodable

namespace Gltf

open Spec

/-! ### Infinities and NaN -/

theorem classify (x : F32) : x.finite = true ∨ x.isNaN = true ∨ x = ⟨0x7F800000⟩ ∨ x = ⟨0xFF800000⟩ := by
  unfold F32.finite F32.isNaN F32.mag inf32
  simp only [decide_eq_true_eq]
  have hlt := x.bits.toNat_lt
  have key : ∀ n : UInt32, x.bits.toNat = n.toNat → x = ⟨n⟩ := by
    intro n h
    cases x
    exact congrArg F32.mk (UInt32.toNat_inj.1 h)
  by_cases h1 : x.bits.toNat = (0x7F800000 : UInt32).toNat
  · exact .inr (.inr (.inl (key _ h1)))
  · by_cases h2 : x.bits.toNat = (0xFF800000 : UInt32).toNat
    · exact .inr (.inr (.inr (key _ h2)))
    · have e1 : (0x7F800000 : UInt32).toNat = 2139095040 := by decide
      have e2 : (0xFF800000 : UInt32).toNat = 4286578688 := by decide
      omega

theorem toF64_pinf : (⟨0x7F800000⟩ : F32).toF64 = ⟨0x7FF0000000000000⟩ := by decide
theorem toF64_ninf : (⟨0xFF800000⟩ : F32).toF64 = ⟨0xFFF0000000000000⟩ := by decide

theorem toF64_nan {x : F32} (h : x.isNaN = true) : x.toF64.isNaN = true := by
  unfold F32.toF64
  rw [if_pos h]
  decide

theorem nan_ne {x : F64} (h : x.isNaN = true) : x ≠ ⟨0x7FF0000000000000⟩ ∧ x ≠ ⟨0xFFF0000000000000⟩ := by
  constructor <;>
  · rintro rfl
    revert h
    decide

theorem toF64_ne_pinf {x : F32} (h : x ≠ ⟨0x7F800000⟩) : x.toF64 ≠ ⟨0x7FF0000000000000⟩ := by
  rcases classify x with hf | hf | hf | hf
  · exact (F64.finite_ne_inf (F32.toF64_val hf).2).2
  · exact (nan_ne (toF64_nan hf)).1
  · exact absurd hf h
  · rw [hf, toF64_ninf]; decide

theorem toF64_ne_ninf {x : F32} (h : x ≠ ⟨0xFF800000⟩) : x.toF64 ≠ ⟨0xFFF0000000000000⟩ := by
  rcases classify x with hf | hf | hf | hf
  · exact (F64.finite_ne_inf (F32.toF64_val hf).2).1
  · exact (nan_ne (toF64_nan hf)).2
  · rw [hf, toF64_pinf]; decide
  · exact absurd hf h

theorem F64.finite_lt {x : F64} (h : x.finite = true) : decodeMag 52 x.mag < 2 ^ 52 * 2 ^ 2046 := by
  have h1 : x.mag < inf64 := by simpa [F64.finite] using h
  rw [inf64_eq] at h1
  refine Nat.lt_of_lt_of_le (decode_le_of_div (w := 52) (m := x.mag)).1 (Nat.mul_le_mul_left _ (Nat.pow_le_pow_right (by decide) ?_))
  have := Nat.div_lt_of_lt_mul (Nat.mul_comm _ _ ▸ h1)
  omega

theorem val_bound {x : F64} (h : x.finite = true) : -((2 ^ 52 * 2 ^ 2046 : Nat) : Int) < x.val ∧ x.val < ((2 ^ 52 * 2 ^ 2046 : Nat) : Int) := by
  have h1 := F64.finite_lt h
  generalize hB : 2 ^ 52 * 2 ^ 2046 = B at h1 ⊢
  rw [F64.val_eq]
  unfold signed
  split <;> omega

theorem val_pinf : (⟨0x7FF0000000000000⟩ : F64).val = ((2 ^ 52 * 2 ^ 2046 : Nat) : Int) := by decide +kernel
theorem val_ninf : (⟨0xFFF0000000000000⟩ : F64).val = -((2 ^ 52 * 2 ^ 2046 : Nat) : Int) := by decide +kernel

theorem ninf_lt {x : F64} (h : x.finite = true) : (⟨0xFFF0000000000000⟩ : F64).lt x = true := by
  unfold F64.lt
  rw [(F64.finite_nan h).1, val_ninf, decide_eq_true (val_bound h).1]
  decide

theorem lt_pinf {x : F64} (h : x.finite = true) : x.lt (⟨0x7FF0000000000000⟩ : F64) = true := by
  unfold F64.lt
  rw [(F64.finite_nan h).1, val_pinf, decide_eq_true (val_bound h).2]
  decide

/-! ### The largest -/

theorem max_inf (x y : F64) (h : x = (⟨0x7FF0000000000000⟩ : F64) ∨ y = (⟨0x7FF0000000000000⟩ : F64)) : x.max y = (⟨0x7FF0000000000000⟩ : F64) := by
  unfold F64.max
  rw [if_pos h]

theorem max_nan {x y : F64} (hx : x ≠ (⟨0x7FF0000000000000⟩ : F64)) (hy : y ≠ (⟨0x7FF0000000000000⟩ : F64)) (h : x.isNaN = true ∨ y.isNaN = true) : (x.max y).isNaN = true := by
  unfold F64.max
  rw [if_neg (by simp [hx, hy]), if_pos (by simpa using h)]
  decide

theorem max_ne_inf {x y : F64} (hx : x ≠ (⟨0x7FF0000000000000⟩ : F64)) (hy : y ≠ (⟨0x7FF0000000000000⟩ : F64)) : x.max y ≠ (⟨0x7FF0000000000000⟩ : F64) := by
  unfold F64.max
  rw [if_neg (by simp [hx, hy])]
  split
  · decide
  · split
    · split <;> assumption
    · split <;> assumption

theorem max_other {x : F64} (hx : x.finite = true) : x.max (⟨0xFFF0000000000000⟩ : F64) = x := by
  have hlt : (⟨0xFFF0000000000000⟩ : F64).lt x = true := ninf_lt hx
  unfold F64.max
  rw [if_neg (by simp [(F64.finite_ne_inf hx).2]), (F64.finite_nan hx).1, if_neg (by decide), if_neg (by rintro ⟨-, h⟩; revert h; decide +kernel), if_pos hlt]

theorem foldMax_spec (xs : List F32) : ∀ acc : F64,
    ((acc = (⟨0x7FF0000000000000⟩ : F64) ∨ (⟨0x7F800000⟩ : F32) ∈ xs) → xs.foldl (fun m x => m.max x.toF64) acc = (⟨0x7FF0000000000000⟩ : F64)) ∧
    (acc ≠ (⟨0x7FF0000000000000⟩ : F64) → (⟨0x7F800000⟩ : F32) ∉ xs → (acc.isNaN = true ∨ ∃ x ∈ xs, x.isNaN = true) → (xs.foldl (fun m x => m.max x.toF64) acc).isNaN = true) ∧
    (acc.finite = true → (⟨0x7F800000⟩ : F32) ∉ xs → (∀ x ∈ xs, x.isNaN = false) →
      (xs.foldl (fun m x => m.max x.toF64) acc).finite = true ∧ acc.val ≤ (xs.foldl (fun m x => m.max x.toF64) acc).val ∧
      (∀ x ∈ xs, x.finite = true → x.val * 2 ^ 925 ≤ (xs.foldl (fun m x => m.max x.toF64) acc).val) ∧
      (xs.foldl (fun m x => m.max x.toF64) acc = acc ∨
        ∃ x ∈ xs, x.finite = true ∧ x.val * 2 ^ 925 = (xs.foldl (fun m x => m.max x.toF64) acc).val)) := by
  induction xs with
  | nil =>
    intro acc
    exact ⟨fun h => h.elim id fun h => (by cases h), fun _ _ h => h.elim id fun ⟨_, h, _⟩ => (by cases h),
      fun h _ _ => ⟨h, Int.le_refl _, fun _ h => (by cases h), .inl rfl⟩⟩
  | cons x xs ih =>
    intro acc
    obtain ⟨i1, i2, i3⟩ := ih (acc.max x.toF64)
    rw [List.foldl_cons]
    refine ⟨fun h => i1 ?_, fun ha hn h => ?_, fun ha hn h => ?_⟩
    · rcases h with h | h
      · exact .inl (max_inf _ _ (.inl h))
      · rcases List.mem_cons.1 h with h | h
        · exact .inl (max_inf _ _ (.inr (h ▸ toF64_pinf)))
        · exact .inr h
    · have hx : x ≠ (⟨0x7F800000⟩ : F32) := fun e => hn (e ▸ .head _)
      have hx' := toF64_ne_pinf hx
      refine i2 (max_ne_inf ha hx') (fun hm => hn (.tail _ hm)) ?_
      rcases h with h | ⟨y, hy, h⟩
      · exact .inl (max_nan ha hx' (.inl h))
      · rcases List.mem_cons.1 hy with rfl | hy
        · exact .inl (max_nan ha hx' (.inr (toF64_nan h)))
        · exact .inr ⟨y, hy, h⟩
    · have hx : x ≠ (⟨0x7F800000⟩ : F32) := fun e => hn (e ▸ .head _)
      have hm : (⟨0x7F800000⟩ : F32) ∉ xs := fun hm => hn (.tail _ hm)
      have hz : ∀ y ∈ xs, y.isNaN = false := fun y hy => h y (.tail _ hy)
      rcases classify x with hf | hf | hf | hf
      · obtain ⟨e1, e2⟩ := F32.toF64_val hf
        obtain ⟨b1, b2, b3⟩ := F64.max_val ha e2
        have f : (acc.max x.toF64).finite = true := by
          rcases b1 with h | h
          · rw [h]; exact ha
          · rw [h]; exact e2
        obtain ⟨j1, j2, j3, j4⟩ := i3 f hm hz
        rw [e1] at b3
        refine ⟨j1, Int.le_trans b2 j2, ?_, ?_⟩
        · intro y hy hyf
          rcases List.mem_cons.1 hy with rfl | hy
          · exact Int.le_trans b3 j2
          · exact j3 y hy hyf
        · rcases j4 with j | ⟨y, hy, j⟩
          · rcases b1 with h | h
            · exact .inl (j.trans h)
            · exact .inr ⟨x, .head _, hf, by rw [j, h, e1]⟩
          · exact .inr ⟨y, .tail _ hy, j⟩
      · rw [h x (.head _)] at hf; cases hf
      · exact absurd hf hx
      · rw [hf, toF64_ninf, max_other ha] at i3 ⊢
        obtain ⟨j1, j2, j3, j4⟩ := i3 ha hm hz
        refine ⟨j1, j2, ?_, j4.imp id fun ⟨y, hy, j⟩ => ⟨y, .tail _ hy, j⟩⟩
        intro y hy hyf
        rcases List.mem_cons.1 hy with rfl | hy
        · exact absurd hyf (by decide)
        · exact j3 y hy hyf

theorem maxBound_fold (xs : List F32) : MaxBound xs (xs.foldl (fun m x => m.max x.toF64) negMaxFloat64) := by
  obtain ⟨h1, h2, h3⟩ := foldMax_spec xs negMaxFloat64
  refine ⟨fun h => h1 (.inr h), fun hn h => h2 (by decide) hn (.inr h), fun hn h => ?_⟩
  obtain ⟨j1, -, j3, j4⟩ := h3 (by decide) hn h
  refine ⟨j1, j3, ?_⟩
  rcases j4 with j | ⟨x, hx, j⟩
  · by_cases hf : ∃ x ∈ xs, x.finite = true
    · obtain ⟨x, hx, hf⟩ := hf
      have := j3 x hx hf
      rw [j] at this
      exact absurd this (Int.not_le.2 ((val_lt_max hf).2))
    · exact .inr ⟨fun x hx => by simpa using fun e => hf ⟨x, hx, e⟩, j⟩
  · exact .inl ⟨x, hx, j⟩

/-! ### The smallest -/

theorem min_inf (x y : F64) (h : x = (⟨0xFFF0000000000000⟩ : F64) ∨ y = (⟨0xFFF0000000000000⟩ : F64)) : x.min y = (⟨0xFFF0000000000000⟩ : F64) := by
  unfold F64.min
  rw [if_pos h]

theorem min_nan {x y : F64} (hx : x ≠ (⟨0xFFF0000000000000⟩ : F64)) (hy : y ≠ (⟨0xFFF0000000000000⟩ : F64)) (h : x.isNaN = true ∨ y.isNaN = true) : (x.min y).isNaN = true := by
  unfold F64.min
  rw [if_neg (by simp [hx, hy]), if_pos (by simpa using h)]
  decide

theorem min_ne_inf {x y : F64} (hx : x ≠ (⟨0xFFF0000000000000⟩ : F64)) (hy : y ≠ (⟨0xFFF0000000000000⟩ : F64)) : x.min y ≠ (⟨0xFFF0000000000000⟩ : F64) := by
  unfold F64.min
  rw [if_neg (by simp [hx, hy])]
  split
  · decide
  · split
    · split <;> assumption
    · split <;> assumption

theorem min_other {x : F64} (hx : x.finite = true) : x.min (⟨0x7FF0000000000000⟩ : F64) = x := by
  have hlt : x.lt (⟨0x7FF0000000000000⟩ : F64) = true := lt_pinf hx
  unfold F64.min
  rw [if_neg (by simp [(F64.finite_ne_inf hx).1]), (F64.finite_nan hx).1, if_neg (by decide), if_neg (by rintro ⟨-, h⟩; revert h; decide +kernel), if_pos hlt]

theorem foldMin_spec (xs : List F32) : ∀ acc : F64,
    ((acc = (⟨0xFFF0000000000000⟩ : F64) ∨ (⟨0xFF800000⟩ : F32) ∈ xs) → xs.foldl (fun m x => m.min x.toF64) acc = (⟨0xFFF0000000000000⟩ : F64)) ∧
    (acc ≠ (⟨0xFFF0000000000000⟩ : F64) → (⟨0xFF800000⟩ : F32) ∉ xs → (acc.isNaN = true ∨ ∃ x ∈ xs, x.isNaN = true) → (xs.foldl (fun m x => m.min x.toF64) acc).isNaN = true) ∧
    (acc.finite = true → (⟨0xFF800000⟩ : F32) ∉ xs → (∀ x ∈ xs, x.isNaN = false) →
      (xs.foldl (fun m x => m.min x.toF64) acc).finite = true ∧ (xs.foldl (fun m x => m.min x.toF64) acc).val ≤ acc.val ∧
      (∀ x ∈ xs, x.finite = true → (xs.foldl (fun m x => m.min x.toF64) acc).val ≤ x.val * 2 ^ 925) ∧
      (xs.foldl (fun m x => m.min x.toF64) acc = acc ∨
        ∃ x ∈ xs, x.finite = true ∧ x.val * 2 ^ 925 = (xs.foldl (fun m x => m.min x.toF64) acc).val)) := by
  induction xs with
  | nil =>
    intro acc
    exact ⟨fun h => h.elim id fun h => (by cases h), fun _ _ h => h.elim id fun ⟨_, h, _⟩ => (by cases h),
      fun h _ _ => ⟨h, Int.le_refl _, fun _ h => (by cases h), .inl rfl⟩⟩
  | cons x xs ih =>
    intro acc
    obtain ⟨i1, i2, i3⟩ := ih (acc.min x.toF64)
    rw [List.foldl_cons]
    refine ⟨fun h => i1 ?_, fun ha hn h => ?_, fun ha hn h => ?_⟩
    · rcases h with h | h
      · exact .inl (min_inf _ _ (.inl h))
      · rcases List.mem_cons.1 h with h | h
        · exact .inl (min_inf _ _ (.inr (h ▸ toF64_ninf)))
        · exact .inr h
    · have hx : x ≠ (⟨0xFF800000⟩ : F32) := fun e => hn (e ▸ .head _)
      have hx' := toF64_ne_ninf hx
      refine i2 (min_ne_inf ha hx') (fun hm => hn (.tail _ hm)) ?_
      rcases h with h | ⟨y, hy, h⟩
      · exact .inl (min_nan ha hx' (.inl h))
      · rcases List.mem_cons.1 hy with rfl | hy
        · exact .inl (min_nan ha hx' (.inr (toF64_nan h)))
        · exact .inr ⟨y, hy, h⟩
    · have hx : x ≠ (⟨0xFF800000⟩ : F32) := fun e => hn (e ▸ .head _)
      have hm : (⟨0xFF800000⟩ : F32) ∉ xs := fun hm => hn (.tail _ hm)
      have hz : ∀ y ∈ xs, y.isNaN = false := fun y hy => h y (.tail _ hy)
      rcases classify x with hf | hf | hf | hf
      · obtain ⟨e1, e2⟩ := F32.toF64_val hf
        obtain ⟨b1, b2, b3⟩ := F64.min_val ha e2
        have f : (acc.min x.toF64).finite = true := by
          rcases b1 with h | h
          · rw [h]; exact ha
          · rw [h]; exact e2
        obtain ⟨j1, j2, j3, j4⟩ := i3 f hm hz
        rw [e1] at b3
        refine ⟨j1, Int.le_trans j2 b2, ?_, ?_⟩
        · intro y hy hyf
          rcases List.mem_cons.1 hy with rfl | hy
          · exact Int.le_trans j2 b3
          · exact j3 y hy hyf
        · rcases j4 with j | ⟨y, hy, j⟩
          · rcases b1 with h | h
            · exact .inl (j.trans h)
            · exact .inr ⟨x, .head _, hf, by rw [j, h, e1]⟩
          · exact .inr ⟨y, .tail _ hy, j⟩
      · rw [h x (.head _)] at hf; cases hf
      · rw [hf, toF64_pinf, min_other ha] at i3 ⊢
        obtain ⟨j1, j2, j3, j4⟩ := i3 ha hm hz
        refine ⟨j1, j2, ?_, j4.imp id fun ⟨y, hy, j⟩ => ⟨y, .tail _ hy, j⟩⟩
        intro y hy hyf
        rcases List.mem_cons.1 hy with rfl | hy
        · exact absurd hyf (by decide)
        · exact j3 y hy hyf
      · exact absurd hf hx

theorem minBound_fold (xs : List F32) : MinBound xs (xs.foldl (fun m x => m.min x.toF64) maxFloat64) := by
  obtain ⟨h1, h2, h3⟩ := foldMin_spec xs maxFloat64
  refine ⟨fun h => h1 (.inr h), fun hn h => h2 (by decide) hn (.inr h), fun hn h => ?_⟩
  obtain ⟨j1, -, j3, j4⟩ := h3 (by decide) hn h
  refine ⟨j1, j3, ?_⟩
  rcases j4 with j | ⟨x, hx, j⟩
  · by_cases hf : ∃ x ∈ xs, x.finite = true
    · obtain ⟨x, hx, hf⟩ := hf
      have := j3 x hx hf
      rw [j] at this
      exact absurd this (Int.not_le.2 ((val_lt_max hf).1))
    · exact .inr ⟨fun x hx => by simpa using fun e => hf ⟨x, hx, e⟩, j⟩
  · exact .inl ⟨x, hx, j⟩

/-! ### The functions of the modeler -/

theorem foldMinMax_eq (xs : List F32) : ∀ acc : F64 × F64,
    foldMinMax acc xs = (xs.foldl (fun m x => m.min x.toF64) acc.1, xs.foldl (fun m x => m.max x.toF64) acc.2) := by
  induction xs with
  | nil => intro acc; rfl
  | cons x xs ih =>
    intro acc
    show foldMinMax (minMaxStep acc x) xs = _
    rw [ih]
    rfl

theorem minMaxFloat32_all (data : List (V3 F32)) : BoundsOfAll data (minMaxFloat32 data).1.toList (minMaxFloat32 data).2.toList := by
  have h := minMaxFloat32_fold data ⟨maxFloat64, maxFloat64, maxFloat64⟩ ⟨negMaxFloat64, negMaxFloat64, negMaxFloat64⟩
  have h' : minMaxFloat32 data = _ := h
  rw [h']
  simp only [foldMinMax_eq]
  exact ⟨_, _, _, _, _, _, rfl, rfl, minBound_fold _, minBound_fold _, minBound_fold _, maxBound_fold _, maxBound_fold _, maxBound_fold _⟩

/-- The bounds that `WritePosition` stores, for all positions. -/
theorem C98_position_bounds (data : List (V3 F32)) (doc doc' : Document) (i : Nat) (h : writePosition data doc = (doc', .ok i)) :
    ∃ acr, doc'.accessors[i]? = some (some acr) ∧ BoundsOfAll data acr.min acr.max := by
  obtain ⟨d, d2, h1, h2, h3⟩ := writePosition_core h
  obtain ⟨a, ha, -⟩ := modifyAccessor_ok.1 h3
  have hg := modifyAccessor_get (j := i) h3
  rw [if_pos rfl, ha] at hg
  have hg2 := modifyAccessor_get (j := i) h2
  obtain ⟨a0, ha0, -⟩ := modifyAccessor_ok.1 h2
  rw [if_pos rfl, ha0, ha] at hg2
  simp only [Option.map_some, Option.some.injEq] at hg2
  refine ⟨_, hg, ?_⟩
  subst hg2
  exact minMaxFloat32_all data

theorem minBound_not_finite {xs : List F32} {m : F64} (h : MinBound xs m) (hx : ∃ x ∈ xs, x.isNaN = true ∨ x = ⟨0xFF800000⟩) : m.finite = false := by
  by_cases hn : (⟨0xFF800000⟩ : F32) ∈ xs
  · rw [h.infinite hn]; decide
  · obtain ⟨x, hx, hb | hb⟩ := hx
    · have := h.nan hn ⟨x, hx, hb⟩
      cases hf : m.finite with
      | false => rfl
      | true => rw [(F64.finite_nan hf).1] at this; cases this
    · exact absurd (hb ▸ hx) hn

theorem maxBound_not_finite {xs : List F32} {m : F64} (h : MaxBound xs m) (hx : ∃ x ∈ xs, x.isNaN = true ∨ x = ⟨0x7F800000⟩) : m.finite = false := by
  by_cases hn : (⟨0x7F800000⟩ : F32) ∈ xs
  · rw [h.infinite hn]; decide
  · obtain ⟨x, hx, hb | hb⟩ := hx
    · have := h.nan hn ⟨x, hx, hb⟩
      cases hf : m.finite with
      | false => rfl
      | true => rw [(F64.finite_nan hf).1] at this; cases this
    · exact absurd (hb ▸ hx) hn

theorem bound_not_finite {xs : List F32} {m m' : F64} (h : MinBound xs m) (h' : MaxBound xs m') (hx : ∃ x ∈ xs, x.finite = false) :
    m.finite = false ∨ m'.finite = false := by
  obtain ⟨x, hx, hf⟩ := hx
  rcases classify x with hc | hc | hc | hc
  · rw [hf] at hc; cases hc
  · exact .inl (minBound_not_finite h ⟨x, hx, .inl hc⟩)
  · exact .inr (maxBound_not_finite h' ⟨x, hx, .inr hc⟩)
  · exact .inl (minBound_not_finite h ⟨x, hx, .inr hc⟩)

theorem boundsOfAll_finite {data : List (V3 F32)} {min max : List F64} (h : BoundsOfAll data min max) (hf : AllFinite min) (hf' : AllFinite max) :
    ∀ v ∈ data, FiniteVec v := by
  obtain ⟨a, b, c, a', b', c', rfl, rfl, h1, h2, h3, h1', h2', h3'⟩ := h
  simp only [allFinite_cons] at hf hf'
  have key : ∀ {f : V3 F32 → F32} {m m' : F64}, MinBound (data.map f) m → MaxBound (data.map f) m' → m.finite = true → m'.finite = true →
      ∀ v ∈ data, (f v).finite = true := by
    intro f m m' h h' e e' v hv
    cases hx : (f v).finite with
    | true => rfl
    | false =>
      rcases bound_not_finite h h' ⟨f v, List.mem_map_of_mem hv, hx⟩ with h | h
      · rw [e] at h; cases h
      · rw [e'] at h; cases h
  exact fun v hv => ⟨key h1 h1' hf.1 hf'.1 v hv, key h2 h2' hf.2.1 hf'.2.1 v hv, key h3 h3' hf.2.2.1 hf'.2.2.1 v hv⟩

theorem refused_of_bounds {data : List (V3 F32)} {doc : Document} {i : Nat} {acr : Accessor} (ha : doc.accessors[i]? = some (some acr))
    (hb : BoundsOfAll data acr.min acr.max) (hd : ∃ v ∈ data, ¬ FiniteVec v) (E : Env) (U : UrlLib) (o : EncOpts) (w : Sink) (fs : Option CreateFS) :
    (encode E U o doc w fs).result ≠ .ok () ∧ (encode E U o doc w fs).sink = w ∧ (encode E U o doc w fs).fsys = fs := by
  by_cases hn : none ∈ doc.buffers
  · obtain ⟨m, hm⟩ := C97_nil E U o doc w fs hn
    rw [hm]
    exact ⟨by simp, rfl, rfl⟩
  · obtain ⟨v, hv, hf⟩ := hd
    obtain ⟨e, he⟩ := C97_refused E U o doc w fs hn fun hdoc =>
      hf (boundsOfAll_finite hb (hdoc.accessors acr (List.mem_of_getElem? ha)).2.2.1 (hdoc.accessors acr (List.mem_of_getElem? ha)).2.1 v hv)
    rw [he]
    exact ⟨by simp, rfl, rfl⟩

/-- If some position is not finite, `WritePosition` accepts it, but the document can no longer be encoded, now or after further calls: `Encode` fails
and writes nothing. -/
theorem C98_refused (data : List (V3 F32)) (doc doc' doc'' : Document) (i : Nat) (h : writePosition data doc = (doc', .ok i))
    (hd : ∃ v ∈ data, ¬ FiniteVec v) (hh : History doc' doc'') (E : Env) (U : UrlLib) (o : EncOpts) (w : Sink) (fs : Option CreateFS) :
    (encode E U o doc'' w fs).result ≠ .ok () ∧ (encode E U o doc'' w fs).sink = w ∧ (encode E U o doc'' w fs).fsys = fs := by
  obtain ⟨acr, ha, hb⟩ := C98_position_bounds data doc doc' i h
  have ha' : doc''.accessors[i]? = some (some acr) := by
    obtain ⟨t, ht⟩ := hh.extends.accessors
    rw [← ht, List.getElem?_append_left (List.getElem?_eq_some_iff.1 ha).1, ha]
  exact refused_of_bounds ha' hb hd E U o w fs

/-- The bounds that `WritePrimitiveAttributes` stores. -/
theorem C98_attribute_bounds (attr : List PrimitiveAttribute) (doc doc' : Document) (attrs : PrimitiveAttributes)
    (h : writePrimitiveAttributes attr doc = (doc', .ok attrs)) (hok : Interleavable ((nonEmpty attr).map (·.2)))
    (i : Nat) (hi : mapGet attrs b!"POSITION" = some (i : Int)) :
    ∃ (data : List (V3 F32)) (j : Nat) (acr : Accessor), LastNamed (nonEmpty attr) b!"POSITION" j ⟨.base .f32 .v3, data⟩ ∧
      doc'.accessors[i]? = some (some acr) ∧ BoundsOfAll data acr.min acr.max := by
  obtain ⟨h1, -, h3⟩ := C16_attributes_partial attr doc doc' attrs h hok
  obtain ⟨n, j, d, acr, hn, hl, ha, -, -, hm, -⟩ := h1 _ _ hi
  have hn : i = n := by omega
  subst hn
  have hall := h3 _ (List.mem_of_getElem? hl.1)
  have hty : d.ty = .base .f32 .v3 := by
    unfold Allowed at hall
    rw [if_pos rfl] at hall
    simpa using hall
  obtain ⟨ty, v⟩ := d
  cases hty
  obtain ⟨m1, m2⟩ := hm v rfl rfl
  exact ⟨v, j, acr, hl, ha, by rw [m1, m2]; exact minMaxFloat32_all v⟩

/-- If all positions are finite, so are the bounds. -/
theorem C98_finite (data : List (V3 F32)) (doc doc' : Document) (i : Nat) (h : writePosition data doc = (doc', .ok i))
    (hd : ∀ v ∈ data, FiniteVec v) : ∃ acr, doc'.accessors[i]? = some (some acr) ∧ AllFinite acr.min ∧ AllFinite acr.max := by
  obtain ⟨acr, ha, hb⟩ := C18_position_bounds data doc doc' i h hd
  obtain ⟨a, b, c, a', b', c', e, e', h1, h2, h3⟩ := hb
  refine ⟨acr, ha, ?_, ?_⟩
  · rw [e]; simp only [allFinite_cons, allFinite_nil]; exact ⟨h1.1, h2.1, h3.1, trivial⟩
  · rw [e']; simp only [allFinite_cons, allFinite_nil]; exact ⟨h1.2.1, h2.2.1, h3.2.1, trivial⟩

/-- Positions with NaN, both infinities and a finite number: `(NaN, NaN, -Inf)` and `(1, +Inf, -Inf)`. The bounds of the third component are those of no
value. -/
example : ∃ doc' i, writePosition [⟨⟨0x7FC00000⟩, ⟨0x7FC00000⟩, ⟨0xFF800000⟩⟩, ⟨⟨0x3F800000⟩, ⟨0x7F800000⟩, ⟨0xFF800000⟩⟩] {} = (doc', .ok i) ∧
    (doc'.accessors[i]?.join.map fun a => (a.min, a.max)) =
      some ([F64.nan, F64.nan, ⟨0xFFF0000000000000⟩], [F64.nan, ⟨0x7FF0000000000000⟩, ⟨0xFFEFFFFFFFFFFFFF⟩]) ∧
    ¬ FiniteVec ⟨⟨0x3F800000⟩, ⟨0x7F800000⟩, ⟨0xFF800000⟩⟩ := by
  refine ⟨_, 0, rfl, ?_, ?_⟩
  · decide +kernel
  · unfold FiniteVec; decide

end Gltf
