/-
Property C73: normalised integers are read as the nearest floats.
-/
import Verif.Lemmas.Nearest
import Verif.Props.ModelerRead
import Verif.Props.Math

namespace Gltf

open Spec

set_option exponentiation.threshold 3000

theorem roundHalfEven_scale {n d u : Nat} (hu : 0 < u) : roundHalfEven (n * u) (d * u) = roundHalfEven n d := by
  unfold roundHalfEven
  rw [Nat.mul_div_mul_right _ _ hu, Nat.mul_mod_mul_right]
  have e1 : (2 * (n % d * u) < d * u) ↔ 2 * (n % d) < d := by
    rw [← Nat.mul_assoc]; exact Nat.mul_lt_mul_right hu
  have e2 : (d * u < 2 * (n % d * u)) ↔ d < 2 * (n % d) := by
    rw [← Nat.mul_assoc]; exact Nat.mul_lt_mul_right hu
  simp only [e1, e2]

theorem roundMag_scale {w n d u : Nat} (hu : 0 < u) : roundMag w (n * u) (d * u) = roundMag w n d := by
  unfold roundMag
  rw [Nat.mul_div_mul_right _ _ hu]
  simp only []
  rw [show ∀ s, d * u * s = d * s * u from fun s => by ac_rfl, roundHalfEven_scale hu]

theorem denU_eq (K v : Nat) : denU K v = rnd32 (v * 2 ^ 149) K := by
  unfold denU rnd32
  rw [roundMag_scale (Nat.two_pow_pos _)]

theorem signed_opposite (n : Nat) : signed true n = -signed false n := by
  simp [signed]

theorem scaled_fraction {v K U : ℚ} (hU : U ≠ 0) : v / K = (if false = true then -1 else 1) * (v * U / (K * U)) := by
  rw [mul_div_mul_right _ _ hU]
  simp

theorem nearest_unsigned {K v : Nat} (hK : 0 < K) (hK2 : K < 2 ^ 16) (h : v ≤ K) :
    NearestF32 ((v : ℚ) / K) ((F32.ofNat v).div (F32.ofNat K)) := by
  obtain ⟨h1, h2⟩ := denU_val hK hK2 h
  have := nearest_round (x := (F32.ofNat v).div (F32.ofNat K)) (b := false) (N := v * 2 ^ 149) hK h2 (by rw [h1, denU_eq]; rfl)
  convert this using 1
  rw [Nat.cast_mul, Nat.cast_pow, Nat.cast_ofNat]
  exact scaled_fraction (pow_ne_zero _ two_ne_zero)

theorem clamp_neg {K : Nat} {i : Int} (hK : 0 < K) (h : i < 0) :
    max ((i : ℚ) / K) (-1) = -(((min i.natAbs K : Nat) : ℚ) / K) := by
  have hq : (0 : ℚ) < K := by exact_mod_cast hK
  by_cases hb : i.natAbs ≤ K
  · rw [Nat.min_eq_left hb]
    have e : (i.natAbs : ℚ) = -(i : ℚ) := by
      rw [Nat.cast_natAbs, abs_of_neg h]
      push_cast
      rfl
    rw [e, max_eq_left]
    · ring
    · rw [le_div_iff₀ hq]
      have : (-(K : Int)) ≤ i := by omega
      have : ((-(K : Int) : Int) : ℚ) ≤ (i : ℚ) := by exact_mod_cast this
      push_cast at this
      linarith
  · rw [Nat.min_eq_right (by omega), div_self (ne_of_gt hq), max_eq_right]
    rw [div_le_iff₀ hq]
    have : i ≤ -(K : Int) := by omega
    have : (i : ℚ) ≤ ((-(K : Int) : Int) : ℚ) := by exact_mod_cast this
    push_cast at this
    linarith

theorem clamp_nonneg {K : Nat} {i : Int} (hK : 0 < K) (h : ¬ i < 0) : max ((i : ℚ) / K) (-1) = (i.natAbs : ℚ) / K := by
  have hq : (0 : ℚ) < K := by exact_mod_cast hK
  rw [Nat.cast_natAbs, abs_of_nonneg (by omega), max_eq_left]
  have : (0 : ℚ) ≤ i := by exact_mod_cast (show 0 ≤ i by omega)
  have := div_nonneg this (le_of_lt hq)
  linarith

theorem nearest_signed {K : Nat} {i : Int} (hK : 1 < K) (hK2 : K < 2 ^ 16) (hodd : K % 2 = 1) (h : i ≤ K) (h' : -(K : Int) - 1 ≤ i) :
    NearestF32 (max ((i : ℚ) / K) (-1)) (((F64.ofInt i).div (F64.ofInt K)).max (F64.ofInt (-1))).toF32 := by
  have hK0 : 0 < K := by omega
  have b1 : ((min i.natAbs K : Nat) : Int) ≤ K := by omega
  have b2 : -(K : Int) - 1 ≤ ((min i.natAbs K : Nat) : Int) := by omega
  have b3 : ¬ ((min i.natAbs K : Nat) : Int) < 0 := by omega
  have b4 : min i.natAbs K ≤ K := by omega
  have b5 : min (((min i.natAbs K : Nat) : Int).natAbs) K = min i.natAbs K := by omega
  have b6 : ¬ i < 0 → i.natAbs ≤ K := by omega
  obtain ⟨h1, h2⟩ := denS_val hK0 hK2 h h'
  by_cases hi : i < 0
  · rw [decide_eq_true hi] at h1
    -- the same with the opposite sign
    obtain ⟨g1, g2⟩ := denS_val (K := K) (i := ((min i.natAbs K : Nat) : Int)) hK0 hK2 b1 b2
    rw [decide_eq_false b3, b5] at g1
    have h3 := nearest_denS hK hK2 hodd b4 g2 g1
    rw [clamp_neg hK0 hi]
    exact nearest_neg h2 (by rw [h1, g1, signed_opposite]) h3
  · rw [decide_eq_false hi, Nat.min_eq_left (b6 hi)] at h1
    rw [clamp_nonneg hK0 hi]
    exact nearest_denS hK hK2 hodd (b6 hi) h2 h1

/-- C73, the functions: the denormalised integer is the `float32` that is nearest to the fraction, for signed integers
not below -1. -/
theorem C73_denormalize :
    (∀ v : UInt8, NearestF32 ((v.toNat : ℚ) / 255) (denormalizeUbyte v)) ∧
    (∀ v : UInt16, NearestF32 ((v.toNat : ℚ) / 65535) (denormalizeUshort v)) ∧
    (∀ v : Int8, NearestF32 (max ((v.toInt : ℚ) / 127) (-1)) (denormalizeByte v)) ∧
    (∀ v : Int16, NearestF32 (max ((v.toInt : ℚ) / 32767) (-1)) (denormalizeShort v)) := by
  refine ⟨fun v => ?_, fun v => ?_, fun v => ?_, fun v => ?_⟩
  · exact nearest_unsigned (K := 255) (by decide) (by decide) (by have := v.toNat_lt; omega)
  · exact nearest_unsigned (K := 65535) (by decide) (by decide) (by have := v.toNat_lt; omega)
  · exact nearest_signed (K := 127) (by decide) (by decide) (by decide) (by have := v.toInt_lt; omega) (by have := v.le_toInt; omega)
  · exact nearest_signed (K := 32767) (by decide) (by decide) (by decide) (by have := v.toInt_lt; omega) (by have := v.le_toInt; omega)

/-- The statement of C73 for one reader with elements of type `t`: the elements are those that `ReadAccessor` finds, and
every component is the float that stands for the component at the same place. -/
def ReadsLevels (s : Shape) (f : TypedReader (s.A F32)) : Prop :=
  ∀ doc acr buffer r b0 p, f doc acr buffer b0 p = .ok r → (acr.count ≠ 0 ∨ buffer = []) →
    ∃ d, readAccessor doc acr b0 p = .ok d ∧ shape d.ty = s ∧ r.length = d.data.length ∧
      ∀ (i : Nat) e x row col v y, d.data[i]? = some e → r[i]? = some x → component d.ty e row col = some v →
        arrayComponent s x row col = some y → Level (kind d.ty) v y

theorem level_u8 (v : UInt8) : Level .u8 v (denormalizeUbyte v) := C73_denormalize.1 v
theorem level_u16 (v : UInt16) : Level .u16 v (denormalizeUshort v) := C73_denormalize.2.1 v
theorem level_f32 (v : F32) : Level .f32 v v := rfl

theorem levels_v2 {k : Kind} {f : k.T → F32} (hf : ∀ v, Level k v (f v)) (d : List (V2 k.T)) (i : Nat) (e : V2 k.T) (x : V2 F32)
    (row col : Nat) (v : k.T) (y : F32) (he : d[i]? = some e) (hx : (d.map fun e => (⟨f e.x0, f e.x1⟩ : V2 F32))[i]? = some x)
    (hv : component (.base k .v2) e row col = some v) (hy : arrayComponent .v2 x row col = some y) : Level k v y := by
  rw [List.getElem?_map, he] at hx
  cases hx
  simp only [component, arrayComponent] at hv hy
  split at hv
  · next hc =>
    rw [if_pos hc] at hy
    match row with
    | 0 => cases hv; cases hy; exact hf _
    | 1 => cases hv; cases hy; exact hf _
    | _ + 2 => cases hv
  · cases hv

theorem levels_v4 {k : Kind} {f : k.T → F32} (hf : ∀ v, Level k v (f v)) (d : List (V4 k.T)) (i : Nat) (e : V4 k.T) (x : V4 F32)
    (row col : Nat) (v : k.T) (y : F32) (he : d[i]? = some e)
    (hx : (d.map fun e => (⟨f e.x0, f e.x1, f e.x2, f e.x3⟩ : V4 F32))[i]? = some x)
    (hv : component (.base k .v4) e row col = some v) (hy : arrayComponent .v4 x row col = some y) : Level k v y := by
  rw [List.getElem?_map, he] at hx
  cases hx
  simp only [component, arrayComponent] at hv hy
  split at hv
  · next hc =>
    rw [if_pos hc] at hy
    match row with
    | 0 => cases hv; cases hy; exact hf _
    | 1 => cases hv; cases hy; exact hf _
    | 2 => cases hv; cases hy; exact hf _
    | 3 => cases hv; cases hy; exact hf _
    | _ + 4 => cases hv
  · cases hv

theorem levels_f32 {s : Shape} (d : List (s.A F32)) (i : Nat) (e x : s.A F32) (row col : Nat) (v y : F32) (he : d[i]? = some e)
    (hx : d[i]? = some x) (hv : component (.base .f32 s) e row col = some v) (hy : arrayComponent s x row col = some y) :
    Level .f32 v y := by
  rw [he] at hx
  cases hx
  have h : arrayComponent s e row col = some v := hv
  rw [h] at hy
  cases hy
  exact level_f32 _

/-- C73, the readers. -/
theorem C73_readers : ReadsLevels .v2 readTextureCoord ∧ ReadsLevels .v4 readWeights := by
  constructor
  · intro doc acr buffer r b0 p h hb
    obtain ⟨k, s, d, h1, h2, rfl⟩ := typedBody_inv texCoord_converts (fun _ _ => checkNormalized_accepts.1) h hb
    refine ⟨_, h1, ?_⟩
    cases k <;> cases s
    case u8.v2 => exact ⟨rfl, List.length_map _, fun i e x row col v y => levels_v2 level_u8 d i e x row col v y⟩
    case u16.v2 => exact ⟨rfl, List.length_map _, fun i e x row col v y => levels_v2 level_u16 d i e x row col v y⟩
    case f32.v2 => exact ⟨rfl, rfl, fun i e x row col v y => levels_f32 (s := .v2) d i e x row col v y⟩
    all_goals exact absurd h2 (by decide)
  · intro doc acr buffer r b0 p h hb
    obtain ⟨k, s, d, h1, h2, rfl⟩ := typedBody_inv weights_converts (fun _ _ => checkNormalized_accepts.1) h hb
    refine ⟨_, h1, ?_⟩
    cases k <;> cases s
    case u8.v4 => exact ⟨rfl, List.length_map _, fun i e x row col v y => levels_v4 level_u8 d i e x row col v y⟩
    case u16.v4 => exact ⟨rfl, List.length_map _, fun i e x row col v y => levels_v4 level_u16 d i e x row col v y⟩
    case f32.v4 => exact ⟨rfl, rfl, fun i e x row col v y => levels_f32 (s := .v4) d i e x row col v y⟩
    all_goals exact absurd h2 (by decide)

/-- Two texture coordinates of 8 bits: 51/255 is 0.2 as a `float32`. -/
example : ∃ doc', writeTextureCoord ⟨.base .u8 .v2, [⟨51, 255⟩, ⟨0, 102⟩]⟩ {} = (doc', .ok 0) ∧
    (doc'.accessors[0]?.join.map fun acr => readTextureCoord doc' acr [] [9, 9, 9] ⟨[], [], []⟩) =
      some (.ok [⟨⟨0x3E4CCCCD⟩, ⟨0x3F800000⟩⟩, ⟨⟨0⟩, ⟨0x3ECCCCCD⟩⟩]) :=
  ⟨_, outcome (by decide +kernel), by decide +kernel⟩

end Gltf
