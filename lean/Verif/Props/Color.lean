/-
C68, C69 and C70: colours and normalised numbers.
-/
import Verif.Lemmas.ColorWhite
import Verif.Lemmas.ColorPow

namespace Gltf

set_option exponentiation.threshold 3000

/-- The channel is the same or one less. -/
def Spec.SameOrLess (n m : Nat) : Prop := m = n ∨ m + 1 = n

/-! ### C68 -/

theorem channel8 {pow : Pow} (hp : Spec.PowAccurate pow) (v : UInt8) :
    ∃ n, encodeChannel pow 255 (decodeChannel pow 255 v.toNat) = some n ∧ Spec.SameOrLess v.toNat (UInt8.ofNat n).toNat := by
  have hlt := v.toNat_lt
  by_cases h0 : v.toNat = 0
  · rw [h0, decodeChannel_zero pow (.inl rfl), encodeChannel_zero pow (.inl rfl)]
    exact ⟨0, rfl, .inl rfl⟩
  · rw [encode_decode_channel hp (by decide) (by omega) (by omega)]
    split
    · exact ⟨_, rfl, .inl (by simp)⟩
    · refine ⟨_, rfl, .inr ?_⟩
      rw [UInt8.toNat_ofNat']
      omega

theorem channel16 {pow : Pow} (hp : Spec.PowAccurate pow) (v : UInt16) :
    ∃ n, encodeChannel pow 65535 (decodeChannel pow 65535 v.toNat) = some n ∧ Spec.SameOrLess v.toNat (UInt16.ofNat n).toNat := by
  have hlt := v.toNat_lt
  by_cases h0 : v.toNat = 0
  · rw [h0, decodeChannel_zero pow (.inr rfl), encodeChannel_zero pow (.inr rfl)]
    exact ⟨0, rfl, .inl rfl⟩
  · rw [encode_decode_channel hp (by decide) (by omega) (by omega)]
    split
    · exact ⟨_, rfl, .inl (by simp)⟩
    · refine ⟨_, rfl, .inr ?_⟩
      rw [UInt16.toNat_ofNat']
      omega

/-- C68, `NormalizeRGB` after `DenormalizeRGB`. Full statement: the result is `v`. Missing: channels that come back
one less (`C68_full_fails`). -/
theorem C68_rgb_partial {pow : Pow} (hp : Spec.PowAccurate pow) (v : Vector UInt8 3) :
    ∃ w, normalizeRGB pow (denormalizeRGB pow v) = some w ∧
      ∀ i (h : i < 3), Spec.SameOrLess v[i].toNat w[i].toNat := by
  obtain ⟨r, r1, r2⟩ := channel8 hp v[0]
  obtain ⟨g, g1, g2⟩ := channel8 hp v[1]
  obtain ⟨b, b1, b2⟩ := channel8 hp v[2]
  refine ⟨#v[UInt8.ofNat r, UInt8.ofNat g, UInt8.ofNat b], ?_, ?_⟩
  · unfold normalizeRGB denormalizeRGB
    simp [r1, g1, b1]
  · intro i h
    match i, h with
    | 0, _ => exact r2
    | 1, _ => exact g2
    | 2, _ => exact b2

/-- C68, `NormalizeRGB64` after `DenormalizeRGB64`. Missing as in `C68_rgb_partial`. -/
theorem C68_rgb64_partial {pow : Pow} (hp : Spec.PowAccurate pow) (v : Vector UInt16 3) :
    ∃ w, normalizeRGB64 pow (denormalizeRGB64 pow v) = some w ∧
      ∀ i (h : i < 3), Spec.SameOrLess v[i].toNat w[i].toNat := by
  obtain ⟨r, r1, r2⟩ := channel16 hp v[0]
  obtain ⟨g, g1, g2⟩ := channel16 hp v[1]
  obtain ⟨b, b1, b2⟩ := channel16 hp v[2]
  refine ⟨#v[UInt16.ofNat r, UInt16.ofNat g, UInt16.ofNat b], ?_, ?_⟩
  · unfold normalizeRGB64 denormalizeRGB64
    simp [r1, g1, b1]
  · intro i h
    match i, h with
    | 0, _ => exact r2
    | 1, _ => exact g2
    | 2, _ => exact b2

/-- C68, `NormalizeRGBA` after `DenormalizeRGBA`. Alpha always comes back. -/
theorem C68_rgba_partial {pow : Pow} (hp : Spec.PowAccurate pow) (v : Vector UInt8 4) :
    ∃ w, normalizeRGBA pow (denormalizeRGBA pow v) = some w ∧
      (∀ i (h : i < 3), Spec.SameOrLess v[i].toNat w[i].toNat) ∧ w[3] = v[3] := by
  obtain ⟨r, r1, r2⟩ := channel8 hp v[0]
  obtain ⟨g, g1, g2⟩ := channel8 hp v[1]
  obtain ⟨b, b1, b2⟩ := channel8 hp v[2]
  have a1 := encode_decode_alpha (K := 255) (v := v[3].toNat) (.inl rfl) (by have := v[3].toNat_lt; omega)
  refine ⟨#v[UInt8.ofNat r, UInt8.ofNat g, UInt8.ofNat b, v[3]], ?_, ?_, rfl⟩
  · unfold normalizeRGBA denormalizeRGBA
    simp [r1, g1, b1, a1]
  · intro i h
    match i, h with
    | 0, _ => exact r2
    | 1, _ => exact g2
    | 2, _ => exact b2

/-- C68, `NormalizeRGBA64` after `DenormalizeRGBA64`. Alpha always comes back. -/
theorem C68_rgba64_partial {pow : Pow} (hp : Spec.PowAccurate pow) (v : Vector UInt16 4) :
    ∃ w, normalizeRGBA64 pow (denormalizeRGBA64 pow v) = some w ∧
      (∀ i (h : i < 3), Spec.SameOrLess v[i].toNat w[i].toNat) ∧ w[3] = v[3] := by
  obtain ⟨r, r1, r2⟩ := channel16 hp v[0]
  obtain ⟨g, g1, g2⟩ := channel16 hp v[1]
  obtain ⟨b, b1, b2⟩ := channel16 hp v[2]
  have a1 := encode_decode_alpha (K := 65535) (v := v[3].toNat) (.inr rfl) (by have := v[3].toNat_lt; omega)
  refine ⟨#v[UInt16.ofNat r, UInt16.ofNat g, UInt16.ofNat b, v[3]], ?_, ?_, rfl⟩
  · unfold normalizeRGBA64 denormalizeRGBA64
    simp [r1, g1, b1, a1]
  · intro i h
    match i, h with
    | 0, _ => exact r2
    | 1, _ => exact g2
    | 2, _ => exact b2

/-- C68 does not hold: white becomes 254 and 65534, with every accurate `math.Pow`. -/
theorem C68_full_fails {pow : Pow} (hp : Spec.PowAccurate pow) :
    normalizeRGB pow (denormalizeRGB pow #v[255, 255, 255]) = some #v[254, 254, 254] ∧
    normalizeRGBA pow (denormalizeRGBA pow #v[255, 255, 255, 255]) = some #v[254, 254, 254, 255] ∧
    normalizeRGB64 pow (denormalizeRGB64 pow #v[65535, 65535, 65535]) = some #v[65534, 65534, 65534] ∧
    normalizeRGBA64 pow (denormalizeRGBA64 pow #v[65535, 65535, 65535, 65535]) = some #v[65534, 65534, 65534, 65535] := by
  have h1 := encode_decode_white hp (K := 255) (.inl rfl)
  have h2 := encode_decode_white hp (K := 65535) (.inr rfl)
  have a1 := encode_decode_alpha (K := 255) (v := 255) (.inl rfl) (by decide)
  have a2 := encode_decode_alpha (K := 65535) (v := 65535) (.inr rfl) (by decide)
  refine ⟨?_, ?_, ?_, ?_⟩
  · change Option.bind (encodeChannel pow 255 (decodeChannel pow 255 255)) (fun _ => Option.bind (encodeChannel pow 255 (decodeChannel pow 255 255))
      fun _ => Option.bind (encodeChannel pow 255 (decodeChannel pow 255 255)) _) = _
    rw [h1]
    rfl
  · change Option.bind (encodeChannel pow 255 (decodeChannel pow 255 255)) (fun _ => Option.bind (encodeChannel pow 255 (decodeChannel pow 255 255))
      fun _ => Option.bind (encodeChannel pow 255 (decodeChannel pow 255 255)) fun _ =>
      Option.bind (encodeAlpha 255 (decodeAlpha 255 255)) _) = _
    rw [h1, a1]
    rfl
  · change Option.bind (encodeChannel pow 65535 (decodeChannel pow 65535 65535)) (fun _ =>
      Option.bind (encodeChannel pow 65535 (decodeChannel pow 65535 65535))
      fun _ => Option.bind (encodeChannel pow 65535 (decodeChannel pow 65535 65535)) _) = _
    rw [h2]
    rfl
  · change Option.bind (encodeChannel pow 65535 (decodeChannel pow 65535 65535)) (fun _ =>
      Option.bind (encodeChannel pow 65535 (decodeChannel pow 65535 65535))
      fun _ => Option.bind (encodeChannel pow 65535 (decodeChannel pow 65535 65535)) fun _ =>
      Option.bind (encodeAlpha 65535 (decodeAlpha 65535 65535)) _) = _
    rw [h2, a2]
    rfl

/-- A dark colour does not need `math.Pow`. -/
theorem dark_channel (pow : Pow) {K v : Nat} (h1 : (decodeAlpha K v).le (F32.ofRat 4045 100000) = true)
    (h2 : ((decodeAlpha K v).div (F32.ofRat 1292 100)).lt (F32.ofRat 31308 10000000) = true) :
    encodeChannel pow K (decodeChannel pow K v) =
      ((((decodeAlpha K v).div (F32.ofRat 1292 100)).mul (F32.ofRat 1292 100)).mul (F32.ofNat K)).truncTo K := by
  have e : decodeChannel pow K v = (decodeAlpha K v).div (F32.ofRat 1292 100) := by
    change linearize pow (decodeAlpha K v) = _
    unfold linearize
    rw [if_pos h1]
  unfold encodeChannel deliniarize
  rw [e, if_pos h2]

/-- Dark colours do not all come back either; here `math.Pow` is not used at all. -/
theorem C68_dark (pow : Pow) : encodeChannel pow 65535 (decodeChannel pow 65535 53) = some 52 := by
  rw [dark_channel pow (by decide +kernel) (by decide +kernel)]
  decide +kernel

/-- There are accurate power functions. -/
example : ∃ pow : Pow, Spec.PowAccurate pow := exists_powAccurate

/-- Black and some dark colours come back, with every power function. -/
example (pow : Pow) : encodeChannel pow 255 (decodeChannel pow 255 0) = some 0 ∧
    encodeChannel pow 255 (decodeChannel pow 255 10) = some 10 := by
  constructor
  · rw [decodeChannel_zero pow (.inl rfl), encodeChannel_zero pow (.inl rfl)]
  · rw [dark_channel pow (by decide +kernel) (by decide +kernel)]
    decide +kernel

/-! ### C69 -/

/-- A strictly increasing function from the integers up to `max` to finite numbers from 0 to 1, with 0 at 0. -/
structure Spec.Increasing (max : Nat) (f : Nat → F32) : Prop where
  finite : ∀ n, n ≤ max → (f n).finite = true
  nonneg : ∀ n, n ≤ max → 0 ≤ (f n).q
  le_one : ∀ n, n ≤ max → (f n).q ≤ 1
  zero : f 0 = ⟨0⟩
  lt : ∀ n m, n < m → m ≤ max → (f n).q < (f m).q

theorem increasing_channel {pow : Pow} (hp : Spec.PowAccurate pow) {K : Nat} (hK : K = 255 ∨ K = 65535) :
    Spec.Increasing K (decodeChannel pow K) where
  finite n h := (decodeChannel_range hp hK h).1
  nonneg n h := (decodeChannel_range hp hK h).2.2.1
  le_one n h := by
    have := (decodeChannel_range hp hK h).2.2.2
    norm_num at *
    linarith
  zero := decodeChannel_zero pow hK
  lt n m h1 h2 := decodeChannel_lt hp hK h1 h2

theorem decodeAlpha_zero {K : Nat} (hK : K = 255 ∨ K = 65535) : decodeAlpha K 0 = ⟨0⟩ := by
  rcases hK with rfl | rfl <;> decide +kernel

theorem increasing_alpha {K : Nat} (hK : K = 255 ∨ K = 65535) : Spec.Increasing K (decodeAlpha K) := by
  have hK2 : K < 2 ^ 16 := by rcases hK with rfl | rfl <;> decide
  have hK1 : 0 < K := by rcases hK with rfl | rfl <;> decide
  have hq : ∀ n, n ≤ K → (decodeAlpha K n).q = denU K n / 2 ^ 149 := by
    intro n h
    have e := (denU_val hK1 hK2 h).1
    change (decodeAlpha K n).val = _ at e
    unfold F32.q
    rw [e, Int.cast_natCast]
  refine ⟨fun n h => (denU_val hK1 hK2 h).2, fun n h => ?_, fun n h => ?_, decodeAlpha_zero hK, fun n m h1 h2 => ?_⟩
  · rw [hq n h]
    positivity
  · rw [hq n h, div_le_one (by positivity)]
    exact_mod_cast denU_le hK1 h
  · by_cases h0 : n = 0
    · subst h0
      rw [decodeAlpha_zero hK]
      have := (chan_decodeAlpha hK2 (by omega) h2).lo
      unfold F32.q at *
      rw [show (⟨0⟩ : F32).val = 0 by decide +kernel, Int.cast_zero, zero_div]
      exact lt_of_lt_of_le (by positivity) this
    · have := decodeAlpha_gap hK2 (by omega : 1 ≤ n) h1 h2
      norm_num at *
      linarith

theorem rgb_get {α β : Type} (f : α → β) (v : Vector α 3) (i : Nat) (h : i < 3) : (#v[f v[0], f v[1], f v[2]])[i] = f v[i] := by
  match i, h with
  | 0, _ => rfl
  | 1, _ => rfl
  | 2, _ => rfl

theorem rgba_get {α β : Type} (f g : α → β) (v : Vector α 4) :
    (∀ i (h : i < 3), (#v[f v[0], f v[1], f v[2], g v[3]])[i] = f v[i]) ∧ (#v[f v[0], f v[1], f v[2], g v[3]])[3] = g v[3] := by
  refine ⟨fun i h => ?_, rfl⟩
  match i, h with
  | 0, _ => rfl
  | 1, _ => rfl
  | 2, _ => rfl

/-- C69: `DenormalizeRGB` and `DenormalizeRGB64`. Every component of the result is an increasing function of the
channel. Full statement: the largest value gives 1. Missing: this, see `C69_full_fails`. -/
theorem C69_rgb_partial {pow : Pow} (hp : Spec.PowAccurate pow) :
    (∃ f, Spec.Increasing 255 f ∧ ∀ v i (h : i < 3), (denormalizeRGB pow v)[i] = f v[i].toNat) ∧
    (∃ f, Spec.Increasing 65535 f ∧ ∀ v i (h : i < 3), (denormalizeRGB64 pow v)[i] = f v[i].toNat) :=
  ⟨⟨decodeChannel pow 255, increasing_channel hp (.inl rfl), fun v i h => rgb_get (fun x : UInt8 => decodeChannel pow 255 x.toNat) v i h⟩,
    ⟨decodeChannel pow 65535, increasing_channel hp (.inr rfl), fun v i h => rgb_get (fun x : UInt16 => decodeChannel pow 65535 x.toNat) v i h⟩⟩

/-- C69: `DenormalizeRGBA` and `DenormalizeRGBA64`. Alpha also has 1 for its largest value. -/
theorem C69_rgba_partial {pow : Pow} (hp : Spec.PowAccurate pow) :
    (∃ f a, Spec.Increasing 255 f ∧ Spec.Increasing 255 a ∧ a 255 = F32.ofNat 1 ∧
      ∀ v, (∀ i (h : i < 3), (denormalizeRGBA pow v)[i] = f v[i].toNat) ∧ (denormalizeRGBA pow v)[3] = a v[3].toNat) ∧
    (∃ f a, Spec.Increasing 65535 f ∧ Spec.Increasing 65535 a ∧ a 65535 = F32.ofNat 1 ∧
      ∀ v, (∀ i (h : i < 3), (denormalizeRGBA64 pow v)[i] = f v[i].toNat) ∧ (denormalizeRGBA64 pow v)[3] = a v[3].toNat) :=
  ⟨⟨decodeChannel pow 255, decodeAlpha 255, increasing_channel hp (.inl rfl), increasing_alpha (.inl rfl), decodeAlpha_max (.inl rfl),
      fun v => rgba_get (fun x : UInt8 => decodeChannel pow 255 x.toNat) (fun x : UInt8 => decodeAlpha 255 x.toNat) v⟩,
    ⟨decodeChannel pow 65535, decodeAlpha 65535, increasing_channel hp (.inr rfl), increasing_alpha (.inr rfl), decodeAlpha_max (.inr rfl),
      fun v => rgba_get (fun x : UInt16 => decodeChannel pow 65535 x.toNat) (fun x : UInt16 => decodeAlpha 65535 x.toNat) v⟩⟩

/-- Different colours stay different. -/
theorem C69_injective {pow : Pow} (hp : Spec.PowAccurate pow) :
    (∀ v w, denormalizeRGB pow v = denormalizeRGB pow w → v = w) ∧
    (∀ v w, denormalizeRGB64 pow v = denormalizeRGB64 pow w → v = w) ∧
    (∀ v w, denormalizeRGBA pow v = denormalizeRGBA pow w → v = w) ∧
    (∀ v w, denormalizeRGBA64 pow v = denormalizeRGBA64 pow w → v = w) := by
  have inj : ∀ {K : Nat} {f : Nat → F32}, Spec.Increasing K f → ∀ {n m : Nat}, n ≤ K → m ≤ K → f n = f m → n = m := by
    intro K f hf n m hn hm h
    rcases Nat.lt_trichotomy n m with h1 | h1 | h1
    · have := hf.lt n m h1 hm
      rw [h] at this
      exact absurd this (lt_irrefl _)
    · exact h1
    · have := hf.lt m n h1 hn
      rw [h] at this
      exact absurd this (lt_irrefl _)
  have le8 : ∀ x : UInt8, x.toNat ≤ 255 := fun x => by have := x.toNat_lt; omega
  have le16 : ∀ x : UInt16, x.toNat ≤ 65535 := fun x => by have := x.toNat_lt; omega
  obtain ⟨⟨f, hf, ef⟩, ⟨g, hg, eg⟩⟩ := C69_rgb_partial hp
  obtain ⟨⟨p, a, hP, ha, -, ep⟩, ⟨q, b, hq, hb, -, eq⟩⟩ := C69_rgba_partial hp
  refine ⟨fun v w h => ?_, fun v w h => ?_, fun v w h => ?_, fun v w h => ?_⟩
  · ext i hi
    have := ef v i hi
    rw [h, ef w i hi] at this
    exact (inj hf (le8 _) (le8 _) this).symm
  · ext i hi
    have := eg v i hi
    rw [h, eg w i hi] at this
    exact (inj hg (le16 _) (le16 _) this).symm
  · ext i hi
    by_cases h3 : i < 3
    · have := (ep v).1 i h3
      rw [h, (ep w).1 i h3] at this
      exact (inj hP (le8 _) (le8 _) this).symm
    · obtain rfl : i = 3 := by omega
      have := (ep v).2
      rw [h, (ep w).2] at this
      exact (inj ha (le8 _) (le8 _) this).symm
  · ext i hi
    by_cases h3 : i < 3
    · have := (eq v).1 i h3
      rw [h, (eq w).1 i h3] at this
      exact (inj hq (le16 _) (le16 _) this).symm
    · obtain rfl : i = 3 := by omega
      have := (eq v).2
      rw [h, (eq w).2] at this
      exact (inj hb (le16 _) (le16 _) this).symm

/-- C69 does not hold: the channels of white become 1 - 2^-23, with every accurate `math.Pow`. -/
theorem C69_full_fails {pow : Pow} (hp : Spec.PowAccurate pow) :
    (∀ i (h : i < 3), (denormalizeRGB pow #v[255, 255, 255])[i].q = 1 - 1 / 2 ^ 23) ∧
    (∀ i (h : i < 3), (denormalizeRGB64 pow #v[65535, 65535, 65535])[i].q = 1 - 1 / 2 ^ 23) := by
  have h1 : (decodeChannel pow 255 255).q = 1 - 1 / 2 ^ 23 := by
    change (linearize pow (decodeAlpha 255 255)).q = _
    rw [decodeAlpha_max (.inl rfl)]
    exact (linearize_one hp).1
  have h2 : (decodeChannel pow 65535 65535).q = 1 - 1 / 2 ^ 23 := by
    change (linearize pow (decodeAlpha 65535 65535)).q = _
    rw [decodeAlpha_max (.inr rfl)]
    exact (linearize_one hp).1
  constructor
  · intro i h
    match i, h with
    | 0, _ => exact h1
    | 1, _ => exact h1
    | 2, _ => exact h1
  · intro i h
    match i, h with
    | 0, _ => exact h2
    | 1, _ => exact h2
    | 2, _ => exact h2

/-- The dark half of the curve is the straight line, and alpha is linear. -/
example (pow : Pow) : (denormalizeRGBA pow #v[10, 0, 5, 51])[0] = ⟨994503521⟩ ∧ (denormalizeRGBA pow #v[10, 0, 5, 51])[3] = ⟨1045220557⟩ := by
  constructor
  · change linearize pow (decodeAlpha 255 10) = _
    unfold linearize
    rw [if_pos (by decide +kernel)]
    decide +kernel
  · change decodeAlpha 255 51 = _
    decide +kernel

/-! ### C70 -/

/-- The integer nearest to `t`; at ties either. -/
def Spec.Nearest (t : ℚ) (n : Int) : Prop := |(n : ℚ) - t| ≤ 1 / 2

theorem rndInt_nearest (n : Nat) : |(rndInt n : ℚ) - n / 2 ^ 1074| ≤ 1 / 2 := by
  have hp : (0 : ℚ) < 2 ^ 1074 := by positivity
  have hpn : 0 < 2 ^ 1074 := Nat.two_pow_pos _
  have h1 : rndInt n * (2 * 2 ^ 1074) ≤ 2 * n + 2 ^ 1074 := Nat.div_mul_le_self _ _
  have h2 : 2 * n + 2 ^ 1074 < rndInt n * (2 * 2 ^ 1074) + 2 * 2 ^ 1074 := by
    have := Nat.lt_div_mul_add (a := 2 * n + 2 ^ 1074) (b := 2 * 2 ^ 1074) (by positivity)
    exact this
  have h1' : (rndInt n : ℚ) * (2 * 2 ^ 1074) ≤ 2 * n + 2 ^ 1074 := by exact_mod_cast h1
  have h2' : 2 * (n : ℚ) + 2 ^ 1074 < rndInt n * (2 * 2 ^ 1074) + 2 * 2 ^ 1074 := by exact_mod_cast h2
  generalize (2 : ℚ) ^ 1074 = W at *
  have e : (n : ℚ) = n / W * W := by field_simp
  generalize (n : ℚ) / W = t at *
  rw [e] at h1' h2'
  rw [abs_le]
  constructor
  · by_contra hlt
    have := mul_lt_mul_of_pos_right (not_le.1 hlt) hp
    linarith
  · by_contra hlt
    have := mul_lt_mul_of_pos_right (not_le.1 hlt) hp
    linarith

/-- `math.Round(float64(y) * K)` is the nearest integer. -/
theorem normalize_nearest {y : F32} {K : Nat} (hy : y.finite = true) (hK : K < 2 ^ 16) (h1 : -1 ≤ y.q) (h2 : y.q ≤ 1) :
    (y.toF64.mul (F64.ofInt K)).finite = true ∧ Spec.Nearest (y.q * K) (y.toF64.mul (F64.ofInt K)).round ∧
    (y.toF64.mul (F64.ofInt K)).round ≤ K ∧ -(K : Int) ≤ (y.toF64.mul (F64.ofInt K)).round ∧
    (0 ≤ y.q → 0 ≤ (y.toF64.mul (F64.ofInt K)).round) := by
  have hr : decodeMag 23 y.mag ≤ 2 ^ 149 := by
    have e : y.val = signed y.neg (decodeMag 23 y.mag) := F32.val_eq y
    unfold F32.q at h1 h2
    rw [e] at h1 h2
    have hp : (0 : ℚ) < 2 ^ 149 := by positivity
    rw [le_div_iff₀ hp] at h1
    rw [div_le_one hp] at h2
    unfold signed at h1 h2
    have : (decodeMag 23 y.mag : ℚ) ≤ 2 ^ 149 := by
      split at h1
      · push_cast at h1; linarith
      · rename_i hn
        rw [if_neg hn] at h2
        exact_mod_cast h2
    exact_mod_cast this
  obtain ⟨a1, a2⟩ := normalize_round hy hK (F32.val_eq y) hr
  rw [a1]
  have hn := rndInt_nearest (decodeMag 23 y.mag * K * 2 ^ 925)
  have hval : ((decodeMag 23 y.mag * K * 2 ^ 925 : Nat) : ℚ) / 2 ^ 1074 = decodeMag 23 y.mag / 2 ^ 149 * K := by
    rw [Nat.cast_mul, Nat.cast_mul, Nat.cast_pow, Nat.cast_ofNat, show (2 : ℚ) ^ 1074 = 2 ^ 149 * 2 ^ 925 by rw [← pow_add]]
    have hp : (0 : ℚ) < 2 ^ 925 := by positivity
    generalize (2 : ℚ) ^ 925 = V at *
    field_simp
  rw [hval] at hn
  have hq : y.q = (if y.neg then -1 else 1) * (decodeMag 23 y.mag / 2 ^ 149 : ℚ) := by
    unfold F32.q
    rw [F32.val_eq]
    unfold signed
    split
    · push_cast; ring
    · push_cast; ring
  have ht0 : (0 : ℚ) ≤ decodeMag 23 y.mag / 2 ^ 149 := by positivity
  have ht1 : (decodeMag 23 y.mag / 2 ^ 149 : ℚ) ≤ 1 := by
    rw [div_le_one (by positivity)]
    exact_mod_cast hr
  generalize (decodeMag 23 y.mag / 2 ^ 149 : ℚ) = t at *
  generalize rndInt (decodeMag 23 y.mag * K * 2 ^ 925) = n at *
  have hK0 : (0 : ℚ) ≤ K := Nat.cast_nonneg K
  have hnK : n ≤ K := by
    rw [abs_le] at hn
    have : (n : ℚ) < K + 1 := by nlinarith [hn.2]
    have : n < K + 1 := by exact_mod_cast this
    omega
  have hzero : y.q = 0 → n = 0 := by
    intro h0
    have : t = 0 := by
      rw [hq] at h0
      split at h0 <;> linarith
    rw [this, zero_mul, sub_zero, abs_le] at hn
    have : (n : ℚ) < 1 := by linarith [hn.2]
    have : n < 1 := by exact_mod_cast this
    omega
  refine ⟨a2, ?_, ?_, ?_, ?_⟩
  · unfold Spec.Nearest signed
    rw [hq]
    split
    · rw [abs_le] at hn ⊢
      push_cast
      constructor <;> linarith [hn.1, hn.2]
    · rw [abs_le] at hn ⊢
      push_cast
      constructor <;> linarith [hn.1, hn.2]
  · unfold signed; split <;> omega
  · unfold signed; split <;> omega
  · intro h0
    unfold signed
    split
    · rename_i hneg
      rw [if_pos hneg] at hq
      have := hzero (le_antisymm (by linarith) h0)
      omega
    · omega

/-- C70, unsigned types. -/
theorem C70_unsigned {y : F32} (hy : y.finite = true) (h1 : 0 ≤ y.q) (h2 : y.q ≤ 1) :
    (∃ r, normalizeUbyte y = some r ∧ Spec.Nearest (y.q * 255) r.toNat) ∧
    (∃ r, normalizeUshort y = some r ∧ Spec.Nearest (y.q * 65535) r.toNat) := by
  constructor
  · obtain ⟨a1, a2, a3, a4, a5⟩ := normalize_nearest (K := 255) hy (by decide) (by linarith) h2
    have a6 := a5 h1
    rw [show ((255 : Nat) : Int) = 255 from rfl] at *
    unfold normalizeUbyte F64.roundTo
    rw [if_pos ⟨a1, a6, a3⟩]
    generalize (y.toF64.mul (F64.ofInt 255)).round = z at *
    refine ⟨_, rfl, ?_⟩
    rw [UInt8.toNat_ofNat', show ((z.toNat % 2 ^ 8 : Nat) : Int) = z by omega]
    exact_mod_cast a2
  · obtain ⟨a1, a2, a3, a4, a5⟩ := normalize_nearest (K := 65535) hy (by decide) (by linarith) h2
    have a6 := a5 h1
    rw [show ((65535 : Nat) : Int) = 65535 from rfl] at *
    unfold normalizeUshort F64.roundTo
    rw [if_pos ⟨a1, a6, a3⟩]
    generalize (y.toF64.mul (F64.ofInt 65535)).round = z at *
    refine ⟨_, rfl, ?_⟩
    rw [UInt16.toNat_ofNat', show ((z.toNat % 2 ^ 16 : Nat) : Int) = z by omega]
    exact_mod_cast a2

/-- C70, signed types. -/
theorem C70_signed {y : F32} (hy : y.finite = true) (h1 : -1 ≤ y.q) (h2 : y.q ≤ 1) :
    (∃ r, normalizeByte y = some r ∧ Spec.Nearest (y.q * 127) r.toInt) ∧
    (∃ r, normalizeShort y = some r ∧ Spec.Nearest (y.q * 32767) r.toInt) := by
  constructor
  · obtain ⟨a1, a2, a3, a4, -⟩ := normalize_nearest (K := 127) hy (by decide) h1 h2
    rw [show ((127 : Nat) : Int) = 127 from rfl] at *
    unfold normalizeByte F64.roundTo
    rw [if_pos ⟨a1, by omega, a3⟩]
    generalize (y.toF64.mul (F64.ofInt 127)).round = z at *
    refine ⟨_, rfl, ?_⟩
    rw [Int8.toInt_ofInt_of_le (by omega) (by omega)]
    exact_mod_cast a2
  · obtain ⟨a1, a2, a3, a4, -⟩ := normalize_nearest (K := 32767) hy (by decide) h1 h2
    rw [show ((32767 : Nat) : Int) = 32767 from rfl] at *
    unfold normalizeShort F64.roundTo
    rw [if_pos ⟨a1, by omega, a3⟩]
    generalize (y.toF64.mul (F64.ofInt 32767)).round = z at *
    refine ⟨_, rfl, ?_⟩
    rw [Int16.toInt_ofInt_of_le (by omega) (by omega)]
    exact_mod_cast a2

/-- 0.3 is in range. -/
example : (⟨0x3E99999A⟩ : F32).finite = true ∧ 0 ≤ (⟨0x3E99999A⟩ : F32).val ∧ (⟨0x3E99999A⟩ : F32).val ≤ 2 ^ 149 ∧
    normalizeUbyte ⟨0x3E99999A⟩ = some 77 ∧ normalizeByte ⟨0x3E99999A⟩ = some 38 := by decide +kernel

end Gltf
