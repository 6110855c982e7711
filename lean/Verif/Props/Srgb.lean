/-
Properties C78 and C79: the colour functions are those of sRGB.
-/
import Verif.Lemmas.Srgb
import Verif.Lemmas.ColorPow
import Verif.Model.ColorRead
import Verif.Props.Nearest
import Verif.Props.Color

namespace Gltf

open Spec

set_option exponentiation.threshold 3000

/-- A component of a colour. -/
def Spec.InUnit (x : F32) : Prop := x.finite = true ∧ 0 ≤ x.q ∧ x.q ≤ 1

/-- The integers `y` encode the components `x` of a colour: the first three in sRGB, the fourth as it is. A colour with
three components is opaque. -/
structure Spec.EncodesColor (max : Nat) (x : List F32) (y : List Nat) : Prop where
  length : y.length = 4
  channel : ∀ i e n, i < 3 → x[i]? = some e → y[i]? = some n → Floor max (srgb e.q) n
  alpha : ∀ e n, x[3]? = some e → y[3]? = some n → Floor max e.q n
  solid : x.length = 3 → y[3]? = some max

theorem floor8 {t : ℝ} {n : Nat} (h : Floor 255 t n) : Floor 255 t (UInt8.ofNat n).toNat := by
  rw [UInt8.toNat_ofNat', Nat.mod_eq_of_lt (by have := h.1; omega)]
  exact h

theorem floor16 {t : ℝ} {n : Nat} (h : Floor 65535 t n) : Floor 65535 t (UInt16.ofNat n).toNat := by
  rw [UInt16.toNat_ofNat', Nat.mod_eq_of_lt (by have := h.1; omega)]
  exact h

theorem encode8 {pow : Pow} (hp : PowAccurate pow) {x : F32} (h : InUnit x) :
    ∃ n, encodeChannel pow 255 x = some n ∧ Floor 255 (srgb x.q) (UInt8.ofNat n).toNat := by
  obtain ⟨n, h1, h2⟩ := encodeChannel_srgb hp (.inl rfl) h.1 h.2.1 h.2.2
  exact ⟨n, h1, floor8 h2⟩

theorem encode16 {pow : Pow} (hp : PowAccurate pow) {x : F32} (h : InUnit x) :
    ∃ n, encodeChannel pow 65535 x = some n ∧ Floor 65535 (srgb x.q) (UInt16.ofNat n).toNat := by
  obtain ⟨n, h1, h2⟩ := encodeChannel_srgb hp (.inr rfl) h.1 h.2.1 h.2.2
  exact ⟨n, h1, floor16 h2⟩

theorem alpha8 {x : F32} (h : InUnit x) : ∃ n, encodeAlpha 255 x = some n ∧ Floor 255 x.q (UInt8.ofNat n).toNat := by
  obtain ⟨n, h1, h2⟩ := encodeAlpha_floor (.inl rfl) h.1 h.2.1 h.2.2
  exact ⟨n, h1, floor8 h2⟩

theorem alpha16 {x : F32} (h : InUnit x) : ∃ n, encodeAlpha 65535 x = some n ∧ Floor 65535 x.q (UInt16.ofNat n).toNat := by
  obtain ⟨n, h1, h2⟩ := encodeAlpha_floor (.inr rfl) h.1 h.2.1 h.2.2
  exact ⟨n, h1, floor16 h2⟩

theorem three {P : (i : Nat) → i < 3 → Prop} (h0 : P 0 (by decide)) (h1 : P 1 (by decide)) (h2 : P 2 (by decide)) (i : Nat)
    (h : i < 3) : P i h :=
  match i, h with
  | 0, _ => h0
  | 1, _ => h1
  | 2, _ => h2

/-- C78, `NormalizeRGB` and `NormalizeRGB64`. -/
theorem C78_rgb {pow : Pow} (hp : PowAccurate pow) (v : Vector F32 3) (hv : ∀ i (h : i < 3), InUnit v[i]) :
    (∃ w, normalizeRGB pow v = some w ∧ ∀ i (h : i < 3), Floor 255 (srgb v[i].q) w[i].toNat) ∧
    (∃ w, normalizeRGB64 pow v = some w ∧ ∀ i (h : i < 3), Floor 65535 (srgb v[i].q) w[i].toNat) := by
  constructor
  · obtain ⟨r, r1, r2⟩ := encode8 hp (hv 0 (by decide))
    obtain ⟨g, g1, g2⟩ := encode8 hp (hv 1 (by decide))
    obtain ⟨b, b1, b2⟩ := encode8 hp (hv 2 (by decide))
    exact ⟨#v[UInt8.ofNat r, UInt8.ofNat g, UInt8.ofNat b], by unfold normalizeRGB; simp [r1, g1, b1], three r2 g2 b2⟩
  · obtain ⟨r, r1, r2⟩ := encode16 hp (hv 0 (by decide))
    obtain ⟨g, g1, g2⟩ := encode16 hp (hv 1 (by decide))
    obtain ⟨b, b1, b2⟩ := encode16 hp (hv 2 (by decide))
    exact ⟨#v[UInt16.ofNat r, UInt16.ofNat g, UInt16.ofNat b], by unfold normalizeRGB64; simp [r1, g1, b1], three r2 g2 b2⟩

/-- C78, `NormalizeRGBA` and `NormalizeRGBA64`. -/
theorem C78_rgba {pow : Pow} (hp : PowAccurate pow) (v : Vector F32 4) (hv : ∀ i (h : i < 4), InUnit v[i]) :
    (∃ w, normalizeRGBA pow v = some w ∧ (∀ i (h : i < 3), Floor 255 (srgb v[i].q) w[i].toNat) ∧ Floor 255 v[3].q w[3].toNat) ∧
    (∃ w, normalizeRGBA64 pow v = some w ∧ (∀ i (h : i < 3), Floor 65535 (srgb v[i].q) w[i].toNat) ∧
      Floor 65535 v[3].q w[3].toNat) := by
  constructor
  · obtain ⟨r, r1, r2⟩ := encode8 hp (hv 0 (by decide))
    obtain ⟨g, g1, g2⟩ := encode8 hp (hv 1 (by decide))
    obtain ⟨b, b1, b2⟩ := encode8 hp (hv 2 (by decide))
    obtain ⟨a, a1, a2⟩ := alpha8 (hv 3 (by decide))
    refine ⟨#v[UInt8.ofNat r, UInt8.ofNat g, UInt8.ofNat b, UInt8.ofNat a], by unfold normalizeRGBA; simp [r1, g1, b1, a1], ?_, a2⟩
    exact three r2 g2 b2
  · obtain ⟨r, r1, r2⟩ := encode16 hp (hv 0 (by decide))
    obtain ⟨g, g1, g2⟩ := encode16 hp (hv 1 (by decide))
    obtain ⟨b, b1, b2⟩ := encode16 hp (hv 2 (by decide))
    obtain ⟨a, a1, a2⟩ := alpha16 (hv 3 (by decide))
    refine ⟨#v[UInt16.ofNat r, UInt16.ofNat g, UInt16.ofNat b, UInt16.ofNat a],
      by unfold normalizeRGBA64; simp [r1, g1, b1, a1], ?_, a2⟩
    exact three r2 g2 b2

theorem encodes3 {max : Nat} {a b c : F32} {x y z w : Nat} (h1 : Floor max (srgb a.q) x) (h2 : Floor max (srgb b.q) y)
    (h3 : Floor max (srgb c.q) z) (hw : w = max) : EncodesColor max [a, b, c] [x, y, z, w] where
  length := rfl
  channel i e n hi he hn := match i, hi with
    | 0, _ => by cases he; cases hn; exact h1
    | 1, _ => by cases he; cases hn; exact h2
    | 2, _ => by cases he; cases hn; exact h3
  alpha e n he := by cases he
  solid _ := by rw [hw]; rfl

theorem encodes4 {max : Nat} {a b c d : F32} {x y z w : Nat} (h1 : Floor max (srgb a.q) x) (h2 : Floor max (srgb b.q) y)
    (h3 : Floor max (srgb c.q) z) (hw : Floor max d.q w) : EncodesColor max [a, b, c, d] [x, y, z, w] where
  length := rfl
  channel i e n hi he hn := match i, hi with
    | 0, _ => by cases he; cases hn; exact h1
    | 1, _ => by cases he; cases hn; exact h2
    | 2, _ => by cases he; cases hn; exact h3
  alpha e n he hn := by cases he; cases hn; exact hw
  solid h := by cases h

/-- The components of the colours of an accessor of floats. -/
def Spec.floatColors : Slice → Option (List (List F32))
  | ⟨.base .f32 .v3, d⟩ => some (d.map fun (e : V3 F32) => [e.x0, e.x1, e.x2])
  | ⟨.base .f32 .v4, d⟩ => some (d.map fun (e : V4 F32) => [e.x0, e.x1, e.x2, e.x3])
  | _ => none

theorem in3 {a b c : F32} (h : ∀ x ∈ [a, b, c], InUnit x) (i : Nat) (hi : i < 3) : InUnit (#v[a, b, c])[i] :=
  three (P := fun i hi => InUnit (#v[a, b, c])[i]) (h a (by simp)) (h b (by simp)) (h c (by simp)) i hi

theorem in4 {a b c d : F32} (h : ∀ x ∈ [a, b, c, d], InUnit x) (i : Nat) (hi : i < 4) : InUnit (#v[a, b, c, d])[i] :=
  match i, hi with
  | 0, _ => h a (by simp)
  | 1, _ => h b (by simp)
  | 2, _ => h c (by simp)
  | 3, _ => h d (by simp)

/-- C78, `ReadColor` of an accessor of floats. -/
theorem C78_readColor {pow : Pow} (hp : PowAccurate pow) (other : ColorFns) (doc : Document) (acr : Accessor)
    (buffer r : List (V4 UInt8)) (b0 : Bytes) (p : Pools) (s : Slice) (vs : List (List F32))
    (h : readColor (.ofMath pow other) doc acr buffer b0 p = .ok r) (hb : acr.count ≠ 0 ∨ buffer = [])
    (hr : readAccessor doc acr b0 p = .ok s) (hv : floatColors s = some vs) :
    r.length = vs.length ∧
    ∀ (i : Nat) v x, vs[i]? = some v → r[i]? = some x → (∀ e ∈ v, InUnit e) →
      EncodesColor 255 v [x.x0.toNat, x.x1.toNat, x.x2.toNat, x.x3.toNat] := by
  obtain ⟨k, sh, d, h1, h2, rfl⟩ := typedBody_inv (color_converts _) (fun _ _ => checkReadColor_accepts.1) h hb
  rw [hr] at h1
  cases h1
  cases k <;> cases sh <;> try (cases hv; done)
  · simp only [floatColors, Option.some.injEq] at hv
    subst hv
    refine ⟨by simp [colorFn], fun i v x hv hx hu => ?_⟩
    simp only [colorFn, List.getElem?_map, Option.map_eq_some_iff] at hv hx
    obtain ⟨e, he, rfl⟩ := hv
    obtain ⟨e', he', rfl⟩ := hx
    rw [he] at he'; cases he'
    obtain ⟨⟨w, w1, w2⟩, -⟩ := C78_rgb hp #v[e.x0, e.x1, e.x2] (in3 hu)
    have hw : (ColorFns.ofMath pow other).rgb e = ⟨w[0], w[1], w[2]⟩ := by simp only [ColorFns.ofMath, w1]
    rw [hw]
    exact encodes3 (w2 0 (by decide)) (w2 1 (by decide)) (w2 2 (by decide)) rfl
  · simp only [floatColors, Option.some.injEq] at hv
    subst hv
    refine ⟨by simp [colorFn], fun i v x hv hx hu => ?_⟩
    simp only [colorFn, List.getElem?_map, Option.map_eq_some_iff] at hv hx
    obtain ⟨e, he, rfl⟩ := hv
    obtain ⟨e', he', rfl⟩ := hx
    rw [he] at he'; cases he'
    obtain ⟨⟨w, w1, w2, w3⟩, -⟩ := C78_rgba hp #v[e.x0, e.x1, e.x2, e.x3] (in4 hu)
    have hw : (ColorFns.ofMath pow other).rgba e = ⟨w[0], w[1], w[2], w[3]⟩ := by simp only [ColorFns.ofMath, w1]
    rw [hw]
    exact encodes4 (w2 0 (by decide)) (w2 1 (by decide)) (w2 2 (by decide)) w3

/-- C78, `ReadColor64` of an accessor of floats. -/
theorem C78_readColor64 {pow : Pow} (hp : PowAccurate pow) (other : ColorFns) (doc : Document) (acr : Accessor)
    (buffer r : List (V4 UInt16)) (b0 : Bytes) (p : Pools) (s : Slice) (vs : List (List F32))
    (h : readColor64 (.ofMath pow other) doc acr buffer b0 p = .ok r) (hb : acr.count ≠ 0 ∨ buffer = [])
    (hr : readAccessor doc acr b0 p = .ok s) (hv : floatColors s = some vs) :
    r.length = vs.length ∧
    ∀ (i : Nat) v x, vs[i]? = some v → r[i]? = some x → (∀ e ∈ v, InUnit e) →
      EncodesColor 65535 v [x.x0.toNat, x.x1.toNat, x.x2.toNat, x.x3.toNat] := by
  obtain ⟨k, sh, d, h1, h2, rfl⟩ := typedBody_inv (color64_converts _) (fun _ _ => checkReadColor_accepts.1) h hb
  rw [hr] at h1
  cases h1
  cases k <;> cases sh <;> try (cases hv; done)
  · simp only [floatColors, Option.some.injEq] at hv
    subst hv
    refine ⟨by simp [color64Fn], fun i v x hv hx hu => ?_⟩
    simp only [color64Fn, List.getElem?_map, Option.map_eq_some_iff] at hv hx
    obtain ⟨e, he, rfl⟩ := hv
    obtain ⟨e', he', rfl⟩ := hx
    rw [he] at he'; cases he'
    obtain ⟨-, w, w1, w2⟩ := C78_rgb hp #v[e.x0, e.x1, e.x2] (in3 hu)
    have hw : (ColorFns.ofMath pow other).rgb64 e = ⟨w[0], w[1], w[2]⟩ := by simp only [ColorFns.ofMath, w1]
    rw [hw]
    exact encodes3 (w2 0 (by decide)) (w2 1 (by decide)) (w2 2 (by decide)) rfl
  · simp only [floatColors, Option.some.injEq] at hv
    subst hv
    refine ⟨by simp [color64Fn], fun i v x hv hx hu => ?_⟩
    simp only [color64Fn, List.getElem?_map, Option.map_eq_some_iff] at hv hx
    obtain ⟨e, he, rfl⟩ := hv
    obtain ⟨e', he', rfl⟩ := hx
    rw [he] at he'; cases he'
    obtain ⟨-, w, w1, w2, w3⟩ := C78_rgba hp #v[e.x0, e.x1, e.x2, e.x3] (in4 hu)
    have hw : (ColorFns.ofMath pow other).rgba64 e = ⟨w[0], w[1], w[2], w[3]⟩ := by simp only [ColorFns.ofMath, w1]
    rw [hw]
    exact encodes4 (w2 0 (by decide)) (w2 1 (by decide)) (w2 2 (by decide)) w3

/-- A grey and a half transparent red, and the hypotheses of the readers for them. -/
example : ∃ pow, PowAccurate pow ∧ ∃ doc' acr s, writeColor ⟨.base .f32 .v4, [⟨⟨0x3F000000⟩, ⟨0x3F000000⟩, ⟨0x3F000000⟩, ⟨0x3F800000⟩⟩,
      ⟨⟨0x3F800000⟩, ⟨0⟩, ⟨0⟩, ⟨0x3F000000⟩⟩]⟩ {} = (doc', .ok 0) ∧ doc'.accessors[0]? = some (some acr) ∧
    readAccessor doc' acr [] ⟨[], [], []⟩ = .ok s ∧
    floatColors s = some [[⟨0x3F000000⟩, ⟨0x3F000000⟩, ⟨0x3F000000⟩, ⟨0x3F800000⟩], [⟨0x3F800000⟩, ⟨0⟩, ⟨0⟩, ⟨0x3F000000⟩]] ∧
    (∀ other, (readColor (.ofMath pow other) doc' acr [] [] ⟨[], [], []⟩).isOk) := by
  obtain ⟨pow, hp⟩ := exists_powAccurate
  obtain ⟨doc', h⟩ : ∃ doc', writeColor ⟨.base .f32 .v4, [⟨⟨0x3F000000⟩, ⟨0x3F000000⟩, ⟨0x3F000000⟩, ⟨0x3F800000⟩⟩,
      ⟨⟨0x3F800000⟩, ⟨0⟩, ⟨0⟩, ⟨0x3F000000⟩⟩]⟩ {} = (doc', .ok 0) := ⟨_, outcome (by decide +kernel)⟩
  obtain ⟨acr, h1, -⟩ := (C24_written_accepted ⟨fun _ => ⟨0, 0, 0⟩, fun _ => ⟨0, 0, 0, 0⟩, fun _ => ⟨0, 0, 0⟩, fun _ => ⟨0, 0, 0, 0⟩⟩
    _ _ _ _).2.2.2.2 h
  obtain ⟨d, b, -, h3, h4⟩ := writeNormalized_core h
  obtain ⟨acr', h5, -, -, -, h6⟩ := written_back h3 (same_modify (fun a => sameNorm a _) h4)
  rw [h1] at h5
  cases h5
  refine ⟨pow, hp, doc', acr, _, h, h1, h6 [] _ (fun h => h.2.2 rfl), rfl, fun other => ?_⟩
  obtain ⟨acr', h7, h8⟩ := (C24_written_accepted (.ofMath pow other) _ _ _ _).2.2.2.2 h
  rw [h1] at h7
  cases h7
  exact (h8 [] _).1

/-- One half is a component, and its encoding is 187 or so. -/
example : InUnit ⟨0x3F000000⟩ := by
  have h : (⟨0x3F000000⟩ : F32).q = 1 / 2 := by
    unfold F32.q
    rw [show (⟨0x3F000000⟩ : F32).val = 2 ^ 148 by decide +kernel]
    norm_num
  exact ⟨by decide, by rw [h]; norm_num, by rw [h]; norm_num⟩

/-- `x` is close to the linear light that `n` stands for. -/
def Spec.DecodesChannel (max n : Nat) (x : F32) : Prop := x.finite = true ∧ |(x.q : ℝ) - linear ((n : ℝ) / max)| ≤ 1 / 2 ^ 20

theorem decode8 {pow : Pow} (hp : PowAccurate pow) (v : UInt8) : DecodesChannel 255 v.toNat (decodeChannel pow 255 v.toNat) :=
  decodeChannel_linear hp (.inl rfl) (by have := v.toNat_lt; omega)

theorem decode16 {pow : Pow} (hp : PowAccurate pow) (v : UInt16) : DecodesChannel 65535 v.toNat (decodeChannel pow 65535 v.toNat) :=
  decodeChannel_linear hp (.inr rfl) (by have := v.toNat_lt; omega)

/-- C79, `DenormalizeRGB` and `DenormalizeRGB64`. -/
theorem C79_rgb {pow : Pow} (hp : PowAccurate pow) :
    (∀ (v : Vector UInt8 3) i (h : i < 3), DecodesChannel 255 v[i].toNat (denormalizeRGB pow v)[i]) ∧
    (∀ (v : Vector UInt16 3) i (h : i < 3), DecodesChannel 65535 v[i].toNat (denormalizeRGB64 pow v)[i]) := by
  constructor
  · intro v i h
    unfold denormalizeRGB
    rw [rgb_get (fun x : UInt8 => decodeChannel pow 255 x.toNat) v i h]
    exact decode8 hp _
  · intro v i h
    unfold denormalizeRGB64
    rw [rgb_get (fun x : UInt16 => decodeChannel pow 65535 x.toNat) v i h]
    exact decode16 hp _

theorem alpha_nearest8 (v : UInt8) : NearestF32 ((v.toNat : ℚ) / 255) (decodeAlpha 255 v.toNat) := by
  have := C73_denormalize.1 v
  unfold denormalizeUbyte at this
  unfold decodeAlpha
  exact this

theorem alpha_nearest16 (v : UInt16) : NearestF32 ((v.toNat : ℚ) / 65535) (decodeAlpha 65535 v.toNat) := by
  have := C73_denormalize.2.1 v
  unfold denormalizeUshort at this
  unfold decodeAlpha
  exact this

/-- C79, `DenormalizeRGBA` and `DenormalizeRGBA64`: alpha is the nearest float. -/
theorem C79_rgba {pow : Pow} (hp : PowAccurate pow) :
    (∀ v : Vector UInt8 4, (∀ i (h : i < 3), DecodesChannel 255 v[i].toNat (denormalizeRGBA pow v)[i]) ∧
      NearestF32 ((v[3].toNat : ℚ) / 255) (denormalizeRGBA pow v)[3]) ∧
    (∀ v : Vector UInt16 4, (∀ i (h : i < 3), DecodesChannel 65535 v[i].toNat (denormalizeRGBA64 pow v)[i]) ∧
      NearestF32 ((v[3].toNat : ℚ) / 65535) (denormalizeRGBA64 pow v)[3]) := by
  constructor
  · intro v
    obtain ⟨h1, h2⟩ := rgba_get (fun x : UInt8 => decodeChannel pow 255 x.toNat) (fun x => decodeAlpha 255 x.toNat) v
    unfold denormalizeRGBA
    refine ⟨fun i h => ?_, ?_⟩
    · rw [h1 i h]; exact decode8 hp _
    · rw [h2]; exact alpha_nearest8 _
  · intro v
    obtain ⟨h1, h2⟩ := rgba_get (fun x : UInt16 => decodeChannel pow 65535 x.toNat) (fun x => decodeAlpha 65535 x.toNat) v
    unfold denormalizeRGBA64
    refine ⟨fun i h => ?_, ?_⟩
    · rw [h1 i h]; exact decode16 hp _
    · rw [h2]; exact alpha_nearest16 _

/-- The colour functions with an accurate `math.Pow`. -/
example : ∃ pow, PowAccurate pow := exists_powAccurate

theorem unit_ubyte (v : UInt8) : InUnit (denormalizeUbyte v) := by
  unfold denormalizeUbyte
  have hv : v.toNat ≤ 255 := by have := v.toNat_lt; omega
  have h := increasing_alpha (K := 255) (.inl rfl)
  have h1 := h.finite v.toNat hv
  have h2 := h.nonneg v.toNat hv
  have h3 := h.le_one v.toNat hv
  unfold decodeAlpha at h1 h2 h3
  exact ⟨h1, h2, h3⟩

/-- `NormalizeRGBA` of a colour of bytes: alpha comes back. -/
theorem normalize_ubytes {pow : Pow} (hp : PowAccurate pow) (other : ColorFns) (e : V4 UInt8) (x : V4 F32)
    (hx : x = ⟨denormalizeUbyte e.x0, denormalizeUbyte e.x1, denormalizeUbyte e.x2, denormalizeUbyte e.x3⟩) :
    ((ColorFns.ofMath pow other).rgba x).x3 = e.x3 := by
  obtain ⟨x0, x1, x2, x3⟩ := x
  simp only [V4.mk.injEq] at hx
  obtain ⟨e0, e1, e2, e3⟩ := hx
  have a1 : encodeAlpha 255 x3 = some e.x3.toNat := by
    have := encode_decode_alpha (K := 255) (v := e.x3.toNat) (.inl rfl) (by have := e.x3.toNat_lt; omega)
    unfold decodeAlpha at this
    unfold denormalizeUbyte at e3
    rw [e3]
    exact this
  obtain ⟨n, n1, -⟩ := encode8 hp (e0 ▸ unit_ubyte e.x0 : InUnit x0)
  obtain ⟨m, m1, -⟩ := encode8 hp (e1 ▸ unit_ubyte e.x1 : InUnit x1)
  obtain ⟨l, l1, -⟩ := encode8 hp (e2 ▸ unit_ubyte e.x2 : InUnit x2)
  clear e0 e1 e2 e3
  simp [ColorFns.ofMath, normalizeRGBA, n1, m1, l1, a1]

theorem map_alpha (g : V4 F32 → V4 UInt8) (f : V4 UInt8 → V4 F32) (d : List (V4 UInt8)) (h : ∀ e, (g (f e)).x3 = e.x3) :
    ((d.map f).map g).map (·.x3) = d.map (·.x3) := by
  rw [List.map_map, List.map_map]
  exact List.map_congr_left fun e _ => h e

theorem alpha_same (cf : ColorFns) (den : UInt8 → F32) (hcf : ∀ e : V4 UInt8, (cf.rgba ⟨den e.x0, den e.x1, den e.x2, den e.x3⟩).x3 = e.x3)
    (doc doc' : Document) (acr acr' : Accessor)
    (r r' : List (V4 UInt8)) (b0 : Bytes) (p : Pools) (d : List (V4 UInt8)) (d' : List (V4 F32))
    (h : readColor cf doc acr [] b0 p = .ok r) (h' : readColor cf doc' acr' [] b0 p = .ok r')
    (hr : readAccessor doc acr b0 p = .ok ⟨.base .u8 .v4, d⟩) (hr' : readAccessor doc' acr' b0 p = .ok ⟨.base .f32 .v4, d'⟩)
    (hd : d' = d.map fun e => ⟨den e.x0, den e.x1, den e.x2, den e.x3⟩) :
    r'.map (·.x3) = r.map (·.x3) := by
  obtain ⟨k, sh, d1, h1, -, rfl⟩ := typedBody_inv (color_converts _) (fun _ _ => checkReadColor_accepts.1) h (.inr rfl)
  obtain ⟨k', sh', d1', h1', -, rfl⟩ := typedBody_inv (color_converts _) (fun _ _ => checkReadColor_accepts.1) h' (.inr rfl)
  rw [hr] at h1
  cases h1
  rw [hr'] at h1'
  cases h1'
  simp only [colorFn]
  rw [hd]
  exact map_alpha _ _ _ hcf

/-- C80 for alpha. Full statement: `ReadColor` gives the same colour for an accessor of bytes and for an accessor of the
floats that the bytes stand for, up to one unit. Missing: the other channels (`C80_full_fails`). -/
theorem C80_alpha_partial {pow : Pow} (hp : PowAccurate pow) (other : ColorFns) (doc doc' : Document) (acr acr' : Accessor)
    (r r' : List (V4 UInt8)) (b0 : Bytes) (p : Pools) (d : List (V4 UInt8)) (d' : List (V4 F32))
    (h : readColor (.ofMath pow other) doc acr [] b0 p = .ok r) (h' : readColor (.ofMath pow other) doc' acr' [] b0 p = .ok r')
    (hr : readAccessor doc acr b0 p = .ok ⟨.base .u8 .v4, d⟩) (hr' : readAccessor doc' acr' b0 p = .ok ⟨.base .f32 .v4, d'⟩)
    (hd : d' = d.map fun e => ⟨denormalizeUbyte e.x0, denormalizeUbyte e.x1, denormalizeUbyte e.x2, denormalizeUbyte e.x3⟩) :
    r'.map (·.x3) = r.map (·.x3) :=
  alpha_same _ _ (fun e => normalize_ubytes hp other e _ rfl) doc doc' acr acr' r r' b0 p d d' h h' hr hr' hd

theorem bright : (184 : ℝ) ≤ 255 * (srgb (8421505 / 2 ^ 24 : ℝ) - 1 / 2 ^ 21) := by
  unfold srgb
  rw [if_neg (by norm_num)]
  have h := root12 (x := (8421505 / 2 ^ 24 : ℝ)) (by norm_num)
  have h0 : 0 ≤ (8421505 / 2 ^ 24 : ℝ) ^ ((1 : ℝ) / 2.4) := Real.rpow_nonneg (by norm_num) _
  generalize (8421505 / 2 ^ 24 : ℝ) ^ ((1 : ℝ) / 2.4) = r at *
  have : 0.74 ≤ r := by
    by_contra hlt
    have : r ^ 12 ≤ (0.74 : ℝ) ^ 12 := pow_le_pow_left₀ h0 (le_of_lt (not_le.1 hlt)) 12
    rw [h] at this
    norm_num at this
  norm_num at *
  linarith

/-- Reading what `WriteColor` wrote. -/
theorem written_color (cf : ColorFns) {data : Slice} {doc doc' : Document} {i : Nat} (h : writeColor data doc = (doc', .ok i)) :
    ∃ acr, doc'.accessors[i]? = some (some acr) ∧ ∀ p, ∃ r, readColor cf doc' acr [] [] p = .ok r ∧
      readAccessor doc' acr [] p = .ok (back data) := by
  obtain ⟨acr, h1, h2⟩ := (C24_written_accepted cf _ _ _ _).2.2.2.2 h
  obtain ⟨d, b, -, h3, h4⟩ := writeNormalized_core h
  obtain ⟨acr', h5, -, -, -, h6⟩ := written_back h3 (same_modify (fun a => sameNorm a _) h4)
  rw [h1] at h5
  cases h5
  refine ⟨acr, h1, fun p => ?_⟩
  have h7 := (h2 [] p).1
  cases hr : readColor cf doc' acr [] [] p with
  | ok r => exact ⟨r, rfl, h6 [] p (fun h => h.2.2 rfl)⟩
  | err e => rw [hr] at h7; cases h7
  | panic w => rw [hr] at h7; cases h7

/-- The hypotheses of `C80_alpha_partial` for one colour. -/
example : ∃ pow, PowAccurate pow ∧ ∀ other p, ∃ doc doc' acr acr' r r',
    readColor (.ofMath pow other) doc acr [] [] p = .ok r ∧ readColor (.ofMath pow other) doc' acr' [] [] p = .ok r' ∧
    readAccessor doc acr [] p = .ok ⟨.base .u8 .v4, [⟨1, 2, 3, 4⟩]⟩ ∧
    readAccessor doc' acr' [] p = .ok ⟨.base .f32 .v4, [(⟨denormalizeUbyte 1, denormalizeUbyte 2, denormalizeUbyte 3,
      denormalizeUbyte 4⟩ : V4 F32)]⟩ := by
  obtain ⟨pow, hp⟩ := exists_powAccurate
  refine ⟨pow, hp, fun other p => ?_⟩
  obtain ⟨doc, h⟩ : ∃ doc, writeColor ⟨.base .u8 .v4, [⟨1, 2, 3, 4⟩]⟩ {} = (doc, .ok 0) := ⟨_, outcome (by decide +kernel)⟩
  obtain ⟨doc', h'⟩ : ∃ doc', writeColor ⟨.base .f32 .v4, [⟨denormalizeUbyte 1, denormalizeUbyte 2, denormalizeUbyte 3,
    denormalizeUbyte 4⟩]⟩ {} = (doc', .ok 0) := ⟨_, outcome (by decide +kernel)⟩
  obtain ⟨acr, -, h2⟩ := written_color (.ofMath pow other) h
  obtain ⟨acr', -, h2'⟩ := written_color (.ofMath pow other) h'
  obtain ⟨r, h3, h4⟩ := h2 p
  obtain ⟨r', h3', h4'⟩ := h2' p
  exact ⟨doc, doc', acr, acr', r, r', h3, h3', h4, h4'⟩

theorem grey_q : (denormalizeUbyte 128).q = 8421505 / 2 ^ 24 := by
  unfold F32.q
  rw [show (denormalizeUbyte 128).val = 8421505 * 2 ^ 125 by decide +kernel]
  norm_num

theorem grey_floor {n : Nat} (h : Floor 255 (srgb ((denormalizeUbyte 128).q : ℝ)) n) : 183 < n := by
  rw [grey_q] at h
  have h1 := h.2.2
  have h2 := bright
  push_cast at h1
  have : (184 : ℝ) < n + 1 := by linarith
  have : (184 : Nat) < n + 1 := by exact_mod_cast this
  omega

/-- What bytes and floats of the same grey are read as. -/
theorem grey_bytes (cf : ColorFns) {doc acr p r} (h : readColor cf doc acr [] [] p = .ok r)
    (hr : readAccessor doc acr [] p = .ok (back ⟨.base .u8 .v4, [⟨128, 128, 128, 255⟩]⟩)) : r = [⟨128, 128, 128, 255⟩] := by
  obtain ⟨k, sh, d1, h1, -, rfl⟩ := typedBody_inv (color_converts _) (fun _ _ => checkReadColor_accepts.1) h (.inr rfl)
  rw [hr] at h1
  cases h1
  rfl

/-- C80, the negation: a grey of 128/255 written as bytes is read as 128, and written as floats it is read as more than
183. -/
theorem C80_full_fails {pow : Pow} (hp : PowAccurate pow) (other : ColorFns) (p : Pools) :
    ∃ doc doc' acr acr', writeColor ⟨.base .u8 .v4, [⟨128, 128, 128, 255⟩]⟩ {} = (doc, .ok 0) ∧
      writeColor ⟨.base .f32 .v4, [⟨denormalizeUbyte 128, denormalizeUbyte 128, denormalizeUbyte 128, denormalizeUbyte 255⟩]⟩ {} =
        (doc', .ok 0) ∧
      doc.accessors[0]? = some (some acr) ∧ doc'.accessors[0]? = some (some acr') ∧
      readColor (.ofMath pow other) doc acr [] [] p = .ok [⟨128, 128, 128, 255⟩] ∧
      ∃ c, readColor (.ofMath pow other) doc' acr' [] [] p = .ok [c] ∧ 183 < c.x0.toNat := by
  obtain ⟨doc, h⟩ : ∃ doc, writeColor ⟨.base .u8 .v4, [⟨128, 128, 128, 255⟩]⟩ {} = (doc, .ok 0) := ⟨_, outcome (by decide +kernel)⟩
  obtain ⟨doc', h'⟩ : ∃ doc', writeColor ⟨.base .f32 .v4, [⟨denormalizeUbyte 128, denormalizeUbyte 128, denormalizeUbyte 128,
    denormalizeUbyte 255⟩]⟩ {} = (doc', .ok 0) := ⟨_, outcome (by decide +kernel)⟩
  obtain ⟨acr, h1, h2⟩ := written_color (.ofMath pow other) h
  obtain ⟨acr', h1', h2'⟩ := written_color (.ofMath pow other) h'
  obtain ⟨r, h3, h4⟩ := h2 p
  obtain ⟨r', h3', h4'⟩ := h2' p
  have e := grey_bytes _ h3 h4
  subst e
  have hu := unit_ubyte 128
  have hw := unit_ubyte 255
  have hg := @grey_floor
  obtain ⟨g1, g2⟩ := C78_readColor hp other doc' acr' [] r' [] p _
    [[denormalizeUbyte 128, denormalizeUbyte 128, denormalizeUbyte 128, denormalizeUbyte 255]] h3' (.inr rfl) h4' rfl
  generalize denormalizeUbyte 128 = x at *
  generalize denormalizeUbyte 255 = y at *
  match r', g1 with
  | [c], _ =>
    have hc := (g2 0 _ c rfl rfl (by simpa using ⟨hu, hw⟩)).channel 0 x c.x0.toNat (by decide) rfl rfl
    exact ⟨doc, doc', acr, acr', h, h', h1, h1', h3, c, h3', hg hc⟩

end Gltf
