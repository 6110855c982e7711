/-
Property C80, exactly: the channels that are read the same from bytes and from floats.
-/
import Verif.Props.Srgb

namespace Gltf

open Spec

set_option exponentiation.threshold 3000

/-- The two integers differ by at most one. -/
def Spec.WithinOne (a b : Nat) : Prop := a ≤ b + 1 ∧ b ≤ a + 1

/-- An upper bound of the root that `srgb` must have for the value `t` out of 255, in units of 2^-20. -/
def rootUp (t : Nat) : Nat := (t * 1000 * 2 ^ 20 / 255 + 55 * 2 ^ 20 + 1000) / 1055 + 1

theorem q_of_val {x : F32} {V : Nat} (h : x.val = V) : (x.q : ℝ) = (V : ℝ) / 2 ^ 149 := by
  unfold F32.q
  rw [h]
  push_cast
  rfl

theorem srgb_lower {x : F32} {V t C : Nat} (hV : x.val = V) (h0 : 31308 * 2 ^ 149 < V * 10000000) (h1 : C ^ 12 * 2 ^ 745 ≤ V ^ 5 * 2 ^ 240)
    (h2 : t * 1000 * 2 ^ 20 + 255 * 55 * 2 ^ 20 + 255 * 1000 ≤ 255 * 1055 * C) : (t : ℝ) ≤ 255 * (srgb x.q - 1 / 2 ^ 21) := by
  rw [q_of_val hV]
  have g0 : (31308 : ℝ) * 2 ^ 149 < V * 10000000 := by exact_mod_cast h0
  have g1 : (C : ℝ) ^ 12 * 2 ^ 745 ≤ (V : ℝ) ^ 5 * 2 ^ 240 := by exact_mod_cast h1
  have g2 : (t : ℝ) * 1000 * 2 ^ 20 + 255 * 55 * 2 ^ 20 + 255 * 1000 ≤ 255 * 1055 * C := by exact_mod_cast h2
  have hq : (0 : ℝ) ≤ (V : ℝ) / 2 ^ 149 := by positivity
  unfold srgb
  rw [if_neg (by rw [not_le, lt_div_iff₀ (by positivity)]; linarith)]
  have h := root12 hq
  have hr : 0 ≤ ((V : ℝ) / 2 ^ 149) ^ ((1 : ℝ) / 2.4) := Real.rpow_nonneg hq _
  generalize ((V : ℝ) / 2 ^ 149) ^ ((1 : ℝ) / 2.4) = r at *
  have : (C : ℝ) / 2 ^ 20 ≤ r := by
    by_contra hlt
    have : r ^ 12 < ((C : ℝ) / 2 ^ 20) ^ 12 := pow_lt_pow_left₀ (not_le.1 hlt) hr (by decide)
    rw [h, div_pow, div_pow, div_lt_div_iff₀ (by positivity) (by positivity)] at this
    rw [← pow_mul, ← pow_mul, show 20 * 12 = 240 from rfl, show 149 * 5 = 745 from rfl] at this
    exact absurd g1 (not_le.2 this)
  rw [div_le_iff₀ (by positivity)] at this
  norm_num at *
  linarith

theorem srgb_upper {x : F32} {V t C : Nat} (hV : x.val = V) (h0 : 31308 * 2 ^ 149 < V * 10000000) (h1 : V ^ 5 * 2 ^ 240 ≤ C ^ 12 * 2 ^ 745)
    (h2 : 255 * 1055 * C + 255 * 1000 < t * 1000 * 2 ^ 20 + 255 * 55 * 2 ^ 20) : 255 * (srgb x.q + 1 / 2 ^ 21) < (t : ℝ) := by
  rw [q_of_val hV]
  have g0 : (31308 : ℝ) * 2 ^ 149 < V * 10000000 := by exact_mod_cast h0
  have g1 : (V : ℝ) ^ 5 * 2 ^ 240 ≤ (C : ℝ) ^ 12 * 2 ^ 745 := by exact_mod_cast h1
  have g2 : 255 * 1055 * (C : ℝ) + 255 * 1000 < (t : ℝ) * 1000 * 2 ^ 20 + 255 * 55 * 2 ^ 20 := by exact_mod_cast h2
  have hq : (0 : ℝ) ≤ (V : ℝ) / 2 ^ 149 := by positivity
  unfold srgb
  rw [if_neg (by rw [not_le, lt_div_iff₀ (by positivity)]; linarith)]
  have h := root12 hq
  have hr : 0 ≤ ((V : ℝ) / 2 ^ 149) ^ ((1 : ℝ) / 2.4) := Real.rpow_nonneg hq _
  generalize ((V : ℝ) / 2 ^ 149) ^ ((1 : ℝ) / 2.4) = r at *
  have : r ≤ (C : ℝ) / 2 ^ 20 := by
    by_contra hlt
    have : ((C : ℝ) / 2 ^ 20) ^ 12 < r ^ 12 := pow_lt_pow_left₀ (not_le.1 hlt) (by positivity) (by decide)
    rw [h, div_pow, div_pow, div_lt_div_iff₀ (by positivity) (by positivity)] at this
    rw [← pow_mul, ← pow_mul, show 20 * 12 = 240 from rfl, show 149 * 5 = 745 from rfl] at this
    exact absurd g1 (not_le.2 this)
  rw [le_div_iff₀ (by positivity)] at this
  norm_num at *
  linarith

/-- What is to be checked of a byte: with the value `t` of the encoding as a lower bound. -/
def lowerOk (v t : Nat) : Bool :=
  let V := (denormalizeUbyte (UInt8.ofNat v)).val.toNat
  decide ((denormalizeUbyte (UInt8.ofNat v)).val = V) && decide (31308 * 2 ^ 149 < V * 10000000) &&
    decide (rootUp t ^ 12 * 2 ^ 745 ≤ V ^ 5 * 2 ^ 240) &&
    decide (t * 1000 * 2 ^ 20 + 255 * 55 * 2 ^ 20 + 255 * 1000 ≤ 255 * 1055 * rootUp t)

theorem lower_table : ∀ v < 256, v ≠ 0 → lowerOk v (if v < 252 then v + 2 else if v = 255 then 254 else v) = true := by decide +kernel

/-- The same for the upper bound. -/
def upperOk (v t C : Nat) : Bool :=
  let V := (denormalizeUbyte (UInt8.ofNat v)).val.toNat
  decide ((denormalizeUbyte (UInt8.ofNat v)).val = V) && decide (31308 * 2 ^ 149 < V * 10000000) &&
    decide (V ^ 5 * 2 ^ 240 ≤ C ^ 12 * 2 ^ 745) && decide (255 * 1055 * C + 255 * 1000 < t * 1000 * 2 ^ 20 + 255 * 55 * 2 ^ 20)

theorem upper_table : upperOk 252 254 (rootUp 254 - 10) = true ∧ upperOk 253 255 (rootUp 255 - 10) = true := by decide +kernel

theorem lower_of {v t : Nat} (h : lowerOk v t = true) : (t : ℝ) ≤ 255 * (srgb (denormalizeUbyte (UInt8.ofNat v)).q - 1 / 2 ^ 21) := by
  unfold lowerOk at h
  simp only [Bool.and_eq_true, decide_eq_true_eq] at h
  exact srgb_lower h.1.1.1 h.1.1.2 h.1.2 h.2

theorem upper_of {v t C : Nat} (h : upperOk v t C = true) : 255 * (srgb (denormalizeUbyte (UInt8.ofNat v)).q + 1 / 2 ^ 21) < (t : ℝ) := by
  unfold upperOk at h
  simp only [Bool.and_eq_true, decide_eq_true_eq] at h
  exact srgb_upper h.1.1.1 h.1.1.2 h.1.2 h.2

/-- The encoding of a byte that is taken for linear light is near the byte only at the ends of the range. -/
theorem channel_near (v : UInt8) {n : Nat} (h : Floor 255 (srgb (denormalizeUbyte v).q) n) :
    WithinOne n v.toNat ↔ v.toNat = 0 ∨ 252 ≤ v.toNat := by
  obtain ⟨k, hk, rfl⟩ : ∃ k, k < 256 ∧ v = UInt8.ofNat k := ⟨v.toNat, v.toNat_lt, UInt8.ofNat_toNat.symm⟩
  rw [UInt8.toNat_ofNat', Nat.mod_eq_of_lt hk]
  obtain ⟨h1, h2, h3⟩ := h
  push_cast at h2 h3
  unfold WithinOne
  by_cases h0 : k = 0
  · subst h0
    have hq : ((denormalizeUbyte (UInt8.ofNat 0)).q : ℝ) = 0 := by
      rw [q_of_val (V := 0) (by decide +kernel)]
      norm_num
    rw [hq] at h2
    unfold srgb at h2
    rw [if_pos (by norm_num)] at h2
    have : (n : ℝ) < 1 := by norm_num at h2; linarith
    have : n < 1 := by exact_mod_cast this
    omega
  have hl := lower_of (lower_table k hk h0)
  have hl' : ∀ t : Nat, (t : ℝ) ≤ 255 * (srgb (denormalizeUbyte (UInt8.ofNat k)).q - 1 / 2 ^ 21) → t ≤ n := by
    intro t ht
    have : (t : ℝ) < n + 1 := lt_of_le_of_lt ht h3
    have : t < n + 1 := by exact_mod_cast this
    omega
  have hl := hl' _ hl
  have hu : ∀ t : Nat, 255 * (srgb (denormalizeUbyte (UInt8.ofNat k)).q + 1 / 2 ^ 21) < (t : ℝ) → n < t := by
    intro t ht
    exact_mod_cast lt_of_le_of_lt h2 ht
  by_cases hs : k < 252
  · rw [if_pos hs] at hl
    omega
  rw [if_neg hs] at hl
  have hn : n ≤ k + 1 := by
    by_cases e1 : k = 252
    · subst e1
      have := hu 254 (upper_of upper_table.1)
      omega
    by_cases e2 : k = 253
    · subst e2
      have := hu 255 (upper_of upper_table.2)
      omega
    omega
  split at hl <;> omega

/-- C80, exactly: a colour channel is read the same, up to one unit, from a byte and from the float that the byte stands for if and only
if the byte is 0 or at least 252. -/
theorem C80_iff {pow : Pow} (hp : PowAccurate pow) (other : ColorFns) (doc doc' : Document) (acr acr' : Accessor)
    (r r' : List (V4 UInt8)) (b0 : Bytes) (p : Pools) (d : List (V4 UInt8)) (d' : List (V4 F32))
    (h : readColor (.ofMath pow other) doc acr [] b0 p = .ok r) (h' : readColor (.ofMath pow other) doc' acr' [] b0 p = .ok r')
    (hr : readAccessor doc acr b0 p = .ok ⟨.base .u8 .v4, d⟩) (hr' : readAccessor doc' acr' b0 p = .ok ⟨.base .f32 .v4, d'⟩)
    (hd : d' = d.map fun e => ⟨denormalizeUbyte e.x0, denormalizeUbyte e.x1, denormalizeUbyte e.x2, denormalizeUbyte e.x3⟩) :
    r = d ∧ r'.length = d.length ∧ ∀ (i : Nat) (e x : V4 UInt8), d[i]? = some e → r'[i]? = some x →
      (WithinOne x.x0.toNat e.x0.toNat ↔ e.x0.toNat = 0 ∨ 252 ≤ e.x0.toNat) ∧
      (WithinOne x.x1.toNat e.x1.toNat ↔ e.x1.toNat = 0 ∨ 252 ≤ e.x1.toNat) ∧
      (WithinOne x.x2.toNat e.x2.toNat ↔ e.x2.toNat = 0 ∨ 252 ≤ e.x2.toNat) := by
  obtain ⟨k, sh, d1, h1, -, rfl⟩ := typedBody_inv (color_converts _) (fun _ _ => checkReadColor_accepts.1) h (.inr rfl)
  rw [hr] at h1
  cases h1
  obtain ⟨g1, g2⟩ := C78_readColor hp other doc' acr' [] r' b0 p _ (d'.map fun e => [e.x0, e.x1, e.x2, e.x3]) h' (.inr rfl) hr' rfl
  subst hd
  refine ⟨?_, by rw [g1]; simp, fun i e x he hx => ?_⟩
  · simp only [colorFn]
  · have hc := g2 i [denormalizeUbyte e.x0, denormalizeUbyte e.x1, denormalizeUbyte e.x2, denormalizeUbyte e.x3] x (by simp [he]) hx (by
      intro y hy
      simp only [List.mem_cons, List.not_mem_nil, or_false] at hy
      rcases hy with rfl | rfl | rfl | rfl <;> exact unit_ubyte _)
    exact ⟨channel_near _ (hc.channel 0 _ _ (by decide) rfl rfl), channel_near _ (hc.channel 1 _ _ (by decide) rfl rfl),
      channel_near _ (hc.channel 2 _ _ (by decide) rfl rfl)⟩

/-- The hypotheses of `C80_iff` for a colour with channels of both sorts. -/
example : ∃ pow, PowAccurate pow ∧ ∀ other p, ∃ doc doc' acr acr' r r',
    readColor (.ofMath pow other) doc acr [] [] p = .ok r ∧ readColor (.ofMath pow other) doc' acr' [] [] p = .ok r' ∧
    readAccessor doc acr [] p = .ok ⟨.base .u8 .v4, [⟨0, 253, 7, 4⟩]⟩ ∧
    readAccessor doc' acr' [] p = .ok ⟨.base .f32 .v4, [(⟨denormalizeUbyte 0, denormalizeUbyte 253, denormalizeUbyte 7,
      denormalizeUbyte 4⟩ : V4 F32)]⟩ := by
  obtain ⟨pow, hp⟩ := exists_powAccurate
  refine ⟨pow, hp, fun other p => ?_⟩
  obtain ⟨doc, h⟩ : ∃ doc, writeColor ⟨.base .u8 .v4, [⟨0, 253, 7, 4⟩]⟩ {} = (doc, .ok 0) := ⟨_, outcome (by decide +kernel)⟩
  obtain ⟨doc', h'⟩ : ∃ doc', writeColor ⟨.base .f32 .v4, [⟨denormalizeUbyte 0, denormalizeUbyte 253, denormalizeUbyte 7,
    denormalizeUbyte 4⟩]⟩ {} = (doc', .ok 0) := ⟨_, outcome (by decide +kernel)⟩
  obtain ⟨acr, -, h2⟩ := written_color (.ofMath pow other) h
  obtain ⟨acr', -, h2'⟩ := written_color (.ofMath pow other) h'
  obtain ⟨r, h3, h4⟩ := h2 p
  obtain ⟨r', h3', h4'⟩ := h2' p
  exact ⟨doc, doc', acr, acr', r, r', h3, h3', h4, h4'⟩

end Gltf
