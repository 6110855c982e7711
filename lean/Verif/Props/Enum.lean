/-
Properties C41, C42 and C43: enumerations.
-/
import Verif.Spec.Enum
import Verif.Model.Strings
import Verif.Model.JsonDoc
import Verif.Lemmas.JsonCodec

namespace Gltf

open Spec

theorem printNat_decimal (n : Nat) : IsDecimal (printNat n) n := by
  refine ⟨printNat_digits n, ?_, ?_⟩
  · intro h
    cases printNat_int n with
    | inl h0 => exact h0
    | inr h1 => exact absurd h h1.2
  · have h := readNat_printNat n
    unfold readNat at h
    split at h
    · injection h with h
      refine Eq.trans ?_ h
      unfold digitsValue
      congr 1
      funext k c
      rw [Nat.mul_comm]
    · cases h

theorem readNat_decimal {s : Bytes} {n : Nat} (h : IsDecimal s n) : readNat s = some n := by
  unfold readNat
  rw [if_pos]
  · unfold digitsValue
    rw [← h.2.2]
    congr 2
    funext k c
    rw [Nat.mul_comm]
  · refine ⟨h.1.1, ?_⟩
    rw [List.all_eq_true]
    intro c hc
    have := h.1.2 c hc
    simp [this.1, this.2]

/-! ### C43 String methods -/

/-- C43 for `ComponentType`: the constants are numbered in order; `String` gives their names, and the type with the number for every other
value. -/
theorem C43_componentType :
    (componentTypeNames.map fun p => p.1.toNat) = List.range componentTypeNames.length ∧
    (∀ n, (ComponentType.unknown n).toNat = componentTypeNames.length + n) ∧
    (∀ i (h : i < componentTypeNames.length), ComponentType.goString i = .ok componentTypeNames[i].2) ∧
    (∀ i, componentTypeNames.length ≤ i → ∃ d, IsDecimal d i ∧ ComponentType.goString i = .ok (b!"ComponentType(" ++ d ++ b!")")) := by
  refine ⟨by decide +kernel, fun _ => rfl, by decide +kernel, fun i h => ⟨_, printNat_decimal i, ?_⟩⟩
  have h' : ComponentType.goString i = .ok (stringOther b!"ComponentType" i) := if_pos h
  exact h'

/-- C43 for `AccessorType`: the constants are numbered in order; `String` gives their names, and the type with the number for every other
value. -/
theorem C43_accessorType :
    (accessorTypeNames.map fun p => p.1.toNat) = List.range accessorTypeNames.length ∧
    (∀ n, (AccessorType.unknown n).toNat = accessorTypeNames.length + n) ∧
    (∀ i (h : i < accessorTypeNames.length), AccessorType.goString i = .ok accessorTypeNames[i].2) ∧
    (∀ i, accessorTypeNames.length ≤ i → ∃ d, IsDecimal d i ∧ AccessorType.goString i = .ok (b!"AccessorType(" ++ d ++ b!")")) := by
  refine ⟨by decide +kernel, fun _ => rfl, by decide +kernel, fun i h => ⟨_, printNat_decimal i, ?_⟩⟩
  have h' : AccessorType.goString i = .ok (stringOther b!"AccessorType" i) := if_pos h
  exact h'

/-- C43 for `PrimitiveMode`: the constants are numbered in order; `String` gives their names, and the type with the number for every other
value. -/
theorem C43_primitiveMode :
    (primitiveModeNames.map fun p => p.1.toNat) = List.range primitiveModeNames.length ∧
    (∀ n, (PrimitiveMode.unknown n).toNat = primitiveModeNames.length + n) ∧
    (∀ i (h : i < primitiveModeNames.length), PrimitiveMode.goString i = .ok primitiveModeNames[i].2) ∧
    (∀ i, primitiveModeNames.length ≤ i → ∃ d, IsDecimal d i ∧ PrimitiveMode.goString i = .ok (b!"PrimitiveMode(" ++ d ++ b!")")) := by
  refine ⟨by decide +kernel, fun _ => rfl, by decide +kernel, fun i h => ⟨_, printNat_decimal i, ?_⟩⟩
  have h' : PrimitiveMode.goString i = .ok (stringOther b!"PrimitiveMode" i) := if_pos h
  exact h'

/-- C43 for `AlphaMode`: the constants are numbered in order; `String` gives their names, and the type with the number for every other
value. -/
theorem C43_alphaMode :
    (alphaModeNames.map fun p => p.1.toNat) = List.range alphaModeNames.length ∧
    (∀ n, (AlphaMode.unknown n).toNat = alphaModeNames.length + n) ∧
    (∀ i (h : i < alphaModeNames.length), AlphaMode.goString i = .ok alphaModeNames[i].2) ∧
    (∀ i, alphaModeNames.length ≤ i → ∃ d, IsDecimal d i ∧ AlphaMode.goString i = .ok (b!"AlphaMode(" ++ d ++ b!")")) := by
  refine ⟨by decide +kernel, fun _ => rfl, by decide +kernel, fun i h => ⟨_, printNat_decimal i, ?_⟩⟩
  have h' : AlphaMode.goString i = .ok (stringOther b!"AlphaMode" i) := if_pos h
  exact h'

/-- C43 for `MagFilter`: the constants are numbered in order; `String` gives their names, and the type with the number for every other
value. -/
theorem C43_magFilter :
    (magFilterNames.map fun p => p.1.toNat) = List.range magFilterNames.length ∧
    (∀ n, (MagFilter.unknown n).toNat = magFilterNames.length + n) ∧
    (∀ i (h : i < magFilterNames.length), MagFilter.goString i = .ok magFilterNames[i].2) ∧
    (∀ i, magFilterNames.length ≤ i → ∃ d, IsDecimal d i ∧ MagFilter.goString i = .ok (b!"MagFilter(" ++ d ++ b!")")) := by
  refine ⟨by decide +kernel, fun _ => rfl, by decide +kernel, fun i h => ⟨_, printNat_decimal i, ?_⟩⟩
  have h' : MagFilter.goString i = .ok (stringOther b!"MagFilter" i) := if_pos h
  exact h'

/-- C43 for `MinFilter`: the constants are numbered in order; `String` gives their names, and the type with the number for every other
value. -/
theorem C43_minFilter :
    (minFilterNames.map fun p => p.1.toNat) = List.range minFilterNames.length ∧
    (∀ n, (MinFilter.unknown n).toNat = minFilterNames.length + n) ∧
    (∀ i (h : i < minFilterNames.length), MinFilter.goString i = .ok minFilterNames[i].2) ∧
    (∀ i, minFilterNames.length ≤ i → ∃ d, IsDecimal d i ∧ MinFilter.goString i = .ok (b!"MinFilter(" ++ d ++ b!")")) := by
  refine ⟨by decide +kernel, fun _ => rfl, by decide +kernel, fun i h => ⟨_, printNat_decimal i, ?_⟩⟩
  have h' : MinFilter.goString i = .ok (stringOther b!"MinFilter" i) := if_pos h
  exact h'

/-- C43 for `WrappingMode`: the constants are numbered in order; `String` gives their names, and the type with the number for every other
value. -/
theorem C43_wrappingMode :
    (wrappingModeNames.map fun p => p.1.toNat) = List.range wrappingModeNames.length ∧
    (∀ n, (WrappingMode.unknown n).toNat = wrappingModeNames.length + n) ∧
    (∀ i (h : i < wrappingModeNames.length), WrappingMode.goString i = .ok wrappingModeNames[i].2) ∧
    (∀ i, wrappingModeNames.length ≤ i → ∃ d, IsDecimal d i ∧ WrappingMode.goString i = .ok (b!"WrappingMode(" ++ d ++ b!")")) := by
  refine ⟨by decide +kernel, fun _ => rfl, by decide +kernel, fun i h => ⟨_, printNat_decimal i, ?_⟩⟩
  have h' : WrappingMode.goString i = .ok (stringOther b!"WrappingMode" i) := if_pos h
  exact h'

/-- C43 for `Interpolation`: the constants are numbered in order; `String` gives their names, and the type with the number for every other
value. -/
theorem C43_interpolation :
    (interpolationNames.map fun p => p.1.toNat) = List.range interpolationNames.length ∧
    (∀ n, (Interpolation.unknown n).toNat = interpolationNames.length + n) ∧
    (∀ i (h : i < interpolationNames.length), Interpolation.goString i = .ok interpolationNames[i].2) ∧
    (∀ i, interpolationNames.length ≤ i → ∃ d, IsDecimal d i ∧ Interpolation.goString i = .ok (b!"Interpolation(" ++ d ++ b!")")) := by
  refine ⟨by decide +kernel, fun _ => rfl, by decide +kernel, fun i h => ⟨_, printNat_decimal i, ?_⟩⟩
  have h' : Interpolation.goString i = .ok (stringOther b!"Interpolation" i) := if_pos h
  exact h'

/-- C43 for `TRSProperty`: the constants are numbered in order; `String` gives their names, and the type with the number for every other
value. -/
theorem C43_trsProperty :
    (trsPropertyNames.map fun p => p.1.toNat) = List.range trsPropertyNames.length ∧
    (∀ n, (TRSProperty.unknown n).toNat = trsPropertyNames.length + n) ∧
    (∀ i (h : i < trsPropertyNames.length), TRSProperty.goString i = .ok trsPropertyNames[i].2) ∧
    (∀ i, trsPropertyNames.length ≤ i → ∃ d, IsDecimal d i ∧ TRSProperty.goString i = .ok (b!"TRSProperty(" ++ d ++ b!")")) := by
  refine ⟨by decide +kernel, fun _ => rfl, by decide +kernel, fun i h => ⟨_, printNat_decimal i, ?_⟩⟩
  have h' : TRSProperty.goString i = .ok (stringOther b!"TRSProperty" i) := if_pos h
  exact h'

/-- C43 for `Target`. -/
theorem C43_target (i : Target) :
    (i = 0 → targetString i = .ok b!"NONE") ∧
    (i = 34962 → targetString i = .ok b!"ARRAY_BUFFER") ∧
    (i = 34963 → targetString i = .ok b!"ELEMENT_ARRAY_BUFFER") ∧
    (i ≠ 0 → i ≠ 34962 → i ≠ 34963 → ∃ d, IsDecimal d i.toNat ∧ targetString i = .ok (b!"Target(" ++ d ++ b!")")) := by
  refine ⟨?_, ?_, ?_, ?_⟩
  · rintro rfl; decide +kernel
  · rintro rfl; decide +kernel
  · rintro rfl; decide +kernel
  · intro h0 h1 h2
    refine ⟨_, printNat_decimal _, ?_⟩
    unfold targetString
    rw [if_neg h0, if_neg]
    · rfl
    · rintro ⟨h3, h4⟩
      have a := UInt16.le_iff_toNat_le.1 h3
      have b := UInt16.le_iff_toNat_le.1 h4
      have c : i.toNat ≠ 34962 := fun e => h1 (UInt16.toNat_inj.1 e)
      have d : i.toNat ≠ 34963 := fun e => h2 (UInt16.toNat_inj.1 e)
      have e1 : (34962 : UInt16).toNat = 34962 := by decide +kernel
      have e2 : (34963 : UInt16).toNat = 34963 := by decide +kernel
      omega

example : ComponentType.goString 4 = .ok b!"UNSIGNED_SHORT" := by decide +kernel
example : ComponentType.goString 65535 = .ok b!"ComponentType(65535)" := by decide +kernel

/-! ### C41 Enumerations round trip -/

/-- A table lists every named constant of the type once, with different codes. -/
def Spec.Complete {α β : Type} (named : α → Prop) (table : List (α × β)) : Prop :=
  (∀ a, named a ↔ a ∈ table.map (·.1)) ∧ (table.map (·.1)).Nodup ∧ (table.map (·.2)).Nodup

/-- C41 for `ComponentType`. -/
theorem C41_componentType :
    Complete (fun a : ComponentType => ∀ n, a ≠ .unknown n) componentTypeCodes ∧
    ∀ p ∈ componentTypeCodes, ∃ s, IsDecimal s p.2 ∧ componentTypeC.enc p.1 = .ok (.num s) ∧ ∀ cur, componentTypeC.dec (.num s) cur = .ok p.1 := by
  refine ⟨⟨?_, by decide +kernel, by decide +kernel⟩, fun p hp => ⟨_, printNat_decimal _, ?_, fun cur => ?_⟩⟩
  · intro a
    cases a with
    | unknown n => exact ⟨fun h => absurd rfl (h n), fun h => by simp [componentTypeCodes] at h⟩
    | _ => exact ⟨fun _ => by decide +kernel, fun _ n h => nomatch h⟩
  · have h : ∀ p ∈ componentTypeCodes, ComponentType.code p.1 = p.2 := by decide +kernel
    show Except.ok (JVal.num (printNat _)) = _
    rw [h p hp]
  · have h : ∀ p ∈ componentTypeCodes, p.2 < 65536 ∧ ComponentType.ofCode p.2 = p.1 := by decide +kernel
    show (decUint _ _ _).map _ = _
    rw [decUint_print (h p hp).1]
    show Except.ok _ = _
    rw [(h p hp).2]

/-- C41 for `AccessorType`. -/
theorem C41_accessorType :
    Complete (fun a : AccessorType => ∀ n, a ≠ .unknown n) accessorTypeNames ∧
    ∀ p ∈ accessorTypeNames, accessorTypeC.enc p.1 = .ok (.str p.2) ∧ ∀ cur, accessorTypeC.dec (.str p.2) cur = .ok p.1 := by
  refine ⟨⟨?_, by decide +kernel, by decide +kernel⟩, fun p hp => ⟨?_, fun cur => ?_⟩⟩
  · intro a
    cases a with
    | unknown n => exact ⟨fun h => absurd rfl (h n), fun h => by simp [accessorTypeNames] at h⟩
    | _ => exact ⟨fun _ => by decide +kernel, fun _ n h => nomatch h⟩
  · have h : ∀ p ∈ accessorTypeNames, AccessorType.code p.1 = p.2 := by decide +kernel
    show Except.ok (JVal.str _) = _
    rw [h p hp]
  · simp only [accessorTypeNames, List.mem_cons, List.not_mem_nil, or_false] at hp
    rcases hp with rfl | rfl | rfl | rfl | rfl | rfl | rfl <;> rfl

/-- C41 for `PrimitiveMode`. -/
theorem C41_primitiveMode :
    Complete (fun a : PrimitiveMode => ∀ n, a ≠ .unknown n) primitiveModeCodes ∧
    ∀ p ∈ primitiveModeCodes, ∃ s, IsDecimal s p.2 ∧ primitiveModeC.enc p.1 = .ok (.num s) ∧ ∀ cur, primitiveModeC.dec (.num s) cur = .ok p.1 := by
  refine ⟨⟨?_, by decide +kernel, by decide +kernel⟩, fun p hp => ⟨_, printNat_decimal _, ?_, fun cur => ?_⟩⟩
  · intro a
    cases a with
    | unknown n => exact ⟨fun h => absurd rfl (h n), fun h => by simp [primitiveModeCodes] at h⟩
    | _ => exact ⟨fun _ => by decide +kernel, fun _ n h => nomatch h⟩
  · have h : ∀ p ∈ primitiveModeCodes, PrimitiveMode.code p.1 = p.2 := by decide +kernel
    show Except.ok (JVal.num (printNat _)) = _
    rw [h p hp]
  · have h : ∀ p ∈ primitiveModeCodes, p.2 < 256 ∧ PrimitiveMode.ofCode p.2 = p.1 := by decide +kernel
    show (decUint _ _ _).map _ = _
    rw [decUint_print (h p hp).1]
    show Except.ok _ = _
    rw [(h p hp).2]

/-- C41 for `AlphaMode`. -/
theorem C41_alphaMode :
    Complete (fun a : AlphaMode => ∀ n, a ≠ .unknown n) alphaModeNames ∧
    ∀ p ∈ alphaModeNames, alphaModeC.enc p.1 = .ok (.str p.2) ∧ ∀ cur, alphaModeC.dec (.str p.2) cur = .ok p.1 := by
  refine ⟨⟨?_, by decide +kernel, by decide +kernel⟩, fun p hp => ⟨?_, fun cur => ?_⟩⟩
  · intro a
    cases a with
    | unknown n => exact ⟨fun h => absurd rfl (h n), fun h => by simp [alphaModeNames] at h⟩
    | _ => exact ⟨fun _ => by decide +kernel, fun _ n h => nomatch h⟩
  · have h : ∀ p ∈ alphaModeNames, AlphaMode.code p.1 = p.2 := by decide +kernel
    show Except.ok (JVal.str _) = _
    rw [h p hp]
  · simp only [alphaModeNames, List.mem_cons, List.not_mem_nil, or_false] at hp
    rcases hp with rfl | rfl | rfl <;> rfl

/-- C41 for `MagFilter`. -/
theorem C41_magFilter :
    Complete (fun a : MagFilter => ∀ n, a ≠ .unknown n) magFilterCodes ∧
    ∀ p ∈ magFilterCodes, ∃ s, IsDecimal s p.2 ∧ magFilterC.enc p.1 = .ok (.num s) ∧ ∀ cur, magFilterC.dec (.num s) cur = .ok p.1 := by
  refine ⟨⟨?_, by decide +kernel, by decide +kernel⟩, fun p hp => ⟨_, printNat_decimal _, ?_, fun cur => ?_⟩⟩
  · intro a
    cases a with
    | unknown n => exact ⟨fun h => absurd rfl (h n), fun h => by simp [magFilterCodes] at h⟩
    | _ => exact ⟨fun _ => by decide +kernel, fun _ n h => nomatch h⟩
  · have h : ∀ p ∈ magFilterCodes, MagFilter.code p.1 = p.2 := by decide +kernel
    show Except.ok (JVal.num (printNat _)) = _
    rw [h p hp]
  · have h : ∀ p ∈ magFilterCodes, p.2 < 65536 ∧ MagFilter.ofCode p.2 = p.1 := by decide +kernel
    show (decUint _ _ _).map _ = _
    rw [decUint_print (h p hp).1]
    show Except.ok _ = _
    rw [(h p hp).2]

/-- C41 for `MinFilter`. -/
theorem C41_minFilter :
    Complete (fun a : MinFilter => ∀ n, a ≠ .unknown n) minFilterCodes ∧
    ∀ p ∈ minFilterCodes, ∃ s, IsDecimal s p.2 ∧ minFilterC.enc p.1 = .ok (.num s) ∧ ∀ cur, minFilterC.dec (.num s) cur = .ok p.1 := by
  refine ⟨⟨?_, by decide +kernel, by decide +kernel⟩, fun p hp => ⟨_, printNat_decimal _, ?_, fun cur => ?_⟩⟩
  · intro a
    cases a with
    | unknown n => exact ⟨fun h => absurd rfl (h n), fun h => by simp [minFilterCodes] at h⟩
    | _ => exact ⟨fun _ => by decide +kernel, fun _ n h => nomatch h⟩
  · have h : ∀ p ∈ minFilterCodes, MinFilter.code p.1 = p.2 := by decide +kernel
    show Except.ok (JVal.num (printNat _)) = _
    rw [h p hp]
  · have h : ∀ p ∈ minFilterCodes, p.2 < 65536 ∧ MinFilter.ofCode p.2 = p.1 := by decide +kernel
    show (decUint _ _ _).map _ = _
    rw [decUint_print (h p hp).1]
    show Except.ok _ = _
    rw [(h p hp).2]

/-- C41 for `WrappingMode`. -/
theorem C41_wrappingMode :
    Complete (fun a : WrappingMode => ∀ n, a ≠ .unknown n) wrappingModeCodes ∧
    ∀ p ∈ wrappingModeCodes, ∃ s, IsDecimal s p.2 ∧ wrappingModeC.enc p.1 = .ok (.num s) ∧ ∀ cur, wrappingModeC.dec (.num s) cur = .ok p.1 := by
  refine ⟨⟨?_, by decide +kernel, by decide +kernel⟩, fun p hp => ⟨_, printNat_decimal _, ?_, fun cur => ?_⟩⟩
  · intro a
    cases a with
    | unknown n => exact ⟨fun h => absurd rfl (h n), fun h => by simp [wrappingModeCodes] at h⟩
    | _ => exact ⟨fun _ => by decide +kernel, fun _ n h => nomatch h⟩
  · have h : ∀ p ∈ wrappingModeCodes, WrappingMode.code p.1 = p.2 := by decide +kernel
    show Except.ok (JVal.num (printNat _)) = _
    rw [h p hp]
  · have h : ∀ p ∈ wrappingModeCodes, p.2 < 65536 ∧ WrappingMode.ofCode p.2 = p.1 := by decide +kernel
    show (decUint _ _ _).map _ = _
    rw [decUint_print (h p hp).1]
    show Except.ok _ = _
    rw [(h p hp).2]

/-- C41 for `Interpolation`. -/
theorem C41_interpolation :
    Complete (fun a : Interpolation => ∀ n, a ≠ .unknown n) interpolationNames ∧
    ∀ p ∈ interpolationNames, interpolationC.enc p.1 = .ok (.str p.2) ∧ ∀ cur, interpolationC.dec (.str p.2) cur = .ok p.1 := by
  refine ⟨⟨?_, by decide +kernel, by decide +kernel⟩, fun p hp => ⟨?_, fun cur => ?_⟩⟩
  · intro a
    cases a with
    | unknown n => exact ⟨fun h => absurd rfl (h n), fun h => by simp [interpolationNames] at h⟩
    | _ => exact ⟨fun _ => by decide +kernel, fun _ n h => nomatch h⟩
  · have h : ∀ p ∈ interpolationNames, Interpolation.code p.1 = p.2 := by decide +kernel
    show Except.ok (JVal.str _) = _
    rw [h p hp]
  · simp only [interpolationNames, List.mem_cons, List.not_mem_nil, or_false] at hp
    rcases hp with rfl | rfl | rfl <;> rfl

/-- C41 for `TRSProperty`. -/
theorem C41_trsProperty :
    Complete (fun a : TRSProperty => ∀ n, a ≠ .unknown n) trsPropertyNames ∧
    ∀ p ∈ trsPropertyNames, trsPropertyC.enc p.1 = .ok (.str p.2) ∧ ∀ cur, trsPropertyC.dec (.str p.2) cur = .ok p.1 := by
  refine ⟨⟨?_, by decide +kernel, by decide +kernel⟩, fun p hp => ⟨?_, fun cur => ?_⟩⟩
  · intro a
    cases a with
    | unknown n => exact ⟨fun h => absurd rfl (h n), fun h => by simp [trsPropertyNames] at h⟩
    | _ => exact ⟨fun _ => by decide +kernel, fun _ n h => nomatch h⟩
  · have h : ∀ p ∈ trsPropertyNames, TRSProperty.code p.1 = p.2 := by decide +kernel
    show Except.ok (JVal.str _) = _
    rw [h p hp]
  · simp only [trsPropertyNames, List.mem_cons, List.not_mem_nil, or_false] at hp
    rcases hp with rfl | rfl | rfl | rfl <;> rfl

/-! ### C42 Decoding enumerations is total -/

/-- C42 for `ComponentType`: every result is a named constant; a number without meaning gives the zero constant. -/
theorem C42_componentType (v : JVal) (cur : ComponentType) :
    (∀ a, componentTypeC.dec v cur = .ok a → ∀ n, a ≠ .unknown n) ∧
    (∀ s n, v = .num s → IsDecimal s n → n < 65536 → n ∉ componentTypeCodes.map (·.2) → componentTypeC.dec v cur = .ok .float) ∧
    (∀ s, v = .str s → ∃ e, componentTypeC.dec v cur = .error e) := by
  refine ⟨?_, ?_, ?_⟩
  · intro a h n
    change (decUint _ _ _).map _ = _ at h
    cases h' : decUint 65536 v 0 with
    | error e => rw [h'] at h; cases h
    | ok k =>
      rw [h'] at h
      injection h with h
      rw [← h]
      unfold ComponentType.ofCode
      repeat' split
      all_goals exact fun h => nomatch h
  · intro s n hv hs hn ht
    subst hv
    change (decUint _ _ _).map _ = _
    unfold decUint
    simp only [readNat_decimal hs, hn, if_true, Except.map]
    congr 1
    simp only [componentTypeCodes, List.map_cons, List.map_nil, List.mem_cons, List.not_mem_nil, or_false, not_or] at ht
    unfold ComponentType.ofCode
    simp only [ht, if_false]
  · intro s hv
    subst hv
    exact ⟨_, rfl⟩

/-- C42 for `AccessorType`: every result is a named constant; a name without meaning is rejected. -/
theorem C42_accessorType (v : JVal) (cur : AccessorType) :
    (∀ a, accessorTypeC.dec v cur = .ok a → ∀ n, a ≠ .unknown n) ∧
    (∀ s, v = .str s → s ∉ accessorTypeNames.map (·.2) → ∃ e, accessorTypeC.dec v cur = .error e) ∧
    (∀ s, v = .num s → ∃ e, accessorTypeC.dec v cur = .error e) := by
  refine ⟨?_, ?_, ?_⟩
  · intro a h n
    change (JC.string.dec v [] >>= _) = _ at h
    cases h' : JC.string.dec v [] with
    | error e => rw [h'] at h; cases h
    | ok k =>
      rw [h'] at h
      change AccessorType.ofCode k = _ at h
      unfold AccessorType.ofCode at h
      repeat' split at h
      all_goals cases h
      all_goals exact fun h => nomatch h
  · intro s hv ht
    subst hv
    simp only [accessorTypeNames, List.map_cons, List.map_nil, List.mem_cons, List.not_mem_nil, or_false, not_or] at ht
    refine ⟨.msg "gltf: unknown accessor's type", ?_⟩
    change AccessorType.ofCode s = _
    unfold AccessorType.ofCode
    simp only [ht, if_false]
  · intro s hv
    subst hv
    exact ⟨_, rfl⟩

/-- C42 for `PrimitiveMode`: every result is a named constant; a number without meaning gives the zero constant. -/
theorem C42_primitiveMode (v : JVal) (cur : PrimitiveMode) :
    (∀ a, primitiveModeC.dec v cur = .ok a → ∀ n, a ≠ .unknown n) ∧
    (∀ s n, v = .num s → IsDecimal s n → n < 256 → n ∉ primitiveModeCodes.map (·.2) → primitiveModeC.dec v cur = .ok .triangles) ∧
    (∀ s, v = .str s → ∃ e, primitiveModeC.dec v cur = .error e) := by
  refine ⟨?_, ?_, ?_⟩
  · intro a h n
    change (decUint _ _ _).map _ = _ at h
    cases h' : decUint 256 v 0 with
    | error e => rw [h'] at h; cases h
    | ok k =>
      rw [h'] at h
      injection h with h
      rw [← h]
      unfold PrimitiveMode.ofCode
      repeat' split
      all_goals exact fun h => nomatch h
  · intro s n hv hs hn ht
    subst hv
    change (decUint _ _ _).map _ = _
    unfold decUint
    simp only [readNat_decimal hs, hn, if_true, Except.map]
    congr 1
    simp only [primitiveModeCodes, List.map_cons, List.map_nil, List.mem_cons, List.not_mem_nil, or_false, not_or] at ht
    unfold PrimitiveMode.ofCode
    simp only [ht, if_false]
  · intro s hv
    subst hv
    exact ⟨_, rfl⟩

/-- C42 for `AlphaMode`: every result is a named constant; a name without meaning gives the zero constant. -/
theorem C42_alphaMode (v : JVal) (cur : AlphaMode) :
    (∀ a, alphaModeC.dec v cur = .ok a → ∀ n, a ≠ .unknown n) ∧
    (∀ s, v = .str s → s ∉ alphaModeNames.map (·.2) → alphaModeC.dec v cur = .ok .opaque) ∧
    (∀ s, v = .num s → ∃ e, alphaModeC.dec v cur = .error e) := by
  refine ⟨?_, ?_, ?_⟩
  · intro a h n
    change (JC.string.dec v [] >>= _) = _ at h
    cases h' : JC.string.dec v [] with
    | error e => rw [h'] at h; cases h
    | ok k =>
      rw [h'] at h
      change Except.ok (AlphaMode.ofCode k) = _ at h
      injection h with h
      rw [← h]
      unfold AlphaMode.ofCode
      repeat' split
      all_goals exact fun h => nomatch h
  · intro s hv ht
    subst hv
    simp only [alphaModeNames, List.map_cons, List.map_nil, List.mem_cons, List.not_mem_nil, or_false, not_or] at ht
    change Except.ok (AlphaMode.ofCode s) = _
    unfold AlphaMode.ofCode
    simp only [ht, if_false]
  · intro s hv
    subst hv
    exact ⟨_, rfl⟩

/-- C42 for `MagFilter`: every result is a named constant; a number without meaning gives the zero constant. -/
theorem C42_magFilter (v : JVal) (cur : MagFilter) :
    (∀ a, magFilterC.dec v cur = .ok a → ∀ n, a ≠ .unknown n) ∧
    (∀ s n, v = .num s → IsDecimal s n → n < 65536 → n ∉ magFilterCodes.map (·.2) → magFilterC.dec v cur = .ok .undefined) ∧
    (∀ s, v = .str s → ∃ e, magFilterC.dec v cur = .error e) := by
  refine ⟨?_, ?_, ?_⟩
  · intro a h n
    change (decUint _ _ _).map _ = _ at h
    cases h' : decUint 65536 v 0 with
    | error e => rw [h'] at h; cases h
    | ok k =>
      rw [h'] at h
      injection h with h
      rw [← h]
      unfold MagFilter.ofCode
      repeat' split
      all_goals exact fun h => nomatch h
  · intro s n hv hs hn ht
    subst hv
    change (decUint _ _ _).map _ = _
    unfold decUint
    simp only [readNat_decimal hs, hn, if_true, Except.map]
    congr 1
    simp only [magFilterCodes, List.map_cons, List.map_nil, List.mem_cons, List.not_mem_nil, or_false, not_or] at ht
    unfold MagFilter.ofCode
    simp only [ht, if_false]
  · intro s hv
    subst hv
    exact ⟨_, rfl⟩

/-- C42 for `MinFilter`: every result is a named constant; a number without meaning gives the zero constant. -/
theorem C42_minFilter (v : JVal) (cur : MinFilter) :
    (∀ a, minFilterC.dec v cur = .ok a → ∀ n, a ≠ .unknown n) ∧
    (∀ s n, v = .num s → IsDecimal s n → n < 65536 → n ∉ minFilterCodes.map (·.2) → minFilterC.dec v cur = .ok .undefined) ∧
    (∀ s, v = .str s → ∃ e, minFilterC.dec v cur = .error e) := by
  refine ⟨?_, ?_, ?_⟩
  · intro a h n
    change (decUint _ _ _).map _ = _ at h
    cases h' : decUint 65536 v 0 with
    | error e => rw [h'] at h; cases h
    | ok k =>
      rw [h'] at h
      injection h with h
      rw [← h]
      unfold MinFilter.ofCode
      repeat' split
      all_goals exact fun h => nomatch h
  · intro s n hv hs hn ht
    subst hv
    change (decUint _ _ _).map _ = _
    unfold decUint
    simp only [readNat_decimal hs, hn, if_true, Except.map]
    congr 1
    simp only [minFilterCodes, List.map_cons, List.map_nil, List.mem_cons, List.not_mem_nil, or_false, not_or] at ht
    unfold MinFilter.ofCode
    simp only [ht, if_false]
  · intro s hv
    subst hv
    exact ⟨_, rfl⟩

/-- C42 for `WrappingMode`: every result is a named constant; a number without meaning gives the zero constant. -/
theorem C42_wrappingMode (v : JVal) (cur : WrappingMode) :
    (∀ a, wrappingModeC.dec v cur = .ok a → ∀ n, a ≠ .unknown n) ∧
    (∀ s n, v = .num s → IsDecimal s n → n < 65536 → n ∉ wrappingModeCodes.map (·.2) → wrappingModeC.dec v cur = .ok .repeated) ∧
    (∀ s, v = .str s → ∃ e, wrappingModeC.dec v cur = .error e) := by
  refine ⟨?_, ?_, ?_⟩
  · intro a h n
    change (decUint _ _ _).map _ = _ at h
    cases h' : decUint 65536 v 0 with
    | error e => rw [h'] at h; cases h
    | ok k =>
      rw [h'] at h
      injection h with h
      rw [← h]
      unfold WrappingMode.ofCode
      repeat' split
      all_goals exact fun h => nomatch h
  · intro s n hv hs hn ht
    subst hv
    change (decUint _ _ _).map _ = _
    unfold decUint
    simp only [readNat_decimal hs, hn, if_true, Except.map]
    congr 1
    simp only [wrappingModeCodes, List.map_cons, List.map_nil, List.mem_cons, List.not_mem_nil, or_false, not_or] at ht
    unfold WrappingMode.ofCode
    simp only [ht, if_false]
  · intro s hv
    subst hv
    exact ⟨_, rfl⟩

/-- C42 for `Interpolation`: every result is a named constant; a name without meaning gives the zero constant. -/
theorem C42_interpolation (v : JVal) (cur : Interpolation) :
    (∀ a, interpolationC.dec v cur = .ok a → ∀ n, a ≠ .unknown n) ∧
    (∀ s, v = .str s → s ∉ interpolationNames.map (·.2) → interpolationC.dec v cur = .ok .linear) ∧
    (∀ s, v = .num s → ∃ e, interpolationC.dec v cur = .error e) := by
  refine ⟨?_, ?_, ?_⟩
  · intro a h n
    change (JC.string.dec v [] >>= _) = _ at h
    cases h' : JC.string.dec v [] with
    | error e => rw [h'] at h; cases h
    | ok k =>
      rw [h'] at h
      change Except.ok (Interpolation.ofCode k) = _ at h
      injection h with h
      rw [← h]
      unfold Interpolation.ofCode
      repeat' split
      all_goals exact fun h => nomatch h
  · intro s hv ht
    subst hv
    simp only [interpolationNames, List.map_cons, List.map_nil, List.mem_cons, List.not_mem_nil, or_false, not_or] at ht
    change Except.ok (Interpolation.ofCode s) = _
    unfold Interpolation.ofCode
    simp only [ht, if_false]
  · intro s hv
    subst hv
    exact ⟨_, rfl⟩

/-- C42 for `TRSProperty`: every result is a named constant; a name without meaning gives the zero constant. -/
theorem C42_trsProperty (v : JVal) (cur : TRSProperty) :
    (∀ a, trsPropertyC.dec v cur = .ok a → ∀ n, a ≠ .unknown n) ∧
    (∀ s, v = .str s → s ∉ trsPropertyNames.map (·.2) → trsPropertyC.dec v cur = .ok .translation) ∧
    (∀ s, v = .num s → ∃ e, trsPropertyC.dec v cur = .error e) := by
  refine ⟨?_, ?_, ?_⟩
  · intro a h n
    change (JC.string.dec v [] >>= _) = _ at h
    cases h' : JC.string.dec v [] with
    | error e => rw [h'] at h; cases h
    | ok k =>
      rw [h'] at h
      change Except.ok (TRSProperty.ofCode k) = _ at h
      injection h with h
      rw [← h]
      unfold TRSProperty.ofCode
      repeat' split
      all_goals exact fun h => nomatch h
  · intro s hv ht
    subst hv
    simp only [trsPropertyNames, List.map_cons, List.map_nil, List.mem_cons, List.not_mem_nil, or_false, not_or] at ht
    change Except.ok (TRSProperty.ofCode s) = _
    unfold TRSProperty.ofCode
    simp only [ht, if_false]
  · intro s hv
    subst hv
    exact ⟨_, rfl⟩

example (cur : AlphaMode) : alphaModeC.dec (.str b!"UNKNOWN") cur = .ok .opaque := ((C42_alphaMode _ cur).2.1 _ rfl (by decide +kernel))
example (cur : MagFilter) : magFilterC.dec (.num b!"1") cur = .ok .undefined :=
  ((C42_magFilter _ cur).2.1 b!"1" 1 rfl ⟨by unfold IsDigits; decide +kernel, by decide +kernel, by decide +kernel⟩ (by decide) (by decide +kernel))

end Gltf
