/-
Specification: bounds of positions.
-/
import Verif.Model.Float

namespace Gltf

/-- `mn` and `mx` bound the numbers, and are attained if there is any. Values of `float32` are in units
of 2^-149, those of `float64` in units of 2^-1074. -/
def Spec.ExactBounds (xs : List F32) (mn mx : F64) : Prop :=
  mn.finite = true ∧ mx.finite = true ∧
  (∀ x ∈ xs, mn.val ≤ x.val * 2 ^ 925 ∧ x.val * 2 ^ 925 ≤ mx.val) ∧
  (xs ≠ [] → (∃ x ∈ xs, x.val * 2 ^ 925 = mn.val) ∧ ∃ x ∈ xs, x.val * 2 ^ 925 = mx.val)

/-- All three components are finite. -/
def Spec.FiniteVec (v : V3 F32) : Prop := v.x0.finite = true ∧ v.x1.finite = true ∧ v.x2.finite = true

open Spec in
/-- The three lists of components are bounded exactly by the two lists of three numbers. -/
def Spec.BoundsOf (data : List (V3 F32)) (min max : List F64) : Prop :=
  ∃ a b c a' b' c', min = [a, b, c] ∧ max = [a', b', c'] ∧
    ExactBounds (data.map (·.x0)) a a' ∧ ExactBounds (data.map (·.x1)) b b' ∧ ExactBounds (data.map (·.x2)) c c'

end Gltf

namespace Gltf.Spec

/-- The largest of some `float32` values, as Go's `math.Max` sees it: infinity wins, then NaN. Without finite values it stays at the number that the
search starts with. -/
structure MaxBound (xs : List F32) (m : F64) : Prop where
  infinite : (⟨0x7F800000⟩ : F32) ∈ xs → m = ⟨0x7FF0000000000000⟩
  nan : (⟨0x7F800000⟩ : F32) ∉ xs → (∃ x ∈ xs, x.isNaN = true) → m.isNaN = true
  rest : (⟨0x7F800000⟩ : F32) ∉ xs → (∀ x ∈ xs, x.isNaN = false) → m.finite = true ∧
    (∀ x ∈ xs, x.finite = true → x.val * 2 ^ 925 ≤ m.val) ∧
    ((∃ x ∈ xs, x.finite = true ∧ x.val * 2 ^ 925 = m.val) ∨ ((∀ x ∈ xs, x.finite = false) ∧ m = ⟨0xFFEFFFFFFFFFFFFF⟩))

/-- The smallest of some `float32` values. -/
structure MinBound (xs : List F32) (m : F64) : Prop where
  infinite : (⟨0xFF800000⟩ : F32) ∈ xs → m = ⟨0xFFF0000000000000⟩
  nan : (⟨0xFF800000⟩ : F32) ∉ xs → (∃ x ∈ xs, x.isNaN = true) → m.isNaN = true
  rest : (⟨0xFF800000⟩ : F32) ∉ xs → (∀ x ∈ xs, x.isNaN = false) → m.finite = true ∧
    (∀ x ∈ xs, x.finite = true → m.val ≤ x.val * 2 ^ 925) ∧
    ((∃ x ∈ xs, x.finite = true ∧ x.val * 2 ^ 925 = m.val) ∨ ((∀ x ∈ xs, x.finite = false) ∧ m = ⟨0x7FEFFFFFFFFFFFFF⟩))

/-- The two lists have the bounds of the three components. -/
def BoundsOfAll (data : List (V3 F32)) (min max : List F64) : Prop :=
  ∃ a b c a' b' c', min = [a, b, c] ∧ max = [a', b', c'] ∧
    MinBound (data.map (·.x0)) a ∧ MinBound (data.map (·.x1)) b ∧ MinBound (data.map (·.x2)) c ∧
    MaxBound (data.map (·.x0)) a' ∧ MaxBound (data.map (·.x1)) b' ∧ MaxBound (data.map (·.x2)) c'

end Gltf.Spec
