/-
The number of type `float32` that is nearest to a fraction.
-/
import Verif.Spec.Color
import Verif.Spec.Layout

namespace Gltf.Spec

/-- `x` is finite and no other `float32` is nearer to `t`. -/
def NearestF32 (t : ℚ) (x : F32) : Prop := x.finite = true ∧ ∀ y : F32, y.finite = true → |x.q - t| ≤ |y.q - t|

/-- The `float32` that stands for a component of a normalised texture coordinate or weight: the nearest one to the
fraction of the largest integer; floats stand for themselves. -/
def Level : (k : Kind) → k.T → F32 → Prop
  | .u8, v, y => NearestF32 ((v.toNat : ℚ) / 255) y
  | .u16, v, y => NearestF32 ((v.toNat : ℚ) / 65535) y
  | .f32, v, y => y = v
  | _, _, _ => False

end Gltf.Spec
