/-
The colour readers with the colour functions of math.go.
-/
import Verif.Model.Read
import Verif.Model.Color

namespace Gltf

/-- The functions that modeler/read.go:382-388 and modeler/read.go:443-449 call. Where Go leaves the conversion to an
integer to the implementation (`F32.truncTo`), the result is that of `other`. -/
def ColorFns.ofMath (pow : Pow) (other : ColorFns) : ColorFns where
  rgb e := match normalizeRGB pow #v[e.x0, e.x1, e.x2] with
    | some w => ⟨w[0], w[1], w[2]⟩
    | none => other.rgb e
  rgba e := match normalizeRGBA pow #v[e.x0, e.x1, e.x2, e.x3] with
    | some w => ⟨w[0], w[1], w[2], w[3]⟩
    | none => other.rgba e
  rgb64 e := match normalizeRGB64 pow #v[e.x0, e.x1, e.x2] with
    | some w => ⟨w[0], w[1], w[2]⟩
    | none => other.rgb64 e
  rgba64 e := match normalizeRGBA64 pow #v[e.x0, e.x1, e.x2, e.x3] with
    | some w => ⟨w[0], w[1], w[2], w[3]⟩
    | none => other.rgba64 e

end Gltf
