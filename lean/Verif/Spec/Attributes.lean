/-
Specification of the attributes of a primitive.
-/
import Verif.Model.Write
import Verif.Spec.Layout

namespace Gltf.Spec

open Gltf

/-- The attributes that have data, with their names. -/
def nonEmpty : List PrimitiveAttribute → List (Bytes × Slice)
  | [] => []
  | ⟨_, none⟩ :: rest => nonEmpty rest
  | ⟨name, some d⟩ :: rest => if d.data = [] then nonEmpty rest else (name, d) :: nonEmpty rest

/-- Numbers stored as unsigned bytes, unsigned shorts or floats. -/
def smallOrFloat : Kind → Bool
  | .u8 | .u16 | .f32 => true
  | _ => false

/-- The element types allowed for the well-known names; anything for other names. -/
def Allowed (name : Bytes) (t : ETy) : Bool :=
  if name = b!"POSITION" then decide (t = .base .f32 .v3)
  else if name = b!"TEXCOORD_0" ∨ name = b!"TEXCOORD_1" then decide (shape t = .v2) && smallOrFloat (kind t)
  else if name = b!"WEIGHTS_0" then
    decide (t = .base .u8 .v4) || decide (t = .base .u16 .v4) || decide (t = .base .f32 .v4)
  else if name = b!"JOINTS_0" then decide (t = .base .u8 .v4) || decide (t = .base .u16 .v4)
  else if name = b!"COLOR_0" then (decide (shape t = .v3) || decide (shape t = .v4)) && smallOrFloat (kind t)
  else true

/-- Attributes whose integers stand for fractions. -/
def IsNormalized (name : Bytes) (t : ETy) : Bool :=
  (decide (name = b!"TEXCOORD_0") || decide (name = b!"TEXCOORD_1") || decide (name = b!"WEIGHTS_0")
    || decide (name = b!"COLOR_0")) && decide (kind t ≠ .f32)

/-- `(name, d)` is at position `j` among the attributes, and no later one has that name. -/
def LastNamed (l : List (Bytes × Slice)) (name : Bytes) (j : Nat) (d : Slice) : Prop :=
  l[j]? = some (name, d) ∧ ∀ k e, j < k → l[k]? = some (name, e) → False

end Gltf.Spec
