/-
Specification for property C109: JSON values that differ in the order of their members only.
-/
import Verif.Spec.Json
import Verif.Model.JsonDoc

namespace Gltf.Spec

/-- Neighbouring members with different names are exchanged, any number of times and at any depth, but not within the value of one
extension. Names that differ in case only count as one, as in encoding/json. -/
inductive Reordered : JVal → JVal → Prop where
  | refl (v : JVal) : Reordered v v
  | trans {u v w : JVal} : Reordered u v → Reordered v w → Reordered u w
  | swap (pre post : List (Bytes × JVal)) (a b : Bytes × JVal) : foldKey a.1 ≠ foldKey b.1 →
      Reordered (.obj (pre ++ a :: b :: post)) (.obj (pre ++ b :: a :: post))
  | element (pre post : List JVal) {v w : JVal} : Reordered v w → Reordered (.arr (pre ++ v :: post)) (.arr (pre ++ w :: post))
  | member (pre post : List (Bytes × JVal)) (k : Bytes) {v w : JVal} : foldKey k ≠ foldKey b!"extensions" → Reordered v w →
      Reordered (.obj (pre ++ (k, v) :: post)) (.obj (pre ++ (k, w) :: post))
  | extension (pre post p q : List (Bytes × JVal)) (k : Bytes) (a b : Bytes × JVal) : foldKey a.1 ≠ foldKey b.1 →
      Reordered (.obj (pre ++ (k, .obj (p ++ a :: b :: q)) :: post)) (.obj (pre ++ (k, .obj (p ++ b :: a :: q)) :: post))

end Gltf.Spec
