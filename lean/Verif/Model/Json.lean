/-
JSON values.
-/
import Verif.Go.Prelude

namespace Gltf

/-- A JSON value. Numbers keep their literal, objects keep the order of their members, strings are
the decoded bytes. -/
inductive JVal where
  | null
  | bool (b : Bool)
  | num (lit : Bytes)
  | str (s : Bytes)
  | arr (l : List JVal)
  | obj (l : List (Bytes × JVal))

end Gltf
