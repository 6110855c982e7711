/-
Property C77: values of the enumerations that are not constants.
-/
import Verif.Props.Enum

namespace Gltf

open Spec

/-- C77, enumerations that are numbers in JSON: a value that is not a constant is written as 0, whatever it is, and this
is read as the zero constant, for primitive modes as points. -/
theorem C77_numbers (n : Nat) :
    (componentTypeC.enc (.unknown n) = .ok (.num b!"0") ∧ ∀ cur, componentTypeC.dec (.num b!"0") cur = .ok .float) ∧
    (primitiveModeC.enc (.unknown n) = .ok (.num b!"0") ∧ ∀ cur, primitiveModeC.dec (.num b!"0") cur = .ok .points) ∧
    (magFilterC.enc (.unknown n) = .ok (.num b!"0") ∧ ∀ cur, magFilterC.dec (.num b!"0") cur = .ok .undefined) ∧
    (minFilterC.enc (.unknown n) = .ok (.num b!"0") ∧ ∀ cur, minFilterC.dec (.num b!"0") cur = .ok .undefined) ∧
    (wrappingModeC.enc (.unknown n) = .ok (.num b!"0") ∧ ∀ cur, wrappingModeC.dec (.num b!"0") cur = .ok .repeated) :=
  ⟨⟨rfl, fun _ => rfl⟩, ⟨rfl, fun _ => rfl⟩, ⟨rfl, fun _ => rfl⟩, ⟨rfl, fun _ => rfl⟩, ⟨rfl, fun _ => rfl⟩⟩

/-- C77, enumerations that are strings in JSON: a value that is not a constant is written as the empty string; this is
read as the zero constant, but for the types of accessors it is rejected. -/
theorem C77_strings (n : Nat) :
    (accessorTypeC.enc (.unknown n) = .ok (.str []) ∧ ∀ cur, ∃ e, accessorTypeC.dec (.str []) cur = .error e) ∧
    (alphaModeC.enc (.unknown n) = .ok (.str []) ∧ ∀ cur, alphaModeC.dec (.str []) cur = .ok .opaque) ∧
    (interpolationC.enc (.unknown n) = .ok (.str []) ∧ ∀ cur, interpolationC.dec (.str []) cur = .ok .linear) ∧
    (trsPropertyC.enc (.unknown n) = .ok (.str []) ∧ ∀ cur, trsPropertyC.dec (.str []) cur = .ok .translation) :=
  ⟨⟨rfl, fun _ => ⟨_, rfl⟩⟩, ⟨rfl, fun _ => rfl⟩, ⟨rfl, fun _ => rfl⟩, ⟨rfl, fun _ => rfl⟩⟩

end Gltf
