/-
Specification: a registry that is shared by goroutines behaves as if its accesses happened one after the other.
-/
import Verif.Model.RegConc

namespace Gltf.Reg

/-- What was registered last under the name, or before all of the accesses. -/
def Latest (old : Registry) (log : List (Nat × Access)) (key : Bytes) (found : Option (JVal → Except Err (Except Err JVal))) : Prop :=
  (∃ before i f after, log = before ++ (i, Access.write key f) :: after ∧ (∀ j g, (j, Access.write key g) ∉ after) ∧ found = some f) ∨
  ((∀ j g, (j, Access.write key g) ∉ log) ∧ found = old.query key)

/-- The program does these accesses, and then the rest. -/
inductive Runs : Prog → List Access → Prog → Prop where
  | nil (p : Prog) : Runs p [] p
  | write (k : Bytes) (f : JVal → Except Err (Except Err JVal)) (p : Prog) (l : List Access) (q : Prog) :
      Runs p l q → Runs (.register k f p) (.write k f :: l) q
  | read (k : Bytes) (v : Option (JVal → Except Err (Except Err JVal))) (c : Option (JVal → Except Err (Except Err JVal)) → Prog)
      (l : List Access) (q : Prog) : Runs (c v) l q → Runs (.query k c) (.read k v :: l) q

/-- The accesses of one goroutine. -/
def own (i : Nat) (log : List (Nat × Access)) : List Access := log.filterMap fun e => if e.1 = i then some e.2 else none

/-- The goroutine writes the map in its next step. -/
def Writes (s : State) (i : Nat) : Prop := ∃ k f p, s.threads[i]? = some (.writing k f p)

/-- The goroutine reads the map in its next step. -/
def Reads (s : State) (i : Nat) : Prop := ∃ k c, s.threads[i]? = some (.reading k c)

/-- The goroutine has finished with this result. -/
def Finished (s : State) (i : Nat) (m : Extensions) : Prop := s.threads[i]? = some (.out (.ret m))

end Gltf.Reg
