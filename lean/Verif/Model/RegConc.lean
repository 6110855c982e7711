/-
Concurrent use of the registry of extensions: goroutines that register extensions and that decode extensions,
gltf.go:467-486 and encode.go:441-463.

A goroutine is a program of calls of `RegisterExtension` and `queryExtension`; everything else that it does, in particular the
calls of the registered functions, is between these calls and can depend on what the queries returned. A function that is called
while decoding can register extensions itself. Both functions are split in atomic steps: taking the lock, accessing the map, and
releasing the lock. Simplification: readers that wait for the end of a writer do not go before the next writer, as those of
`sync.RWMutex` do; the model allows both orders.
-/
import Verif.Model.JsonCodec

namespace Gltf.Reg

open Gltf

/-- What a goroutine does. -/
inductive Prog where
  /-- the end, with the extensions that were decoded -/
  | ret (m : Extensions)
  /-- call of `RegisterExtension` -/
  | register (key : Bytes) (f : JVal → Except Err (Except Err JVal)) (next : Prog)
  /-- call of `queryExtension` -/
  | query (key : Bytes) (next : Option (JVal → Except Err (Except Err JVal)) → Prog)

/-- Where a goroutine is. -/
inductive Phase where
  /-- outside of both functions -/
  | out (p : Prog)
  /-- gltf.go:476, in `extMu.Lock()`: waiting for the readers -/
  | waiting (key : Bytes) (f : JVal → Except Err (Except Err JVal)) (next : Prog)
  /-- before gltf.go:478 -/
  | writing (key : Bytes) (f : JVal → Except Err (Except Err JVal)) (next : Prog)
  /-- before `extMu.Unlock()` of gltf.go:477 -/
  | written (next : Prog)
  /-- before gltf.go:483 -/
  | reading (key : Bytes) (next : Option (JVal → Except Err (Except Err JVal)) → Prog)
  /-- before gltf.go:484 -/
  | done (found : Option (JVal → Except Err (Except Err JVal))) (next : Option (JVal → Except Err (Except Err JVal)) → Prog)

/-- The accesses of the map. -/
inductive Access where
  | write (key : Bytes) (f : JVal → Except Err (Except Err JVal))
  | read (key : Bytes) (found : Option (JVal → Except Err (Except Err JVal)))

/-- The state of all goroutines. -/
structure State where
  /-- `extensions`, gltf.go:469 -/
  reg : Registry
  /-- `extMu`, gltf.go:468: a writer has the lock or waits for the readers -/
  locked : Bool
  /-- `extMu`: the number of readers -/
  readers : Nat
  threads : List Phase
  /-- all accesses of the map with the goroutine that did them, in the order in which they happened (not part of the program) -/
  log : List (Nat × Access)

/-- The next step of goroutine `i`; none if it has finished or has to wait. -/
def step (s : State) (i : Nat) : Option State :=
  match s.threads[i]? with
  | none => none
  | some (.out (.ret _)) => none
  | some (.out (.register k f p)) => if s.locked then none else some { s with locked := true, threads := s.threads.set i (.waiting k f p) }
  | some (.waiting k f p) => if s.readers = 0 then some { s with threads := s.threads.set i (.writing k f p) } else none
  | some (.writing k f p) =>
    some { s with reg := s.reg.register k f, threads := s.threads.set i (.written p), log := s.log ++ [(i, .write k f)] }
  | some (.written p) => some { s with locked := false, threads := s.threads.set i (.out p) }
  | some (.out (.query k c)) => if s.locked then none else some { s with readers := s.readers + 1, threads := s.threads.set i (.reading k c) }
  | some (.reading k c) =>
    some { s with threads := s.threads.set i (.done (s.reg.query k) c), log := s.log ++ [(i, .read k (s.reg.query k))] }
  | some (.done v c) => some { s with readers := s.readers - 1, threads := s.threads.set i (.out (c v)) }

/-- The state before the goroutines start. -/
def start (reg : Registry) (ps : List Prog) : State := ⟨reg, false, 0, ps.map .out, []⟩

/-- The states that can be reached in any order of the steps. -/
inductive Reach (s : State) : State → Prop where
  | refl : Reach s s
  | step (t u : State) (i : Nat) : Reach s t → step t i = some u → Reach s u

/-- encode.go:446-459 as a program: a query for each member, then the call of the function that was found. -/
def unmarshal : List (Bytes × JVal) → Extensions → Prog
  | [], cur => .ret cur
  | (k, v) :: vs, cur => .query k fun found =>
    unmarshal vs (mapInsert k
      (match found with
       | some f =>
         match f v with
         | .ok n => .typed n
         | .error _ => .raw v
       | none => .raw v) cur)

end Gltf.Reg
