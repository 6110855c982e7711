/-
Property C27: readers running concurrently do not interfere.
-/
import Verif.Lemmas.Pool
import Verif.Props.ModelerRead

namespace Gltf

open Spec Conc

/-- A state in which goroutines are about to make the given calls. The pools hold any arrays with any
contents; an array is in the pools at most once. -/
structure Starts (repr : Slice → Bytes) (cf : ColorFns) (doc : Document) (calls : List Call) (s : State) : Prop where
  threads : s.threads = calls.map (Call.prog repr cf doc)
  pools : (s.free.map (·.2)).Nodup
  allocated : ∀ x ∈ s.free, x.2 < s.next

/-- The scratch array that the next step of a program reads, writes or gives back. -/
def touches {α : Type} : Prog α → Option Nat
  | .ret _ | .get _ _ => none
  | .put _ id _ | .load id _ | .upd id _ _ => some id

theorem Starts.inv {repr : Slice → Bytes} {cf : ColorFns} {doc : Document} {calls : List Call} {s : State}
    (h : Starts repr cf doc calls s) :
    Inv (fun i a => ∀ call, calls[i]? = some call → ∃ b0 p, a = call.solo cf doc b0 p) s fun _ => [] := by
  refine ⟨?_, fun _ _ _ _ _ h => (by cases h), fun _ _ _ h => (by cases h), fun _ => List.nodup_nil, h.pools,
    fun _ _ h => (by cases h), h.allocated⟩
  intro i P hP
  rw [h.threads, List.getElem?_map] at hP
  cases hc : calls[i]? with
  | none => rw [hc] at hP; cases hP
  | some call =>
    rw [hc] at hP
    cases hP
    apply wp_mono (prog_spec repr cf doc call [] s.heap)
    rintro _ _ a ⟨b0, p, rfl⟩ call' h'
    cases h'
    exact ⟨b0, p, rfl⟩

/-- C27, the result: whatever the interleaving and whatever the pools contain, a call that has
finished has a result that the call running alone has for some contents of the scratch buffers. -/
theorem C27_as_if_alone (repr : Slice → Bytes) (cf : ColorFns) (doc : Document) (calls : List Call) (s s' : State)
    (h : Starts repr cf doc calls s) (hs : Steps s s') (i : Nat) (call : Call) (a : Res Slice)
    (hc : calls[i]? = some call) (hf : s'.threads[i]? = some (.ret a)) : ∃ b0 p, a = call.solo cf doc b0 p := by
  obtain ⟨own, hi⟩ := h.inv.steps hs
  exact hi.thread i _ hf call hc

/-- The accessor that a call reads. -/
def Conc.Call.acr : Call → Accessor
  | .accessor acr _ => acr
  | .typed _ acr _ => acr

/-- The call does not recycle a buffer for an accessor without elements. -/
def Conc.Call.Fresh : Call → Prop
  | .accessor _ _ => True
  | .typed _ acr buffer => acr.count ≠ 0 ∨ buffer = []

theorem SameOutcome.map {α β : Type} {x y : Res α} (f : α → β) (h : SameOutcome x y) : SameOutcome (x.map f) (y.map f) := by
  cases x <;> cases y <;> simp only [SameOutcome] at h
  · subst h; exact rfl
  · exact h
  · trivial

theorem readsCount (cf : ColorFns) (r : Reader) : ReadsCount (r.read cf) := by
  obtain ⟨h1, h2, h3, h4, h5, h6, h7, h8, h9, h10⟩ := C23_typed_readers_partial cf
  cases r <;> assumption

/-- C27 with a definite result, for the accessors for which a single call does not depend on the
contents of the pools (see `C08_scratch_partial` and `C23_typed_readers_partial`; missing: the
other accessors, where even calls one after the other give different results, see `C08_full_fails`
and `C23_full_fails_no_view`). -/
theorem C27_same_result_partial (repr : Slice → Bytes) (cf : ColorFns) (doc : Document) (calls : List Call) (s s' : State)
    (h : Starts repr cf doc calls s) (hs : Steps s s') (i : Nat) (call : Call) (a : Res Slice)
    (hc : calls[i]? = some call) (hf : s'.threads[i]? = some (.ret a))
    (ht : Tame doc) (hm : Modest call.acr) (hv : call.acr.bufferView ≠ none) (hfr : call.Fresh) (b0 : Bytes) (p : Pools) :
    SameOutcome a (call.solo cf doc b0 p) := by
  obtain ⟨b0', p', rfl⟩ := C27_as_if_alone repr cf doc calls s s' h hs i call a hc hf
  cases call with
  | accessor acr buffer => exact C08_scratch_partial doc acr buffer buffer p' p ht hm hv
  | typed r acr buffer =>
    apply SameOutcome.map
    refine (readsCount cf r doc acr buffer buffer b0' b0 p' p ?_).2.2 ht hm hv
    rcases hfr with h | h
    · exact .inl h
    · exact .inr ⟨h, h⟩

/-- C27, no races: no two goroutines are ever about to access the same scratch array, and no goroutine
is about to access an array that is in a pool. -/
theorem C27_no_race (repr : Slice → Bytes) (cf : ColorFns) (doc : Document) (calls : List Call) (s s' : State)
    (h : Starts repr cf doc calls s) (hs : Steps s s') (i : Nat) (P : Prog (Res Slice)) (id : Nat)
    (hi : s'.threads[i]? = some P) (hti : touches P = some id) :
    (∀ j P', i ≠ j → s'.threads[j]? = some P' → touches P' ≠ some id) ∧ ∀ p, (p, id) ∉ s'.free := by
  obtain ⟨own, hinv⟩ := h.inv.steps hs
  have owns : ∀ j P id, s'.threads[j]? = some P → touches P = some id → ∃ q, (q, id) ∈ own j := by
    intro j P id hj ht
    have := hinv.thread j P hj
    cases P with
    | ret a => cases ht
    | get p k => cases ht
    | put p id' k => cases ht; exact ⟨p, this.1⟩
    | load id' k => cases ht; exact this.1
    | upd id' f k => cases ht; exact this.1
  obtain ⟨q, hq⟩ := owns i P id hi hti
  refine ⟨fun j P' hij hj ht => ?_, fun p hp => hinv.pooled i _ _ hq hp rfl⟩
  obtain ⟨q', hq'⟩ := owns j P' id hj ht
  exact hinv.apart i j _ _ hij hq hq' rfl

/-- C27, progress: a goroutine that has not finished can always make a step. -/
theorem C27_progress (s : State) (i : Nat) (P : Prog (Res Slice)) (hi : s.threads[i]? = some P) :
    (∃ a, P = .ret a) ∨ ∃ P' s', Step s s' ∧ s'.threads = s.threads.set i P' := by
  cases P with
  | ret a => exact .inl ⟨a, rfl⟩
  | get p k => exact .inr ⟨_, _, .new hi, rfl⟩
  | put p id k => exact .inr ⟨_, _, .put hi, rfl⟩
  | load id k => exact .inr ⟨_, _, .load hi, rfl⟩
  | upd id f k => exact .inr ⟨_, _, .upd hi, rfl⟩

/-- A scheduler: step the given goroutines one after the other, taking arrays from the pools when
there are any. -/
def runSchedule : List Nat → State → State
  | [], s => s
  | i :: is, s =>
    match s.threads[i]? with
    | none | some (.ret _) => runSchedule is s
    | some (.get p k) =>
      match s.free.find? (·.1 = p) with
      | some (_, id) => runSchedule is { s with free := s.free.erase (p, id), threads := s.threads.set i (k id) }
      | none => runSchedule is { heap := setHeap s.heap s.next (freshArray p), next := s.next + 1, free := s.free,
                                 threads := s.threads.set i (k s.next) }
    | some (.put p id k) => runSchedule is { s with free := (p, id) :: s.free, threads := s.threads.set i k }
    | some (.load id k) => runSchedule is { s with threads := s.threads.set i (k (s.heap id)) }
    | some (.upd id f k) =>
      runSchedule is { s with heap := setHeap s.heap id (f (s.heap id)), threads := s.threads.set i k }

theorem steps_trans {s s' s'' : State} (h : Step s s') (hs : Steps s' s'') : Steps s s'' := by
  induction hs with
  | refl => exact .step (.refl _) h
  | step _ h2 ih => exact .step ih h2

theorem runSchedule_steps (is : List Nat) (s : State) : Steps s (runSchedule is s) := by
  induction is generalizing s with
  | nil => exact .refl s
  | cons i is ih =>
    unfold runSchedule
    split
    · exact ih s
    · exact ih s
    · next p k h =>
      split
      · next q id hf =>
        have h1 := List.mem_of_find?_eq_some hf
        have h2 : q = p := by simpa using List.find?_some hf
        subst h2
        exact steps_trans (.reuse h h1) (ih _)
      · exact steps_trans (.new h) (ih _)
    · next h => exact steps_trans (.put h) (ih _)
    · next h => exact steps_trans (.load h) (ih _)
    · next h => exact steps_trans (.upd h) (ih _)

/-- The result of a goroutine. -/
def finalOutcome (s : State) (i : Nat) : Option (Res Slice) :=
  match s.threads[i]? with
  | some (.ret a) => some a
  | _ => none

/-- Two goroutines that read different indices in lockstep, with one dirty array in the pool. -/
example : ∃ (doc : Document) (calls : List Call) (s s' : State),
    Starts (fun _ => [7]) ⟨fun _ => ⟨0, 0, 0⟩, fun _ => ⟨0, 0, 0, 0⟩, fun _ => ⟨0, 0, 0⟩, fun _ => ⟨0, 0, 0, 0⟩⟩ doc calls s ∧
    Steps s s' ∧ s.free = [(.buf, 0)] ∧
    finalOutcome s' 0 = some (.ok ⟨.base .u32 .sc, [1, 2]⟩) ∧ finalOutcome s' 1 = some (.ok ⟨.base .u32 .sc, [3, 4]⟩) := by
  let doc : Document := { buffers := [some { data := [1, 2, 3, 4], byteLength := 4 }],
                          bufferViews := [some { buffer := 0, byteLength := 4 }] }
  let a0 : Accessor := { componentType := .ubyte, type := .scalar, count := 2, bufferView := some 0 }
  let calls : List Call := [.typed .indices a0 [], .typed .indices { a0 with byteOffset := 2 } []]
  let s : State := { heap := fun _ => .raw [9, 9, 9], next := 1, free := [(.buf, 0)],
                     threads := calls.map (Call.prog (fun _ => [7]) ⟨fun _ => ⟨0, 0, 0⟩, fun _ => ⟨0, 0, 0, 0⟩, fun _ => ⟨0, 0, 0⟩, fun _ => ⟨0, 0, 0, 0⟩⟩ doc) }
  refine ⟨doc, calls, s, runSchedule (List.flatten (List.replicate 12 [0, 1])) s, ⟨rfl, ?_, ?_⟩,
    runSchedule_steps _ _, rfl, ?_, ?_⟩
  · decide
  · decide
  · decide +kernel
  · decide +kernel

/-- The full claim, even with empty pools at the start: a call gives the same result as the call running alone. -/
def C27_full : Prop :=
  ∀ (repr : Slice → Bytes) (cf : ColorFns) (doc : Document) (calls : List Call) (s s' t t' : State) (i : Nat) (call : Call)
    (a b : Res Slice),
    Starts repr cf doc calls s → s.free = [] → Steps s s' → calls[i]? = some call → s'.threads[i]? = some (.ret a) →
    Starts repr cf doc [call] t → t.free = [] → Steps t t' → t'.threads[0]? = some (.ret b) → SameOutcome a b

/-- The bytes that a slice of bytes leaves in its scratch array, of 1024 bytes. -/
def byteRepr : Slice → Bytes
  | ⟨.base .u8 .sc, d⟩ => d ++ List.replicate (1024 - d.length) 0
  | _ => List.replicate 1024 0

/-- C27 is false in full: one goroutine reads the indices 1, 2, 3, 4 and another one an accessor without buffer view,
which gives zeros when it runs alone, and the indices of the first goroutine if it gets the array that this one used. -/
theorem C27_full_fails : ¬ C27_full := by
  intro H
  let cf : ColorFns := ⟨fun _ => ⟨0, 0, 0⟩, fun _ => ⟨0, 0, 0, 0⟩, fun _ => ⟨0, 0, 0⟩, fun _ => ⟨0, 0, 0, 0⟩⟩
  let doc : Document := { buffers := [some { data := [1, 2, 3, 4], byteLength := 4 }],
                          bufferViews := [some { buffer := 0, byteLength := 4 }] }
  let a0 : Accessor := { componentType := .ubyte, type := .scalar, count := 4, bufferView := some 0 }
  let c1 : Call := .typed .indices { a0 with bufferView := none } []
  let calls : List Call := [.typed .indices a0 [], c1]
  let s : State := { heap := fun _ => .raw [], next := 0, free := [], threads := calls.map (Call.prog byteRepr cf doc) }
  let t : State := { heap := fun _ => .raw [], next := 0, free := [], threads := [c1].map (Call.prog byteRepr cf doc) }
  have key := fun a b h1 h2 => H byteRepr cf doc calls s (runSchedule (List.replicate 20 0 ++ List.replicate 20 1) s) t
    (runSchedule (List.replicate 20 0) t) 1 c1 a b
    ⟨rfl, List.nodup_nil, fun _ h => by cases h⟩ rfl (runSchedule_steps _ _) rfl h1
    ⟨rfl, List.nodup_nil, fun _ h => by cases h⟩ rfl (runSchedule_steps _ _) h2
  have h1 : finalOutcome (runSchedule (List.replicate 20 0 ++ List.replicate 20 1) s) 1 = some (.ok ⟨.base .u32 .sc, [1, 2, 3, 4]⟩) := by
    decide +kernel
  have h2 : finalOutcome (runSchedule (List.replicate 20 0) t) 0 = some (.ok ⟨.base .u32 .sc, [0, 0, 0, 0]⟩) := by
    decide +kernel
  have out : ∀ (s : State) (i : Nat) (a : Res Slice), finalOutcome s i = some a → s.threads[i]? = some (.ret a) := by
    intro s i a h
    unfold finalOutcome at h
    split at h
    · next b hb => cases h; exact hb
    · cases h
  have := key _ _ (out _ _ _ h1) (out _ _ _ h2)
  revert this
  simp [SameOutcome]

end Gltf
