/-
C96: `Encode` does not change the document, and several goroutines can encode the same document at the same time.
-/
import Verif.Lemmas.SharedRun

namespace Gltf.Shared

/-- No goroutine changes anything that was in memory before, in no order of the steps. -/
theorem C96_unchanged {E : Env} {U : UrlLib} {m : Mem} {calls : List Call} (hv : ∀ c ∈ calls, c.doc.Valid m) {s : State Encoded}
    (h : Reach (start E U m calls) s) (a : Nat) (o : Obj) (ha : m[a]? = some o) : s.mem[a]? = some o := by
  obtain ⟨own, hi⟩ := inv_encode hv h
  rw [hi.old a (List.getElem?_eq_some_iff.1 ha).1, ha]

/-- All accesses of the same object by different goroutines are reads. -/
theorem C96_no_race {E : Env} {U : UrlLib} {m : Mem} {calls : List Call} (hv : ∀ c ∈ calls, c.doc.Valid m) {s : State Encoded}
    (h : Reach (start E U m calls) s) (i j : Nat) (x y : Access) (hx : (i, x) ∈ s.log) (hy : (j, y) ∈ s.log) (hij : i ≠ j)
    (ha : x.addr = y.addr) : x.IsRead ∧ y.IsRead := by
  obtain ⟨own, hi⟩ := inv_encode hv h
  have own_of : ∀ k z, (k, z) ∈ s.log → (z.IsRead ∧ z.addr < m.length) ∨ ((own k z.addr).isSome ∧ m.length ≤ z.addr) := by
    intro k z hz
    have old : ∀ a, (own k a).isSome → m.length ≤ a := by
      intro a h
      obtain ⟨o, ho⟩ := Option.isSome_iff_exists.1 h
      exact (hi.cells k a o ho).1
    cases z with
    | read a => exact (hi.reads k a hz).imp (fun h => ⟨trivial, h⟩) fun h => ⟨h, old a h⟩
    | write a => exact .inr (hi.writes k a hz).symm
    | alloc a => exact .inr (hi.allocs k a hz)
  rcases own_of i x hx with ⟨rx, lx⟩ | ⟨ox, lx⟩ <;> rcases own_of j y hy with ⟨ry, ly⟩ | ⟨oy, ly⟩
  · exact ⟨rx, ry⟩
  · omega
  · omega
  · rw [ha] at ox
    exact absurd (hi.apart i j _ ox oy) hij

/-- Each call that finishes has the result that the same call has alone, for the values that the document had before. -/
theorem C96_result {E : Env} {U : UrlLib} {m : Mem} {calls : List Call} (hv : ∀ c ∈ calls, c.doc.Valid m) {s : State Encoded}
    (h : Reach (start E U m calls) s) (i : Nat) (c : Call) (hc : calls[i]? = some c) (r : Res Encoded) (hr : Finished s i r) :
    r = .ok (Gltf.encode E U c.opts (c.doc.value m) c.sink c.fsys) := by
  obtain ⟨own, hi⟩ := inv_encode hv h
  exact hi.prog i _ hr c hc

/-- The document still has the same value afterwards. -/
theorem C96_value {E : Env} {U : UrlLib} {m : Mem} {calls : List Call} (hv : ∀ c ∈ calls, c.doc.Valid m) {s : State Encoded}
    (h : Reach (start E U m calls) s) (d : PDoc) (hd : d.Valid m) : d.value s.mem = d.value m := by
  have hb : ∀ a, some a ∈ d.buffers → bufAt s.mem a = bufAt m a := by
    intro a ha
    obtain ⟨b, hb⟩ := hd.buffer a ha
    rw [bufAt_of hb, bufAt_of (C96_unchanged hv h a _ hb)]
  have hp : ∀ a, some a ∈ d.pbrs → pbrAt s.mem a = pbrAt m a := by
    intro a ha
    obtain ⟨b, hb⟩ := hd.pbr a ha
    rw [pbrAt_of hb, pbrAt_of (C96_unchanged hv h a _ hb)]
  have e1 : d.buffers.map (Option.map (bufAt s.mem)) = d.buffers.map (Option.map (bufAt m)) := by
    refine List.map_congr_left fun p hp' => ?_
    cases p with
    | none => rfl
    | some a => exact congrArg some (hb a hp')
  have e2 : d.pbrs.map (Option.map (pbrAt s.mem)) = d.pbrs.map (Option.map (pbrAt m)) := by
    refine List.map_congr_left fun p hp' => ?_
    cases p with
    | none => rfl
    | some a => exact congrArg some (hp a hp')
  unfold PDoc.value
  rw [e1, ← zip_value, ← zip_value, e2]

/-- No order of the steps goes on for ever. -/
theorem C96_terminates {E : Env} {U : UrlLib} {m : Mem} {calls : List Call} :
    ¬ ∃ f : Nat → State Encoded, f 0 = start E U m calls ∧ ∀ n, ∃ i, step (f n) i = some (f (n + 1)) := by
  rintro ⟨f, -, hf⟩
  exact no_descent f hf

/-- No goroutine ever waits for another one. -/
theorem C96_progress {E : Env} {U : UrlLib} {m : Mem} {calls : List Call} {s : State Encoded} (h : Reach (start E U m calls) s) (i : Nat)
    (hi : i < calls.length) : (∃ t, step s i = some t) ∨ ∃ r, Finished s i r := by
  refine step_or ?_
  rw [threads_length h]
  simpa [start] using hi

/-- From each state all calls can finish, with the results that they have alone. -/
theorem C96_finish {E : Env} {U : UrlLib} {m : Mem} {calls : List Call} (hv : ∀ c ∈ calls, c.doc.Valid m) {s : State Encoded}
    (h : Reach (start E U m calls) s) : ∃ t, Reach s t ∧ ∀ (i : Nat) (c : Call), calls[i]? = some c →
      Finished t i (.ok (Gltf.encode E U c.opts (c.doc.value m) c.sink c.fsys)) := by
  obtain ⟨t, ht, hf⟩ := reach_end _ s rfl
  refine ⟨t, ht, fun i c hc => ?_⟩
  have hl : i < s.threads.length := by
    rw [threads_length h]
    simpa [start] using (List.getElem?_eq_some_iff.1 hc).1
  obtain ⟨r, hr⟩ := hf i hl
  have := C96_result hv (h.trans ht) i c hc r hr
  subst this
  exact hr

/-! ### A document that two goroutines encode -/

/-- Two entries for the same buffer, whose data gets embedded, and a material with defaults. -/
def exampleMem : Mem := [.buf { byteLength := 3, data := [1, 2, 3] }, .pbr { metallicFactor := some f64one, baseColorFactor := some white }]

def exampleDoc : PDoc := ⟨{ materials := [some {}] }, [some 0, some 0], [some 1]⟩

theorem exampleDoc_valid : exampleDoc.Valid exampleMem where
  buffer a ha := by
    simp only [exampleDoc, List.mem_cons, Option.some.injEq, List.not_mem_nil, or_false, or_self] at ha
    subst ha
    exact ⟨_, rfl⟩
  pbr a ha := by
    simp only [exampleDoc, List.mem_cons, Option.some.injEq, List.not_mem_nil, or_false] at ha
    subst ha
    exact ⟨_, rfl⟩
  materials := rfl

/-- Run the goroutines in a given order. -/
def runOrder {α : Type} (s : State α) : List Nat → Option (State α)
  | [] => some s
  | i :: l => (step s i).bind fun s => runOrder s l

theorem runOrder_reach {α : Type} : ∀ {l : List Nat} {s t : State α}, runOrder s l = some t → Reach s t
  | [], _, _, h => by cases h; exact .refl
  | i :: l, s, t, h => by
    obtain ⟨u, hu, hr⟩ := Option.bind_eq_some_iff.1 h
    exact Reach.trans (.step _ _ i .refl hu) (runOrder_reach hr)

/-- Both goroutines read the buffer of the document and write to their own copies; the second one writes a GLB. -/
example (E : Env) (U : UrlLib) (w : Sink) : ∃ s, Reach (start E U exampleMem [⟨{ asBinary := false }, exampleDoc, w, none⟩, ⟨{}, exampleDoc, w, none⟩]) s ∧
    s.log = [(0, .read 0), (1, .read 0), (1, .read 0), (1, .alloc 2), (0, .alloc 3), (0, .read 3), (0, .write 3), (1, .read 2), (1, .write 2)] := by
  refine ⟨_, runOrder_reach (l := [0, 1, 1, 1, 0, 0, 0, 1, 1]) rfl, rfl⟩

/-- The same with what the calls return. -/
example (E : Env) (U : UrlLib) (w : Sink) (s : State Encoded)
    (h : Reach (start E U exampleMem [⟨{ asBinary := false }, exampleDoc, w, none⟩, ⟨{}, exampleDoc, w, none⟩]) s) :
    ∃ t, Reach s t ∧ Finished t 1 (.ok (Gltf.encode E U {} (exampleDoc.value exampleMem) w none)) := by
  obtain ⟨t, ht, hf⟩ := C96_finish (fun c hc => by
    simp only [List.mem_cons, List.not_mem_nil, or_false] at hc; rcases hc with rfl | rfl <;> exact exampleDoc_valid) h
  exact ⟨t, ht, hf 1 _ rfl⟩

/-- The value of the document is not trivial: the first buffer has data, and the material has a metallic factor. -/
example : ((exampleDoc.value exampleMem).buffers.map (Option.map Buffer.data)) = [some [1, 2, 3], some [1, 2, 3]] ∧
    (exampleDoc.value exampleMem).materials.map (·.bind fun x => x.pbrMetallicRoughness.bind (·.metallicFactor)) = [some f64one] := ⟨rfl, rfl⟩

end Gltf.Shared
