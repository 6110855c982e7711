/-
Property C34: which errors of the writer are looked at.
-/
import Verif.Props.Save

namespace Gltf

open Spec

/-! ### C34 -/

/-- The error of the call of `Write` after `k` others. -/
def Spec.errorAt (w : Sink) (k : Nat) : Option Err := (w.plan[k]?.join).map (·.2)

theorem write_error (w : Sink) (p : Bytes) : (w.write p).1 = errorAt w 0 := by
  unfold Sink.write errorAt
  cases w.plan with
  | nil => rfl
  | cons x l => cases x <;> rfl

theorem errorAt_write (w : Sink) (p : Bytes) (k : Nat) : errorAt (w.write p).2 k = errorAt w (k + 1) := by
  unfold errorAt
  rw [(Sink.write_spec w p).1, List.getElem?_tail]

theorem writeBinary_errors (text : Bytes) (first : Option Buffer) (w w' : Sink) (h0 : errorAt w 0 = errorAt w' 0)
    (h5 : first ≠ none → errorAt w 5 = errorAt w' 5) : (writeBinary text first w).1 = (writeBinary text first w').1 := by
  unfold writeBinary
  simp only
  have a := write_error w (glbHeader text.length (first.map (·.byteLength)))
  have a' := write_error w' (glbHeader text.length (first.map (·.byteLength)))
  have n := errorAt_write w (glbHeader text.length (first.map (·.byteLength)))
  have n' := errorAt_write w' (glbHeader text.length (first.map (·.byteLength)))
  rcases hw : w.write (glbHeader text.length (first.map (·.byteLength))) with ⟨e, w1⟩
  rcases hw' : w'.write (glbHeader text.length (first.map (·.byteLength))) with ⟨e', w1'⟩
  rw [hw] at a n
  rw [hw'] at a' n'
  simp only at a a' n n'
  have he : e = e' := a.trans (h0.trans a'.symm)
  subst he
  rw [hw, hw']
  cases e with
  | some e => rfl
  | none =>
    cases first with
    | none => rfl
    | some b =>
      simp only
      split
      · rfl
      · have q : ∀ (v : Sink) p, (match v.write p with | (some e, w) => ((.err e, w) : Res Bool × Sink) | (none, w) => (.ok true, w)).1 =
            match errorAt v 0 with | some e => .err e | none => .ok true := by
          intro v p
          rw [← write_error v p]
          rcases v.write p with ⟨_ | _, _⟩ <;> rfl
        refine (q _ _).trans (Eq.trans ?_ (q _ _).symm)
        simp only [errorAt_write, n, n']
        rw [h5 (by simp)]

/-- What a binary `Encode` returns depends on the first and the sixth call of `Write` only, and without a binary chunk on the first only:
other errors of the writer are lost, for all documents. -/
theorem C34_only_two (E : Env) (U : UrlLib) (o : EncOpts) (ho : o.asBinary = true) (doc : Document) (w w' : Sink) (fs : Option CreateFS)
    (h0 : errorAt w 0 = errorAt w' 0) (h5 : (chunkData doc).isSome = true → errorAt w 5 = errorAt w' 5) :
    (encode E U o doc w fs).result = (encode E U o doc w' fs).result ∧ (encode E U o doc w fs).created = (encode E U o doc w' fs).created := by
  unfold encode
  cases marshalJSONDoc E o doc with
  | err e => exact ⟨rfl, rfl⟩
  | panic m => exact ⟨rfl, rfl⟩
  | ok text =>
    simp only
    rw [if_pos ho, if_pos ho]
    have hw := writeBinary_errors text (binBuffer doc) w w' h0 (by
      intro hb
      refine h5 ?_
      rw [← binBuffer_data]
      cases hx : binBuffer doc with
      | none => exact absurd hx hb
      | some b => rfl)
    rcases hx : writeBinary text (binBuffer doc) w with ⟨r, v⟩
    rcases hx' : writeBinary text (binBuffer doc) w' with ⟨r', v'⟩
    rw [hx, hx'] at hw
    simp only at hw
    subst hw
    cases r <;> exact ⟨rfl, rfl⟩

/-- A binary `Encode` of a document without binary chunk that works with a good writer works also with one that takes the header and
nothing else: the document is lost without an error. -/
theorem C34_header_only (E : Env) (U : UrlLib) (o : EncOpts) (ho : o.asBinary = true) (doc : Document) (fs : Option CreateFS)
    (hc : (chunkData doc).isSome = false) (e : Err) (plan : List (Option (Nat × Err))) (h : (encode E U o doc {} fs).result = .ok ()) :
    let w : Sink := { plan := none :: some (0, e) :: some (0, e) :: plan }
    (encode E U o doc w fs).result = .ok () ∧ (encode E U o doc w fs).sink.out.length = 20 := by
  intro w
  have h1 := C34_only_two E U o ho doc w {} fs rfl (fun h => by rw [hc] at h; cases h)
  refine ⟨h1.1.trans h, ?_⟩
  cases hm : marshalJSONDoc E o doc with
  | err e => unfold encode at h; rw [hm] at h; cases h
  | panic m => unfold encode at h; rw [hm] at h; cases h
  | ok text =>
    have hb : binBuffer doc = none := by
      rw [← binBuffer_data] at hc
      cases hb : binBuffer doc with
      | none => rfl
      | some b => rw [hb] at hc; cases hc
    have hw : writeBinary text none w = (.ok false, { out := glbHeader text.length none, plan := plan }) := by
      unfold writeBinary
      simp only [Sink.write, w, List.tail_cons, List.take_zero, List.append_nil, List.nil_append, Option.map_none]
    unfold encode
    rw [hm]
    simp only
    rw [if_pos ho, hb, hw]
    exact glbHeader_length text.length none

/-- A new document, and a writer whose third call fails. -/
example : (encode witnessEnv witnessUrl {} newDocument {} none).result = .ok () ∧ (chunkData newDocument).isSome = false ∧
    (chunkData threeBuffers).isSome = true ∧ errorAt { plan := [none, none, some (0, .msg "full")] } 0 = errorAt {} 0 ∧
    errorAt { plan := [none, none, some (0, .msg "full")] } 5 = errorAt {} 5 :=
  ⟨by decide +kernel, rfl, rfl, rfl, rfl⟩

end Gltf
