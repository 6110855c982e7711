/-
Property C34 where it is false: exactly which errors of the writer `Encode` returns.
-/
import Verif.Props.Save

namespace Gltf

open Spec

/-- Whether the binary output succeeds depends on the first and the sixth call of `Write`. -/
theorem writeBinary_ok_iff (text : Bytes) (first : Option Buffer) (w : Sink) (x : Bool) :
    (writeBinary text first w).1 = .ok x ↔
      (writeBinary text first {}).1 = .ok x ∧ ¬ FailsAt w 0 ∧ (first.isSome = true → ¬ FailsAt w 5) := by
  have hp : ∀ (v : Sink), v.plan = [] → ∀ k, ¬ FailsAt v k := by
    rintro v hv k ⟨f, hf⟩
    rw [hv] at hf
    cases hf
  have gen : ∀ v : Sink, (writeBinary text first v).1 = .ok x ↔ (¬ FailsAt v 0 ∧ match first with
      | none => x = false
      | some b => ¬ (wrap64 (binPadded b.byteLength - b.byteLength) < 0 ∨ maxAlloc < wrap64 (binPadded b.byteLength - b.byteLength)) ∧
          ¬ FailsAt v 5 ∧ x = true) := by
    intro v
    unfold writeBinary
    obtain ⟨a1, a2, -⟩ := Sink.write_spec v (glbHeader text.length (first.map (·.byteLength)))
    simp only
    rcases hw1 : v.write (glbHeader text.length (first.map (·.byteLength))) with ⟨e1, w1⟩
    rw [hw1] at a1 a2
    simp only [hw1]
    cases e1 with
    | some e =>
      have : FailsAt v 0 := Classical.byContradiction fun h => by simpa using a2.2 h
      simp [this]
    | none =>
      have h0 : ¬ FailsAt v 0 := a2.1 rfl
      simp only [h0, not_false_eq_true, true_and]
      cases first with
      | none => simp [eq_comm]
      | some b =>
        simp only
        generalize List.replicate ((jsonPadded text.length + size32 - text.length % size32) % size32) (32 : UInt8) = pad
        by_cases hn : wrap64 (binPadded b.byteLength - b.byteLength) < 0 ∨ maxAlloc < wrap64 (binPadded b.byteLength - b.byteLength)
        · rw [if_pos hn]
          simp [hn]
        · rw [if_neg hn]
          simp only [hn, not_false_eq_true, true_and]
          have b1 := (Sink.write_spec w1 text).1
          have c1 := (Sink.write_spec (w1.write text).2 pad).1
          have d1 := (Sink.write_spec ((w1.write text).2.write pad).2 (putLe32 (uint32 (binPadded b.byteLength)) ++ putLe32 glbChunkBIN)).1
          have f1 := (Sink.write_spec (((w1.write text).2.write pad).2.write
            (putLe32 (uint32 (binPadded b.byteLength)) ++ putLe32 glbChunkBIN)).2 b.data).1
          generalize ((((w1.write text).2.write pad).2.write
            (putLe32 (uint32 (binPadded b.byteLength)) ++ putLe32 glbChunkBIN)).2.write b.data).2 = w5 at *
          have g2 := (Sink.write_spec w5 (List.replicate (wrap64 (binPadded b.byteLength - b.byteLength)).toNat 0)).2.1
          rw [failsAt_tail f1, failsAt_tail d1, failsAt_tail c1, failsAt_tail b1, failsAt_tail a1] at g2
          rcases hw6 : w5.write (List.replicate (wrap64 (binPadded b.byteLength - b.byteLength)).toNat 0) with ⟨e6, w6⟩
          rw [hw6] at g2
          cases e6 with
          | some e =>
            have : FailsAt v 5 := Classical.byContradiction fun h => by simpa using g2.2 h
            simp [this]
          | none =>
            have : ¬ FailsAt v 5 := g2.1 rfl
            simp [this, eq_comm]
  rw [gen w, gen {}]
  have e0 := hp {} rfl 0
  have e5 := hp {} rfl 5
  cases first <;> simp [e0, e5] <;> grind

/-- The result of a binary `Encode` by the result of the binary output. -/
theorem encode_binary_ok_iff (E : Env) (U : UrlLib) (o : EncOpts) (ho : o.asBinary = true) (doc : Document) (w : Sink)
    (fs : Option CreateFS) :
    (encode E U o doc w fs).result = .ok () ↔ ∃ text x, marshalJSONDoc E o doc = .ok text ∧
      (writeBinary text (binBuffer doc) w).1 = .ok x ∧
      (encodeBuffers U (doc.buffers.drop (if x then 1 else 0)) fs).1 = .ok () := by
  unfold encode
  cases hm : marshalJSONDoc E o doc with
  | err e => simp
  | panic m => simp
  | ok text =>
    simp only [Res.ok.injEq, exists_and_left, exists_eq_left']
    rw [if_pos ho]
    rcases hw : writeBinary text (binBuffer doc) w with ⟨r, w'⟩
    cases r with
    | err e => simp
    | panic m => simp
    | ok x => simp

/-- C34 for GLB, exactly: `Encode` returns an error of the writer if and only if the first call of `Write` (the header) or,
if there is a binary chunk, the sixth (its padding) fails. The errors of the second to fifth are never returned. -/
theorem C34_binary_iff (E : Env) (U : UrlLib) (o : EncOpts) (ho : o.asBinary = true) (doc : Document) (w : Sink)
    (fs : Option CreateFS) :
    (encode E U o doc w fs).result = .ok () ↔ (encode E U o doc {} fs).result = .ok () ∧ ¬ FailsAt w 0 ∧
      ((chunkData doc).isSome = true → ¬ FailsAt w 5) := by
  rw [encode_binary_ok_iff E U o ho, encode_binary_ok_iff E U o ho, ← binBuffer_data, Option.isSome_map]
  simp only [writeBinary_ok_iff _ _ w]
  grind

/-- C34 for text, exactly: there is one call of `Write`. -/
theorem C34_text_iff (E : Env) (U : UrlLib) (o : EncOpts) (ho : o.asBinary = false) (doc : Document) (w : Sink)
    (fs : Option CreateFS) :
    (encode E U o doc w fs).result = .ok () ↔ (encode E U o doc {} fs).result = .ok () ∧ ¬ FailsAt w 0 := by
  unfold encode
  cases hm : marshalJSONDoc E o doc with
  | err e => simp
  | panic m => simp
  | ok text =>
    simp only
    rw [if_neg (by simp [ho]), if_neg (by simp [ho])]
    obtain ⟨-, a2, -⟩ := Sink.write_spec w text
    rcases hw : w.write text with ⟨e, w'⟩
    rw [hw] at a2
    rw [Sink.write_plain (w := {}) rfl]
    cases e with
    | some e =>
      have : FailsAt w 0 := Classical.byContradiction fun h => by simpa using a2.2 h
      simp [this]
    | none =>
      have : ¬ FailsAt w 0 := a2.1 rfl
      simp [this]

/-- A failure of the fifth call, with the data of the binary chunk, is not returned; one of the sixth is. -/
example : (encode witnessEnv witnessUrl {} threeBuffers { plan := List.replicate 4 none ++ [some (0, .msg "full")] } none).result = .ok () ∧
    (encode witnessEnv witnessUrl {} threeBuffers { plan := List.replicate 5 none ++ [some (0, .msg "full")] } none).result ≠ .ok () := by
  have h0 : (encode witnessEnv witnessUrl {} threeBuffers {} none).result = .ok () := by decide +kernel
  refine ⟨(C34_binary_iff _ _ _ rfl _ _ _).2 ⟨h0, ?_, fun _ => ?_⟩, fun h => ?_⟩
  · rintro ⟨f, hf⟩; cases hf
  · rintro ⟨f, hf⟩; cases hf
  · exact ((C34_binary_iff _ _ _ rfl _ _ _).1 h).2.2 rfl ⟨_, rfl⟩

end Gltf
