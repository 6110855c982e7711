/-
Properties C34, C57 and C60: errors of the writer, failed saves, and saving and opening.
-/
import Verif.Props.Buffers

namespace Gltf

open Spec

/-! ### C34 Errors of the writer -/

/-- The call of `Write` after `k` others fails. -/
def Spec.FailsAt (w : Sink) (k : Nat) : Prop := ∃ f, w.plan[k]? = some (some f)

theorem Sink.write_spec (w : Sink) (p : Bytes) : (w.write p).2.plan = w.plan.tail ∧ ((w.write p).1 = none ↔ ¬ FailsAt w 0) ∧
    ((w.write p).1 = none → (w.write p).2.out = w.out ++ p) := by
  unfold Sink.write FailsAt
  cases h : w.plan with
  | nil => simp
  | cons x l =>
    cases x with
    | none => simp
    | some f => simp

theorem failsAt_tail {w w' : Sink} (h : w'.plan = w.plan.tail) (k : Nat) : FailsAt w' k ↔ FailsAt w (k + 1) := by
  unfold FailsAt
  rw [h, List.getElem?_tail]

/-- A writer that goes on to fail: once one of the first six calls fails, the others up to the sixth fail too. -/
def Spec.KeepsFailing (w : Sink) : Prop := ∀ i j, i ≤ j → j ≤ 5 → FailsAt w i → FailsAt w j

theorem writeBinary_accepted {text : Bytes} {b : Buffer} {w : Sink} (hk : KeepsFailing w) {x : Bool}
    (h : (writeBinary text (some b) w).1 = .ok x) :
    x = true ∧ (writeBinary text (some b) w).2.out = w.out ++ glbBytes text (some b) := by
  unfold writeBinary at h ⊢
  simp only [Option.map_some] at h ⊢
  generalize hp0 : glbHeader text.length (some b.byteLength) = p0 at h ⊢
  obtain ⟨a1, a2, a3⟩ := Sink.write_spec w p0
  rcases hw1 : w.write p0 with ⟨e1, w1⟩
  rw [hw1] at h a1 a2 a3
  cases e1 with
  | some e => cases h
  | none =>
    simp only at h a1 a2 a3 ⊢
    obtain ⟨b1, b2, b3⟩ := Sink.write_spec w1 text
    generalize hw2 : w1.write text = q2 at h b1 b2 b3
    obtain ⟨e2, w2⟩ := q2
    simp only at h b1 b2 b3 ⊢
    generalize hp : List.replicate ((jsonPadded text.length + size32 - text.length % size32) % size32) (32 : UInt8) = pad at h
    obtain ⟨c1, c2, c3⟩ := Sink.write_spec w2 pad
    generalize hw3 : w2.write pad = q3 at h c1 c2 c3
    obtain ⟨e3, w3⟩ := q3
    simp only at h c1 c2 c3 ⊢
    split at h
    · cases h
    · rename_i hn
      rw [if_neg hn]
      generalize hh4 : putLe32 (uint32 (binPadded b.byteLength)) ++ putLe32 glbChunkBIN = p4 at h
      obtain ⟨d1, d2, d3⟩ := Sink.write_spec w3 p4
      generalize hw4 : w3.write p4 = q4 at h d1 d2 d3
      obtain ⟨e4, w4⟩ := q4
      simp only at h d1 d2 d3 ⊢
      obtain ⟨f1, f2, f3⟩ := Sink.write_spec w4 b.data
      generalize hw5 : w4.write b.data = q5 at h f1 f2 f3
      obtain ⟨e5, w5⟩ := q5
      simp only at h f1 f2 f3 ⊢
      generalize hp6 : List.replicate (wrap64 (binPadded b.byteLength - b.byteLength)).toNat (0 : UInt8) = p6 at h
      obtain ⟨g1, g2, g3⟩ := Sink.write_spec w5 p6
      rcases hw6 : w5.write p6 with ⟨e6, w6⟩
      rw [hw6] at h g1 g2 g3
      cases e6 with
      | some e => cases h
      | none =>
        simp only at h g1 g2 g3
        have n5 : ¬ FailsAt w 5 := by
          have := g2.1 trivial
          rwa [failsAt_tail f1, failsAt_tail d1, failsAt_tail c1, failsAt_tail b1, failsAt_tail a1] at this
        have none' : ∀ k, k ≤ 5 → ¬ FailsAt w k := fun k hk' hf => n5 (hk k 5 hk' (by omega) hf)
        have k2 := b3 (b2.2 (by rw [failsAt_tail a1]; exact none' 1 (by omega)))
        have k3 := c3 (c2.2 (by rw [failsAt_tail b1, failsAt_tail a1]; exact none' 2 (by omega)))
        have k4 := d3 (d2.2 (by rw [failsAt_tail c1, failsAt_tail b1, failsAt_tail a1]; exact none' 3 (by omega)))
        have k5 := f3 (f2.2 (by rw [failsAt_tail d1, failsAt_tail c1, failsAt_tail b1, failsAt_tail a1]; exact none' 4 (by omega)))
        cases h
        refine ⟨rfl, ?_⟩
        show w6.out = _
        rw [g3 trivial, k5, k4, k3, k2, a3 trivial, ← hp0, ← hp, ← hh4, ← hp6]
        simp only [glbBytes, chunkOf, binChunk, jsonPadding, Option.map_some, List.append_assoc]

theorem writeBinary_size {text : Bytes} {b : Buffer} {w : Sink} {x : Bool} (h : (writeBinary text (some b) w).1 = .ok x) :
    ¬ (wrap64 (binPadded b.byteLength - b.byteLength) < 0 ∨ maxAlloc < wrap64 (binPadded b.byteLength - b.byteLength)) := by
  unfold writeBinary at h
  simp only at h
  split at h
  · cases h
  · intro hn
    rw [if_pos hn] at h
    cases h

theorem writeBinary_fits {text : Bytes} {b : Buffer}
    (h : ¬ (wrap64 (binPadded b.byteLength - b.byteLength) < 0 ∨ maxAlloc < wrap64 (binPadded b.byteLength - b.byteLength))) :
    (writeBinary text (some b) {}).1 = .ok true := by
  unfold writeBinary
  simp only [Sink.write_plain (w := {}) rfl]
  rw [Sink.write_plain rfl, Sink.write_plain rfl]
  simp only
  rw [if_neg h, Sink.write_plain rfl, Sink.write_plain rfl, Sink.write_plain rfl]

/-- C34 in part: if `Encode` of a text returns no error, the writer accepted all of it. -/
theorem C34_text_partial (E : Env) (U : UrlLib) (o : EncOpts) (ho : o.asBinary = false) (doc : Document) (w : Sink) (fs : Option CreateFS)
    (h : (encode E U o doc w fs).result = .ok ()) :
    ∃ text, marshalJSONDoc E o doc = .ok text ∧ (encode E U o doc w fs).sink.out = w.out ++ text := by
  unfold encode at h ⊢
  cases hm : marshalJSONDoc E o doc with
  | err e => rw [hm] at h; cases h
  | panic m => rw [hm] at h; cases h
  | ok text =>
    rw [hm] at h
    simp only [ho, Bool.false_eq_true, if_false] at h ⊢
    obtain ⟨_, _, h3⟩ := Sink.write_spec w text
    rcases hw : w.write text with ⟨e, w'⟩
    rw [hw] at h h3
    cases e with
    | some e => cases h
    | none => exact ⟨text, rfl, h3 rfl⟩

/-- C34 in part: if a binary `Encode` with a binary chunk returns no error, a writer that keeps failing once it failed
accepted all of it. -/
theorem C34_binary_partial (E : Env) (U : UrlLib) (o : EncOpts) (ho : o.asBinary = true) (doc : Document) (w : Sink) (fs : Option CreateFS)
    (hk : KeepsFailing w) (hc : (chunkData doc).isSome = true) (h : (encode E U o doc w fs).result = .ok ()) :
    (encode E U o doc w fs).sink.out = w.out ++ (encode E U o doc {} none).sink.out := by
  have hb : ∃ b, binBuffer doc = some b := by
    rw [← binBuffer_data] at hc
    cases hb : binBuffer doc with
    | none => rw [hb] at hc; cases hc
    | some b => exact ⟨b, rfl⟩
  obtain ⟨b, hb⟩ := hb
  cases hm : marshalJSONDoc E o doc with
  | err e => unfold encode at h; rw [hm] at h; cases h
  | panic m => unfold encode at h; rw [hm] at h; cases h
  | ok text =>
    have key : ∀ (w : Sink) (fs : Option CreateFS) x, (writeBinary text (some b) w).1 = .ok x →
        (encode E U o doc w fs).sink = (writeBinary text (some b) w).2 := by
      intro w fs x hx
      unfold encode
      rw [hm]
      simp only
      rw [if_pos ho, hb]
      rcases hwb : writeBinary text (some b) w with ⟨r, w'⟩
      rw [hwb] at hx
      simp only at hx
      subst hx
      rfl
    have hx : ∃ x, (writeBinary text (some b) w).1 = .ok x := by
      unfold encode at h
      rw [hm] at h
      simp only at h
      rw [if_pos ho, hb] at h
      rcases hwb : writeBinary text (some b) w with ⟨r, w'⟩
      rw [hwb] at h
      cases r with
      | ok x => exact ⟨x, rfl⟩
      | err e => cases h
      | panic m => cases h
    obtain ⟨x, hx⟩ := hx
    have h0 : ∃ y, (writeBinary text (some b) {}).1 = .ok y := ⟨_, writeBinary_fits (writeBinary_size hx)⟩
    obtain ⟨y, hy⟩ := h0
    rw [key w fs x hx, key {} none y hy, (writeBinary_accepted hk hx).2, (writeBinary_accepted (w := {}) ?_ hy).2]
    · exact congrArg (w.out ++ ·) (List.nil_append _).symm
    · rintro i _ _ _ ⟨f, hf⟩
      cases hf

/-- A writer that accepts three calls of `Write`, and then no more. -/
example : let w : Sink := { plan := [none, none, none] ++ List.replicate 3 (some (1, .msg "full")) }
    KeepsFailing w ∧ (encode witnessEnv witnessUrl {} threeBuffers w none).result.isErr = true ∧
    KeepsFailing {} ∧ (encode witnessEnv witnessUrl {} threeBuffers {} none).result = .ok () ∧ (chunkData threeBuffers).isSome = true := by
  refine ⟨?_, by decide +kernel, ?_, by decide +kernel, rfl⟩
  · intro i j h1 h2 h3
    have hi : 3 ≤ i := by
      refine Nat.le_of_not_lt fun h => ?_
      obtain ⟨f, hf⟩ := h3
      match i, h with
      | 0, _ => cases hf
      | 1, _ => cases hf
      | 2, _ => cases hf
    have hj : j = 3 ∨ j = 4 ∨ j = 5 := by omega
    rcases hj with rfl | rfl | rfl <;> exact ⟨_, rfl⟩
  · rintro i _ _ _ ⟨f, hf⟩
    cases hf

/-- C34 is false: errors when writing the JSON text of a GLB file are ignored. Without binary chunk this is so even if
all calls after the first fail. -/
theorem C34_full_fails :
    (let e := encode witnessEnv witnessUrl {} threeBuffers { plan := [none, some (0, .msg "full")] } none
     e.result = .ok () ∧ e.sink.out.length < (encode witnessEnv witnessUrl {} threeBuffers {} none).sink.out.length) ∧
    (let e := encode witnessEnv witnessUrl {} newDocument { plan := [none, some (0, .msg "full"), some (0, .msg "full"), some (0, .msg "full"),
        some (0, .msg "full"), some (0, .msg "full")] } none
     e.result = .ok () ∧ e.sink.out.length = 20) := by
  decide +kernel

/-! ### C57 Failed saves -/

/-- C57 in part: if the file cannot be created, `Save` changes nothing. If the document cannot be encoded, it changes no
other file. Missing: the file itself. -/
theorem C57_failed_partial (E : Env) (U : UrlLib) (doc : Document) (base : Bytes) (bin : Bool) (fs : CreateFS)
    (plan : List (Option (Nat × Err))) (closeErr : Option Err) :
    (∀ e, fs.createErr base = some e → save E U doc base bin fs plan closeErr = (.err e, fs)) ∧
    (fs.createErr base = none → (∀ text, marshalJSONDoc E { asBinary := bin } doc ≠ .ok text) →
      (save E U doc base bin fs plan closeErr).1 ≠ .ok () ∧
      ∀ name, name ≠ base → (save E U doc base bin fs plan closeErr).2.files name = fs.files name) := by
  refine ⟨fun e he => by unfold save; rw [he], fun hc hm => ?_⟩
  unfold save
  rw [hc]
  unfold encode
  cases hx : marshalJSONDoc E { asBinary := bin } doc with
  | ok text => exact absurd hx (hm text)
  | err e => exact ⟨by simp, fun name hne => if_neg hne⟩
  | panic m => exact ⟨by simp, fun name hne => if_neg hne⟩

/-- C57 is false for every document that cannot be encoded: whatever the file contained, it is empty afterwards. -/
theorem C57_truncated (E : Env) (U : UrlLib) (doc : Document) (base : Bytes) (bin : Bool) (fs : CreateFS)
    (plan : List (Option (Nat × Err))) (closeErr : Option Err) (hc : fs.createErr base = none)
    (hm : ∀ text, marshalJSONDoc E { asBinary := bin } doc ≠ .ok text) :
    (save E U doc base bin fs plan closeErr).2.files base = some [] := by
  unfold save
  rw [hc]
  unfold encode
  cases hx : marshalJSONDoc E { asBinary := bin } doc with
  | ok text => exact absurd hx (hm text)
  | err e => exact if_pos rfl
  | panic m => exact if_pos rfl

/-- A document that cannot be encoded. -/
def badCamera : Document := { cameras := [some {}] }

example : emptyFS.createErr b!"a.gltf" = none ∧ (marshalJSONDoc witnessEnv { asBinary := false } badCamera).isErr = true := by
  decide +kernel

/-- C57 is false: the existing file is truncated before the document is encoded. -/
theorem C57_full_fails :
    let fs := emptyFS.set b!"a.gltf" b!"precious"
    (save witnessEnv witnessUrl badCamera b!"a.gltf" false fs [] none).1.isErr = true ∧ fs.files b!"a.gltf" = some b!"precious" ∧
    (save witnessEnv witnessUrl badCamera b!"a.gltf" false fs [] none).2.files b!"a.gltf" = some [] := by
  decide +kernel

/-! ### C60 Save and open -/

/-- The buffers in files are not in the file `base`. -/
def Spec.Avoids (base : Bytes) (l : List (Option Buffer)) : Prop :=
  ∀ b, some b ∈ l → b.data ≠ [] → ¬ UriPath b.uri base

/-- C60 in part: a document saved by `Save` or `SaveBinary` is read back by `Open`, and no other files are changed than those
of the buffers. Missing: URIs that are not relative paths of names, or stand for names that are not valid paths of io/fs. -/
theorem C60_save_open_partial (E : Env) (hf : FloatLaws E.io) (U : UrlLib) (base : Bytes) (bin : Bool) (n : Nat) (hn : n + 7 ≤ 10000)
    (doc : Document) (hd : DocumentOk E.reg n doc) (hb : AllStorable bin doc.buffers) (hdis : DistinctFiles doc.buffers)
    (hav : Avoids base doc.buffers) (hi : none ∉ doc.images) (fs : CreateFS) (hw : Working fs)
    (hlb : ∀ b, doc.buffers.head? = some (some b) → b.byteLength < 4294967296)
    (hl : (encode E U { asBinary := bin } doc {} none).sink.out.length < 4294967296) :
    (save E U doc base bin fs [] none).1 = .ok () ∧
    (∃ doc', openFile E U base (save E U doc base bin fs [] none).2 = .ok doc' ∧ SameDocument bin doc doc') ∧
    ∀ name, name ≠ base → Avoids name doc.buffers → (save E U doc base bin fs [] none).2.files name = fs.files name := by
  let w := (encode E U { asBinary := bin } doc {} none).sink.out
  let f := fs.set base w
  have hwf : Working f := hw
  let D : DecEnv := { json := E, url := U, fsys := none }
  obtain ⟨f', k1, k2, k3⟩ := C48_external_partial D hf { asBinary := bin } (by intro x hx; cases hx) (by intro x hx; cases hx) n hn doc hd hb hdis hi f
    hwf hlb
  have hout : (encode E U { asBinary := bin } doc {} (some f)).sink.out = w := by
    have hs : Saveable { D with fsys := some f'.read } n bin doc := by
      obtain ⟨h', t, e1, _, _, e4⟩ := encodeBuffers_working (U := U) (storable_writable hb) hwf
      obtain ⟨text, hm, he⟩ := encode_ok (w := {}) rfl k1
      have : f' = h' := by
        rw [he] at k2
        replace k2 : (encodeBuffers U doc.buffers (some f)).2.1 = some f' := k2
        rw [e1] at k2
        cases k2
        rfl
      subst this
      exact ⟨hn, hd, storable_stored hb (e4 hdis), hi⟩
    have hr : (encode E U { asBinary := bin } doc {} none).result = .ok () :=
      C31_encodes { D with fsys := some f'.read } hf { asBinary := bin } n doc hs hlb {} rfl none (by intro g hg; cases hg)
    obtain ⟨t1, q1, q2⟩ := encode_ok (w := {}) rfl k1
    obtain ⟨t2, q3, q4⟩ := encode_ok (w := {}) rfl hr
    rw [q1] at q3
    cases q3
    show _ = (encode E U { asBinary := bin } doc {} none).sink.out
    rw [q4]
    rw [q2]
  have hsave : save E U doc base bin fs [] none = (.ok (), f') := by
    unfold save
    rw [(hw base).1]
    simp only
    rw [show encode E U { asBinary := bin } doc {} (some (fs.set base (encode E U { asBinary := bin } doc {} none).sink.out)) =
      encode E U { asBinary := bin } doc {} (some f) from rfl]
    rw [show (encode E U { asBinary := bin } doc {} (some f)).result = .ok () from k1,
      show (encode E U { asBinary := bin } doc {} (some f)).fsys = some f' from k2]
    rfl
  have hfiles : ∀ name, Avoids name doc.buffers → f'.files name = f.files name := by
    obtain ⟨h', t, e1, _, e3, _⟩ := encodeBuffers_working (U := U) (storable_writable hb) hwf
    obtain ⟨text, hm, he⟩ := encode_ok (w := {}) rfl k1
    have : f' = h' := by
      rw [he] at k2
      replace k2 : (encodeBuffers U doc.buffers (some f)).2.1 = some f' := k2
      rw [e1] at k2
      cases k2
      rfl
    subst this
    exact fun name h => e3 name h
  rw [hsave]
  refine ⟨rfl, ?_, fun name hne ha => ?_⟩
  · replace k3 := k3 (by rw [show (encode D.json D.url { asBinary := bin } doc {} (some f)).sink.out = w from hout]; exact hl)
    rw [show (encode D.json D.url { asBinary := bin } doc {} (some f)).sink.out = w from hout] at k3
    obtain ⟨doc', r1, r2⟩ := k3
    refine ⟨doc', ?_, r2⟩
    unfold openFile
    have : f'.files base = some w := by rw [hfiles base hav]; exact if_pos rfl
    rw [this]
    exact r1
  · rw [hfiles name ha]
    exact if_neg hne

/-- The document with two files can be saved in the file `b.gltf`. -/
example : Avoids b!"b.gltf" twoFiles.buffers ∧
    (encode witnessEnv witnessUrl { asBinary := false } twoFiles {} none).sink.out.length < 4294967296 := by
  refine ⟨?_, by decide +kernel⟩
  intro b hb _ hn
  rcases twoFiles_path hb hn with ⟨_, h⟩ | ⟨_, h⟩ <;> revert h <;> decide

/-- C60 is false without the conditions on names: a buffer with the name of the file replaces it, without an error, and
`Open` rejects paths with an empty name or two dots, which `Save` accepts. -/
theorem C60_full_fails :
    let r := save witnessEnv witnessUrl (externalDoc b!"a.gltf") b!"a.gltf" false emptyFS [] none
    let r' := save witnessEnv witnessUrl (externalDoc b!"a.bin") b!"a.gltf" false emptyFS [] none
    r.1 = .ok () ∧ r.2.files b!"a.gltf" = some [1, 2, 3, 4] ∧ firstData (openFile witnessEnv witnessUrl b!"a.gltf" r.2) = none ∧
    r'.1 = .ok () ∧ firstData (openFile witnessEnv witnessUrl b!"a.gltf" r'.2) = some [1, 2, 3, 4] ∧
    ∀ uri ∈ [b!"a//b.bin", b!"a/../b.bin"], let r := save witnessEnv witnessUrl (externalDoc uri) b!"a.gltf" false emptyFS [] none
      r.1 = .ok () ∧ (openFile witnessEnv witnessUrl b!"a.gltf" r.2).isErr = true := by
  decide +kernel

end Gltf
