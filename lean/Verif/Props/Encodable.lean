/-
C97: which documents Encode refuses.
-/
import Verif.Lemmas.Encodable

namespace Gltf

open Spec

/-- No other file is needed for the buffer, and the length of one that goes to the BIN chunk makes sense. -/
def Spec.InlineBuffer (b : Buffer) : Prop := (b.data = [] ∨ b.uri = [] ∨ b.isEmbeddedResource = true) ∧ 0 ≤ b.byteLength ∧ b.byteLength < 2 ^ 40

theorem encodeBuffers_inline (U : UrlLib) (fs : Option CreateFS) : ∀ l : List (Option Buffer), none ∉ l → AtPtrs InlineBuffer l →
    encodeBuffers U l fs = (.ok (), fs, [])
  | [], _, _ => rfl
  | none :: _, h, _ => absurd (.head _) h
  | some b :: l, h, hi => by
    unfold encodeBuffers
    rw [if_pos (hi b (.head _)).1]
    exact encodeBuffers_inline U fs l (fun hn => h (.tail _ hn)) fun a ha => hi a (.tail _ ha)

theorem write_free {w : Sink} (h : w.plan = []) (p : Bytes) : w.write p = (none, { out := w.out ++ p, plan := [] }) := by
  unfold Sink.write
  rw [h]
  rfl

theorem wrap64_in {x : Int} (h0 : 0 ≤ x) (h1 : x < 2 ^ 62) : wrap64 x = x := by
  unfold wrap64
  omega

theorem writeBinary_free {w : Sink} (hw : w.plan = []) (text : Bytes) (first : Option Buffer)
    (hf : AtPtr (fun b => 0 ≤ b.byteLength ∧ b.byteLength < 2 ^ 40) first) : ∃ h w', writeBinary text first w = (.ok h, w') := by
  unfold writeBinary
  rw [write_free hw]
  simp only
  rw [write_free (w := { out := _, plan := [] }) rfl]
  simp only
  rw [write_free (w := { out := _, plan := [] }) rfl]
  cases first with
  | none => exact ⟨_, _, rfl⟩
  | some b =>
    obtain ⟨h0, h1⟩ := hf b rfl
    simp only
    have hp : binPadded b.byteLength = (b.byteLength + 3) / 4 * 4 := by
      unfold binPadded goDiv4
      rw [wrap64_in (x := b.byteLength + 3) (by omega) (by omega), Int.tdiv_eq_ediv_of_nonneg (by omega), wrap64_in (by omega) (by omega)]
    have hn : wrap64 (binPadded b.byteLength - b.byteLength) = (b.byteLength + 3) / 4 * 4 - b.byteLength := by
      rw [hp, wrap64_in (by omega) (by omega)]
    rw [hn, if_neg (by unfold maxAlloc; omega)]
    rw [write_free (w := { out := _, plan := [] }) rfl]
    simp only
    rw [write_free (w := { out := _, plan := [] }) rfl]
    simp only
    rw [write_free (w := { out := _, plan := [] }) rfl]
    exact ⟨_, _, rfl⟩

/-- A document without JSON form is refused, before anything is written. -/
theorem C97_refused (E : Env) (U : UrlLib) (o : EncOpts) (d : Document) (w : Sink) (fs : Option CreateFS) (hn : none ∉ d.buffers)
    (hd : ¬ DocumentEnc d) : ∃ e, encode E U o d w fs = ⟨.err e, w, fs, []⟩ := by
  rcases marshal_enc E o hn with ⟨h, -⟩ | ⟨-, e, h⟩
  · exact absurd h hd
  · unfold encode
    rw [h]
    exact ⟨e, rfl⟩

/-- With a writer that does not fail and without other files, `Encode` accepts exactly the documents that have a JSON form. -/
theorem C97_accepted (E : Env) (U : UrlLib) (o : EncOpts) (d : Document) (w : Sink) (fs : Option CreateFS) (hn : none ∉ d.buffers)
    (hi : AtPtrs InlineBuffer d.buffers) (hw : w.plan = []) : (encode E U o d w fs).result = .ok () ↔ DocumentEnc d := by
  rcases marshal_enc E o hn with ⟨h, v, bs, -, hm⟩ | ⟨hd, e, h⟩
  · refine ⟨fun _ => h, fun _ => ?_⟩
    unfold encode
    rw [hm]
    simp only
    split
    · have hf : AtPtr (fun b => 0 ≤ b.byteLength ∧ b.byteLength < 2 ^ 40) (binBuffer d) := by
        intro b hb
        unfold binBuffer at hb
        cases hd : d.buffers with
        | nil => rw [hd] at hb; cases hb
        | cons p l =>
          cases p with
          | none => rw [hd] at hb; cases hb
          | some c =>
            rw [hd] at hb
            simp only at hb
            split at hb
            · cases hb
              exact (hi b (by rw [hd]; exact .head _)).2
            · cases hb
      obtain ⟨k, w', hk⟩ := writeBinary_free hw (v.print o.layout 0) (binBuffer d) hf
      rw [hk]
      simp only
      rw [encodeBuffers_inline U fs _ (fun hm => hn (List.mem_of_mem_drop hm)) fun a ha => hi a (List.mem_of_mem_drop ha)]
    · rw [write_free hw]
      simp only
      rw [encodeBuffers_inline U fs _ hn hi]
  · refine ⟨fun hr => ?_, fun h => absurd h hd⟩
    unfold encode at hr
    rw [h] at hr
    cases hr

/-- A nil pointer in the list of buffers makes `Encode` panic, whatever else is in the document. -/
theorem C97_nil (E : Env) (U : UrlLib) (o : EncOpts) (d : Document) (w : Sink) (fs : Option CreateFS) (hn : none ∈ d.buffers) :
    ∃ m, encode E U o d w fs = ⟨.panic m, w, fs, []⟩ := by
  have hmap : ∀ l : List (Option Buffer), none ∈ l → ∃ m, mapRes (customBuffer false) l = .panic m := by
    intro l
    induction l with
    | nil => intro h; cases h
    | cons p l ih =>
      intro h
      cases p with
      | none => exact ⟨_, rfl⟩
      | some b =>
        obtain ⟨m, hm⟩ := ih (by simpa using h)
        obtain ⟨b', hb⟩ := customBuffer_enc_some false b
        exact ⟨m, by unfold mapRes; rw [hb, hm]; rfl⟩
  have hall : ∃ m, customBuffers o.asBinary d.buffers = .panic m := by
    revert hn
    cases d.buffers with
    | nil => intro h; cases h
    | cons p l =>
      intro h
      cases p with
      | none => exact ⟨_, rfl⟩
      | some b =>
        obtain ⟨m, hm⟩ := hmap l (by simpa using h)
        obtain ⟨b', hb⟩ := customBuffer_enc_some o.asBinary b
        exact ⟨m, by unfold customBuffers; simp only [hb, hm]; rfl⟩
  obtain ⟨m, hm⟩ := hall
  refine ⟨m, ?_⟩
  unfold encode marshalJSONDoc
  rw [hm]
  rfl

/-! ### Documents that are accepted and refused -/

/-- A document with numbers in several places. -/
def encodableExample : Document :=
  { buffers := [some { byteLength := 3, data := [1, 2, 3], extras := .arr [.num f64one] }],
    cameras := [some { perspective := some { yfov := f64one, znear := f64half } }],
    nodes := [some { weights := [f64one] }],
    extensions := [(b!"EXT", .typed (.ok .null))] }

example : DocumentEnc encodableExample ∧ AtPtrs InlineBuffer encodableExample.buffers ∧ none ∉ encodableExample.buffers := by
  have e := (suc_documentC ⟨⟨fun _ => [], fun _ => none⟩, []⟩ encodableExample).1 ⟨_, rfl⟩
  refine ⟨e, ?_, by simp [encodableExample]⟩
  intro b hb
  simp only [encodableExample, List.mem_cons, List.not_mem_nil, or_false, Option.some.injEq] at hb
  subst hb
  exact ⟨.inr (.inl rfl), by decide, by decide⟩

/-- NaN in the extras of a buffer, an infinite weight, a camera without projection, an extension that cannot be marshalled. -/
example : ¬ DocumentEnc { encodableExample with buffers := [some { extras := .obj [(b!"a", .num F64.nan)] }] } ∧
    ¬ DocumentEnc { encodableExample with nodes := [some { weights := [f64one, ⟨0x7FF0000000000000⟩] }] } ∧
    ¬ DocumentEnc { encodableExample with cameras := [none, some {}] } ∧
    ¬ DocumentEnc { encodableExample with extensions := [(b!"EXT", .typed (.error (.msg "no")))] } := by
  refine ⟨fun h => ?_, fun h => ?_, fun h => ?_, fun h => ?_⟩ <;>
    obtain ⟨v, hv⟩ := (suc_documentC ⟨⟨fun _ => [], fun _ => none⟩, []⟩ _).2 h <;> cases hv

end Gltf
