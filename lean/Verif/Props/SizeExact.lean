/-
Property C51: exactly which decoded buffers have the declared size.
-/
import Verif.Props.Data
import Verif.Props.Uri

namespace Gltf

open Spec

theorem allFrom_mem {file : Bytes} {files : Option (Bytes → Bytes × Option Err)} {b : Buffer} :
    ∀ {l : List (Option Buffer)} {first : Bool}, AllFrom file files first l → some b ∈ l → ∃ first, DataFrom file files first b
  | [], _, _, hb => by cases hb
  | none :: _, _, h, _ => h.elim
  | some c :: l, first, h, hb => by
    rcases List.mem_cons.1 hb with e | hb
    · cases e
      exact ⟨first, h.1⟩
    · exact allFrom_mem h.2 hb

/-- The text of a data URI stands for the bytes `data`, with line breaks left out. -/
def StandsFor (uri data : Bytes) : Prop :=
  ∃ c t, uri = b!"data:application/octet-stream;base64" ++ c :: t ∧ IsBase64 (t.filter fun c => c ≠ 10 ∧ c ≠ 13) data

/-- C51 exactly: after a successful `Decode` a buffer has as many bytes as it declares if and only if it has no URI, or its text in
base64 stands for so many bytes, or it is a file that has at least so many bytes. Otherwise it has a URI, and it has the bytes of
the text, or the whole file, or nothing if there is no file system. -/
theorem C51_exact (E : DecEnv) (s : Source) (doc : Document) (h : (decodeSource E s).result = .ok doc) (b : Buffer)
    (hb : some b ∈ doc.buffers) :
    ((b.data.length : Int) = b.byteLength ↔
      b.uri = [] ∨ (∃ data, StandsFor b.uri data ∧ (data.length : Int) = b.byteLength) ∨
      (¬ OctetUri b.uri ∧ ∃ read content, E.fsys = some read ∧ read b.uri = (content, none) ∧ b.byteLength ≤ content.length)) ∧
    ((b.data.length : Int) ≠ b.byteLength →
      StandsFor b.uri b.data ∨
      (¬ OctetUri b.uri ∧ ∃ read, E.fsys = some read ∧ read b.uri = (b.data, none) ∧ (b.data.length : Int) < b.byteLength) ∨
      (¬ OctetUri b.uri ∧ E.fsys = none ∧ b.data = [])) := by
  obtain ⟨first, hf⟩ := allFrom_mem (C99_data E s doc h).1 hb
  have octet : ∀ {data}, StandsFor b.uri data → OctetUri b.uri := by
    rintro data ⟨c, t, e, -⟩
    exact ⟨c :: t, e.symm⟩
  cases hf with
  | chunk _ _ _ _ hu _ _ _ _ _ _ _ hl => exact ⟨⟨fun _ => .inl hu, fun _ => hl⟩, fun hn => absurd hl hn⟩
  | embedded c t hu h0 h64 =>
    have hs : StandsFor b.uri b.data := ⟨c, t, hu, h64⟩
    refine ⟨⟨fun hl => .inr (.inl ⟨b.data, hs, hl⟩), ?_⟩, fun _ => .inl hs⟩
    rintro (e | ⟨data, ⟨c', t', hu', h64'⟩, hl⟩ | ⟨ho, -⟩)
    · rw [e] at hu
      cases hu
    · have e2 := List.append_cancel_left (hu.symm.trans hu')
      cases e2
      have e3 := ((b64Groups_iff _ _).2 h64).symm.trans ((b64Groups_iff _ _).2 h64')
      cases e3
      exact hl
    · exact absurd (octet hs) ho
  | file read content hne ho hr hc hpos hd =>
    refine ⟨⟨fun hl => .inr (.inr ⟨ho, read, content, hr, hc, ?_⟩), ?_⟩, fun hn => .inr (.inl ⟨ho, read, hr, ?_⟩)⟩
    · rw [hd, List.length_take] at hl
      omega
    · rintro (e | ⟨data, hs, -⟩ | ⟨-, read', content', hr', hc', hl⟩)
      · exact absurd e hne
      · exact absurd (octet hs) ho
      · rw [hr] at hr'
        cases hr'
        rw [hc] at hc'
        cases hc'
        rw [hd, List.length_take]
        omega
    · rw [hd, List.length_take] at hn
      have hlt : content.length ≤ b.byteLength.toNat := by omega
      rw [List.take_of_length_le hlt] at hd
      rw [hd]
      exact ⟨hc, by omega⟩
  | noFile hne ho hn h0 hd =>
    refine ⟨⟨fun hl => ?_, ?_⟩, fun _ => .inr (.inr ⟨ho, hn, hd⟩)⟩
    · rw [hd] at hl
      exact absurd hl.symm h0
    · rintro (e | ⟨data, hs, -⟩ | ⟨-, read', content', hr', -⟩)
      · exact absurd e hne
      · exact absurd (octet hs) ho
      · rw [hn] at hr'
        cases hr'

/-- Two buffers, an embedded one of the declared size and a file that is too short. -/
example : (match (decodeSource witnessDec { data := b!"{\"buffers\":[{\"byteLength\":1,\"uri\":\"data:application/octet-stream;base64,AA==\"},{\"byteLength\":9,\"uri\":\"a\"}]}" }).result with
      | .ok d => d.buffers.filterMap fun b => b.map fun b => (b.byteLength, b.data)
      | _ => []) = [(1, [0]), (9, [0, 0, 0, 0])] := by
  decide +kernel

end Gltf
