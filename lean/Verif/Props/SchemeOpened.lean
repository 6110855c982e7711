/-
Property C38: a URI with a scheme that is not embedded is always a name in the file system.
-/
import Verif.Props.Data
import Verif.Props.Uri

namespace Gltf

open Spec

/-- C38 is false of every file that is decoded: whenever `Decode` with a file system succeeds, each buffer of the result whose URI has a
scheme and is not embedded made it open a file, under the whole URI, and the data of the buffer is from this file. -/
theorem C38_scheme_opened (E : DecEnv) (s : Source) (doc : Document) (read : Bytes → Bytes × Option Err) (b : Buffer)
    (h : (decodeSource E s).result = .ok doc) (hr : E.fsys = some read) (hb : some b ∈ doc.buffers) (hs : HasScheme b.uri)
    (ho : ¬ OctetUri b.uri) :
    b.uri ∈ (decodeSource E s).opened ∧ ∃ content, read b.uri = (content, none) ∧ b.data = content.take b.byteLength.toNat := by
  obtain ⟨hd, e⟩ := C99_data E s doc h
  have hne : b.uri ≠ [] := by
    obtain ⟨c, t, r, e, _⟩ := hs
    rw [e]
    simp
  refine ⟨?_, ?_⟩
  · rw [e, hr]
    simp only [Option.isSome_some, if_true, fileUris, List.mem_filter, List.mem_filterMap]
    exact ⟨⟨some b, hb, rfl⟩, decide_eq_true ⟨hne, ho⟩⟩
  · clear e h
    generalize true = first at hd
    generalize doc.buffers = l at hd hb
    induction l generalizing first with
    | nil => simp at hb
    | cons x l ih =>
      cases x with
      | none => exact hd.elim
      | some c =>
        obtain ⟨hc, hl⟩ := hd
        rcases List.mem_cons.1 hb with k | k
        · cases k
          cases hc with
          | chunk _ _ _ _ hu => exact absurd hu hne
          | embedded c t hu => exact absurd ⟨c :: t, hu.symm⟩ ho
          | file read' content _ _ hf hc _ hd =>
            rw [hr] at hf
            cases hf
            exact ⟨content, hc, hd⟩
          | noFile _ _ hf => rw [hr] at hf; cases hf
        · exact ih _ hl k

/-- A buffer with a scheme: its data is from the file of this name. -/
example : (match (decodeSource witnessDec { data := b!"{\"buffers\":[{\"byteLength\":3,\"uri\":\"http://host/x\"}]}" }).result with
      | .ok d => d.buffers.filterMap fun b => b.map fun b => (b.uri, b.data)
      | _ => []) = [(b!"http://host/x", [0, 0, 0])] ∧
    HasScheme b!"http://host/x" ∧ ¬ OctetUri b!"http://host/x" := by
  refine ⟨by decide +kernel, ⟨104, b!"ttp", b!"//host/x", rfl, .inl ?_, ?_⟩, ?_⟩
  · decide
  · simp [Letter]
  · unfold OctetUri
    decide

end Gltf
