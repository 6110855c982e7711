/-
Properties C36, C37 and C38: which files are opened and created.
-/
import Verif.Lemmas.Uri
import Verif.Lemmas.JsonFloat
import Verif.Model.Encode

namespace Gltf

open Spec

theorem embedded_iff (b : Buffer) : b.isEmbeddedResource = true ↔ OctetUri b.uri := by
  unfold Buffer.isEmbeddedResource hasPrefix
  rw [List.isPrefixOf_iff_prefix]
  rfl

theorem decodeBuffer_opened {E : DecEnv} {b : Buffer} {name : Bytes} (h : name ∈ (decodeBuffer E b).2) :
    E.fsys ≠ none ∧ name ≠ [] ∧ ¬ OctetUri name ∧ validateBufferURI E.url name = true := by
  unfold decodeBuffer at h
  split at h
  · cases h
  · cases h
  · split at h
    · cases h
    · rename_i h1
      split at h
      · cases h
      · rename_i h2
        split at h
        · cases h
        · rename_i h3
          have h2' : ¬ OctetUri b.uri := fun e => h2 ((embedded_iff b).2 e)
          have h3' : validateBufferURI E.url b.uri = true := by simpa using h3
          split at h
          · cases h
          · rename_i read hf
            have : name = b.uri := by
              revert h
              dsimp only
              repeat' split
              all_goals (intro h; simpa using h)
            subst this
            exact ⟨(by rw [hf]; intro e; cases e), h1, h2', h3'⟩

theorem decodeBuffers_opened {E : DecEnv} {name : Bytes} : ∀ {l : List Buffer}, name ∈ (decodeBuffers E l).2 →
    ∃ b, name ∈ (decodeBuffer E b).2
  | [], h => by cases h
  | b :: l, h => by
    simp only [decodeBuffers] at h
    split at h
    · rename_i t hb
      rw [List.mem_append] at h
      rcases h with h | h
      · exact ⟨b, by rw [hb]; exact h⟩
      · exact decodeBuffers_opened h
    · rename_i hb; exact ⟨b, by rw [hb]; exact h⟩
    · rename_i hb; exact ⟨b, by rw [hb]; exact h⟩

theorem decode_opened {E : DecEnv} {r : BufReader} {doc : Document} {name : Bytes} (h : name ∈ (decode E r doc).opened) :
    ∃ b, name ∈ (decodeBuffer E b).2 := by
  unfold decode at h
  split at h
  · cases h
  · cases h
  · split at h
    · split at h
      · cases h
      · cases h
      · exact decodeBuffers_opened h
    · cases h
    · cases h
    · cases h
    · cases h

/-- C36: whatever Decode opens is local unless it is a URI with a scheme. -/
theorem C36_opened_local (E : DecEnv) (r : BufReader) (doc : Document) :
    ∀ name ∈ (decode E r doc).opened, ¬ HasScheme name → Local name := by
  intro name h hs
  obtain ⟨b, hb⟩ := decode_opened h
  exact (validate_spec (decodeBuffer_opened hb).2.2.2).resolve_left hs

/-! ### Examples and witnesses -/

/-- The float format and the empty registry. -/
def witnessEnv : Env := { io := exactFloatIO, reg := [] }

/-- A net/url that accepts every authority and prints URLs as they were. -/
def witnessUrl : UrlLib := { authorityOk := fun _ => true, render := id }

/-- A file system with four zeros in every file. -/
def witnessDec : DecEnv := { json := witnessEnv, url := witnessUrl, fsys := some fun _ => ([0, 0, 0, 0], none) }

/-- A document with an external buffer. -/
def externalDoc (uri : Bytes) : Document := { buffers := [some { uri, byteLength := 4, data := [1, 2, 3, 4] }] }

/-- An empty file system. -/
def emptyFS : CreateFS := { files := fun _ => none }

/-- Percent-encoded slashes and dot segments are resolved, climbing out is an error. -/
example : (decodeSource witnessDec { data := b!"{\"buffers\":[{\"byteLength\":4,\"uri\":\"a%2fb/./c\"}]}" }).opened = [b!"a/b/c"] ∧
    (decodeSource witnessDec { data := b!"{\"buffers\":[{\"byteLength\":4,\"uri\":\"%2e%2e/x\"}]}" }).opened = [] ∧
    (decodeSource witnessDec { data := b!"{\"buffers\":[{\"byteLength\":4,\"uri\":\"%2e%2e/x\"}]}" }).result.isErr = true := by
  decide +kernel

/-! ### C37 -/

theorem encodeBuffer_created {U : UrlLib} {b : Buffer} {fs : Option CreateFS} {name : Bytes}
    (h : name ∈ (encodeBuffer U b fs).2.2) : fs ≠ none ∧ validateBufferURI U b.uri = true ∧ sanitizeURI U b.uri = some name := by
  unfold encodeBuffer at h
  split at h
  · cases h
  · rename_i hv
    split at h
    · cases h
    · split at h
      · cases h
      · rename_i uri hs
        have : name = uri := by simpa using h
        subst this
        exact ⟨(fun e => by cases e), by simpa using hv, hs⟩

theorem encodeBuffers_created {U : UrlLib} {name : Bytes} : ∀ {l : List (Option Buffer)} {fs : Option CreateFS},
    name ∈ (encodeBuffers U l fs).2.2 →
    ∃ b, some b ∈ l ∧ b.data ≠ [] ∧ b.uri ≠ [] ∧ ¬ OctetUri b.uri ∧ validateBufferURI U b.uri = true ∧ sanitizeURI U b.uri = some name
  | [], fs, h => by cases h
  | none :: l, fs, h => by cases h
  | some b :: l, fs, h => by
    simp only [encodeBuffers] at h
    split at h
    · obtain ⟨b', hm, hr⟩ := encodeBuffers_created h
      exact ⟨b', List.mem_cons_of_mem _ hm, hr⟩
    · rename_i hc
      simp only [not_or] at hc
      have hb : name ∈ (encodeBuffer U b fs).2.2 →
          ∃ b', some b' ∈ some b :: l ∧ b'.data ≠ [] ∧ b'.uri ≠ [] ∧ ¬ OctetUri b'.uri ∧ validateBufferURI U b'.uri = true ∧
            sanitizeURI U b'.uri = some name := fun h =>
        ⟨b, by simp, hc.1, hc.2.1, fun e => hc.2.2 ((embedded_iff b).2 e), (encodeBuffer_created h).2⟩
      split at h
      · rename_i fs' t he
        rw [List.mem_append] at h
        rcases h with h | h
        · exact hb (by rw [he]; exact h)
        · obtain ⟨b', hm, hr⟩ := encodeBuffers_created h
          exact ⟨b', List.mem_cons_of_mem _ hm, hr⟩
      · rename_i he
        exact hb (by rw [he]; exact h)

theorem encode_created {E : Env} {U : UrlLib} {o : EncOpts} {doc : Document} {w : Sink} {fs : Option CreateFS} {name : Bytes}
    (h : name ∈ (encode E U o doc w fs).created) :
    ∃ b, some b ∈ doc.buffers ∧ b.data ≠ [] ∧ b.uri ≠ [] ∧ ¬ OctetUri b.uri ∧ validateBufferURI U b.uri = true ∧
      sanitizeURI U b.uri = some name := by
  unfold encode at h
  split at h
  · cases h
  · cases h
  · split at h
    · split at h
      · cases h
      · cases h
      · obtain ⟨b, hm, hr⟩ := encodeBuffers_created h
        exact ⟨b, List.mem_of_mem_drop hm, hr⟩
    · split at h
      · cases h
      · exact encodeBuffers_created h

/-- C37 in part: a file created for a buffer whose URI has no scheme, percent sign, backslash and leading `./` is
named by a local path. Missing: the other URIs without scheme, see `C37_full_fails`. -/
theorem C37_created_local_partial (E : Env) (U : UrlLib) (o : EncOpts) (doc : Document) (w : Sink) (fs : Option CreateFS)
    (hu : ∀ b, some b ∈ doc.buffers → (37 : UInt8) ∉ b.uri ∧ (92 : UInt8) ∉ b.uri ∧ ¬ b!"./" <+: b.uri ∧ ¬ HasScheme b.uri) :
    ∀ name ∈ (encode E U o doc w fs).created, Local name := by
  intro name h
  obtain ⟨b, hm, _, _, _, hv, hs⟩ := encode_created h
  obtain ⟨h1, h2, h3, h4⟩ := hu b hm
  exact (sanitize_local h1 h2 h3 ((validate_spec hv).resolve_left h4) hs).resolve_right h4

example : (encode witnessEnv witnessUrl { asBinary := false } (externalDoc b!"dir/./a b.bin") {} (some emptyFS)).created
    = [b!"dir/a b.bin"] := by decide +kernel

theorem not_local_of {p : Bytes} (h : isLocal p = false) : ¬ Local p := fun e => by
  rw [← isLocal_iff, h] at e; cases e

/-- C37 is false: percent-encoded dots, backslashes and a leading `./` get past the check of the URI and give
names that are not local. -/
theorem C37_full_fails :
    (encode witnessEnv witnessUrl {} (externalDoc b!"%2e%2e/evil") {} (some emptyFS)).created = [b!"../evil"] ∧
    (encode witnessEnv witnessUrl {} (externalDoc b!"a\\..\\..\\evil") {} (some emptyFS)).created = [b!"a/../../evil"] ∧
    (encode witnessEnv witnessUrl {} (externalDoc b!".//etc/evil") {} (some emptyFS)).created = [b!"/etc/evil"] ∧
    ¬ Local b!"../evil" ∧ ¬ Local b!"a/../../evil" ∧ ¬ Local b!"/etc/evil" :=
  ⟨by decide +kernel, by decide +kernel, by decide +kernel,
    not_local_of (by decide +kernel), not_local_of (by decide +kernel), not_local_of (by decide +kernel)⟩

/-! ### C38 -/

/-- C38 in part: buffers without URI and embedded buffers cause no access to the file system, every name without
a scheme that is opened is relative, and files are created only for buffers that have data and are neither
embedded nor without URI. Missing: URIs with a scheme, see `C38_full_fails`. -/
theorem C38_access_partial (E : DecEnv) (r : BufReader) (d : Document) (E' : Env) (U : UrlLib) (o : EncOpts) (doc : Document)
    (w : Sink) (fs : Option CreateFS) :
    (∀ name ∈ (decode E r d).opened, name ≠ [] ∧ ¬ OctetUri name ∧ (HasScheme name ∨ name.head? ≠ some 47)) ∧
    (∀ name ∈ (encode E' U o doc w fs).created, ∃ b, some b ∈ doc.buffers ∧ b.data ≠ [] ∧ b.uri ≠ [] ∧ ¬ OctetUri b.uri ∧
      (HasScheme b.uri ∨ b.uri.head? ≠ some 47)) := by
  refine ⟨fun name h => ?_, fun name h => ?_⟩
  · obtain ⟨b, hb⟩ := decode_opened h
    obtain ⟨_, h1, h2, h3⟩ := decodeBuffer_opened hb
    exact ⟨h1, h2, (validate_spec h3).imp_right fun h => h.2.1⟩
  · obtain ⟨b, hm, h1, h2, h3, h4, _⟩ := encode_created h
    exact ⟨b, hm, h1, h2, h3, (validate_spec h4).imp_right fun h => h.2.1⟩

/-- C38 is false: a buffer whose URI has a scheme is opened and created in the file system. -/
theorem C38_full_fails :
    (decodeSource witnessDec { data := b!"{\"buffers\":[{\"byteLength\":4,\"uri\":\"http://host/x\"}]}" }).opened
      = [b!"http://host/x"] ∧
    (encode witnessEnv witnessUrl {} (externalDoc b!"http://host/x") {} (some emptyFS)).created = [b!"http://host/x"] ∧
    HasScheme b!"http://host/x" := by
  refine ⟨by decide +kernel, by decide +kernel, 104, b!"ttp", b!"//host/x", rfl, .inl ?_, ?_⟩
  · decide
  · simp [Letter]

end Gltf
