/-
Property C85: opening a file and saving it keeps the files that it refers to.
-/
import Verif.Props.Files
import Verif.Lemmas.Decoded

namespace Gltf

open Spec

/-- A URI without escapes, backslashes and scheme. -/
def Spec.PlainRef (u : Bytes) : Prop := (37 : UInt8) ∉ u ∧ (92 : UInt8) ∉ u ∧ ¬ HasScheme u

theorem sanitize_ref {U : UrlLib} {u name : Bytes} (hv : validPath u = true) (h : PlainRef u) (hs : sanitizeURI U u = some name) : name = u := by
  obtain ⟨h1, h2, h3⟩ := h
  unfold validPath at hv
  rw [Bool.and_eq_true, List.all_eq_true] at hv
  have hc : ∀ c ∈ components u, c ≠ b!"." := fun c hc e => by
    have := hv.2 c hc
    subst e
    simp at this
  have e1 : dropDots u = u := dropDots_id u [] (by simp) (by simpa using hc)
  have e2 : trimDot u = u := by
    unfold trimDot
    split
    · rename_i s
      have : components (46 :: 47 :: s) = b!"." :: components s := components_append (p := b!".") (by decide) s
      exact absurd rfl (hc b!"." (by rw [this]; simp))
    · rfl
  unfold sanitizeURI at hs
  rw [fixSlashes_id h2, e1, e2] at hs
  simp only at hs
  split at hs
  · cases hs
  · rw [unescape_id h1] at hs
    exact (Option.some.inj hs).symm
  · rename_i hp
    exact absurd (urlParse_spec hp) h3

theorem fsRead_ok {fs : CreateFS} {name content : Bytes} (h : fs.read name = (content, none)) :
    validPath name = true ∧ fs.files name = some content := by
  unfold CreateFS.read at h
  split at h
  · cases h
  · rename_i hv
    split at h
    · rename_i hf
      cases h
      refine ⟨?_, hf⟩
      rw [Bool.or_eq_true, not_or] at hv
      simpa using hv.1
    · cases h

/-- The length of a buffer whose file was read is positive. -/
theorem decodeBuffer_positive {E : DecEnv} {b b' : Buffer} (h : (decodeBuffer E b).1 = .ok b') {read : Bytes → Bytes × Option Err}
    (hf : E.fsys = some read) (he : b.isEmbeddedResource = false) : 0 < b.byteLength := by
  unfold decodeBuffer validateBuffer at h
  split at h
  · cases h
  · cases h
  · rename_i hv
    have h0 : b.byteLength ≠ 0 := fun e => by rw [if_pos e] at hv; cases hv
    rw [he, hf] at h
    split at h
    · cases h
    · rw [if_neg (by decide)] at h
      split at h
      · cases h
      · rcases hr : read b.uri with ⟨d, e⟩
        simp only [hr] at h
        by_cases hn : b.byteLength < 0
        · rw [if_pos (by omega), if_pos hn] at h
          cases h
        · omega

/-- Where the data of the buffers of an opened document is from: the buffers that are neither embedded nor without URI have the
beginning of the file with this name. -/
theorem open_data {E : Env} {U : UrlLib} {base : Bytes} {fs : CreateFS} {doc : Document} (h : openFile E U base fs = .ok doc) :
    ∀ b, some b ∈ doc.buffers → b.uri ≠ [] → ¬ OctetUri b.uri → validPath b.uri = true ∧
      ∃ content, fs.files b.uri = some content ∧ b.data = content.take b.byteLength.toNat := by
  unfold openFile at h
  split at h
  · cases h
  · rename_i file hfile
    unfold decodeSource at h
    rw [decode_eq] at h
    obtain ⟨-, pre, hfol, -⟩ := decodeDocument_spec { json := E, url := U, fsys := some fs.read } (b := newDecoder { data := file }) (.inl rfl) {}
    rcases hd : decodeDocument { json := E, url := U, fsys := some fs.read } (newDecoder { data := file }) {} with ⟨x, r⟩
    rw [hd] at h hfol
    cases x with
    | err e => cases h
    | panic e => cases h
    | ok p =>
      obtain ⟨bin, d⟩ := p
      obtain ⟨bs, ims, first, rest, l, h1, h2, h3, h4, rfl⟩ := decodeRest_ok h
      intro b hb hu ho
      obtain ⟨b', hb, e⟩ := List.mem_map.1 hb
      cases e
      have hl : b ∈ l := by
        rcases decodeFirst_shape hfol.inv h3 with ⟨rfl, -⟩ | ⟨c, c', -, rfl, hc, hcu, -⟩
        · simpa using hb
        · rcases List.mem_append.1 hb with hb | hb
          · rw [List.mem_singleton.1 hb, hc] at hu
            exact absurd hcu hu
          · exact hb
      obtain ⟨c, -, hc⟩ := decodeBuffers_shape h4 b hl
      obtain ⟨e1, -, hsh⟩ := decodeBuffer_shape hc
      have hcu : c.uri = b.uri := by rw [e1]
      have hcl : c.byteLength = b.byteLength := by rw [e1]
      rcases hsh with ⟨he, -⟩ | ⟨he, ⟨hn, -⟩ | ⟨read, content, hf, hr, ht⟩⟩
      · rw [embedded_iff, hcu] at he
        exact absurd he ho
      · cases hn
      · have hp := decodeBuffer_positive hc hf he
        cases hf
        rw [hcu] at hr
        obtain ⟨k1, k2⟩ := fsRead_ok hr
        exact ⟨k1, content, k2, by rw [ht hp, hcl]⟩

/-- What `Save` does to the other files. -/
theorem save_files {E : Env} {U : UrlLib} {doc : Document} {base : Bytes} {bin : Bool} {fs : CreateFS} {plan : List (Option (Nat × Err))}
    {closeErr : Option Err} (h : (save E U doc base bin fs plan closeErr).1 = .ok ()) (name : Bytes) (hn : name ≠ base) :
    (save E U doc base bin fs plan closeErr).2.files name = fs.files name ∨
    ∃ b, some b ∈ doc.buffers ∧ b.data ≠ [] ∧ b.uri ≠ [] ∧ ¬ OctetUri b.uri ∧ sanitizeURI U b.uri = some name ∧
      (save E U doc base bin fs plan closeErr).2.files name = some b.data := by
  unfold save at h ⊢
  split at h
  · cases h
  · simp only at h ⊢
    generalize (encode E U { asBinary := bin } doc { plan } none).sink.out = written at h ⊢
    split at h
    · rename_i h1
      cases closeErr with
      | some e => cases h
      | none =>
        obtain ⟨f', k1, k2, k3, -⟩ := encodeBuffers_ok (encode_buffers h1)
        simp only [k1, Option.getD_some]
        by_cases hm : name ∈ (encode E U { asBinary := bin } doc { plan } (some (fs.set base written))).created
        · obtain ⟨-, -, -, q⟩ := k3 name hm
          exact .inr q
        · left
          rw [k2 name hm]
          simp [CreateFS.set, hn]
    · rename_i hne
      exact absurd h hne

/-- C85 in general: if a document is opened and saved, every other file of the directory is as it was, or is cut to the length of a
buffer that refers to it. -/
theorem C85_prefix (E : Env) (U : UrlLib) (base base' : Bytes) (fs : CreateFS) (doc : Document) (h : openFile E U base fs = .ok doc)
    (hp : ∀ b, some b ∈ doc.buffers → b.data ≠ [] → ¬ OctetUri b.uri → PlainRef b.uri) (bin : Bool) (plan : List (Option (Nat × Err)))
    (closeErr : Option Err) (hs : (save E U doc base' bin fs plan closeErr).1 = .ok ()) (name : Bytes) (hn : name ≠ base') :
    (save E U doc base' bin fs plan closeErr).2.files name = fs.files name ∨
    ∃ b content, some b ∈ doc.buffers ∧ b.uri = name ∧ fs.files name = some content ∧
      (save E U doc base' bin fs plan closeErr).2.files name = some (content.take b.byteLength.toNat) := by
  rcases save_files hs name hn with h1 | ⟨b, hb, hd, hu, ho, hsn, hf⟩
  · exact .inl h1
  · obtain ⟨hv, content, hc, ht⟩ := open_data h b hb hu ho
    have e := sanitize_ref hv (hp b hb hd ho) hsn
    exact .inr ⟨b, content, hb, e.symm, by rw [e]; exact hc, by rw [hf, ht]⟩

/-- C85 in part: if a document is opened and saved, all other files are as they were, if no file is longer than a buffer that refers
to it, and the names of the files have no percent sign, backslash or scheme. Missing: other files, see `C85_full_fails`. -/
theorem C85_kept_partial (E : Env) (U : UrlLib) (base base' : Bytes) (fs : CreateFS) (doc : Document) (h : openFile E U base fs = .ok doc)
    (hp : ∀ b, some b ∈ doc.buffers → b.data ≠ [] → ¬ OctetUri b.uri → PlainRef b.uri)
    (hl : ∀ b content, some b ∈ doc.buffers → fs.files b.uri = some content → (content.length : Int) ≤ b.byteLength)
    (bin : Bool) (plan : List (Option (Nat × Err))) (closeErr : Option Err) (hs : (save E U doc base' bin fs plan closeErr).1 = .ok ()) :
    ∀ name, name ≠ base' → (save E U doc base' bin fs plan closeErr).2.files name = fs.files name := by
  intro name hn
  rcases C85_prefix E U base base' fs doc h hp bin plan closeErr hs name hn with h1 | ⟨b, content, hb, e, hf, h2⟩
  · exact h1
  · have := hl b content hb (by rw [e]; exact hf)
    rw [h2, hf, List.take_of_length_le (by omega)]

/-- The text of a document with a buffer of four bytes in a file. -/
def refText (uri : Bytes) : Bytes := b!"{\"asset\":{\"version\":\"2.0\"},\"buffers\":[{\"byteLength\":4,\"uri\":\"" ++ uri ++ b!"\"}]}"

/-- A directory with such a file and a data file. -/
def refFS (uri name content : Bytes) : CreateFS := (emptyFS.set b!"a.gltf" (refText uri)).set name content

/-- The document is opened, and saved as `b.gltf`; the file afterwards. -/
def resaved (uri name content out : Bytes) : Option (Option Bytes) :=
  match openFile witnessEnv witnessUrl b!"a.gltf" (refFS uri name content) with
  | .ok doc =>
    match save witnessEnv witnessUrl doc b!"b.gltf" false (refFS uri name content) [] none with
    | (.ok (), fs) => some (fs.files out)
    | _ => none
  | _ => none

/-- C85 is false: a data file that is longer than its buffer is cut, and escaped percent signs and backslashes in URIs lead to new
files outside of the directory. All without an error. -/
theorem C85_full_fails :
    resaved b!"a.bin" b!"a.bin" [1, 2, 3, 4, 5] b!"a.bin" = some (some [1, 2, 3, 4]) ∧
    resaved b!"%252e%252e/x" b!"%2e%2e/x" [1, 2, 3, 4] b!"../x" = some (some [1, 2, 3, 4]) ∧
    resaved b!"%5c..%5cx" b!"\\..\\x" [1, 2, 3, 4] b!"/../x" = some (some [1, 2, 3, 4]) := by
  refine ⟨?_, ?_, ?_⟩ <;> decide +kernel

/-- A directory that meets the hypotheses of `C85_kept_partial`. -/
example : ∃ doc b, openFile witnessEnv witnessUrl b!"a.gltf" (refFS b!"a%20b.bin" b!"a b.bin" [1, 2, 3]) = .ok doc ∧ doc.buffers = [some b] ∧
    b.data = [1, 2, 3] ∧ b.byteLength = 4 ∧ PlainRef b.uri ∧
    (save witnessEnv witnessUrl doc b!"b.gltf" false (refFS b!"a%20b.bin" b!"a b.bin" [1, 2, 3]) [] none).1 = .ok () := by
  have h : (match openFile witnessEnv witnessUrl b!"a.gltf" (refFS b!"a%20b.bin" b!"a b.bin" [1, 2, 3]) with
    | .ok doc => match doc.buffers with
      | [some b] => decide (b.data = [1, 2, 3] ∧ b.byteLength = 4 ∧ b.uri = b!"a b.bin" ∧
          (save witnessEnv witnessUrl doc b!"b.gltf" false (refFS b!"a%20b.bin" b!"a b.bin" [1, 2, 3]) [] none).1 = .ok ())
      | _ => false
    | _ => false) = true := by decide +kernel
  split at h
  · rename_i doc hd
    split at h
    · rename_i b hb
      obtain ⟨h1, h2, h3, h4⟩ := of_decide_eq_true h
      exact ⟨doc, b, hd, hb, h1, h2, by rw [h3]; exact ⟨by decide, by decide, fun e => absurd (hasScheme_colon e) (by decide)⟩, h4⟩
    · cases h
  · cases h

end Gltf
