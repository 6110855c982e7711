/-
Property C37: a document can make Encode create a file of any name.
-/
import Verif.Props.RoundTrip
import Verif.Props.Uri

namespace Gltf

open Spec

/-- A hexadecimal digit. -/
def Spec.digit16 (n : Nat) : UInt8 := if n < 10 then UInt8.ofNat (48 + n) else UInt8.ofNat (55 + n)

/-- The text with every byte escaped. -/
def Spec.allEscaped : Bytes → Bytes
  | [] => []
  | c :: s => 37 :: digit16 (c.toNat / 16) :: digit16 (c.toNat % 16) :: allEscaped s

theorem digit16_hex {n : Nat} (h : n < 16) : HexDigit (digit16 n) n ∧ PlainChar (digit16 n) := by
  unfold HexDigit PlainChar
  have : ∀ m : Fin 16, ((48 ≤ digit16 m ∧ digit16 m ≤ 57 ∧ (digit16 m).toNat = 48 + m) ∨
    (65 ≤ digit16 m ∧ digit16 m ≤ 70 ∧ (digit16 m).toNat + 10 = 65 + m) ∨
    (97 ≤ digit16 m ∧ digit16 m ≤ 102 ∧ (digit16 m).toNat + 10 = 97 + m)) ∧
    (32 ≤ digit16 m ∧ digit16 m ≠ 127 ∧ digit16 m ≠ 47 ∧ digit16 m ≠ 92 ∧ digit16 m ≠ 37 ∧ digit16 m ≠ 63 ∧ digit16 m ≠ 35 ∧ digit16 m ≠ 58) := by
    decide +kernel
  exact this ⟨n, h⟩

theorem escaped_all (s : Bytes) : Escaped (allEscaped s) s := by
  induction s with
  | nil => exact .nil
  | cons c s ih =>
    have hc : c.toNat < 256 := c.toNat_lt
    exact .hex (digit16_hex (by omega)).1 (digit16_hex (by omega)).1 (by omega) ih

theorem all_chars (s : Bytes) : ∀ x ∈ allEscaped s, x = 37 ∨ PlainChar x := by
  induction s with
  | nil => intro x hx; cases hx
  | cons c s ih =>
    have hc : c.toNat < 256 := c.toNat_lt
    intro x hx
    simp only [allEscaped, List.mem_cons] at hx
    rcases hx with rfl | rfl | rfl | hx
    · exact .inl rfl
    · exact .inr (digit16_hex (by omega)).2
    · exact .inr (digit16_hex (by omega)).2
    · exact ih x hx

/-- Every name that is not empty is that of a URI that looks like a single name. -/
theorem uriPath_all {name : Bytes} (h : name ≠ []) : UriPath (allEscaped name) name := by
  refine ⟨⟨[allEscaped name], ⟨by simp, ?_, ?_⟩, ?_⟩, escaped_all name⟩
  · intro c hc hm
    simp only [List.mem_singleton] at hc
    subst hc
    rcases all_chars name 47 hm with h | h
    · revert h; decide
    · exact h.2.2.1 rfl
  · simp [List.intercalate]
  · intro c hc
    simp only [List.mem_singleton] at hc
    subst hc
    refine ⟨?_, all_chars name⟩
    cases name with
    | nil => exact absurd rfl h
    | cons a s => refine ⟨?_, ?_, ?_⟩ <;> simp [allEscaped]

/-- A buffer with data is written to the file that its URI becomes. -/
theorem encodeBuffers_sanitized {U : UrlLib} {b : Buffer} {u name : Bytes} (h0 : u ≠ []) (ho : ¬ OctetUri u)
    (hv : validateBufferURI U u = true) (hs : sanitizeURI U u = some name) (hb : b.uri = u) (hd : b.data ≠ []) :
    ∀ {l : List (Option Buffer)} {f : CreateFS}, some b ∈ l → (encodeBuffers U l (some f)).1 = .ok () →
      name ∈ (encodeBuffers U l (some f)).2.2
  | [], _, hm, _ => by cases hm
  | none :: l, f, _, h => by cases h
  | some b' :: l, f, hm, h => by
    unfold encodeBuffers at h ⊢
    by_cases hc : b'.data = [] ∨ b'.uri = [] ∨ b'.isEmbeddedResource
    · rw [if_pos hc] at h ⊢
      rcases List.mem_cons.1 hm with e | hm
      · cases e
        exfalso
        rcases hc with h1 | h1 | h1
        · exact hd h1
        · rw [hb] at h1; exact h0 h1
        · rw [embedded_iff, hb] at h1; exact ho h1
      · exact encodeBuffers_sanitized h0 ho hv hs hb hd hm h
    · rw [if_neg hc] at h ⊢
      rcases he : encodeBuffer U b' (some f) with ⟨r, fs, t⟩
      rw [he] at h
      cases r with
      | err e => cases h
      | panic w => cases h
      | ok v =>
        have hfs : ∃ f', fs = some f' := by
          unfold encodeBuffer at he
          split at he
          · cases he
          · split at he
            · rename_i h0'; cases h0'
            · split at he
              · cases he; exact ⟨_, rfl⟩
              · exact ⟨_, (Prod.mk.inj (Prod.mk.inj he).2).1.symm⟩
        obtain ⟨f', rfl⟩ := hfs
        simp only at h ⊢
        rcases List.mem_cons.1 hm with e | hm
        · cases e
          have : t = [name] := by
            unfold encodeBuffer at he
            rw [hb, hv, hs] at he
            exact (Prod.mk.inj (Prod.mk.inj he).2).2.symm
          simp [this]
        · exact List.mem_append_right _ (encodeBuffers_sanitized h0 ho hv hs hb hd hm h)

theorem encodeBuffers_creates {U : UrlLib} {b : Buffer} {u name : Bytes} (hu : UriPath u name) (hb : b.uri = u) (hd : b.data ≠ [])
    {l : List (Option Buffer)} {f : CreateFS} (hm : some b ∈ l) (h : (encodeBuffers U l (some f)).1 = .ok ()) :
    name ∈ (encodeBuffers U l (some f)).2.2 :=
  encodeBuffers_sanitized (path_ne hu) (path_not_octet hu) (validate_path U hu) (sanitize_path U hu) hb hd hm h

/-- C37 fails for every name: whatever the name of a file that is not empty - an absolute path, a path that climbs, the
name of the document itself - there is a URI such that every document that has a buffer with this URI and some data
makes `Encode` create the file of this name, whenever it succeeds. The URI passes the check of local paths. -/
theorem C37_any_name (name : Bytes) (h : name ≠ []) :
    ∃ uri, Local uri ∧ ∀ (E : Env) (U : UrlLib) (o : EncOpts) (doc : Document) (b : Buffer) (w : Sink) (f : CreateFS),
      w.plan = [] → some b ∈ doc.buffers → b.uri = uri → b.data ≠ [] → (encode E U o doc w (some f)).result = .ok () →
      name ∈ (encode E U o doc w (some f)).created := by
  have hu := uriPath_all h
  refine ⟨allEscaped name, (uriPath_facts hu).loc, ?_⟩
  intro E U o doc b w f hw hm hb hd he
  obtain ⟨text, ht, e⟩ := encode_ok hw he
  have hr : (encodeBuffers U doc.buffers (some f)).1 = .ok () := by
    cases ho : o.asBinary with
    | false => rw [encode_text (U := U) (fs := some f) hw ht ho] at he; exact he
    | true =>
      rcases encode_bin (U := U) (fs := some f) hw ht ho with e' | e'
      · rw [he] at e'; cases e'
      · rw [e'] at he; exact he
  rw [e]
  exact encodeBuffers_creates hu hb hd hm hr

/-- An absolute path. -/
example : allEscaped b!"/x" = b!"%2F%78" ∧
    (encode witnessEnv witnessUrl { asBinary := false } (externalDoc b!"%2F%78") {} (some emptyFS)).result = .ok () ∧
    (encode witnessEnv witnessUrl { asBinary := false } (externalDoc b!"%2F%78") {} (some emptyFS)).created = [b!"/x"] := by
  decide +kernel

theorem uriPath_unique {u n n' : Bytes} (h : UriPath u n) (h' : UriPath u n') : n = n' := by
  have := sanitize_path ⟨fun _ => true, id⟩ h
  rw [sanitize_path ⟨fun _ => true, id⟩ h'] at this
  cases this; rfl

theorem sameBuffers_mem {b : Buffer} : ∀ {bin : Bool} {l l' : List (Option Buffer)}, SameBuffers bin l l' → some b ∈ l →
    ∃ b' bin', some b' ∈ l' ∧ SameBuffer bin' b b'
  | _, [], _, _, hm => by cases hm
  | _, none :: _, [], h, _ => h.elim
  | _, none :: _, _ :: _, h, _ => h.elim
  | _, some _ :: _, [], h, _ => h.elim
  | _, some _ :: _, none :: _, h, _ => h.elim
  | bin, some a :: l, some a' :: l', h, hm => by
    rcases List.mem_cons.1 hm with e | hm
    · cases e; exact ⟨a', bin, by simp, h.1⟩
    · obtain ⟨b', bin', h1, h2⟩ := sameBuffers_mem h.2 hm
      exact ⟨b', bin', List.mem_cons_of_mem _ h1, h2⟩

/-- C85 fails for every name, not only for those of the document: whatever the name of a file that is not empty, there is
a URI such that a text file with a buffer of this URI and some data, once it is decoded, makes every successful `Encode`
of the result create the file of this name. -/
theorem C85_any_name (name : Bytes) (h : name ≠ []) :
    ∃ uri, ∀ (E : DecEnv) (o : EncOpts) (n : Nat) (doc : Document) (b : Buffer) (fs : Option CreateFS) (s : Source),
      FloatLaws E.json.io → o.asBinary = false → IsBlank o.pre → IsBlank o.indent → Saveable E n false doc →
      some b ∈ doc.buffers → b.uri = uri → b.data ≠ [] →
      (encode E.json E.url o doc {} fs).result = .ok () → s.data = (encode E.json E.url o doc {} fs).sink.out →
      ∃ doc', (decodeSource E s).result = .ok doc' ∧ ∀ (E' : Env) (U : UrlLib) (o' : EncOpts) (w : Sink) (f : CreateFS),
        w.plan = [] → (encode E' U o' doc' w (some f)).result = .ok () → name ∈ (encode E' U o' doc' w (some f)).created := by
  have hne : allEscaped name ≠ [] := by
    cases name with
    | nil => exact absurd rfl h
    | cons a s => simp [allEscaped]
  have hu := uriPath_all hne
  refine ⟨allEscaped (allEscaped name), ?_⟩
  intro E o n doc b fs s hf ho h1 h2 hd hm hb hdat he hs
  obtain ⟨doc', hr, hsame, -⟩ := C39_round_trip_partial E hf o ho h1 h2 n doc hd fs he s [] (by rw [hs]; simp)
  obtain ⟨b', bin', hm', hsb⟩ := sameBuffers_mem hsame.buffers hm
  refine ⟨doc', hr, ?_⟩
  have huri : b'.uri = allEscaped name ∧ b'.data = b.data := by
    unfold SameBuffer at hsb
    rw [if_neg (fun hh => path_ne hu (by rw [← hb]; exact hh.1))] at hsb
    obtain ⟨u, hsu, rfl⟩ := hsb
    rw [hb] at hsu
    refine ⟨?_, rfl⟩
    rcases hsu with hsu | ⟨hno, -⟩
    · exact uriPath_unique hsu hu
    · exact absurd ⟨_, hu⟩ hno
  intro E' U o' w f hw he'
  obtain ⟨text, ht, e⟩ := encode_ok hw he'
  have hr : (encodeBuffers U doc'.buffers (some f)).1 = .ok () := by
    cases ho : o'.asBinary with
    | false => rw [encode_text (U := U) (fs := some f) hw ht ho] at he'; exact he'
    | true =>
      rcases encode_bin (U := U) (fs := some f) hw ht ho with e' | e'
      · rw [he'] at e'; cases e'
      · rw [e'] at he'; exact he'
  rw [e]
  exact encodeBuffers_creates (uriPath_all h) huri.1 (by rw [huri.2]; exact hdat) hm' hr

/-- A document whose buffer is in a file with an escaped percent sign: it can be saved, and saving it again creates an
absolute path. -/
example :
    let uri := allEscaped (allEscaped b!"/x")
    let doc : Document := { buffers := [some { uri := uri, byteLength := 4, data := [0, 0, 0, 0] }] }
    let o : EncOpts := { asBinary := false }
    let first := encode witnessEnv witnessUrl o doc {} (some emptyFS)
    uri = b!"%25%32%46%25%37%38" ∧ AllStored witnessDec.fsys false doc.buffers ∧ first.result = .ok () ∧ first.created = [b!"%2F%78"] ∧
    (match decodeBytes witnessDec first.sink.out with
     | .ok d => (encode witnessEnv witnessUrl o d {} (some emptyFS)).created
     | _ => []) = [b!"/x"] := by
  refine ⟨by decide +kernel, ⟨by decide, .file _ [0, 0, 0, 0] (allEscaped b!"/x") ⟨uriPath_all (by decide), ?_, ?_⟩ rfl rfl rfl, trivial⟩,
    by decide +kernel, by decide +kernel, by decide +kernel⟩
  · exact (uriPath_facts (uriPath_all (name := b!"/x") (by decide))).loc
  · exact path_not_octet (uriPath_all (name := b!"/x") (by decide))

end Gltf
