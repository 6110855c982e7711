/-
Property C67: a nil error means that the files were written and closed.
-/
import Verif.Props.Save

namespace Gltf

open Spec

theorem writeFile_ok {fs fs' : CreateFS} {name data : Bytes} (h : fs.writeFile name data = (.ok (), fs')) :
    fs.createErr name = none ∧ fs.writeErr name = none ∧ fs.closeErr name = none ∧ fs' = fs.set name data := by
  unfold CreateFS.writeFile at h
  split at h
  · cases h
  · rename_i h1
    split at h
    · cases h
    · rename_i h2
      split at h
      · cases h
      · rename_i h3
        cases h
        exact ⟨h1, h2, h3, rfl⟩

/-- What a loop over the buffers that ends without error has done. -/
theorem encodeBuffers_ok' {U : UrlLib} : ∀ {l : List (Option Buffer)} {fs : CreateFS} {fs' : Option CreateFS} {t : List Bytes},
    encodeBuffers U l (some fs) = (.ok (), fs', t) →
    ∃ f', fs' = some f' ∧ (∀ name, name ∉ t → f'.files name = fs.files name) ∧
      (∀ name ∈ t, fs.createErr name = none ∧ fs.writeErr name = none ∧ fs.closeErr name = none ∧
        ∃ b, some b ∈ l ∧ b.data ≠ [] ∧ b.uri ≠ [] ∧ ¬ OctetUri b.uri ∧ sanitizeURI U b.uri = some name ∧ f'.files name = some b.data) ∧
      ∀ b name, some b ∈ l → b.data ≠ [] → b.uri ≠ [] ∧ ¬ OctetUri b.uri ∧ sanitizeURI U b.uri = some name → name ∈ t
  | [], fs, fs', t, h => by
    cases h
    exact ⟨fs, rfl, fun _ _ => rfl, by simp, by simp⟩
  | none :: l, fs, fs', t, h => by cases h
  | some b :: l, fs, fs', t, h => by
    have more : ∀ {f' : CreateFS} {name : Bytes}, (∃ b, some b ∈ l ∧ b.data ≠ [] ∧ b.uri ≠ [] ∧ ¬ OctetUri b.uri ∧
        sanitizeURI U b.uri = some name ∧ f'.files name = some b.data) →
        ∃ c, some c ∈ some b :: l ∧ c.data ≠ [] ∧ c.uri ≠ [] ∧ ¬ OctetUri c.uri ∧ sanitizeURI U c.uri = some name ∧ f'.files name = some c.data :=
      fun ⟨c, hc, h⟩ => ⟨c, List.mem_cons_of_mem _ hc, h⟩
    simp only [encodeBuffers] at h
    split at h
    · rename_i hs
      obtain ⟨f', h1, h5, h6, h7⟩ := encodeBuffers_ok' h
      refine ⟨f', h1, h5, fun name hn => ?_, fun c name hc h8 h9 => ?_⟩
      · obtain ⟨k1, k2, k3, k4⟩ := h6 name hn
        exact ⟨k1, k2, k3, more k4⟩
      · rcases List.mem_cons.1 hc with hc | hc
        · cases hc
          rcases hs with hs | hs | hs
          · exact absurd hs h8
          · exact absurd hs h9.1
          · exact absurd ((embedded_iff b).1 hs) h9.2.1
        · exact h7 c name hc h8 h9
    · rename_i hs
      rw [embedded_iff] at hs
      split at h
      · rename_i fs1 t1 he
        simp only [Prod.mk.injEq] at h
        obtain ⟨e1, e2, e3⟩ := h
        have key : (fs1 = some fs ∧ t1 = [] ∧ ∀ name, sanitizeURI U b.uri ≠ some name) ∨ ∃ nm, sanitizeURI U b.uri = some nm ∧ t1 = [nm] ∧
            fs1 = some (fs.set nm b.data) ∧ fs.createErr nm = none ∧ fs.writeErr nm = none ∧ fs.closeErr nm = none := by
          unfold encodeBuffer at he
          split at he
          · cases he
          · simp only at he
            split at he
            · rename_i hsn
              cases he
              exact .inl ⟨rfl, rfl, fun name hn => by rw [hsn] at hn; cases hn⟩
            · rename_i nm hsn
              simp only [Prod.mk.injEq] at he
              obtain ⟨a1, a2, a3⟩ := he
              obtain ⟨k1, k2, k3, k4⟩ := writeFile_ok (fs' := (fs.writeFile nm b.data).2) (by rw [← a1])
              exact .inr ⟨nm, hsn, a3.symm, by rw [← a2, k4], k1, k2, k3⟩
        rcases key with ⟨rfl, rfl, hno⟩ | ⟨nm, hsn, rfl, rfl, k1, k2, k3⟩
        · obtain ⟨f', h1, h5, h6, h7⟩ := encodeBuffers_ok' (U := U) (l := l) (fs := fs) (fs' := fs') (t := t) (by
            rw [← e1, ← e2, ← e3]; rfl)
          refine ⟨f', h1, h5, fun name hn => ?_, fun c name hc h8 h9 => ?_⟩
          · obtain ⟨k1, k2, k3, k4⟩ := h6 name hn
            exact ⟨k1, k2, k3, more k4⟩
          · rcases List.mem_cons.1 hc with hc | hc
            · cases hc
              exact absurd h9.2.2 (hno name)
            · exact h7 c name hc h8 h9
        · obtain ⟨f', h1, h5, h6, h7⟩ := encodeBuffers_ok' (U := U) (l := l) (fs := fs.set nm b.data) (fs' := fs')
            (t := (encodeBuffers U l (some (fs.set nm b.data))).2.2) (by rw [← e1, ← e2])
          refine ⟨f', h1, fun name hn => ?_, fun name hn => ?_, fun c name hc h8 h9 => ?_⟩
          · rw [← e3] at hn
            rw [h5 name fun hm => hn (by simp [hm])]
            have : name ≠ nm := fun e => hn (by simp [e])
            simp [CreateFS.set, this]
          · by_cases hm : name ∈ (encodeBuffers U l (some (fs.set nm b.data))).2.2
            · obtain ⟨q1, q2, q3, q4⟩ := h6 name hm
              exact ⟨q1, q2, q3, more q4⟩
            · rw [← e3] at hn
              have hn : name = nm := by simpa [hm] using hn
              subst hn
              refine ⟨k1, k2, k3, b, by simp, fun e => hs (.inl e), fun e => hs (.inr (.inl e)), fun e => hs (.inr (.inr e)), hsn, ?_⟩
              rw [h5 name hm]
              simp [CreateFS.set]
          · rw [← e3]
            rcases List.mem_cons.1 hc with hc | hc
            · cases hc
              rw [Option.some.inj (hsn.symm.trans h9.2.2)]
              simp
            · simp [h7 c name hc h8 h9]
      · rename_i r fs1 t1 hne he
        simp only [Prod.mk.injEq] at h
        exact absurd h.1 hne

@[inherit_doc encodeBuffers_ok']
theorem encodeBuffers_ok {U : UrlLib} {l : List (Option Buffer)} {fs : CreateFS} {fs' : Option CreateFS} {t : List Bytes}
    (h : encodeBuffers U l (some fs) = (.ok (), fs', t)) :
    ∃ f', fs' = some f' ∧ (∀ name, name ∉ t → f'.files name = fs.files name) ∧
      (∀ name ∈ t, fs.createErr name = none ∧ fs.writeErr name = none ∧ fs.closeErr name = none ∧
        ∃ b, some b ∈ l ∧ b.data ≠ [] ∧ b.uri ≠ [] ∧ ¬ OctetUri b.uri ∧ sanitizeURI U b.uri = some name ∧ f'.files name = some b.data) ∧
      ∀ b name, some b ∈ l → b.data ≠ [] → UriPath b.uri name → name ∈ t := by
  obtain ⟨f', h1, h2, h3, h4⟩ := encodeBuffers_ok' h
  exact ⟨f', h1, h2, h3, fun b name hb hd hu => h4 b name hb hd ⟨path_ne hu, path_not_octet hu, sanitize_path U hu⟩⟩

/-- An `Encode` without error has gone through all buffers. -/
theorem encode_buffers {E : Env} {U : UrlLib} {o : EncOpts} {doc : Document} {w : Sink} {fs : Option CreateFS}
    (h : (encode E U o doc w fs).result = .ok ()) :
    encodeBuffers U doc.buffers fs = (.ok (), (encode E U o doc w fs).fsys, (encode E U o doc w fs).created) := by
  unfold encode at h ⊢
  cases hm : marshalJSONDoc E o doc with
  | err e => rw [hm] at h; cases h
  | panic m => rw [hm] at h; cases h
  | ok text =>
    rw [hm] at h
    simp only at h ⊢
    split at h
    · rename_i ho
      rw [if_pos ho]
      rcases hw : writeBinary text (binBuffer doc) w with ⟨r, w'⟩
      rw [hw] at h
      cases r with
      | err e => cases h
      | panic m => cases h
      | ok hasBin =>
        have hbin : hasBin = (binBuffer doc).isSome := by
          unfold writeBinary at hw
          simp only at hw
          split at hw
          · cases hw
          · split at hw
            · rename_i hb; cases hw; rw [hb]; rfl
            · rename_i hb
              rw [hb]
              split at hw
              · cases hw
              · split at hw
                · cases hw
                · cases hw; rfl
        simp only at h ⊢
        rw [hbin, encodeBuffers_drop] at h ⊢
        rw [← h]
    · rename_i ho
      rw [if_neg ho]
      rcases hw : w.write text with ⟨r, w'⟩
      rw [hw] at h
      cases r with
      | some e => cases h
      | none =>
        simp only at h ⊢
        rw [← h]

/-- No step of writing the file fails. -/
def Spec.WrittenAndClosed (fs : CreateFS) (name : Bytes) : Prop :=
  fs.createErr name = none ∧ fs.writeErr name = none ∧ fs.closeErr name = none

/-- C67 in part: if `Encode` returns nil then for every buffer with data whose URI is a relative path the file the URI stands for
was created, and no step of writing it failed. It has the data of the buffer, if no other buffer has the same file. The files
of other names are as they were. Missing: URIs that are not relative paths of names. -/
theorem C67_encode_partial (E : Env) (U : UrlLib) (o : EncOpts) (doc : Document) (w : Sink) (fs : CreateFS)
    (h : (encode E U o doc w (some fs)).result = .ok ()) :
    ∃ fs', (encode E U o doc w (some fs)).fsys = some fs' ∧
      (∀ b name, some b ∈ doc.buffers → b.data ≠ [] → UriPath b.uri name →
        name ∈ (encode E U o doc w (some fs)).created ∧ WrittenAndClosed fs name ∧
        ((∀ c, some c ∈ doc.buffers → Writable c) → DistinctFiles doc.buffers → fs'.files name = some b.data)) ∧
      ∀ name, name ∉ (encode E U o doc w (some fs)).created → fs'.files name = fs.files name := by
  obtain ⟨f', h1, h2, h3, h4⟩ := encodeBuffers_ok (encode_buffers h)
  refine ⟨f', h1, fun b name hb hd hu => ?_, h2⟩
  have hm := h4 b name hb hd hu
  obtain ⟨k1, k2, k3, c, hc, hcd, hcu, hco, hcs, hcf⟩ := h3 name hm
  refine ⟨hm, ⟨k1, k2, k3⟩, fun hw hdis => ?_⟩
  have hcp : UriPath c.uri name := by
    rcases hw c hc with h | h | h | ⟨nm, h⟩
    · exact absurd h hcd
    · exact absurd h hcu
    · exact absurd h hco
    · rw [sanitize_path U h] at hcs
      cases hcs
      exact h
  rw [hcf]
  obtain ⟨i, hi, ei⟩ := List.mem_iff_getElem.1 hb
  obtain ⟨j, hj, ej⟩ := List.mem_iff_getElem.1 hc
  have hpair := List.pairwise_iff_getElem.1 hdis
  rcases Nat.lt_trichotomy i j with hij | hij | hij
  · exact absurd hcp (hpair i j hi hj hij b c ei ej hd hcd name hu)
  · subst hij
    rw [ei] at ej
    cases ej
    rfl
  · exact absurd hu (hpair j i hj hi hij c b ej ei hcd hd name hcp)

/-- C67 in part: if `Save` or `SaveBinary` returns nil then the file itself was created and closed without error, and the same holds
for the files of the buffers. -/
theorem C67_save_partial (E : Env) (U : UrlLib) (doc : Document) (base : Bytes) (bin : Bool) (fs : CreateFS)
    (plan : List (Option (Nat × Err))) (closeErr : Option Err) (h : (save E U doc base bin fs plan closeErr).1 = .ok ()) :
    fs.createErr base = none ∧ closeErr = none ∧
    ∀ b name, some b ∈ doc.buffers → b.data ≠ [] → UriPath b.uri name → WrittenAndClosed fs name ∧
      ((∀ c, some c ∈ doc.buffers → Writable c) → DistinctFiles doc.buffers →
        (save E U doc base bin fs plan closeErr).2.files name = some b.data) := by
  unfold save at h ⊢
  split at h
  · cases h
  · rename_i h0
    rw [h0]
    simp only at h ⊢
    generalize hw : (encode E U { asBinary := bin } doc { plan } none).sink.out = written at h ⊢
    split at h
    · rename_i h1
      cases closeErr with
      | some e => cases h
      | none =>
        refine ⟨trivial, rfl, fun b name hb hd hu => ?_⟩
        obtain ⟨fs', k1, k2, -⟩ := C67_encode_partial E U { asBinary := bin } doc { plan } (fs.set base written) h1
        obtain ⟨_, q1, q2⟩ := k2 b name hb hd hu
        refine ⟨q1, ?_⟩
        rw [k1]
        exact q2
    · rename_i hne
      exact absurd h hne

/-- The two files are written. If the second cannot be written or closed, there is an error. -/
example : (encode witnessEnv witnessUrl {} twoFiles {} (some emptyFS)).result = .ok () ∧
    (save witnessEnv witnessUrl twoFiles b!"b.gltf" false emptyFS [] none).1 = .ok () ∧
    (encode witnessEnv witnessUrl {} twoFiles {} (some { emptyFS with closeErr := fun n => if n = b!"b c.bin" then some (.io 5) else none })).result
      = .err (.io 5) := by decide +kernel

example : (∀ c, some c ∈ twoFiles.buffers → Writable c) ∧
    ∃ b, some b ∈ twoFiles.buffers ∧ b.data = [4, 5] ∧ UriPath b.uri b!"b c.bin" := by
  refine ⟨fun c hc => ?_, _, List.mem_cons_of_mem _ (List.mem_singleton.2 rfl), rfl, spaceFile.1⟩
  simp only [twoFiles, List.mem_cons, Option.some.injEq, List.not_mem_nil, or_false] at hc
  rcases hc with rfl | rfl
  · exact .inr (.inr (.inr ⟨_, plain_path dirPlain⟩))
  · exact .inr (.inr (.inr ⟨_, spaceFile.1⟩))

/-- C67 is false: no file is created for a URI with an invalid escape, without an error. -/
theorem C67_full_fails :
    let e := encode witnessEnv witnessUrl {} (externalDoc b!"100%.bin") {} (some emptyFS)
    e.result = .ok () ∧ e.created = [] ∧
    (save witnessEnv witnessUrl (externalDoc b!"100%.bin") b!"a.gltf" false emptyFS [] none).1 = .ok () := by decide +kernel

end Gltf
