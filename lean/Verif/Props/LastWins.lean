/-
Properties C48, C60 and C67 for buffers that share a file with another buffer or with the document: the last buffer wins.
-/
import Verif.Props.Files

namespace Gltf

open Spec

theorem encodeBuffers_append {U : UrlLib} : ∀ {l1 l2 : List (Option Buffer)} {fs : CreateFS} {fs' : Option CreateFS} {t : List Bytes},
    encodeBuffers U (l1 ++ l2) (some fs) = (.ok (), fs', t) →
    ∃ fs1 t1 t2, encodeBuffers U l2 (some fs1) = (.ok (), fs', t2) ∧ t = t1 ++ t2
  | [], l2, fs, fs', t, h => ⟨fs, [], t, h, rfl⟩
  | none :: l1, l2, fs, fs', t, h => by cases h
  | some b :: l1, l2, fs, fs', t, h => by
    rw [List.cons_append] at h
    simp only [encodeBuffers] at h
    split at h
    · exact encodeBuffers_append h
    · split at h
      · rename_i fs1 t1 he
        simp only [Prod.mk.injEq] at h
        obtain ⟨e1, e2, e3⟩ := h
        have hs : ∃ f1, fs1 = some f1 := by
          unfold encodeBuffer at he
          split at he
          · cases he
          · simp only at he
            split at he
            · cases he; exact ⟨_, rfl⟩
            · simp only [Prod.mk.injEq] at he
              exact ⟨_, he.2.1.symm⟩
        obtain ⟨f1, rfl⟩ := hs
        obtain ⟨f2, t2, t3, q1, q2⟩ := encodeBuffers_append (U := U) (l1 := l1) (l2 := l2) (fs := f1) (fs' := fs')
          (t := (encodeBuffers U (l1 ++ l2) (some f1)).2.2) (by rw [← e1, ← e2])
        exact ⟨f2, t1 ++ t2, t3, q1, by rw [← e3, q2, List.append_assoc]⟩
      · rename_i r fs1 t1 hne he
        simp only [Prod.mk.injEq] at h
        exact absurd h.1 hne

/-- C67 for buffers that share a file: if `Encode` returns nil, the file has the data of the last of them. -/
theorem C67_last (E : Env) (U : UrlLib) (o : EncOpts) (doc : Document) (w : Sink) (fs : CreateFS)
    (h : (encode E U o doc w (some fs)).result = .ok ()) (l1 l2 : List (Option Buffer)) (b : Buffer) (name : Bytes)
    (hb : doc.buffers = l1 ++ some b :: l2) (hd : b.data ≠ []) (hu : UriPath b.uri name)
    (hl : ∀ c, some c ∈ l2 → Writable c ∧ (c.data ≠ [] → ¬ UriPath c.uri name)) :
    ∃ fs', (encode E U o doc w (some fs)).fsys = some fs' ∧ fs'.files name = some b.data := by
  have h1 := encode_buffers h
  rw [hb] at h1
  obtain ⟨f1, t1, t2, q1, q2⟩ := encodeBuffers_append h1
  obtain ⟨fs', k1, k2, k3, k4⟩ := encodeBuffers_ok q1
  obtain ⟨-, -, -, c, hc, hcd, hcu, hco, hcs, hcf⟩ := k3 name (k4 b name (.head _) hd hu)
  -- the buffer that was stored is not one of the later ones
  rcases List.mem_cons.1 hc with hc | hc
  · cases hc
    exact ⟨fs', k1, hcf⟩
  · exfalso
    obtain ⟨hw, hn⟩ := hl c hc
    rcases hw with h | h | h | ⟨nm, h⟩
    · exact hcd h
    · exact hcu h
    · exact hco h
    · rw [sanitize_path U h] at hcs
      cases hcs
      exact hn hcd h

/-- C60 where it is false: if a buffer with data has the name of the file that is saved, `Save` returns nil, but the document is not in the file:
it has been replaced by the data of the last such buffer. -/
theorem C60_replaced (E : Env) (U : UrlLib) (doc : Document) (base : Bytes) (bin : Bool) (fs : CreateFS) (plan : List (Option (Nat × Err)))
    (closeErr : Option Err) (h : (save E U doc base bin fs plan closeErr).1 = .ok ()) (l1 l2 : List (Option Buffer)) (b : Buffer)
    (hb : doc.buffers = l1 ++ some b :: l2) (hd : b.data ≠ []) (hu : UriPath b.uri base)
    (hl : ∀ c, some c ∈ l2 → Writable c ∧ (c.data ≠ [] → ¬ UriPath c.uri base)) :
    (save E U doc base bin fs plan closeErr).2.files base = some b.data := by
  unfold save at h ⊢
  split at h
  · cases h
  · simp only at h ⊢
    generalize hw : (encode E U { asBinary := bin } doc { plan } none).sink.out = written at h ⊢
    split at h
    · rename_i h1
      obtain ⟨fs', k1, k2⟩ := C67_last E U { asBinary := bin } doc { plan } (fs.set base written) h1 l1 l2 b base hb hd hu hl
      cases closeErr with
      | some e => cases h
      | none =>
        simp only
        rw [k1]
        exact k2
    · rename_i hr
      exact absurd h (hr ·)

/-- C48 where it is false: two buffers with different data and one file. Both are written without error; the data of the first is lost. -/
theorem C48_shared_lost (E : Env) (U : UrlLib) (o : EncOpts) (doc : Document) (w : Sink) (fs : CreateFS)
    (h : (encode E U o doc w (some fs)).result = .ok ()) (b c : Buffer) (name : Bytes)
    (hb : doc.buffers = [some b, some c]) (hne : b.data ≠ c.data) (hd : c.data ≠ []) (_ : UriPath b.uri name) (hu : UriPath c.uri name) :
    ∃ fs', (encode E U o doc w (some fs)).fsys = some fs' ∧ fs'.files name = some c.data ∧ fs'.files name ≠ some b.data := by
  obtain ⟨fs', h1, h2⟩ := C67_last E U o doc w fs h [some b] [] c name hb hd hu (fun c hc => nomatch hc)
  exact ⟨fs', h1, h2, fun e => hne (Option.some.inj (e.symm.trans h2))⟩

/-- Two buffers in the file `b c.bin`. -/
def sharedFile : Document :=
  { buffers := [some { byteLength := 1, uri := b!"b%20c.bin", data := [1] }, some { byteLength := 1, uri := b!"b%20c.bin", data := [2] }] }

example : ∃ fs', (encode witnessEnv witnessUrl {} sharedFile {} (some emptyFS)).fsys = some fs' ∧ fs'.files b!"b c.bin" = some [2] ∧
    fs'.files b!"b c.bin" ≠ some [1] :=
  C48_shared_lost witnessEnv witnessUrl {} sharedFile {} emptyFS (by decide +kernel) _ _ _ rfl (by decide) (by decide) spaceFile.1 spaceFile.1

/-- The document is saved as `b c.bin`. -/
example : (save witnessEnv witnessUrl sharedFile b!"b c.bin" false emptyFS [] none).2.files b!"b c.bin" = some [2] :=
  C60_replaced witnessEnv witnessUrl sharedFile b!"b c.bin" false emptyFS [] none (by decide +kernel) [_] [] _ rfl (by decide) spaceFile.1
    (fun c hc => nomatch hc)

end Gltf
