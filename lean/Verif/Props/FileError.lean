/-
Property C107: errors of the file system are returned.
-/
import Verif.Props.Uri

namespace Gltf

open Spec

/-! ### Decode -/

/-- One buffer: at most one file is opened, and if it cannot be read this is the error. -/
theorem decodeBuffer_fileErr {E : DecEnv} {read : Bytes → Bytes × Option Err} (hE : E.fsys = some read) {b : Buffer} {pre post : List Bytes}
    {name : Bytes} {e : Err} (ho : (decodeBuffer E b).2 = pre ++ name :: post) (he : (read name).2 = some e) :
    post = [] ∧ ((decodeBuffer E b).1 = .err e ∨ (decodeBuffer E b).1.isPanic = true) := by
  have key : ∀ {l : List Bytes}, l = [b.uri] → l = pre ++ name :: post → post = [] ∧ name = b.uri := by
    rintro l rfl h
    cases pre with
    | nil => injection h with h1 h2; exact ⟨h2.symm, h1.symm⟩
    | cons p pre =>
      injection h with h1 h2
      exact absurd h2.symm (by simp)
  unfold decodeBuffer at ho ⊢
  split at ho
  · simp at ho
  · simp at ho
  · split at ho
    · simp at ho
    · rename_i hu
      simp only [if_neg hu]
      split at ho
      · simp at ho
      · rename_i hem
        simp only [if_neg hem]
        split at ho
        · simp at ho
        · rename_i hval
          simp only [if_neg hval]
          rw [hE] at ho ⊢
          simp only at ho ⊢
          rcases hr : read b.uri with ⟨d, er⟩
          rw [hr] at ho
          simp only at ho ⊢
          have hname : post = [] ∧ name = b.uri := by
            split at ho
            · split at ho
              · exact key rfl ho
              · split at ho
                · exact key rfl ho
                · exact key rfl ho
            · split at ho
              · exact key rfl ho
              · exact key rfl ho
          obtain ⟨rfl, rfl⟩ := hname
          rw [hr] at he
          replace he : er = some e := he
          subst he
          refine ⟨rfl, ?_⟩
          split
          · split
            · exact .inr rfl
            · exact .inl rfl
          · exact .inl rfl

theorem decodeBuffers_fileErr {E : DecEnv} {read : Bytes → Bytes × Option Err} (hE : E.fsys = some read) {post : List Bytes} {name : Bytes}
    {e : Err} (he : (read name).2 = some e) : ∀ {l : List Buffer} {pre : List Bytes}, (decodeBuffers E l).2 = pre ++ name :: post →
    post = [] ∧ ((decodeBuffers E l).1 = .err e ∨ (decodeBuffers E l).1.isPanic = true)
  | [], pre, ho => by
    unfold decodeBuffers at ho
    simp at ho
  | b :: l, pre, ho => by
    unfold decodeBuffers at ho ⊢
    have hone := fun pre post ho => decodeBuffer_fileErr (b := b) (pre := pre) (post := post) hE ho he
    rcases hd : decodeBuffer E b with ⟨x, t⟩
    rw [hd] at ho
    rw [hd] at hone
    simp only at hone
    cases x with
    | err er =>
      simp only at ho ⊢
      obtain ⟨h1, h2 | h2⟩ := hone pre post ho
      · cases h2
        exact ⟨h1, .inl rfl⟩
      · cases h2
    | panic w =>
      simp only at ho ⊢
      obtain ⟨h1, h2 | h2⟩ := hone pre post ho
      · cases h2
      · exact ⟨h1, .inr rfl⟩
    | ok b' =>
      simp only at ho ⊢
      rcases hr : decodeBuffers E l with ⟨y, t'⟩
      rw [hr] at ho
      replace ho : t ++ t' = pre ++ name :: post := ho
      simp only
      rcases List.append_eq_append_iff.1 ho with ⟨a, -, h⟩ | ⟨a, h, -⟩
      · have ih := decodeBuffers_fileErr hE he (l := l) (pre := a) (by rw [hr]; exact h)
        rw [hr] at ih
        obtain ⟨h1, h2 | h2⟩ := ih
        · replace h2 : y = .err e := h2
          subst h2
          exact ⟨h1, .inl rfl⟩
        · refine ⟨h1, .inr ?_⟩
          cases y with
          | panic w => rfl
          | ok _ => cases h2
          | err _ => cases h2
      · cases a with
        | nil =>
          have ih := decodeBuffers_fileErr hE he (l := l) (pre := []) (by
            rw [hr]
            rw [List.append_nil] at h
            subst h
            exact List.append_cancel_left ho)
          rw [hr] at ih
          obtain ⟨h1, h2 | h2⟩ := ih
          · replace h2 : y = .err e := h2
            subst h2
            exact ⟨h1, .inl rfl⟩
          · refine ⟨h1, .inr ?_⟩
            cases y with
            | panic w => rfl
            | ok _ => cases h2
            | err _ => cases h2
        | cons c a =>
          rw [h] at ho
          rw [List.append_assoc] at ho
          have ho' := List.append_cancel_left ho
          injection ho' with hc _
          subst hc
          obtain ⟨-, h2 | h2⟩ := hone pre a h
          · cases h2
          · cases h2

/-- C107 for Decode, as far as it holds: if a file that was opened cannot be read, Decode returns the error, and opens no other file after it. This
holds for all readers and documents, if Decode does not panic (C50). -/
theorem C107_decode_partial (E : DecEnv) (r : BufReader) (doc : Document) (read : Bytes → Bytes × Option Err) (hE : E.fsys = some read)
    (pre post : List Bytes) (name : Bytes) (e : Err) (ho : (decode E r doc).opened = pre ++ name :: post) (he : (read name).2 = some e)
    (hp : (decode E r doc).result.isPanic = false) : (decode E r doc).result = .err e ∧ post = [] := by
  unfold decode at ho hp ⊢
  split at ho
  · simp at ho
  · simp at ho
  · rename_i bin d r' hd
    simp only [hd] at hp ⊢
    split at ho
    · rename_i bs ims h1 h2
      simp only [h1, h2] at hp ⊢
      split at ho
      · simp at ho
      · simp at ho
      · rename_i first rest r'' h3
        simp only [h3] at hp ⊢
        rcases hb : decodeBuffers E rest with ⟨x, t⟩
        rw [hb] at ho hp
        have := decodeBuffers_fileErr hE he (l := rest) (pre := pre) (post := post) (by rw [hb]; exact ho)
        rw [hb] at this
        obtain ⟨a, b | b⟩ := this
        · replace b : x = .err e := b
          subst b
          exact ⟨rfl, a⟩
        · cases x with
          | panic w => cases hp
          | ok _ => cases b
          | err _ => cases b
    all_goals simp at ho

/-- C107 is false for Decode: the file does not exist; the length of the buffer is negative, and Decode panics. -/
theorem C107_full_fails :
    let E : DecEnv := { witnessDec with fsys := some fun _ => ([], some (.io 2)) }
    (decodeSource E { data := b!"{\"buffers\":[{\"byteLength\":-1,\"uri\":\"a\"}]}" }).opened = [b!"a"] ∧
    (decodeSource E { data := b!"{\"buffers\":[{\"byteLength\":-1,\"uri\":\"a\"}]}" }).result.isPanic = true := by
  decide +kernel

/-- The second file does not exist; the third is not opened. -/
example :
    let E : DecEnv := { witnessDec with fsys := some fun n => if n = b!"b" then ([], some (.io 2)) else ([1], none) }
    let D := decodeSource E { data := b!"{\"buffers\":[{\"byteLength\":1,\"uri\":\"a\"},{\"byteLength\":1,\"uri\":\"b\"},{\"byteLength\":1,\"uri\":\"c\"}]}" }
    D.opened = [b!"a", b!"b"] ∧ D.result = .err (.io 2) := by
  intro E D
  have h1 : D.opened = [b!"a", b!"b"] := by decide +kernel
  have h2 : D.result.isPanic = false := by decide +kernel
  exact ⟨h1, (C107_decode_partial E _ {} _ rfl [b!"a"] [] b!"b" (.io 2) h1 rfl h2).1⟩

/-! ### Encode -/

/-- Creating, writing or closing the file fails. -/
def Spec.FileErr (fs : CreateFS) (name : Bytes) (e : Err) : Prop :=
  fs.createErr name = some e ∨ (fs.createErr name = none ∧ ∃ k, fs.writeErr name = some (k, e)) ∨
    (fs.createErr name = none ∧ fs.writeErr name = none ∧ fs.closeErr name = some e)

/-- The same files fail with the same errors. -/
def SameErrs (fs fs' : CreateFS) : Prop := ∀ name e, FileErr fs name e ↔ FileErr fs' name e

theorem writeFile_spec (fs : CreateFS) (name data : Bytes) :
    SameErrs fs (fs.writeFile name data).2 ∧ (fs.writeFile name data).1.isPanic = false ∧
    ∀ e, (fs.writeFile name data).1 = .err e ↔ FileErr fs name e := by
  have hs : ∀ c, SameErrs fs (fs.set name c) := fun c n e => Iff.rfl
  unfold CreateFS.writeFile FileErr
  cases h1 : fs.createErr name with
  | some e =>
    refine ⟨fun n e => Iff.rfl, rfl, fun e' => ⟨fun h => ?_, fun h => ?_⟩⟩
    · cases h; exact .inl rfl
    · rcases h with h | ⟨h, -⟩ | ⟨h, -⟩ <;> cases h
      rfl
  | none =>
    simp only
    cases h2 : fs.writeErr name with
    | some ke =>
      obtain ⟨k, e⟩ := ke
      refine ⟨hs _, rfl, fun e' => ⟨fun h => ?_, fun h => ?_⟩⟩
      · cases h; exact .inr (.inl ⟨trivial, k, rfl⟩)
      · rcases h with h | ⟨-, k', h⟩ | ⟨-, h, -⟩ <;> cases h
        rfl
    | none =>
      simp only
      cases h3 : fs.closeErr name with
      | some e =>
        refine ⟨hs _, rfl, fun e' => ⟨fun h => ?_, fun h => ?_⟩⟩
        · cases h; exact .inr (.inr ⟨trivial, trivial, rfl⟩)
        · rcases h with h | ⟨-, k', h⟩ | ⟨-, -, h⟩ <;> cases h
          rfl
      | none =>
        refine ⟨hs _, rfl, fun e' => ⟨fun h => (nomatch h), fun h => ?_⟩⟩
        rcases h with h | ⟨-, k', h⟩ | ⟨-, -, h⟩ <;> cases h

theorem encodeBuffers_fileErr {U : UrlLib} : ∀ {l : List (Option Buffer)} {fs : CreateFS} {pre post : List Bytes} {name : Bytes} {e : Err},
    (encodeBuffers U l (some fs)).2.2 = pre ++ name :: post → FileErr fs name e →
    (encodeBuffers U l (some fs)).1 = .err e ∧ post = []
  | [], fs, pre, post, name, e, ho, he => by
    unfold encodeBuffers at ho
    simp at ho
  | none :: l, fs, pre, post, name, e, ho, he => by
    unfold encodeBuffers at ho
    simp at ho
  | some b :: l, fs, pre, post, name, e, ho, he => by
    unfold encodeBuffers at ho ⊢
    split at ho
    · rename_i hc
      rw [if_pos hc]
      exact encodeBuffers_fileErr ho he
    · rename_i hc
      rw [if_neg hc]
      unfold encodeBuffer at ho ⊢
      by_cases hv : (!validateBufferURI U b.uri) = true
      · rw [if_pos hv] at ho
        simp at ho
      · rw [if_neg hv] at ho ⊢
        simp only at ho ⊢
        cases hu : sanitizeURI U b.uri with
        | none =>
          rw [hu] at ho
          simp only [List.nil_append] at ho ⊢
          exact encodeBuffers_fileErr ho he
        | some uri =>
          rw [hu] at ho
          simp only at ho ⊢
          obtain ⟨w1, w2, w3⟩ := writeFile_spec fs uri b.data
          rcases hw : fs.writeFile uri b.data with ⟨x, fs'⟩
          rw [hw] at ho w1 w2 w3
          simp only at ho w1 w2 w3 ⊢
          cases x with
          | panic w => cases w2
          | err er =>
            simp only at ho ⊢
            cases pre with
            | nil =>
              injection ho with h1 h2
              subst h1
              exact ⟨(w3 e).2 he, h2.symm⟩
            | cons p pre =>
              injection ho with h1 h2
              exact absurd h2.symm (by simp)
          | ok _ =>
            simp only at ho ⊢
            cases pre with
            | nil =>
              injection ho with h1 h2
              subst h1
              exact nomatch (w3 e).2 he
            | cons p pre =>
              injection ho with h1 h2
              exact encodeBuffers_fileErr h2 ((w1 name e).1 he)

/-- C107 for Encode: if a file that it created cannot be created, written or closed, Encode returns the error, and creates no other file after
it. -/
theorem C107_encode (E : Env) (U : UrlLib) (o : EncOpts) (doc : Document) (w : Sink) (fs : CreateFS) (pre post : List Bytes) (name : Bytes)
    (e : Err) (ho : (encode E U o doc w (some fs)).created = pre ++ name :: post) (he : FileErr fs name e) :
    (encode E U o doc w (some fs)).result = .err e ∧ post = [] := by
  unfold encode at ho ⊢
  split at ho
  · simp at ho
  · simp at ho
  · rename_i text hm
    split at ho
    · rename_i hb
      rw [if_pos hb]
      split at ho
      · simp at ho
      · simp at ho
      · rename_i c w' hw
        exact encodeBuffers_fileErr ho he
    · rename_i hb
      rw [if_neg hb]
      split at ho
      · simp at ho
      · rename_i w' hw
        exact encodeBuffers_fileErr ho he

/-- The second of three files cannot be written: the third is not created. -/
example :
    let fs : CreateFS := { files := fun _ => none, writeErr := fun n => if n = b!"b" then some (0, .io 28) else none }
    let doc : Document := { buffers := [some { byteLength := 1, uri := b!"a", data := [1] }, some { byteLength := 1, uri := b!"b", data := [1] },
      some { byteLength := 1, uri := b!"c", data := [1] }] }
    let e := encode witnessEnv witnessUrl { asBinary := false } doc {} (some fs)
    e.created = [b!"a", b!"b"] ∧ e.result = .err (.io 28) := by
  intro fs doc e
  have h1 : e.created = [b!"a", b!"b"] := by decide +kernel
  exact ⟨h1, (C107_encode witnessEnv witnessUrl _ doc {} fs [b!"a"] [] b!"b" (.io 28) h1 (.inr (.inl ⟨rfl, 0, rfl⟩))).1⟩

end Gltf
