/-
What `Encode` makes of buffers whose URI has an invalid escape, where C67 is false.
-/
import Verif.Props.Files
import Verif.Lemmas.TextParse

namespace Gltf

open Spec

theorem escaped_of_unescape : ∀ {s t : Bytes}, unescape s = some t → Escaped s t := by
  intro s
  fun_induction unescape s with
  | case1 => intro t h; cases h; exact .nil
  | case2 a b s x y u hu hb ha ih =>
    intro t h
    cases h
    have h1 := hexValue_lt ha
    have h2 := hexValue_lt hb
    exact .hex (hexValue_iff.1 ha) (hexValue_iff.1 hb) (by rw [UInt8.toNat_ofNat']; omega) (ih hu)
  | case3 => intro t h; cases h
  | case4 => intro t h; cases h
  | case5 => intro t h; cases h
  | case6 c s h1 h2 h3 ih =>
    intro t h
    cases hu : unescape s with
    | none => rw [hu] at h; cases h
    | some u =>
      rw [hu] at h
      cases h
      refine .char ?_ (ih hu)
      rintro rfl
      rcases s with _ | ⟨a, _ | ⟨b, s⟩⟩
      · exact h2 rfl rfl
      · exact h3 a rfl rfl
      · exact h1 a b s rfl rfl

theorem dropDots_cons {c : UInt8} (hc : c ≠ 47) (s : Bytes) : dropDots (c :: s) = c :: dropDots s := by
  rw [dropDots.eq_def]
  split
  · rename_i e; cases e
  · rename_i e; injection e with e _; exact absurd e hc
  · rename_i e; cases e; rfl

theorem hexDigit_slash {c : UInt8} {n : Nat} (h : HexDigit c n) : c ≠ 47 := by
  rintro rfl
  revert h
  simp [HexDigit]

theorem escaped_dropDots : ∀ (n : Nat) (s t : Bytes), s.length ≤ n → Escaped (dropDots s) t → ∃ t', Escaped s t'
  | _, [], _, _, _ => ⟨[], .nil⟩
  | 0, _ :: _, _, hn, _ => by simp at hn
  | n + 1, c :: s, t, hn, h => by
    simp only [List.length_cons] at hn
    by_cases hc : c = 47
    · subst hc
      by_cases hd : ∃ s', s = 46 :: 47 :: s'
      · obtain ⟨s', rfl⟩ := hd
        rw [dropDots] at h
        simp only [List.length_cons] at hn
        cases h with
        | char _ h =>
          obtain ⟨t', h'⟩ := escaped_dropDots n s' _ (by omega) h
          exact ⟨_, .char (by decide) (.char (by decide) (.char (by decide) h'))⟩
      · have e : dropDots (47 :: s) = 47 :: dropDots s := by
          rw [dropDots.eq_def]
          split
          · rename_i e; cases e
          · rename_i s' e; injection e with _ e; exact absurd ⟨s', e⟩ hd
          · rename_i e; cases e; rfl
        rw [e] at h
        cases h with
        | char _ h =>
          obtain ⟨t', h'⟩ := escaped_dropDots n s _ (by omega) h
          exact ⟨_, .char (by decide) h'⟩
    · rw [dropDots_cons hc] at h
      generalize hg : dropDots s = r at h
      cases h with
      | char hc' h =>
        subst hg
        obtain ⟨t', h'⟩ := escaped_dropDots n s _ (by omega) h
        exact ⟨_, .char hc' h'⟩
      | @hex a b d x y r t ha hb hd h =>
        have na := hexDigit_slash ha
        have nb := hexDigit_slash hb
        obtain ⟨s', rfl⟩ := dropDots_prefix [a, b] (by simp [Ne.symm na, Ne.symm nb]) s r hg
        rw [List.cons_append, List.cons_append, List.nil_append, dropDots_cons na, dropDots_cons nb] at hg
        injection hg with _ hg
        injection hg with _ hg
        subst hg
        simp only [List.length_append, List.length_cons, List.length_nil] at hn
        obtain ⟨t', h'⟩ := escaped_dropDots n s' _ (by omega) h
        exact ⟨_, .hex ha hb hd h'⟩

theorem escaped_fixSlashes : ∀ (n : Nat) (s t : Bytes), s.length ≤ n → Escaped (fixSlashes s) t → ∃ t', Escaped s t'
  | _, [], _, _, _ => ⟨[], .nil⟩
  | 0, _ :: _, _, hn, _ => by simp at hn
  | n + 1, c :: s, t, hn, h => by
    simp only [List.length_cons] at hn
    have hs : ∀ c a : UInt8, (if c = 92 then 47 else c) = a → a ≠ 47 → c = a := by
      intro c a e ha
      split at e
      · exact absurd e.symm ha
      · exact e
    have e : fixSlashes (c :: s) = (if c = 92 then 47 else c) :: fixSlashes s := rfl
    rw [e] at h
    generalize hg : fixSlashes s = r at h
    generalize hk : (if c = 92 then 47 else c) = k at h
    cases h with
    | char hc' h =>
      subst hg
      obtain ⟨t', h'⟩ := escaped_fixSlashes n s _ (by omega) h
      refine ⟨_, .char ?_ h'⟩
      rintro rfl
      exact hc' hk.symm
    | @hex a b d x y r t ha hb hd h =>
      have hc := hs c 37 hk (by decide)
      subst hc
      rcases s with _ | ⟨a', _ | ⟨b', s⟩⟩
      · cases hg
      · cases hg
      · have hg : (if a' = 92 then 47 else a') :: (if b' = 92 then 47 else b') :: fixSlashes s = a :: b :: r := hg
        injection hg with h1 hg'
        injection hg' with h2 hg'
        have h1 := hs a' a h1 (hexDigit_slash ha)
        have h2 := hs b' b h2 (hexDigit_slash hb)
        subst h1 h2 hg'
        simp only [List.length_cons] at hn
        obtain ⟨t', h'⟩ := escaped_fixSlashes n s _ (by omega) h
        exact ⟨_, .hex ha hb hd h'⟩

theorem escaped_trimDot {s t : Bytes} (h : Escaped (trimDot s) t) : ∃ t', Escaped s t' := by
  unfold trimDot at h
  split at h
  · exact ⟨_, .char (by decide) (.char (by decide) h)⟩
  · exact ⟨_, h⟩

/-- Without a scheme a URI with an invalid escape has no file. -/
theorem sanitize_invalid (U : UrlLib) {uri : Bytes} (hc : (58 : UInt8) ∉ uri) (h : ∀ t, ¬ Escaped uri t) : sanitizeURI U uri = none := by
  unfold sanitizeURI
  simp only
  generalize hv : trimDot (dropDots (fixSlashes uri)) = v
  have hcv : (58 : UInt8) ∉ v := by
    intro hm
    rw [← hv] at hm
    have h1 : (58 : UInt8) ∈ dropDots (fixSlashes uri) := by
      unfold trimDot at hm
      split at hm
      · rename_i s e
        rw [e]
        simp [hm]
      · exact hm
    have h2 := dropDots_mem _ _ h1
    unfold fixSlashes at h2
    obtain ⟨y, hy, e⟩ := List.mem_map.1 h2
    split at e
    · cases e
    · subst e
      exact hc hy
  cases hp : urlParse U v with
  | none => rfl
  | some sch =>
    cases sch with
    | cons c a => exact absurd (hasScheme_colon (urlParse_spec hp)) hcv
    | nil =>
      simp only
      cases hu : unescape v with
      | none => rfl
      | some t =>
        exfalso
        have h1 := escaped_of_unescape hu
        rw [← hv] at h1
        obtain ⟨t1, h1⟩ := escaped_trimDot h1
        obtain ⟨t2, h2⟩ := escaped_dropDots _ _ _ (Nat.le_refl _) h1
        obtain ⟨t3, h3⟩ := escaped_fixSlashes _ _ _ (Nat.le_refl _) h2
        exact h _ h3

/-- The URI of a buffer has no scheme, and an escape that is not valid. -/
def Spec.InvalidEscape (uri : Bytes) : Prop := (58 : UInt8) ∉ uri ∧ ∀ t, ¬ Escaped uri t

theorem encodeBuffers_skipped (U : UrlLib) (fs : CreateFS) : ∀ l : List (Option Buffer),
    (∀ b, some b ∈ l → b.data = [] ∨ b.uri = [] ∨ b.isEmbeddedResource ∨ sanitizeURI U b.uri = none) →
    ∃ r, encodeBuffers U l (some fs) = (r, some fs, []) ∧ encodeBuffers U l none = (r, none, [])
  | [], _ => ⟨_, rfl, rfl⟩
  | none :: l, _ => ⟨_, rfl, rfl⟩
  | some b :: l, h => by
    obtain ⟨r, h1, h2⟩ := encodeBuffers_skipped U fs l fun c hc => h c (List.mem_cons_of_mem _ hc)
    simp only [encodeBuffers]
    by_cases hb : b.data = [] ∨ b.uri = [] ∨ b.isEmbeddedResource
    · rw [if_pos hb, if_pos hb]
      exact ⟨r, h1, h2⟩
    · rw [if_neg hb, if_neg hb]
      have hi : sanitizeURI U b.uri = none := by
        rcases h b (by simp) with h | h | h | h
        · exact absurd (.inl h) hb
        · exact absurd (.inr (.inl h)) hb
        · exact absurd (.inr (.inr h)) hb
        · exact h
      unfold encodeBuffer
      rw [hi]
      cases validateBufferURI U b.uri with
      | false => exact ⟨_, rfl, rfl⟩
      | true =>
        simp only [Bool.not_true, Bool.false_eq_true, if_false]
        rw [h1, h2]
        exact ⟨r, rfl, rfl⟩

/-- If no name is found for the buffers in other files, then `Encode` creates no files and changes none. -/
theorem encode_skipped (E : Env) (U : UrlLib) (o : EncOpts) (doc : Document) (w : Sink) (fs : CreateFS)
    (h : ∀ b, some b ∈ doc.buffers → b.data = [] ∨ b.uri = [] ∨ b.isEmbeddedResource ∨ sanitizeURI U b.uri = none) :
    let e := encode E U o doc w (some fs)
    e.created = [] ∧ e.fsys = some fs ∧ e.result = (encode E U o doc w none).result ∧ e.sink = (encode E U o doc w none).sink := by
  have key : ∀ k, ∃ r, encodeBuffers U (doc.buffers.drop k) (some fs) = (r, some fs, []) ∧ encodeBuffers U (doc.buffers.drop k) none = (r, none, []) :=
    fun k => encodeBuffers_skipped U fs _ fun b hb => h b (List.mem_of_mem_drop hb)
  dsimp only
  unfold encode
  cases marshalJSONDoc E o doc with
  | err e => exact ⟨rfl, rfl, rfl, rfl⟩
  | panic m => exact ⟨rfl, rfl, rfl, rfl⟩
  | ok text =>
    simp only
    split
    · rcases writeBinary text (binBuffer doc) w with ⟨r, w'⟩
      cases r with
      | err e => exact ⟨rfl, rfl, rfl, rfl⟩
      | panic m => exact ⟨rfl, rfl, rfl, rfl⟩
      | ok hb =>
        obtain ⟨r, h1, h2⟩ := key (if hb then 1 else 0)
        simp only [h1, h2, and_self]
    · rcases w.write text with ⟨r, w'⟩
      cases r with
      | some e => exact ⟨rfl, rfl, rfl, rfl⟩
      | none =>
        obtain ⟨r, h1, h2⟩ := key 0
        rw [List.drop_zero] at h1 h2
        simp only [h1, h2, and_self]

/-- C67 is false for all documents whose buffers in other files have URIs with invalid escapes: `Encode` creates no files and
changes none; it returns what it returns without a file system. -/
theorem C67_skipped (E : Env) (U : UrlLib) (o : EncOpts) (doc : Document) (w : Sink) (fs : CreateFS)
    (h : ∀ b, some b ∈ doc.buffers → b.data = [] ∨ b.uri = [] ∨ b.isEmbeddedResource ∨ InvalidEscape b.uri) :
    let e := encode E U o doc w (some fs)
    e.created = [] ∧ e.fsys = some fs ∧ e.result = (encode E U o doc w none).result ∧ e.sink = (encode E U o doc w none).sink :=
  encode_skipped E U o doc w fs fun b hb => (h b hb).imp_right fun k => k.imp_right fun k => k.imp_right fun k => sanitize_invalid U k.1 k.2

/-- A document whose data is lost without an error. -/
example : let doc := externalDoc b!"100%.bin"
    (∀ b, some b ∈ doc.buffers → b.data ≠ [] ∧ b.uri ≠ [] ∧ b.isEmbeddedResource = false ∧ InvalidEscape b.uri) ∧
    (encode witnessEnv witnessUrl {} doc {} (some emptyFS)).result = .ok () := by
  refine ⟨?_, by decide +kernel⟩
  intro b hb
  simp only [externalDoc, List.mem_singleton, Option.some.injEq] at hb
  subst hb
  refine ⟨by decide, by decide, by decide +kernel, by decide, fun t ht => ?_⟩
  have := unescape_escaped ht
  revert this
  rw [show unescape b!"100%.bin" = none from rfl]
  intro h
  cases h

end Gltf
