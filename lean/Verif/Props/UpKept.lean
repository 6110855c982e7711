/-
Property C88: segments that lead up are never resolved by `Encode`.
-/
import Verif.Props.AnyName
import Verif.Props.Resolve

namespace Gltf

open Spec

theorem removeDots_noUp (cs : List Bytes) : b!".." ∉ removeDots cs ∧ ∀ c ∈ removeDots cs, c ∈ cs := by
  unfold removeDots
  have : ∀ (cs stack : List Bytes), b!".." ∉ stack →
      b!".." ∉ cs.foldl (fun stack c => if c = b!"." then stack else if c = b!".." then stack.tail else c :: stack) stack ∧
      ∀ c ∈ cs.foldl (fun stack c => if c = b!"." then stack else if c = b!".." then stack.tail else c :: stack) stack, c ∈ stack ∨ c ∈ cs := by
    intro cs
    induction cs with
    | nil => intro stack h; exact ⟨h, fun c hc => .inl hc⟩
    | cons c cs ih =>
      intro stack h
      rw [List.foldl_cons]
      split
      · obtain ⟨h1, h2⟩ := ih stack h
        exact ⟨h1, fun d hd => (h2 d hd).imp_right (List.mem_cons_of_mem _)⟩
      · split
        · obtain ⟨h1, h2⟩ := ih stack.tail fun hm => h (List.mem_of_mem_tail hm)
          exact ⟨h1, fun d hd => (h2 d hd).imp List.mem_of_mem_tail (List.mem_cons_of_mem _)⟩
        · rename_i hne
          obtain ⟨h1, h2⟩ := ih (c :: stack) (by simp only [List.mem_cons, not_or]; exact ⟨fun e => hne e.symm, h⟩)
          refine ⟨h1, fun d hd => ?_⟩
          rcases h2 d hd with e | e
          · rcases List.mem_cons.1 e with e | e
            · exact .inr (by rw [e]; exact List.mem_cons_self)
            · exact .inl e
          · exact .inr (List.mem_cons_of_mem _ e)
  obtain ⟨h1, h2⟩ := this cs [] (by simp)
  refine ⟨by rw [List.mem_reverse]; exact h1, fun c hc => ?_⟩
  rcases h2 c (List.mem_reverse.1 hc) with e | e
  · cases e
  · exact e

/-- A path without special characters and single dots that never leads above the directory is taken as it is. -/
theorem up_facts {u : Bytes} {cs : List Bytes} (hp : IsPath u cs) (hc : ∀ c ∈ cs, c ≠ [] ∧ c ≠ b!"." ∧ ∀ x ∈ c, PlainChar x)
    (hn : NeverAbove cs) :
    u ≠ [] ∧ ¬ OctetUri u ∧ ∀ U : UrlLib, validateBufferURI U u = true ∧ sanitizeURI U u = some u := by
  have hchar : ∀ x ∈ u, x = 47 ∨ PlainChar x := by
    intro x hx
    rw [hp.2.2] at hx
    rcases mem_intercalate hx with e | ⟨c, hm, hx⟩
    · exact .inl e
    · exact .inr ((hc c hm).2.2 x hx)
  have nm : ∀ x : UInt8, x ≠ 47 → ¬ PlainChar x → x ∉ u := fun x h1 h2 hm => (hchar x hm).elim h1 h2
  have h37 : (37 : UInt8) ∉ u := nm 37 (by decide) (by decide)
  have hhead : u ≠ [] ∧ u.head? ≠ some 47 := by
    obtain ⟨c, ds, rfl⟩ : ∃ c ds, cs = c :: ds := by
      cases cs with
      | nil => exact absurd rfl hp.1
      | cons c ds => exact ⟨c, ds, rfl⟩
    obtain ⟨x, t, rfl⟩ : ∃ x t, c = x :: t := by
      cases c with
      | nil => exact absurd rfl (hc [] (by simp)).1
      | cons x t => exact ⟨x, t, rfl⟩
    have hx : x ≠ 47 := fun e => hp.2.1 (x :: t) (by simp) (by simp [e])
    rw [hp.2.2, intercalate_head]
    exact ⟨by simp, by simpa using hx⟩
  refine ⟨hhead.1, ?_, fun U => ?_⟩
  · rintro ⟨t, e⟩
    refine nm 58 (by decide) (by decide) ?_
    rw [← e]
    simp
  · have hparse := urlParse_chars U (fun x hx => (hchar x hx).imp_right .inr) hhead.2 (escaped_self h37)
    have hdots : ∀ c ∈ components u, c ≠ b!"." := fun c hm => (hc c (path_unique hp ▸ hm)).2.1
    have hdd : dropDots u = u := dropDots_id u [] (by simp) hdots
    have htd : trimDot u = u := by
      have := dropDots_trim (s := u) (by
        rintro ⟨t, e⟩
        have e2 : components u = b!"." :: components t := by rw [← e]; exact components_append (p := b!".") (by decide) t
        exact hdots b!"." (by rw [e2]; simp) rfl)
      rwa [hdd] at this
    refine ⟨?_, ?_⟩
    · unfold validateBufferURI
      rw [hparse]
      exact (isLocal_iff u).2 ⟨hhead.1, hhead.2, cs, hp, hn⟩
    · unfold sanitizeURI
      rw [fixSlashes_id (nm 92 (by decide) (by decide)), hdd, htd]
      simp only [hparse, unescape_escaped (escaped_self h37)]

/-- C88 is false of all relative references with segments that lead up: whenever `Encode` succeeds, a buffer with data and such a URI
makes it create a file under the whole URI, and this is not the name that the reference resolves to. -/
theorem C88_up_kept (u : Bytes) (cs : List Bytes) (hp : IsPath u cs) (hc : ∀ c ∈ cs, c ≠ [] ∧ c ≠ b!"." ∧ ∀ x ∈ c, PlainChar x)
    (hn : NeverAbove cs) (hup : b!".." ∈ cs) :
    (∀ name, Resolves u name → name ≠ u) ∧
    ∀ (E : Env) (U : UrlLib) (o : EncOpts) (doc : Document) (b : Buffer) (w : Sink) (f : CreateFS),
      w.plan = [] → some b ∈ doc.buffers → b.uri = u → b.data ≠ [] → (encode E U o doc w (some f)).result = .ok () →
      u ∈ (encode E U o doc w (some f)).created := by
  obtain ⟨hne, hoct, hU⟩ := up_facts hp hc hn
  refine ⟨?_, ?_⟩
  · rintro name ⟨cs', hp', -, -, -, he⟩ rfl
    have e1 : cs' = cs := (path_unique hp').symm.trans (path_unique hp)
    subst e1
    obtain ⟨h1, h2⟩ := removeDots_noUp cs'
    have h3 : (37 : UInt8) ∉ [47].intercalate (removeDots cs') := by
      intro hm
      rcases mem_intercalate hm with e | ⟨c, hm, hx⟩
      · revert e; decide
      · exact absurd ((hc c (h2 c hm)).2.2 _ hx) (by decide)
    have e2 : name = [47].intercalate (removeDots cs') := escaped_unique he (escaped_self h3)
    cases hr : removeDots cs' with
    | nil =>
      rw [hr] at e2
      exact hne e2
    | cons d ds =>
      have hp2 : IsPath name (removeDots cs') := ⟨by rw [hr]; simp, fun c hm => hp.2.1 c (h2 c hm), e2⟩
      have : removeDots cs' = cs' := (path_unique hp2).symm.trans (path_unique hp)
      rw [this] at h1
      exact h1 hup
  · intro E U o doc b w f hw hm hb hd he
    obtain ⟨text, ht, e⟩ := encode_ok hw he
    have hr : (encodeBuffers U doc.buffers (some f)).1 = .ok () := by
      cases ho : o.asBinary with
      | false => rw [encode_text (U := U) (fs := some f) hw ht ho] at he; exact he
      | true =>
        rcases encode_bin (U := U) (fs := some f) hw ht ho with e' | e'
        · rw [he] at e'; cases e'
        · rw [e'] at he; exact he
    rw [e]
    exact encodeBuffers_sanitized hne hoct (hU U).1 (hU U).2 hb hd hm hr

/-- `a/../b.bin` is such a reference. -/
example : IsPath b!"a/../b.bin" [b!"a", b!"..", b!"b.bin"] ∧
    (∀ c ∈ [b!"a", b!"..", b!"b.bin"], c ≠ [] ∧ c ≠ b!"." ∧ ∀ x ∈ c, PlainChar x) ∧ NeverAbove [b!"a", b!"..", b!"b.bin"] ∧
    Resolves b!"a/../b.bin" b!"b.bin" ∧
    (encode witnessEnv witnessUrl {} (externalDoc b!"a/../b.bin") {} (some emptyFS)).result = .ok () := by
  refine ⟨⟨by simp, by decide, by decide⟩, ?_, ?_, upRef.1, by decide +kernel⟩
  · unfold PlainChar; decide
  · rw [neverAbove_iff]; decide

end Gltf
