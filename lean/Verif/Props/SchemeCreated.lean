/-
Property C38: which files `Encode` creates for URIs with a scheme.
-/
import Verif.Props.AnyName

namespace Gltf

open Spec

/-- A URI with a scheme whose rest does not begin with a slash. There are no control characters, fragments, backslashes and parts `/./`. -/
structure Spec.OpaqueUri (u : Bytes) : Prop where
  scheme : ∃ c t r, u = c :: t ++ 58 :: r ∧ Letter c ∧ (∀ d ∈ t, Letter d ∨ (48 ≤ d ∧ d ≤ 57) ∨ d = 43 ∨ d = 45 ∨ d = 46) ∧
    r.head? ≠ some 47
  chars : ∀ x ∈ u, 32 ≤ x ∧ x ≠ 127 ∧ x ≠ 35 ∧ x ≠ 92
  dots : ¬ b!"/./" <:+: u

theorem isLetter_of {c : UInt8} (h : Letter c) : isLetter c = true := by
  unfold isLetter
  rcases h with h | h <;> simp [h.1, h.2]

theorem schemeRest_of : ∀ (t : Bytes) (r : Bytes), (∀ d ∈ t, Letter d ∨ (48 ≤ d ∧ d ≤ 57) ∨ d = 43 ∨ d = 45 ∨ d = 46) →
    schemeRest (t ++ 58 :: r) = some (t, r)
  | [], r, _ => by
    have : (isLetter 58 || isSchemeChar 58) = false := by decide
    simp [schemeRest, this]
  | d :: t, r, h => by
    have hd : (isLetter d || isSchemeChar d) = true := by
      rcases h d (by simp) with h | h | h | h | h
      · simp [isLetter_of h]
      · simp [isSchemeChar, h.1, h.2]
      · subst h; decide
      · subst h; decide
      · subst h; decide
    show schemeRest (d :: (t ++ 58 :: r)) = _
    unfold schemeRest
    rw [if_pos hd, schemeRest_of t r fun x hx => h x (List.mem_cons_of_mem _ hx)]
    rfl

theorem before_after_id {c : UInt8} : ∀ {s : Bytes}, c ∉ s → before c s = s ∧ after c s = []
  | [], _ => ⟨rfl, rfl⟩
  | x :: s, h => by
    have hx : x ≠ c := fun e => h (by simp [e])
    obtain ⟨h1, h2⟩ := before_after_id (c := c) (s := s) fun hm => h (by simp [hm])
    unfold before at h1 ⊢
    unfold after at h2 ⊢
    simp [hx, h1, h2]

theorem dropDots_noDots : ∀ s : Bytes, ¬ b!"/./" <:+: s → dropDots s = s := by
  intro s
  fun_induction dropDots s with
  | case1 => intro _; rfl
  | case2 s ih => intro h; exact absurd ⟨[], s, rfl⟩ h
  | case3 c s _ ih =>
    intro h
    rw [ih fun ⟨a, b, e⟩ => h ⟨c :: a, b, by rw [← e]; rfl⟩]

theorem opaque_parse (U : UrlLib) {u : Bytes} (h : OpaqueUri u) : ∃ c t, urlParse U u = some (c :: t) := by
  obtain ⟨c, t, r, e, hc, ht, hr⟩ := h.scheme
  refine ⟨c, t, ?_⟩
  obtain ⟨h1, h2⟩ := before_after_id (c := 35) (s := u) fun hm => (h.chars 35 hm).2.2.1 rfl
  have hg : getScheme u = some (c :: t, r) := by
    rw [e]
    show getScheme (c :: (t ++ 58 :: r)) = _
    unfold getScheme
    simp only
    rw [if_pos (isLetter_of hc), schemeRest_of t r ht]
  have hp : parseUrl U u = some (c :: t) := by
    unfold parseUrl
    have hn : u.any isCtl = false := by
      rw [List.any_eq_false]
      intro x hx
      obtain ⟨k1, k2, -⟩ := h.chars x hx
      unfold isCtl
      simp [k2, k1]
    have hs : u ≠ b!"*" := by
      rw [e]
      intro e
      have e : c :: (t ++ 58 :: r) = [42] := e
      injection e with _ e
      cases t <;> cases e
    have hb : (before 63 r).head? ≠ some 47 := by
      cases r with
      | nil => simp [before]
      | cons x r =>
        unfold before
        by_cases hx : x = 63
        · simp [hx]
        · simpa [hx] using hr
    rw [hn, if_neg (by simp), if_neg hs, hg]
    simp only
    rw [if_pos ⟨hb, by simp⟩]
  unfold urlParse
  rw [h1, h2, hp]
  rfl

theorem opaque_facts (U : UrlLib) {u : Bytes} (h : OpaqueUri u) :
    u ≠ [] ∧ validateBufferURI U u = true ∧ sanitizeURI U u = some (U.render u) := by
  obtain ⟨c, t, hp⟩ := opaque_parse U h
  obtain ⟨c', t', r, e, hc, -⟩ := h.scheme
  refine ⟨by rw [e]; simp, by unfold validateBufferURI; rw [hp], ?_⟩
  have hd : trimDot (dropDots (fixSlashes u)) = u := by
    rw [fixSlashes_id fun hm => (h.chars 92 hm).2.2.2 rfl, dropDots_noDots u h.dots]
    have hc' : c' ≠ 46 := by
      rintro rfl
      revert hc
      simp [Letter]
    rw [e]
    show trimDot (c' :: (t' ++ 58 :: r)) = _
    unfold trimDot
    split
    · rename_i e'
      injection e' with e' _
      exact absurd e' hc'
    · rfl
  unfold sanitizeURI
  simp only [hd, hp]

/-- C38 fails for every URI of this kind, also if it climbs: whenever `Encode` with a file system succeeds, it has created a file whose
name is the text form of the whole URI for each buffer with data and such a URI. -/
theorem C38_scheme_created (E : Env) (U : UrlLib) (o : EncOpts) (doc : Document) (b : Buffer) (w : Sink) (f : CreateFS)
    (hw : w.plan = []) (hm : some b ∈ doc.buffers) (hu : OpaqueUri b.uri) (ho : ¬ OctetUri b.uri) (hd : b.data ≠ [])
    (he : (encode E U o doc w (some f)).result = .ok ()) : U.render b.uri ∈ (encode E U o doc w (some f)).created := by
  obtain ⟨text, ht, e⟩ := encode_ok hw he
  have hr : (encodeBuffers U doc.buffers (some f)).1 = .ok () := by
    cases ho : o.asBinary with
    | false => rw [encode_text (U := U) (fs := some f) hw ht ho] at he; exact he
    | true =>
      rcases encode_bin (U := U) (fs := some f) hw ht ho with e' | e'
      · rw [he] at e'; cases e'
      · rw [e'] at he; exact he
  rw [e]
  obtain ⟨h0, hv, hs⟩ := opaque_facts U hu
  exact encodeBuffers_sanitized h0 ho hv hs rfl hd hm hr

/-- A URI with a scheme that climbs out of the directory is accepted, and the file is created. Without the scheme it is refused. -/
example : OpaqueUri b!"x:a/../../evil" ∧ ¬ OctetUri b!"x:a/../../evil" ∧ ¬ Local b!"x:a/../../evil" ∧
    (encode witnessEnv witnessUrl {} (externalDoc b!"x:a/../../evil") {} (some emptyFS)).result = .ok () ∧
    (encode witnessEnv witnessUrl {} (externalDoc b!"x:a/../../evil") {} (some emptyFS)).created = [b!"x:a/../../evil"] ∧
    (encode witnessEnv witnessUrl {} (externalDoc b!"a/../../evil") {} (some emptyFS)).result.isErr = true := by
  refine ⟨⟨⟨120, [], b!"a/../../evil", rfl, .inl (by decide), by simp, by decide⟩, by decide, by decide⟩, by unfold OctetUri; decide,
    not_local_of (by decide +kernel), by decide +kernel, by decide +kernel, by decide +kernel⟩

end Gltf
