/-
Relative references with dot segments.
-/
import Verif.Lemmas.RoundTrip

namespace Gltf

open Spec

/-- Segments with a slash before each. -/
def slashed (cs : List Bytes) : Bytes := cs.flatMap (47 :: ·)

theorem intercalate_slashed (c : Bytes) (cs : List Bytes) : [47].intercalate (c :: cs) = c ++ slashed cs := by
  induction cs generalizing c with
  | nil => simp [slashed]
  | cons d cs ih =>
    rw [intercalate_cons (by simp), ih]
    simp [slashed]

theorem dropDots_append {p : Bytes} (hp : (47 : UInt8) ∉ p) (s : Bytes) : dropDots (p ++ s) = p ++ dropDots s := by
  induction p with
  | nil => rfl
  | cons c p ih =>
    have hc : c ≠ 47 := fun e => hp (by simp [e])
    rw [List.cons_append, dropDots.eq_def]
    split
    · rename_i e; cases e
    · rename_i e; injection e with e _; exact absurd e hc
    · rename_i e
      injection e with e1 e2
      subst e1 e2
      rw [ih fun h => hp (by simp [h])]
      rfl

theorem dropDots_slash {c : Bytes} (h0 : c ≠ []) (h1 : c ≠ b!".") (h47 : (47 : UInt8) ∉ c) (s : Bytes) :
    dropDots (47 :: (c ++ s)) = 47 :: dropDots (c ++ s) := by
  rw [dropDots.eq_def]
  split
  · rename_i e; cases e
  · rename_i t e
    exfalso
    injection e with _ e
    cases c with
    | nil => exact h0 rfl
    | cons x c =>
      injection e with e1 e2
      cases c with
      | nil => exact h1 (by rw [e1])
      | cons y c =>
        injection e2 with e2 _
        exact h47 (by simp [e2])
  · rename_i e
    injection e with e1 e2
    subst e1 e2
    rfl

/-- Single dots between other segments are removed. -/
theorem dropDots_slashed : ∀ (cs : List Bytes), (∀ c ∈ cs, c ≠ [] ∧ (47 : UInt8) ∉ c) →
    (∀ i, cs[i]? = some b!"." → cs[i + 1]? ≠ some b!".") → cs.getLast? ≠ some b!"." →
    dropDots (slashed cs) = slashed (cs.filter (· ≠ b!"."))
  | [], _, _, _ => rfl
  | [c], h, _, hl => by
    have hc := h c (by simp)
    have h1 : c ≠ b!"." := fun e => hl (by simp [e])
    have : slashed [c] = 47 :: (c ++ []) := by simp [slashed]
    rw [this, dropDots_slash hc.1 h1 hc.2, dropDots_append hc.2]
    simp [h1, slashed, dropDots]
  | c :: d :: cs, h, hch, hl => by
    have hc := h c (by simp)
    have hd := h d (by simp)
    by_cases h1 : c = b!"."
    · subst h1
      have hd1 : d ≠ b!"." := fun e => hch 0 rfl (by rw [e]; rfl)
      have ih := dropDots_slashed cs (fun x hx => h x (by simp [hx])) (fun i => hch (i + 2)) (by
        cases cs with
        | nil => simp
        | cons e cs => simpa [List.getLast?_cons_cons] using hl)
      have : slashed (b!"." :: d :: cs) = 47 :: 46 :: 47 :: (d ++ slashed cs) := by simp [slashed]
      rw [this, dropDots, dropDots_append hd.2, ih]
      simp [slashed, hd1]
    · have ih := dropDots_slashed (d :: cs) (fun x hx => h x (by simp_all)) (fun i => hch (i + 1)) (by
        simpa [List.getLast?_cons_cons] using hl)
      have : slashed (c :: d :: cs) = 47 :: (c ++ slashed (d :: cs)) := by simp [slashed]
      rw [this, dropDots_slash hc.1 h1 hc.2, dropDots_append hc.2, ih]
      have hf : (c :: d :: cs).filter (· ≠ b!".") = c :: (d :: cs).filter (· ≠ b!".") := List.filter_cons_of_pos (by simpa using h1)
      rw [hf]
      rfl

theorem removeDots_single {cs : List Bytes} (h : b!".." ∉ cs) : removeDots cs = cs.filter (· ≠ b!".") := by
  unfold removeDots
  have : ∀ stack, cs.foldl (fun stack c => if c = b!"." then stack else if c = b!".." then stack.tail else c :: stack) stack =
      (cs.filter (· ≠ b!".")).reverse ++ stack := by
    induction cs with
    | nil => intro stack; rfl
    | cons c cs ih =>
      intro stack
      have h1 : c ≠ b!".." := fun e => h (by simp [e])
      rw [List.foldl_cons, ih fun hm => h (by simp [hm])]
      by_cases h2 : c = b!"."
      · rw [if_pos h2, List.filter_cons_of_neg (by simpa using h2)]
      · rw [if_neg h2, if_neg h1, List.filter_cons_of_pos (by simpa using h2)]
        simp
  rw [this]
  simp

/-- The path without the dots, before the escapes are removed. -/
theorem fileRef_path {u name : Bytes} (h : Resolves u name) (hs : SingleDots u) :
    ∃ p, UriPath p name ∧ trimDot (dropDots (fixSlashes u)) = p := by
  obtain ⟨cs, hp, hc, -, ⟨l, hl, hln⟩, he⟩ := h
  obtain ⟨cs', hp', hdd, hch⟩ := hs
  have : cs' = cs := (path_unique hp').symm.trans (path_unique hp)
  subst this
  rw [removeDots_single hdd] at he
  have hlast : cs'.getLast? ≠ some b!"." := by
    rw [hl]
    intro e
    exact hln.2.1 (Option.some.inj e)
  have hmem : l ∈ cs'.filter (· ≠ b!".") := List.mem_filter.2 ⟨List.mem_of_getLast? hl, by simpa using hln.2.1⟩
  refine ⟨_, ⟨⟨cs'.filter (· ≠ b!"."), ⟨?_, ?_, rfl⟩, ?_⟩, he⟩, ?_⟩
  · intro e; rw [e] at hmem; cases hmem
  · intro c hm; exact hp.2.1 c (List.mem_filter.1 hm).1
  · intro c hm
    obtain ⟨h1, h2⟩ := List.mem_filter.1 hm
    exact ⟨⟨(hc c h1).1, by simpa using h2, fun e => hdd (e ▸ h1)⟩, (hc c h1).2⟩
  · have h92 : (92 : UInt8) ∉ u := by
      intro hm
      rw [hp.2.2] at hm
      rcases mem_intercalate hm with e | ⟨c, hcm, hx⟩
      · exact absurd e (by decide)
      · rcases (hc c hcm).2 _ hx with e | e
        · exact absurd e (by decide)
        · exact absurd e (by decide)
    rw [fixSlashes_id h92, hp.2.2]
    cases cs' with
    | nil => cases hl
    | cons c cs =>
      have h47 : ∀ x ∈ c :: cs, x ≠ [] ∧ (47 : UInt8) ∉ x := fun x hx => ⟨(hc x hx).1, hp.2.1 x hx⟩
      have hc0 := h47 c (by simp)
      rw [intercalate_slashed, dropDots_append hc0.2]
      by_cases h1 : c = b!"."
      · subst h1
        rw [List.filter_cons_of_neg (by simp)]
        cases cs with
        | nil => exact absurd rfl hlast
        | cons d cs =>
          have hd1 : d ≠ b!"." := fun e => hch 0 rfl (by rw [e]; rfl)
          rw [dropDots_slashed (d :: cs) (fun x hx => h47 x (by simp_all)) (fun i => hch (i + 1)) (by
            simpa [List.getLast?_cons_cons] using hlast), List.filter_cons_of_pos (by simpa using hd1), intercalate_slashed]
          show trimDot (46 :: 47 :: (d ++ slashed _)) = _
          rfl
      · rw [List.filter_cons_of_pos (by simpa using h1), intercalate_slashed]
        have hcs : dropDots (slashed cs) = slashed (cs.filter (· ≠ b!".")) := by
          cases cs with
          | nil => rfl
          | cons d cs =>
            exact dropDots_slashed (d :: cs) (fun x hx => h47 x (by simp_all)) (fun i => hch (i + 1)) (by
              simpa [List.getLast?_cons_cons] using hlast)
        rw [hcs]
        unfold trimDot
        split
        · rename_i t e
          exfalso
          cases c with
          | nil => exact hc0.1 rfl
          | cons x c =>
            injection e with e1 e2
            cases c with
            | nil => exact h1 (by rw [e1])
            | cons y c =>
              injection e2 with e2 _
              exact hc0.2 (by simp [e2])
        · rfl

/-- Sanitizing a reference gives what it resolves to. -/
theorem sanitize_resolves (U : UrlLib) {u name : Bytes} (h : Resolves u name) (hs : SingleDots u) : sanitizeURI U u = some name := by
  obtain ⟨p, hu, he⟩ := fileRef_path h hs
  unfold sanitizeURI
  rw [he]
  simp only [urlParse_path U (uriPath_facts hu) hu.2, unescape_escaped hu.2]

theorem resolves_ne {u name : Bytes} (h : Resolves u name) : u ≠ [] := by
  obtain ⟨cs, hp, hc, -⟩ := h
  rintro rfl
  cases cs with
  | nil => exact hp.1 rfl
  | cons c cs =>
    have := hp.2.2
    rw [intercalate_slashed] at this
    exact (hc c (by simp)).1 (List.append_eq_nil_iff.1 this.symm).1

theorem resolves_not_octet {u name : Bytes} (h : Resolves u name) : ¬ OctetUri u := by
  obtain ⟨cs, hp, hc, -⟩ := h
  rintro ⟨t, e⟩
  have hm : (58 : UInt8) ∈ u := by rw [← e]; simp
  rw [hp.2.2] at hm
  rcases mem_intercalate hm with e | ⟨c, hcm, hx⟩
  · exact absurd e (by decide)
  · rcases (hc c hcm).2 _ hx with e | e
    · exact absurd e (by decide)
    · exact absurd e (by decide)

/-- Paths of names are references. -/
theorem path_resolves {u name : Bytes} (h : UriPath u name) : Resolves u name ∧ SingleDots u := by
  obtain ⟨⟨cs, hp, hc⟩, he⟩ := h
  have hd : b!".." ∉ cs := fun hm => (hc _ hm).1.2.2 rfl
  have hf : cs.filter (· ≠ b!".") = cs := by
    rw [List.filter_eq_self]
    intro c hm
    simpa using (hc c hm).1.2.1
  refine ⟨⟨cs, hp, fun c hm => ⟨(hc c hm).1.1, (hc c hm).2⟩, ?_, ?_, ?_⟩, cs, hp, hd, ?_⟩
  · intro k
    have : (cs.take k).countP (fun c => c = b!"..") = 0 := by
      rw [List.countP_eq_zero]
      intro d hm
      simpa using (hc d (List.mem_of_mem_take hm)).1.2.2
    rw [this]
    exact Nat.zero_le _
  · exact ⟨cs.getLast hp.1, List.getLast?_eq_some_getLast hp.1, (hc _ (List.getLast_mem hp.1)).1⟩
  · rw [removeDots_single hd, hf, ← hp.2.2]
    exact he
  · intro i hi
    exact absurd rfl (hc _ (List.mem_of_getElem? hi)).1.2.1

theorem file_ref {u name : Bytes} (h : FileUri u name) : FileRef u name :=
  ⟨(path_resolves h.1).1, (path_resolves h.1).2, h.2.1, h.2.2⟩

end Gltf
