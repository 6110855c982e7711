/-
Lemmas on paths and URIs.
-/
import Verif.Model.Uri
import Verif.Spec.Path

namespace Gltf

open Spec

/-! ### Components -/

theorem components_ne (s : Bytes) : components s ≠ [] := by
  induction s with
  | nil => simp [components]
  | cons c s ih =>
    simp only [components]
    split
    · simp
    · split <;> simp

theorem intercalate_cons {x p : Bytes} {ps : List Bytes} (h : ps ≠ []) : x.intercalate (p :: ps) = p ++ x ++ x.intercalate ps := by
  cases ps with
  | nil => exact absurd rfl h
  | cons q ps => simp [List.intercalate, List.intersperse]

theorem intercalate_one {x p : Bytes} : x.intercalate [p] = p := by simp [List.intercalate]

theorem intercalate_head {x : Bytes} {c : UInt8} {p : Bytes} {ps : List Bytes} :
    x.intercalate ((c :: p) :: ps) = c :: x.intercalate (p :: ps) := by
  cases ps with
  | nil => rw [intercalate_one, intercalate_one]
  | cons q ps =>
    have h : q :: ps ≠ [] := by simp
    rw [intercalate_cons h, intercalate_cons h]; rfl

theorem components_path (s : Bytes) : IsPath s (components s) := by
  refine ⟨components_ne s, ?_⟩
  induction s with
  | nil => simp [components, List.intercalate]
  | cons c s ih =>
    simp only [components]
    split
    · rename_i hc
      subst hc
      refine ⟨List.forall_mem_cons.2 ⟨by simp, ih.1⟩, ?_⟩
      rw [intercalate_cons (components_ne s), ← ih.2]; rfl
    · rename_i hc
      split
      · rename_i h; exact absurd h (components_ne s)
      · rename_i p ps h
        rw [h] at ih
        refine ⟨List.forall_mem_cons.2 ⟨?_, fun d hd => ih.1 d (by simp [hd])⟩, ?_⟩
        · simp only [List.mem_cons, not_or]
          exact ⟨fun e => hc e.symm, ih.1 p (by simp)⟩
        · rw [intercalate_head, ← ih.2]

theorem components_cons_ne {c : UInt8} (hc : c ≠ 47) {s p : Bytes} {ps : List Bytes} (h : components s = p :: ps) :
    components (c :: s) = (c :: p) :: ps := by
  simp only [components, if_neg hc, h]

theorem components_append {p : Bytes} (hp : (47 : UInt8) ∉ p) (s : Bytes) : components (p ++ 47 :: s) = p :: components s := by
  induction p with
  | nil => simp [components]
  | cons c p ih =>
    have hc : c ≠ 47 := fun e => hp (by simp [e])
    exact components_cons_ne hc (ih fun h => hp (by simp [h]))

theorem components_self {p : Bytes} (hp : (47 : UInt8) ∉ p) : components p = [p] := by
  induction p with
  | nil => rfl
  | cons c p ih =>
    have hc : c ≠ 47 := fun e => hp (by simp [e])
    exact components_cons_ne hc (ih fun h => hp (by simp [h]))

theorem path_unique {s : Bytes} {cs : List Bytes} (h : IsPath s cs) : components s = cs := by
  obtain ⟨h0, h1, h2⟩ := h
  subst h2
  induction cs with
  | nil => exact absurd rfl h0
  | cons p ps ih =>
    cases ps with
    | nil => rw [intercalate_one]; exact components_self (h1 p (by simp))
    | cons q ps =>
      have h : q :: ps ≠ [] := by simp
      rw [intercalate_cons h, List.append_assoc]
      have e := ih h fun c hc => h1 c (List.mem_cons_of_mem _ hc)
      exact (components_append (h1 p (by simp)) ([47].intercalate (q :: ps))).trans (by rw [e])

theorem joinPath_eq (cs : List Bytes) : joinPath cs = [47].intercalate cs := by
  induction cs with
  | nil => rfl
  | cons p ps ih =>
    cases ps with
    | nil => rw [intercalate_one]; rfl
    | cons q ps => rw [intercalate_cons (by simp), ← ih]; simp [joinPath]

/-! ### Local paths -/

/-- Whether the components never lead above the directory, from a depth. -/
def stays : Nat → List Bytes → Bool
  | _, [] => true
  | h, c :: cs =>
    if c = [] ∨ c = b!"." then stays h cs
    else if c = b!".." then
      match h with
      | 0 => false
      | h + 1 => stays h cs
    else stays (h + 1) cs

theorem dotdot_name : ¬ IsName b!".." := fun h => h.2.2 rfl

theorem stays_iff (cs : List Bytes) : ∀ h, stays h cs = true ↔
    ∀ k, (cs.take k).countP (fun c => c = b!"..") ≤ h + (cs.take k).countP (fun c => IsName c) := by
  induction cs with
  | nil => intro h; simp [stays]
  | cons c cs ih =>
    intro h
    have step : (∀ k, ((c :: cs).take k).countP (fun c => c = b!"..") ≤ h + ((c :: cs).take k).countP (fun c => IsName c)) ↔
        ∀ k, (cs.take k).countP (fun c => c = b!"..") + (if c = b!".." then 1 else 0) ≤
          h + ((cs.take k).countP (fun c => IsName c) + if IsName c then 1 else 0) := by
      constructor
      · intro hk k
        have := hk (k + 1)
        simpa only [List.take_succ_cons, List.countP_cons, decide_eq_true_eq] using this
      · intro hk k
        cases k with
        | zero => simp
        | succ k => simpa only [List.take_succ_cons, List.countP_cons, decide_eq_true_eq] using hk k
    rw [step]
    by_cases h1 : c = [] ∨ c = b!"."
    · have h2 : ¬ IsName c := fun n => by rcases h1 with h1 | h1 <;> subst h1 <;> revert n <;> decide
      have h3 : c ≠ b!".." := fun e => by rcases h1 with h1 | h1 <;> subst h1 <;> revert e <;> decide
      simp only [stays, if_pos h1, if_neg h2, if_neg h3, Nat.add_zero]
      exact ih h
    · by_cases h3 : c = b!".."
      · have h2 : ¬ IsName c := fun n => n.2.2 h3
        simp only [stays, if_neg h1, if_pos h3, if_neg h2]
        cases h with
        | zero =>
          simp only [Bool.false_eq_true, false_iff]
          intro hk
          have := hk 0
          simp at this
        | succ h =>
          rw [ih h]
          refine forall_congr' fun k => ?_
          omega
      · have h2 : IsName c := by simp only [not_or] at h1; exact ⟨h1.1, h1.2, h3⟩
        simp only [stays, if_neg h1, if_neg h3, if_pos h2]
        rw [ih (h + 1)]
        refine forall_congr' fun k => ?_
        omega

theorem neverAbove_iff (cs : List Bytes) : NeverAbove cs ↔ stays 0 cs = true := by
  rw [stays_iff]
  simp only [Nat.zero_add]
  rfl

/-- The stack keeps a step up at its bottom. -/
theorem clean_bottom (cs : List Bytes) : ∀ s, (cs.foldl cleanStep (s ++ [b!".."])).getLast? = some b!".." := by
  induction cs with
  | nil => intro s; simp
  | cons c cs ih =>
    intro s
    have : ∃ s', cleanStep (s ++ [b!".."]) c = s' ++ [b!".."] := by
      unfold cleanStep
      split
      · exact ⟨s, rfl⟩
      · split
        · cases s with
          | nil => exact ⟨[c], by simp⟩
          | cons q s =>
            simp only [List.cons_append]
            split
            · exact ⟨c :: q :: s, rfl⟩
            · exact ⟨s, rfl⟩
        · exact ⟨c :: s, rfl⟩
    obtain ⟨s', hs'⟩ := this
    rw [List.foldl_cons, hs']
    exact ih s'

theorem clean_stays (cs : List Bytes) : ∀ s, b!".." ∉ s →
    if stays s.length cs = true then b!".." ∉ cs.foldl cleanStep s
    else (cs.foldl cleanStep s).getLast? = some b!".." := by
  induction cs with
  | nil => intro s hs; simp [stays, hs]
  | cons c cs ih =>
    intro s hs
    simp only [List.foldl_cons, stays, cleanStep]
    by_cases h1 : c = [] ∨ c = b!"."
    · simp only [if_pos h1]; exact ih s hs
    · by_cases h3 : c = b!".."
      · simp only [if_neg h1, if_pos h3]
        cases s with
        | nil =>
          subst h3
          have := clean_bottom cs []
          rw [if_neg (by simp)]
          exact this
        | cons q s =>
          have hq : q ≠ b!".." := fun e => hs (by simp [e])
          simp only [List.length_cons, if_neg hq]
          exact ih s fun h => hs (by simp [h])
      · simp only [if_neg h1, if_neg h3]
        exact ih (c :: s) (by simp only [List.mem_cons, not_or]; exact ⟨fun e => h3 e.symm, hs⟩)

theorem clean_mem (cs : List Bytes) : ∀ s, ∀ c ∈ cs.foldl cleanStep s, c ∈ s ∨ c ∈ cs := by
  induction cs with
  | nil => intro s c hc; exact .inl hc
  | cons d cs ih =>
    intro s c hc
    rcases ih _ c hc with h | h
    · have : ∀ x ∈ cleanStep s d, x ∈ s ∨ x = d := by
        unfold cleanStep
        intro x hx
        split at hx
        · exact .inl hx
        · split at hx
          · split at hx
            · simp at hx; exact .inr hx
            · split at hx
              · simp at hx; rcases hx with hx | hx | hx
                · exact .inr hx
                · exact .inl (by simp [hx])
                · exact .inl (by simp [hx])
              · exact .inl (by simp [hx])
          · simp at hx; rcases hx with hx | hx
            · exact .inr hx
            · exact .inl hx
      rcases this c h with h | h
      · exact .inl h
      · exact .inr (by simp [h])
    · exact .inr (by simp [h])

/-- What `IsLocal` looks for is that the first component is a step up. -/
theorem up_iff {p : Bytes} (hp : (47 : UInt8) ∉ p) (ps : List Bytes) :
    (joinPath (p :: ps) == b!".." || b!"../".isPrefixOf (joinPath (p :: ps))) = true ↔ p = b!".." := by
  rw [Bool.or_eq_true, beq_iff_eq, List.isPrefixOf_iff_prefix]
  constructor
  · intro h
    cases ps with
    | nil =>
      simp only [joinPath] at h
      rcases h with h | ⟨r, h⟩
      · exact h
      · rw [← h] at hp; exact absurd hp (by simp)
    | cons q ps =>
      have hc := components_append hp (joinPath (q :: ps))
      simp only [joinPath] at h
      rcases h with h | ⟨r, h⟩
      · rw [h] at hc
        have : components b!".." = [b!".."] := by decide
        rw [this] at hc
        injection hc with h1 h2
        exact h1.symm
      · rw [← h] at hc
        have : components (b!"../" ++ r) = b!".." :: components r := components_append (p := b!"..") (by decide) r
        rw [this] at hc
        injection hc with h1 h2
        exact h1.symm
  · intro h
    subst h
    cases ps with
    | nil => exact .inl rfl
    | cons q ps => exact .inr ⟨joinPath (q :: ps), rfl⟩

theorem isLocal_iff (p : Bytes) : isLocal p = true ↔ Local p := by
  unfold isLocal Local
  by_cases h0 : p = [] ∨ p.head? = some 47
  · rw [if_pos h0]
    constructor
    · intro h; cases h
    · rintro ⟨h1, h2, _⟩
      rcases h0 with h | h
      · exact absurd h h1
      · exact absurd h h2
  · rw [if_neg h0]
    simp only [not_or] at h0
    have hL : (p ≠ [] ∧ p.head? ≠ some 47 ∧ ∃ cs, IsPath p cs ∧ NeverAbove cs) ↔ stays 0 (components p) = true := by
      rw [← neverAbove_iff]
      constructor
      · rintro ⟨_, _, cs, h1, h2⟩; rw [path_unique h1]; exact h2
      · intro h; exact ⟨h0.1, h0.2, _, components_path p, h⟩
    rw [hL]
    have hns := (components_path p).2.1
    have hj : joinPath (components p) = p := by rw [joinPath_eq]; exact (components_path p).2.2.symm
    by_cases hd : (components p).any (fun c => c == b!"." || c == b!"..") = true
    · simp only [hd, if_true]
      have hc := clean_stays (components p) [] (by simp)
      have hm := clean_mem (components p) []
      simp only [List.length_nil] at hc
      unfold cleanPath
      cases hs : (components p).foldl cleanStep [] with
      | nil =>
        rw [hs] at hc
        split at hc
        · rename_i h; simp only [h]; decide
        · simp at hc
      | cons q qs =>
        rw [hs] at hc hm
        obtain ⟨r, rs, hr⟩ : ∃ r rs, (q :: qs).reverse = r :: rs := by
          cases h : (q :: qs).reverse with
          | nil => simp at h
          | cons r rs => exact ⟨r, rs, rfl⟩
        have hrm : r ∈ q :: qs := by rw [← List.mem_reverse, hr]; simp
        have hrs : (47 : UInt8) ∉ r := by
          rcases hm r hrm with h | h
          · cases h
          · exact hns r h
        have hl : (q :: qs).getLast? = some r := by rw [← List.head?_reverse, hr]; rfl
        show (!(joinPath (q :: qs).reverse == b!".." || b!"../".isPrefixOf (joinPath (q :: qs).reverse))) = true ↔ _
        rw [hr, Bool.not_eq_true', ← Bool.not_eq_true, up_iff hrs]
        constructor
        · intro h
          split at hc
          · assumption
          · rw [hl] at hc; injection hc with hc; exact absurd hc h
        · intro h e
          rw [if_pos h] at hc
          exact hc (e ▸ hrm)
    · simp only [hd]
      have hall : ∀ c ∈ components p, c ≠ b!"." ∧ c ≠ b!".." := by
        intro c hc
        rw [List.any_eq_true] at hd
        have : ¬ ((c == b!"." || c == b!"..") = true) := fun h => hd ⟨c, hc, h⟩
        simpa using this
      have hst : ∀ cs : List Bytes, (∀ c ∈ cs, c ≠ b!"..") → ∀ h, stays h cs = true := by
        intro cs
        induction cs with
        | nil => intro _ h; rfl
        | cons c cs ih =>
          intro hc h
          simp only [stays]
          split
          · exact ih (fun d hd => hc d (by simp [hd])) _
          · rw [if_neg (hc c (by simp))]; exact ih (fun d hd => hc d (by simp [hd])) _
      rw [hst _ (fun c hc => (hall c hc).2) 0]
      simp only [Bool.false_eq_true, if_false, iff_true]
      obtain ⟨q, qs, hq⟩ : ∃ q qs, components p = q :: qs := by
        cases h : components p with
        | nil => exact absurd h (components_ne p)
        | cons q qs => exact ⟨q, qs, rfl⟩
      rw [← hj, hq, Bool.not_eq_true', ← Bool.not_eq_true, up_iff (hns q (by rw [hq]; simp))]
      exact (hall q (by rw [hq]; simp)).2

/-! ### Schemes -/

theorem isLetter_spec {c : UInt8} (h : isLetter c = true) : Letter c := by
  unfold isLetter at h
  simpa only [Letter, Bool.or_eq_true, Bool.and_eq_true, decide_eq_true_eq] using h

theorem isSchemeChar_spec {c : UInt8} (h : isSchemeChar c = true) : (48 ≤ c ∧ c ≤ 57) ∨ c = 43 ∨ c = 45 ∨ c = 46 := by
  unfold isSchemeChar at h
  simp only [Bool.or_eq_true, Bool.and_eq_true, decide_eq_true_eq, beq_iff_eq] at h
  rcases h with ((h | h) | h) | h
  · exact .inl h
  · exact .inr (.inl h)
  · exact .inr (.inr (.inl h))
  · exact .inr (.inr (.inr h))

theorem schemeRest_spec : ∀ (s : Bytes) {a b : Bytes}, schemeRest s = some (a, b) →
    s = a ++ 58 :: b ∧ ∀ d ∈ a, Letter d ∨ (48 ≤ d ∧ d ≤ 57) ∨ d = 43 ∨ d = 45 ∨ d = 46
  | [], _, _, h => by cases h
  | c :: s, a, b, h => by
    simp only [schemeRest] at h
    split at h
    · rename_i hc
      cases hr : schemeRest s with
      | none => rw [hr] at h; cases h
      | some p =>
        rw [hr] at h
        obtain ⟨a', b'⟩ := p
        injection h with h
        injection h with h1 h2
        obtain ⟨h3, h4⟩ := schemeRest_spec s hr
        subst h1 h2
        refine ⟨by rw [h3]; rfl, List.forall_mem_cons.2 ⟨?_, h4⟩⟩
        rcases Bool.or_eq_true_iff.1 hc with hc | hc
        · exact .inl (isLetter_spec hc)
        · exact .inr (isSchemeChar_spec hc)
    · split at h
      · rename_i hc
        injection h with h
        injection h with h1 h2
        subst h1 h2 hc
        exact ⟨rfl, by simp⟩
      · cases h

theorem before_append (c : UInt8) (s : Bytes) : ∃ t, s = before c s ++ t :=
  ⟨s.dropWhile (· != c), (List.takeWhile_append_dropWhile).symm⟩

theorem getScheme_spec {s : Bytes} {c : UInt8} {a b : Bytes} (h : getScheme s = some (c :: a, b)) : HasScheme s := by
  unfold getScheme at h
  split at h
  · injection h with h; injection h with h1 h2; cases h1
  · rename_i d t
    split at h
    · rename_i hd
      split at h
      · rename_i a' b' hr
        injection h with h
        injection h with h1 h2
        injection h1 with h1 h3
        subst h1 h2 h3
        obtain ⟨e, hl⟩ := schemeRest_spec t hr
        exact ⟨d, a', b', by rw [e]; rfl, isLetter_spec hd, hl⟩
      · injection h with h; injection h with h1 h2; cases h1
    · split at h
      · cases h
      · injection h with h; injection h with h1 h2; cases h1

theorem parseUrl_spec {U : UrlLib} {s : Bytes} {c : UInt8} {a : Bytes} (h : parseUrl U s = some (c :: a)) : HasScheme s := by
  unfold parseUrl at h
  split at h
  · cases h
  · split at h
    · cases h
    · split at h
      · cases h
      · rename_i scheme rest hs
        have : scheme = c :: a := by
          revert h
          dsimp only
          split
          · intro h; injection h
          · split
            · intro h; cases h
            · split
              · intro h; cases h
              · generalize (unescape _).isNone = z
                cases z
                · intro h; injection h
                · intro h; cases h
        subst this
        exact getScheme_spec hs

theorem hasScheme_append {s : Bytes} (h : HasScheme s) (t : Bytes) : HasScheme (s ++ t) := by
  obtain ⟨c, a, r, e, h1, h2⟩ := h
  exact ⟨c, a, r ++ t, by rw [e]; simp, h1, h2⟩

theorem urlParse_spec {U : UrlLib} {s : Bytes} {c : UInt8} {a : Bytes} (h : urlParse U s = some (c :: a)) : HasScheme s := by
  unfold urlParse at h
  split at h
  · cases h
  · rename_i scheme hs
    split at h
    · cases h
    · injection h with h
      subst h
      obtain ⟨t, ht⟩ := before_append 35 s
      rw [ht]
      exact hasScheme_append (parseUrl_spec hs) t

/-- What passes `validateBufferURI` has a scheme or is local. -/
theorem validate_spec {U : UrlLib} {s : Bytes} (h : validateBufferURI U s = true) : HasScheme s ∨ Local s := by
  unfold validateBufferURI at h
  split at h
  · rename_i hs; exact .inl (urlParse_spec hs)
  · exact .inr ((isLocal_iff s).1 h)

theorem hasScheme_colon {s : Bytes} (h : HasScheme s) : (58 : UInt8) ∈ s := by
  obtain ⟨c, a, r, e, _⟩ := h
  rw [e]; simp

/-! ### Sanitizing -/

theorem unescape_id {s : Bytes} (h : (37 : UInt8) ∉ s) : unescape s = some s := by
  induction s with
  | nil => rfl
  | cons c s ih =>
    have hc : c ≠ 37 := fun e => h (by simp [e])
    have := ih fun hm => h (by simp [hm])
    unfold unescape
    split
    · rename_i e; cases e
    · rename_i e; injection e with e _; exact absurd e hc
    · rename_i e; injection e with e _; exact absurd e hc
    · rename_i e; injection e with e _; exact absurd e hc
    · rename_i e; injection e with e1 e2; subst e1 e2; rw [this]; rfl

theorem fixSlashes_id {s : Bytes} (h : (92 : UInt8) ∉ s) : fixSlashes s = s := by
  unfold fixSlashes
  conv => rhs; rw [← List.map_id s]
  refine List.map_congr_left fun c hc => ?_
  have : c ≠ 92 := fun e => h (e ▸ hc)
  rw [if_neg this]; rfl

theorem dropDots_mem : ∀ (s : Bytes) (x : UInt8), x ∈ dropDots s → x ∈ s := by
  intro s
  fun_induction dropDots s with
  | case1 => intro x h; exact h
  | case2 s ih =>
    intro x h
    rcases List.mem_cons.1 h with h | h
    · simp [h]
    · simp [ih x h]
  | case3 c s _ ih =>
    intro x h
    rcases List.mem_cons.1 h with h | h
    · simp [h]
    · simp [ih x h]

theorem dropDots_head : ∀ (s : Bytes), (dropDots s).head? = s.head? := by
  intro s
  fun_induction dropDots s <;> rfl

theorem stays_cons_congr {p : Bytes} {cs ds : List Bytes} (h : ∀ n, stays n cs = stays n ds) (n : Nat) :
    stays n (p :: cs) = stays n (p :: ds) := by
  simp only [stays]
  split
  · exact h n
  · split
    · cases n with
      | zero => rfl
      | succ n => exact h n
    · exact h (n + 1)

theorem dropDots_stays (s : Bytes) : ∀ (pre : Bytes), (47 : UInt8) ∉ pre → ∀ n,
    stays n (components (pre ++ dropDots s)) = stays n (components (pre ++ s)) := by
  fun_induction dropDots s with
  | case1 => intro pre _ n; rfl
  | case2 s ih =>
    intro pre hp n
    rw [components_append hp, components_append hp]
    refine stays_cons_congr (fun n => ?_) n
    have e : components (46 :: 47 :: s) = b!"." :: components s := components_append (p := b!".") (by decide) s
    rw [e]
    have : stays n (b!"." :: components s) = stays n (components s) := by simp [stays]
    rw [this]
    exact ih [] (by simp) n
  | case3 c s _ ih =>
    intro pre hp n
    by_cases hc : c = 47
    · subst hc
      rw [components_append hp, components_append hp]
      exact stays_cons_congr (fun n => ih [] (by simp) n) n
    · have e : ∀ t : Bytes, pre ++ c :: t = (pre ++ [c]) ++ t := fun t => by simp
      rw [e (dropDots s), e s]
      exact ih (pre ++ [c]) (by simp only [List.mem_append, List.mem_singleton, not_or]; exact ⟨hp, fun e => hc e.symm⟩) n

theorem local_dropDots {s : Bytes} (h : Local s) : Local (dropDots s) := by
  obtain ⟨h1, h2, cs, h3, h4⟩ := h
  refine ⟨?_, ?_, _, components_path _, ?_⟩
  · intro e
    have := dropDots_head s
    rw [e] at this
    exact h1 (List.head?_eq_none_iff.1 this.symm)
  · rw [dropDots_head]; exact h2
  · rw [neverAbove_iff]
    have := dropDots_stays s [] (by simp) 0
    simp only [List.nil_append] at this
    rw [this, path_unique h3, ← neverAbove_iff]
    exact h4

theorem dropDots_prefix : ∀ (pre : Bytes), (47 : UInt8) ∉ pre → ∀ s t, dropDots s = pre ++ t → ∃ t', s = pre ++ t'
  | [], _, s, _, _ => ⟨s, rfl⟩
  | c :: pre, h, [], t, e => by cases e
  | c :: pre, h, d :: s, t, e => by
    have hd := dropDots_head (d :: s)
    rw [e] at hd
    injection hd with hd
    subst hd
    have hc : c ≠ 47 := fun e => h (by simp [e])
    have e2 : dropDots (c :: s) = c :: dropDots s := by
      rw [dropDots]
      intro s' e3
      exact absurd e3 hc
    rw [e2] at e
    injection e with _ e
    obtain ⟨t', ht⟩ := dropDots_prefix pre (fun hm => h (by simp [hm])) s t e
    exact ⟨t', by rw [ht]; rfl⟩

theorem hasScheme_dropDots {s : Bytes} (h : HasScheme (dropDots s)) : HasScheme s := by
  obtain ⟨c, a, r, e, h1, h2⟩ := h
  have e1 : dropDots s = (c :: a ++ [58]) ++ r := by rw [e]; simp
  have key : ∀ d : UInt8, (Letter d ∨ (48 ≤ d ∧ d ≤ 57) ∨ d = 43 ∨ d = 45 ∨ d = 46) → d ≠ 47 := by
    intro d hd e
    subst e
    revert hd
    unfold Letter
    decide
  obtain ⟨t, ht⟩ := dropDots_prefix (c :: a ++ [58]) (by
    intro hm
    simp only [List.cons_append, List.mem_cons, List.mem_append, List.not_mem_nil, or_false] at hm
    rcases hm with hm | hm | hm
    · exact key c (.inl h1) hm.symm
    · exact key _ (h2 _ hm) rfl
    · revert hm; decide) s r e1
  exact ⟨c, a, t, by rw [ht]; simp, h1, h2⟩

theorem dropDots_trim {s : Bytes} (h : ¬ b!"./" <+: s) : trimDot (dropDots s) = dropDots s := by
  unfold trimDot
  split
  · rename_i t e
    exfalso
    have h1 := dropDots_head s
    rw [e] at h1
    cases s with
    | nil => cases h1
    | cons c s =>
      injection h1 with h1
      subst h1
      have e2 : dropDots (46 :: s) = 46 :: dropDots s := by
        simp [Gltf.dropDots]
      rw [e2] at e
      injection e with _ e
      have h2 := dropDots_head s
      rw [e] at h2
      cases s with
      | nil => cases h2
      | cons d s =>
        injection h2 with h2
        subst h2
        exact h ⟨s, rfl⟩
  · rfl

/-- Without percent signs, backslashes and a leading `./`, a local path stays local. -/
theorem sanitize_local {U : UrlLib} {s name : Bytes} (h1 : (37 : UInt8) ∉ s) (h2 : (92 : UInt8) ∉ s) (h3 : ¬ b!"./" <+: s)
    (hl : Local s) (h : sanitizeURI U s = some name) : Local name ∨ HasScheme s := by
  unfold sanitizeURI at h
  rw [fixSlashes_id h2, dropDots_trim h3] at h
  simp only at h
  split at h
  · cases h
  · rw [unescape_id fun hm => h1 (dropDots_mem _ _ hm)] at h
    injection h with h
    subst h
    exact .inl (local_dropDots hl)
  · rename_i c a hp
    exact .inr (hasScheme_dropDots (urlParse_spec hp))

/-! ### Plain paths -/

theorem dropDots_id (s : Bytes) : ∀ pre : Bytes, (47 : UInt8) ∉ pre → (∀ c ∈ components (pre ++ s), c ≠ b!".") → dropDots s = s := by
  fun_induction dropDots s with
  | case1 => intro _ _ _; rfl
  | case2 s ih =>
    intro pre hp h
    have e : components (46 :: 47 :: s) = b!"." :: components s := components_append (p := b!".") (by decide) s
    rw [components_append hp, e] at h
    exact absurd rfl (h b!"." (by simp))
  | case3 c s _ ih =>
    intro pre hp h
    by_cases hc : c = 47
    · subst hc
      rw [components_append hp] at h
      rw [ih [] (by simp) fun c hc => h c (List.mem_cons_of_mem _ hc)]
    · have e : pre ++ c :: s = (pre ++ [c]) ++ s := by simp
      rw [e] at h
      rw [ih (pre ++ [c]) (by simp only [List.mem_append, List.mem_singleton, not_or]; exact ⟨hp, fun e => hc e.symm⟩) h]

theorem before_id {c : UInt8} {s : Bytes} (h : c ∉ s) : before c s = s := by
  unfold before
  induction s with
  | nil => rfl
  | cons x s ih =>
    have hx : (x != c) = true := by simp only [bne_iff_ne, ne_eq]; exact fun e => h (by simp [e])
    rw [List.takeWhile_cons_of_pos (p := (· != c)) hx, ih fun hm => h (by simp [hm])]

theorem after_nil {c : UInt8} {s : Bytes} (h : c ∉ s) : after c s = [] := by
  unfold after
  have : s.dropWhile (· != c) = [] := by
    induction s with
    | nil => rfl
    | cons x s ih =>
      have hx : (x != c) = true := by simp only [bne_iff_ne, ne_eq]; exact fun e => h (by simp [e])
      rw [List.dropWhile_cons_of_pos (p := (· != c)) hx, ih fun hm => h (by simp [hm])]
  rw [this]; rfl

theorem mem_intercalate {x : UInt8} : ∀ {cs : List Bytes}, x ∈ [47].intercalate cs → x = 47 ∨ ∃ c ∈ cs, x ∈ c
  | [], h => by simp [List.intercalate] at h
  | [c], h => by rw [intercalate_one] at h; exact .inr ⟨c, by simp, h⟩
  | c :: d :: cs, h => by
    have hne : d :: cs ≠ [] := by simp
    rw [intercalate_cons hne, List.mem_append, List.mem_append] at h
    rcases h with (h | h) | h
    · exact .inr ⟨c, by simp, h⟩
    · exact .inl (by simpa using h)
    · rcases mem_intercalate h with h | ⟨e, he, hx⟩
      · exact .inl h
      · exact .inr ⟨e, List.mem_cons_of_mem _ he, hx⟩

/-- What is used of relative paths. -/
structure PathFacts (p : Bytes) : Prop where
  char : ∀ x ∈ p, x = 47 ∨ x = 37 ∨ PlainChar x
  name : ∀ c ∈ components p, IsName c
  loc : Local p

theorem PathFacts.not_mem {p : Bytes} (h : PathFacts p) {x : UInt8} (h1 : x ≠ 47 ∧ x ≠ 37) (h2 : ¬ PlainChar x) : x ∉ p := by
  intro hm
  rcases h.char x hm with e | e | e
  · exact h1.1 e
  · exact h1.2 e
  · exact h2 e

instance (c : UInt8) : Decidable (PlainChar c) := by unfold PlainChar; infer_instance

theorem uriPath_facts {p name : Bytes} (h : UriPath p name) : PathFacts p := by
  replace h := h.1
  obtain ⟨cs, hp, hc⟩ := h
  have hu := path_unique hp
  refine ⟨?_, fun c hm => (hc c (hu ▸ hm)).1, ?_⟩
  · intro x hx
    rw [hp.2.2] at hx
    rcases mem_intercalate hx with e | ⟨c, hm, hx⟩
    · exact .inl e
    · exact .inr ((hc c hm).2 x hx)
  · obtain ⟨c, ds, rfl⟩ : ∃ c ds, cs = c :: ds := by
      cases cs with
      | nil => exact absurd rfl hp.1
      | cons c ds => exact ⟨c, ds, rfl⟩
    obtain ⟨x, t, rfl⟩ : ∃ x t, c = x :: t := by
      cases c with
      | nil => exact absurd rfl (hc [] (by simp)).1.1
      | cons x t => exact ⟨x, t, rfl⟩
    have hx : x ≠ 47 := fun e => hp.2.1 (x :: t) (by simp) (by simp [e])
    refine ⟨?_, ?_, _, hp, ?_⟩
    · rw [hp.2.2, intercalate_head]; simp
    · rw [hp.2.2, intercalate_head]
      simpa using hx
    · intro k
      have : (((x :: t) :: ds).take k).countP (fun c => c = b!"..") = 0 := by
        rw [List.countP_eq_zero]
        intro d hd
        simpa using (hc d (List.mem_of_mem_take hd)).1.2.2
      rw [this]
      exact Nat.zero_le _

theorem getScheme_id {s : Bytes} (h : (58 : UInt8) ∉ s) : getScheme s = some ([], s) := by
  cases hg : getScheme s with
  | none =>
    exfalso
    unfold getScheme at hg
    split at hg
    · cases hg
    · split at hg
      · split at hg <;> cases hg
      · split at hg
        · rename_i e; subst e; exact h (by simp)
        · cases hg
  | some q =>
    obtain ⟨a, b⟩ := q
    cases a with
    | cons c a => exact absurd (hasScheme_colon (getScheme_spec hg)) h
    | nil =>
      unfold getScheme at hg
      split at hg
      · injection hg with hg; rw [← hg]
      · split at hg
        · split at hg
          · injection hg with hg; injection hg with h1 h2; cases h1
          · rw [← hg]
        · split at hg
          · cases hg
          · rw [← hg]

theorem hexValue_digit {c : UInt8} {n : Nat} (h : HexDigit c n) : hexValue c = some n := by
  unfold hexValue
  simp only [HexDigit, UInt8.le_iff_toNat_le, show (48 : UInt8).toNat = 48 from rfl, show (57 : UInt8).toNat = 57 from rfl,
    show (65 : UInt8).toNat = 65 from rfl, show (70 : UInt8).toNat = 70 from rfl, show (97 : UInt8).toNat = 97 from rfl,
    show (102 : UInt8).toNat = 102 from rfl] at h ⊢
  rcases h with h | h | h
  · rw [if_pos (by omega)]; congr 1; omega
  · rw [if_neg (by omega), if_neg (by omega), if_pos (by omega)]; congr 1; omega
  · rw [if_neg (by omega), if_pos (by omega)]; congr 1; omega

theorem unescape_cons {c : UInt8} (hc : c ≠ 37) (s : Bytes) : unescape (c :: s) = (unescape s).map (c :: ·) := by
  rw [unescape.eq_def]
  split
  · rename_i e; cases e
  · rename_i e; injection e with e _; exact absurd e hc
  · rename_i e; injection e with e _; exact absurd e hc
  · rename_i e; injection e with e _; exact absurd e hc
  · rename_i e; injection e with e1 e2; subst e1 e2; rfl

theorem unescape_escaped {s t : Bytes} (h : Escaped s t) : unescape s = some t := by
  induction h with
  | nil => rfl
  | char hc _ ih => rw [unescape_cons hc, ih]; rfl
  | hex ha hb hd _ ih =>
    simp only [unescape, hexValue_digit ha, hexValue_digit hb, ih]
    rename_i d x y _ _ _
    have : UInt8.ofNat (x * 16 + y) = d := by
      rw [Nat.mul_comm, ← hd]
      exact UInt8.ofNat_toNat
    rw [this]

/-- The text that is stood for is determined. -/
theorem escaped_unique {s t t' : Bytes} (h : Escaped s t) (h' : Escaped s t') : t = t' :=
  Option.some.inj ((unescape_escaped h).symm.trans (unescape_escaped h'))

theorem escaped_self : ∀ {s : Bytes}, (37 : UInt8) ∉ s → Escaped s s
  | [], _ => .nil
  | c :: s, h => .char (fun e => h (by simp [e])) (escaped_self fun hm => h (by simp [hm]))

theorem urlParse_chars (U : UrlLib) {p name : Bytes} (hc : ∀ x ∈ p, x = 47 ∨ x = 37 ∨ PlainChar x) (h47 : p.head? ≠ some 47)
    (he : Escaped p name) : urlParse U p = some [] := by
  have nm : ∀ x : UInt8, x ≠ 47 ∧ x ≠ 37 → ¬ PlainChar x → x ∉ p := fun x h1 h2 hm => by
    rcases hc x hm with e | e | e
    · exact h1.1 e
    · exact h1.2 e
    · exact h2 e
  have h35 := nm 35 (by decide) (by decide)
  have h63 := nm 63 (by decide) (by decide)
  have h58 := nm 58 (by decide) (by decide)
  unfold urlParse
  rw [before_id h35, after_nil h35]
  have : parseUrl U p = some [] := by
    unfold parseUrl
    rw [if_neg]
    · split
      · rfl
      · rw [getScheme_id h58]
        dsimp only
        rw [before_id h63, if_neg (by simp), if_neg, if_neg, if_neg]
        · rw [if_neg, unescape_escaped he]
          · simp
          · rintro ⟨_, e⟩
            apply h47
            cases p with
            | nil => cases e
            | cons c p =>
              cases p with
              | nil => cases e
              | cons d p => injection e with e; rw [e]; rfl
        · rintro ⟨⟨_, e⟩, _⟩
          apply h47
          cases p with
          | nil => cases e
          | cons c p =>
            cases p with
            | nil => cases e
            | cons d p => injection e with e; rw [e]; rfl
        · rintro ⟨_, e⟩
          rw [List.contains_iff_mem] at e
          exact h58 (List.takeWhile_subset _ e)
    · intro e
      rw [List.any_eq_true] at e
      obtain ⟨x, hx, e⟩ := e
      rcases hc x hx with h | h | h
      · subst h; revert e; decide
      · subst h; revert e; decide
      · unfold isCtl at e
        rw [Bool.or_eq_true, decide_eq_true_eq, beq_iff_eq] at e
        rcases e with e | e
        · exact absurd h.1 (by rw [UInt8.not_le]; exact e)
        · exact h.2.1 e
  rw [this]
  rfl

theorem urlParse_path (U : UrlLib) {p name : Bytes} (h : PathFacts p) (he : Escaped p name) : urlParse U p = some [] :=
  urlParse_chars U h.char h.loc.2.1 he

/-- Sanitizing a path gives what it stands for. -/
theorem sanitize_path (U : UrlLib) {p name : Bytes} (hu : UriPath p name) : sanitizeURI U p = some name := by
  have h := uriPath_facts hu
  have h92 := h.not_mem (x := 92) (by decide) (by decide)
  have hd : dropDots p = p := dropDots_id p [] (by simp) fun c hc => (h.name c hc).2.1
  have ht : trimDot p = p := by
    have := dropDots_trim (s := p) (by
      rintro ⟨t, e⟩
      have e2 : components p = b!"." :: components t := by rw [← e]; exact components_append (p := b!".") (by decide) t
      exact (h.name b!"." (by rw [e2]; simp)).2.1 rfl)
    rwa [hd] at this
  unfold sanitizeURI
  rw [fixSlashes_id h92, hd, ht]
  simp only [urlParse_path U h hu.2, unescape_escaped hu.2]

theorem validate_path (U : UrlLib) {p name : Bytes} (h : UriPath p name) : validateBufferURI U p = true := by
  unfold validateBufferURI
  rw [urlParse_path U (uriPath_facts h) h.2]
  exact (isLocal_iff p).2 (uriPath_facts h).loc

/-- Local names are valid, whatever else they contain. -/
theorem validate_local (U : UrlLib) {p : Bytes} (h : Local p) : validateBufferURI U p = true := by
  unfold validateBufferURI
  split
  · rfl
  · exact (isLocal_iff p).2 h

theorem path_ne {p name : Bytes} (h : UriPath p name) : p ≠ [] := (uriPath_facts h).loc.1

theorem escaped_ne {s t : Bytes} (h : Escaped s t) (hs : s ≠ []) : t ≠ [] := by
  cases h with
  | nil => exact hs
  | char _ _ => simp
  | hex _ _ _ _ => simp

theorem path_colon {p name : Bytes} (h : UriPath p name) : (58 : UInt8) ∉ p :=
  (uriPath_facts h).not_mem (by decide) (by decide)

theorem plain_path {p : Bytes} (h : PlainPath p) : UriPath p p := by
  obtain ⟨cs, hp, hc⟩ := h
  refine ⟨⟨cs, hp, fun c hm => ⟨(hc c hm).1, fun x hx => .inr ((hc c hm).2 x hx)⟩⟩, escaped_self fun hm => ?_⟩
  rw [hp.2.2] at hm
  rcases mem_intercalate hm with e | ⟨c, hc', hx⟩
  · revert e; decide
  · exact ((hc c hc').2 37 hx).2.2.2.2.1 rfl

/-- A plain path stands for itself. -/
theorem plain_name {p name : Bytes} (h : PlainPath p) (hu : UriPath p name) : name = p := escaped_unique hu.2 (plain_path h).2

theorem plain_local {p : Bytes} (h : PlainPath p) : Local p := (uriPath_facts (plain_path h)).loc

/-- Sanitizing leaves plain paths as they are. -/
theorem sanitize_plain (U : UrlLib) {p : Bytes} (h : PlainPath p) : sanitizeURI U p = some p := sanitize_path U (plain_path h)

theorem validate_plain (U : UrlLib) {p : Bytes} (h : PlainPath p) : validateBufferURI U p = true := validate_path U (plain_path h)

theorem plain_ne {p : Bytes} (h : PlainPath p) : p ≠ [] := path_ne (plain_path h)

theorem plain_colon {p : Bytes} (h : PlainPath p) : (58 : UInt8) ∉ p := path_colon (plain_path h)

end Gltf
