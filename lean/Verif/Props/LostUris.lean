/-
Property C67: buffers whose URIs are not valid are not written.
-/
import Verif.Props.SchemeCreated
import Verif.Props.Skipped

namespace Gltf

open Spec

/-- The first segment of a URI has a colon, but what is before the first one is not a scheme. -/
def Spec.BadColon (u : Bytes) : Prop :=
  ∃ a r, u = a ++ 58 :: r ∧ (∀ x ∈ a, x ≠ 47 ∧ x ≠ 58 ∧ x ≠ 63 ∧ x ≠ 35 ∧ x ≠ 92) ∧ ¬ HasScheme (a ++ [58])

/-- A URI with a control character before the fragment. -/
def Spec.HasControl (u : Bytes) : Prop := ∃ a x r, u = a ++ x :: r ∧ (35 : UInt8) ∉ a ∧ x ≠ 35 ∧ (x < 32 ∨ x = 127)

theorem dropDots_keeps : ∀ (a : Bytes) (c : UInt8) (r : Bytes), (47 : UInt8) ∉ a → c ≠ 47 → ∃ r', dropDots (a ++ c :: r) = a ++ c :: r'
  | [], c, r, _, hc => by
    refine ⟨dropDots r, ?_⟩
    show dropDots (c :: r) = _
    rw [dropDots.eq_def]
    split
    · rename_i e; cases e
    · rename_i e; injection e with e _; exact absurd e hc
    · rename_i e; injection e with e1 e2; subst e1 e2; rfl
  | x :: a, c, r, h, hc => by
    obtain ⟨r', e'⟩ := dropDots_keeps a c r (fun hm => h (by simp [hm])) hc
    have hx : x ≠ 47 := fun e => h (by simp [e])
    refine ⟨r', ?_⟩
    show dropDots (x :: (a ++ c :: r)) = _
    rw [dropDots.eq_def]
    split
    · rename_i e; cases e
    · rename_i e; injection e with e _; exact absurd e hx
    · rename_i e; injection e with e1 e2; subst e1 e2; rw [e']; rfl

theorem before_keeps {d : UInt8} {a : Bytes} {c : UInt8} (h : d ∉ a) (hc : c ≠ d) (r : Bytes) : before d (a ++ c :: r) = a ++ c :: before d r := by
  induction a with
  | nil => simp [before, hc]
  | cons x a ih =>
    have hx : x ≠ d := fun e => h (by simp [e])
    have := ih fun hm => h (by simp [hm])
    unfold before at this ⊢
    simp [hx, this]

theorem first_unique {d : UInt8} : ∀ {a a' r r' : Bytes}, d ∉ a → d ∉ a' → a ++ d :: r = a' ++ d :: r' → a = a'
  | [], [], _, _, _, _, _ => rfl
  | [], x :: _, _, _, _, h, e => by injection e with e _; exact absurd (by simp [e]) h
  | x :: _, [], _, _, h, _, e => by injection e with e _; exact absurd (by simp [e]) h
  | x :: a, y :: a', _, _, h, h', e => by
    injection e with e1 e2
    rw [e1, first_unique (fun hm => h (by simp [hm])) (fun hm => h' (by simp [hm])) e2]

theorem getScheme_bad {a r : Bytes} (h : (58 : UInt8) ∉ a) (hn : ¬ HasScheme (a ++ [58])) :
    getScheme (a ++ 58 :: r) = none ∨ getScheme (a ++ 58 :: r) = some ([], a ++ 58 :: r) := by
  cases a with
  | nil => exact .inl rfl
  | cons c t =>
    show getScheme (c :: (t ++ 58 :: r)) = none ∨ getScheme (c :: (t ++ 58 :: r)) = some ([], c :: (t ++ 58 :: r))
    have hc58 : c ≠ 58 := fun e => h (by simp [e])
    unfold getScheme
    simp only
    by_cases hc : isLetter c = true
    · rw [if_pos hc]
      cases hr : schemeRest (t ++ 58 :: r) with
      | none => exact .inr rfl
      | some p =>
        exfalso
        obtain ⟨a', b'⟩ := p
        obtain ⟨e, hl⟩ := schemeRest_spec _ hr
        have : t = a' := first_unique (fun hm => h (by simp [hm])) (fun hm => by
          have := hl _ hm
          revert this
          simp [Letter]) e
        subst this
        exact hn ⟨c, t, [], rfl, isLetter_spec hc, hl⟩
    · rw [if_neg hc, if_neg hc58]
      exact .inr rfl

theorem trimDot_keeps {a : Bytes} {c : UInt8} {r : Bytes} (h : (47 : UInt8) ∉ a) (hc : c ≠ 47) (hc' : c ≠ 46) : trimDot (a ++ c :: r) = a ++ c :: r := by
  unfold trimDot
  split
  · rename_i e
    exfalso
    match a, h, e with
    | [], _, e => injection e with e _; exact hc' e
    | [x], _, e => injection e with _ e; injection e with e _; exact hc e
    | x :: y :: a, h, e => injection e with _ e; injection e with e _; exact h (by simp [e])
  · rfl

theorem sanitize_badColon (U : UrlLib) {u : Bytes} (h : BadColon u) : sanitizeURI U u = none := by
  obtain ⟨a, r, rfl, ha, hn⟩ := h
  have h47 : (47 : UInt8) ∉ a := fun hm => (ha _ hm).1 rfl
  have h58 : (58 : UInt8) ∉ a := fun hm => (ha _ hm).2.1 rfl
  have h63 : (63 : UInt8) ∉ a := fun hm => (ha _ hm).2.2.1 rfl
  have h35 : (35 : UInt8) ∉ a := fun hm => (ha _ hm).2.2.2.1 rfl
  have hf : fixSlashes (a ++ 58 :: r) = a ++ 58 :: fixSlashes r := by
    have := fixSlashes_id (s := a) fun hm => (ha _ hm).2.2.2.2 rfl
    unfold fixSlashes at this ⊢
    rw [List.map_append, this]
    rfl
  obtain ⟨r', hd⟩ := dropDots_keeps a 58 (fixSlashes r) h47 (by decide)
  have hp : ∀ q, parseUrl U (a ++ 58 :: q) = none := by
    intro q
    unfold parseUrl
    split
    · rfl
    · rw [if_neg (by
        intro e
        have : (58 : UInt8) ∈ b!"*" := by rw [← e]; simp
        revert this
        decide)]
      rcases getScheme_bad (r := q) h58 hn with e | e
      · rw [e]
      · rw [e]
        simp only
        rw [before_keeps h63 (by decide) q]
        have hh : (a ++ 58 :: before 63 q).head? ≠ some 47 := by
          cases a with
          | nil => simp
          | cons x a =>
            intro e
            injection e with e
            exact h47 (by simp [e])
        rw [if_neg (by simp), if_pos ⟨hh, by rw [before_keeps h47 (by decide)]; simp⟩]
  unfold sanitizeURI urlParse
  simp only [hf, hd]
  rw [trimDot_keeps h47 (by decide) (by decide), before_keeps h35 (by decide), hp]

theorem before_cons {d x : UInt8} (s : Bytes) : before d (x :: s) = if x = d then [] else x :: before d s := by
  unfold before
  by_cases h : x = d <;> simp [h]

theorem ctl_fixSlashes : ∀ s : Bytes, (before 35 (fixSlashes s)).any isCtl = (before 35 s).any isCtl
  | [] => rfl
  | x :: s => by
    have ih := ctl_fixSlashes s
    show (before 35 ((if x = 92 then 47 else x) :: fixSlashes s)).any isCtl = _
    rw [before_cons, before_cons]
    by_cases h : x = 92
    · subst h
      simp only [if_true]
      rw [if_neg (by decide), if_neg (by decide), List.any_cons, List.any_cons, ih]
      rfl
    · rw [if_neg h]
      split
      · rfl
      · rw [List.any_cons, List.any_cons, ih]

theorem ctl_dropDots : ∀ s : Bytes, (before 35 (dropDots s)).any isCtl = (before 35 s).any isCtl := by
  intro s
  fun_induction dropDots s with
  | case1 => rfl
  | case2 s ih =>
    simp only [before_cons]
    simp only [show (47 : UInt8) ≠ 35 by decide, show (46 : UInt8) ≠ 35 by decide, if_false, List.any_cons, ih]
    simp [show isCtl 47 = false by decide, show isCtl 46 = false by decide]
  | case3 c s _ ih =>
    rw [before_cons, before_cons]
    split
    · rfl
    · rw [List.any_cons, List.any_cons, ih]

theorem ctl_trimDot (s : Bytes) : (before 35 (trimDot s)).any isCtl = (before 35 s).any isCtl := by
  unfold trimDot
  split
  · simp only [before_cons]
    simp only [show (47 : UInt8) ≠ 35 by decide, show (46 : UInt8) ≠ 35 by decide, if_false, List.any_cons]
    simp [show isCtl 47 = false by decide, show isCtl 46 = false by decide]
  · rfl

theorem sanitize_control (U : UrlLib) {u : Bytes} (h : HasControl u) : sanitizeURI U u = none := by
  obtain ⟨a, x, r, rfl, ha, hx, hc⟩ := h
  have h1 : (before 35 (a ++ x :: r)).any isCtl = true := by
    rw [before_keeps ha hx, List.any_append, List.any_cons]
    have : isCtl x = true := by
      unfold isCtl
      rcases hc with h | h <;> simp [h]
    simp [this]
  rw [← ctl_fixSlashes, ← ctl_dropDots, ← ctl_trimDot] at h1
  unfold sanitizeURI urlParse parseUrl
  simp only [h1, if_true]

/-- C67 is false also for URIs that are no valid references for other reasons: those with a control character, or with a colon in the
first segment that does not end a scheme. `Encode` creates no files for them and returns what it returns without a file system. -/
theorem C67_invalid (E : Env) (U : UrlLib) (o : EncOpts) (doc : Document) (w : Sink) (fs : CreateFS)
    (h : ∀ b, some b ∈ doc.buffers → b.data = [] ∨ b.uri = [] ∨ OctetUri b.uri ∨ BadColon b.uri ∨ HasControl b.uri) :
    let e := encode E U o doc w (some fs)
    e.created = [] ∧ e.fsys = some fs ∧ e.result = (encode E U o doc w none).result ∧ e.sink = (encode E U o doc w none).sink :=
  encode_skipped E U o doc w fs fun b hb => by
    rcases h b hb with h | h | h | h | h
    · exact .inl h
    · exact .inr (.inl h)
    · exact .inr (.inr (.inl ((embedded_iff b).2 h)))
    · exact .inr (.inr (.inr (sanitize_badColon U h)))
    · exact .inr (.inr (.inr (sanitize_control U h)))

/-- The data of these buffers is lost without an error. -/
example : BadColon b!"10:30.bin" ∧ BadColon b!":a" ∧ HasControl b!"a	b.bin" ∧
    (encode witnessEnv witnessUrl {} (externalDoc b!"10:30.bin") {} (some emptyFS)).result = .ok () ∧
    (encode witnessEnv witnessUrl {} (externalDoc b!"a	b.bin") {} (some emptyFS)).result = .ok () := by
  refine ⟨⟨b!"10", b!"30.bin", rfl, by decide, ?_⟩, ⟨[], b!"a", rfl, by simp, ?_⟩, ⟨b!"a", 9, b!"b.bin", rfl, by decide, by decide, by decide⟩,
    by decide +kernel, by decide +kernel⟩
  · rintro ⟨c, t, r, e, hc, -⟩
    injection e with e _
    subst e
    revert hc
    simp [Letter]
  · rintro ⟨c, t, r, e, hc, -⟩
    injection e with e _
    subst e
    revert hc
    simp [Letter]

end Gltf
