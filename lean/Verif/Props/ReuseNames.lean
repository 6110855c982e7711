/-
Properties C82 and C108: the names of extensions when decoding into a document that has been used before, and when they are given twice.
-/
import Verif.Props.Duplicate

namespace Gltf

open Spec

/-- The same as `has_replaced`, where the field may depend on its value before for other members. -/
theorem has_replaced_of {α τ : Type} {fc : FC τ} {name : Bytes} {f : FE α} {get : τ → α} (h : fc.Has name f get) : ∀ vs t t' a a',
    (∀ m ∈ vs, foldKey m.1 = foldKey name → ∀ x y, f.dec m.2 x = f.dec m.2 y) →
    (∃ m ∈ vs, foldKey m.1 = foldKey name) → fc.decAll vs t = .ok a → fc.decAll vs t' = .ok a' → get a = get a'
  | [], _, _, _, _, _, ⟨_, hm, _⟩, _, _ => by cases hm
  | (k, v) :: vs, t, t', a, a', hf, hm, e, e' => by
    simp only [FC.decAll] at e e'
    cases hd : fc.dec k v t with
    | error _ => rw [hd] at e; cases e
    | ok x =>
      cases hd' : fc.dec k v t' with
      | error _ => rw [hd'] at e'; cases e'
      | ok x' =>
        rw [hd] at e
        rw [hd'] at e'
        by_cases hk : foldKey k = foldKey name
        · refine has_equal h vs x x' a a' ?_ e e'
          have h1 := (h _ _ _ _ hd).1 hk
          rw [hf (k, v) (by simp) hk _ (get t'), (h _ _ _ _ hd').1 hk] at h1
          injection h1 with h1
          exact h1.symm
        · obtain ⟨m, hm, e1⟩ := hm
          rcases List.mem_cons.1 hm with rfl | hm
          · exact absurd e1 hk
          · exact has_replaced_of h vs x x' a a' (fun m hm => hf m (List.mem_cons_of_mem _ hm)) ⟨m, hm, e1⟩ e e'

/-- An array of strings. -/
def Spec.Strings (v : JVal) : Prop := ∃ ts : List Bytes, v = .arr (ts.map .str)

theorem decList_strings : ∀ (ts : List Bytes) (l : List Bytes), decList JC.string (ts.map .str) l = .ok ts
  | [], _ => by simp only [List.map_nil, decList]
  | t :: ts, l => by
    cases l with
    | nil =>
      simp only [List.map_cons, decList, decList_strings ts []]
      rfl
    | cons x l =>
      simp only [List.map_cons, decList, decList_strings ts l]
      rfl

/-- C82 in part: the names of the extensions that are used and required do not depend on what was in the document before, if the JSON has
them as arrays of strings; they are those of the JSON. -/
theorem C82_names_partial (E : DecEnv) (s : Source) (ms : List (Bytes × JVal)) (hf : FileOf (.obj ms) s.data) (hn : DepthLe 10000 (.obj ms))
    (d0 d d' : Document) (h : (decode E (newDecoder s) d0).result = .ok d) (h' : (decodeSource E s).result = .ok d') :
    let Has (name : Bytes) : Prop := (∃ m ∈ ms, foldKey m.1 = foldKey name) ∧ ∀ m ∈ ms, foldKey m.1 = foldKey name → Strings m.2
    (Has b!"extensionsUsed" → d.extensionsUsed = d'.extensionsUsed) ∧
    (Has b!"extensionsRequired" → d.extensionsRequired = d'.extensionsRequired) := by
  have key : ∀ v, Strings v → ∀ x y, omitStrings.dec v x = omitStrings.dec v y := by
    rintro _ ⟨ts, rfl⟩ x y
    show decList JC.string _ x = decList JC.string _ y
    rw [decList_strings, decList_strings]
  obtain ⟨d1, e, e1⟩ := decode_used hf hn h
  obtain ⟨t, ht, rfl⟩ := struct_all e
  obtain ⟨d1', e', e1'⟩ := decode_used hf hn h'
  obtain ⟨t', ht', rfl⟩ := struct_all e'
  refine ⟨?_, ?_⟩
  · rintro ⟨hm, hs⟩
    rw [show d.extensionsUsed = _ from congrArg (·.extensionsUsed) e1, show d'.extensionsUsed = _ from congrArg (·.extensionsUsed) e1']
    exact has_replaced_of (has_tail (has_tail (has_tail (has_head _ _ _) (by decide)) (by decide)) (by decide)) ms _ _ t t'
      (fun m hm hk => key _ (hs m hm hk)) hm ht ht'
  · rintro ⟨hm, hs⟩
    rw [show d.extensionsRequired = _ from congrArg (·.extensionsRequired) e1, show d'.extensionsRequired = _ from congrArg (·.extensionsRequired) e1']
    exact has_replaced_of (has_tail (has_tail (has_tail (has_tail (has_head _ _ _) (by decide)) (by decide)) (by decide)) (by decide)) ms _ _ t t'
      (fun m hm hk => key _ (hs m hm hk)) hm ht ht'

/-- A name that is null is taken from the document that was there before. -/
theorem C82_null_kept :
    let d0 : Document := { extensionsUsed := [b!"KHR_x"] }
    let s : Source := { data := b!"{\"extensionsUsed\":[null]}" }
    usedNames (decode witnessDec (newDecoder s) d0).result = some ([], [b!"KHR_x"]) ∧ usedNames (decodeSource witnessDec s).result = some ([], [[]]) := by
  decide +kernel

/-- A file with one name, and a document that has two others. -/
example : let d0 : Document := { extensionsUsed := [b!"KHR_x", b!"KHR_y"] }
    let ms : List (Bytes × JVal) := [(b!"extensionsUsed", .arr [.str b!"KHR_z"])]
    let s : Source := { data := b!"{\"extensionsUsed\":[\"KHR_z\"]}" }
    FileOf (.obj ms) s.data ∧ DepthLe 10000 (.obj ms) ∧ usedNames (decode witnessDec (newDecoder s) d0).result = some ([], [b!"KHR_z"]) ∧
    (decodeSource witnessDec s).result.isErr = false ∧
    (∃ m ∈ ms, foldKey m.1 = foldKey b!"extensionsUsed") ∧ ∀ m ∈ ms, foldKey m.1 = foldKey b!"extensionsUsed" → Strings m.2 := by
  intro d0 ms s
  have hp : jsonOf s = .ok (.obj ms) := rfl
  have ht := print_text (L := compact) ⟨fun _ => by simp [compact, IsBlank], by simp [compact, IsBlank]⟩ _ (jsonOf_valid hp).ok 0
  refine ⟨.inl ⟨[], _, [], by simp [IsBlank], ht, by decide +kernel⟩, (jsonOf_valid hp).depth, by decide +kernel, by decide +kernel,
    by decide +kernel, fun m hm _ => ?_⟩
  rw [List.mem_singleton.1 hm]
  exact ⟨[b!"KHR_z"], rfl⟩

/-! ### C108 -/

theorem sets_later_of {α τ : Type} {fc : FC τ} {name : Bytes} {f : FE α} {get : τ → α} {set : τ → α → τ} (h : fc.Sets name f get set) :
    ∀ vs t a, (∀ m ∈ vs, foldKey m.1 = foldKey name → ∀ x y, f.dec m.2 x = f.dec m.2 y) → (∃ m ∈ vs, foldKey m.1 = foldKey name) →
      fc.decAll vs (set t a) = fc.decAll vs t
  | [], _, _, _, ⟨_, hm, _⟩ => by cases hm
  | (k, v) :: vs, t, a, hf, hm => by
    simp only [FC.decAll]
    by_cases hk : foldKey k = foldKey name
    · rw [h.here k v _ hk, h.here k v _ hk, hf (k, v) (by simp) hk _ (get t)]
      cases f.dec v (get t) with
      | error e => rfl
      | ok x =>
        show fc.decAll vs (set (set t a) x) = fc.decAll vs (set t x)
        rw [h.twice]
    · obtain ⟨m, hm, e1⟩ := hm
      rcases List.mem_cons.1 hm with rfl | hm
      · exact absurd e1 hk
      · rw [h.there k v t a hk]
        cases fc.dec k v t with
        | error e => rfl
        | ok x => exact sets_later_of h vs x a (fun m hm => hf m (List.mem_cons_of_mem _ hm)) ⟨m, hm, e1⟩

theorem sets_drop_of {α τ : Type} {fc : FC τ} {name : Bytes} {f : FE α} {get : τ → α} {set : τ → α → τ} (h : fc.Sets name f get set)
    {k : Bytes} {v : JVal} (hk : foldKey k = foldKey name) {post : List (Bytes × JVal)}
    (hf : ∀ m ∈ post, foldKey m.1 = foldKey name → ∀ x y, f.dec m.2 x = f.dec m.2 y)
    (hm : ∃ m ∈ post, foldKey m.1 = foldKey name) : ∀ pre t a, fc.decAll (pre ++ (k, v) :: post) t = .ok a → fc.decAll (pre ++ post) t = .ok a
  | [], t, a, e => by
    simp only [List.nil_append, FC.decAll] at e ⊢
    rw [h.here k v t hk] at e
    cases hd : f.dec v (get t) with
    | error _ => rw [hd] at e; cases e
    | ok x =>
      rw [hd] at e
      exact (sets_later_of h post t x hf hm).symm.trans e
  | (k', v') :: pre, t, a, e => by
    simp only [List.cons_append, FC.decAll] at e ⊢
    cases hd : fc.dec k' v' t with
    | error _ => rw [hd] at e; cases e
    | ok x =>
      rw [hd] at e
      exact sets_drop_of h hk hf hm pre x a e

/-- C108 in part: the names of the extensions that are used or required can be left out if they follow again as arrays of strings, in
text files. -/
theorem C108_names_partial (E : DecEnv) (s s' : Source) (pre post : List (Bytes × JVal)) (k name : Bytes) (v : JVal)
    (h1 : StartsWith false (.obj (pre ++ (k, v) :: post)) s.data) (h2 : StartsWith false (.obj (pre ++ post)) s'.data)
    (hd : DepthLe 10000 (.obj (pre ++ (k, v) :: post))) (hn : name ∈ [b!"extensionsUsed", b!"extensionsRequired"])
    (hk : foldKey k = foldKey name) (hp : ∃ m ∈ post, foldKey m.1 = foldKey name)
    (hs : ∀ m ∈ post, foldKey m.1 = foldKey name → Strings m.2) (d : Document) (h : (decodeSource E s).result = .ok d) :
    (decodeSource E s').result = .ok d ∧ (decodeSource E s').opened = (decodeSource E s).opened := by
  have key : ∀ v, Strings v → ∀ x y, omitStrings.dec v x = omitStrings.dec v y := by
    rintro _ ⟨ts, rfl⟩ x y
    show decList JC.string _ x = decList JC.string _ y
    rw [decList_strings, decList_strings]
  have hd' : DepthLe 10000 (.obj (pre ++ post)) := depthLe_sub hd (by
    intro m hm
    rcases List.mem_append.1 hm with hm | hm
    · exact List.mem_append_left _ hm
    · exact List.mem_append_right _ (List.mem_cons_of_mem _ hm))
  obtain ⟨_, r1, -, -, e1⟩ := decode_value E (headerOf_text (startsWith_notGlb h1)) (jsonOf_file (.inl h1) hd (.inl ⟨_, rfl⟩))
  obtain ⟨_, r2, -, -, e2⟩ := decode_value E (headerOf_text (startsWith_notGlb h2)) (jsonOf_file (.inl h2) hd' (.inl ⟨_, rfl⟩))
  cases hx : (documentC E.json).dec (.obj (pre ++ (k, v) :: post)) {} with
  | error e =>
    rw [hx] at e1
    rw [e1] at h
    cases h
  | ok d1 =>
    have hdrop : (documentC E.json).dec (.obj (pre ++ post)) {} = .ok d1 := by
      obtain ⟨t, ht, rfl⟩ := struct_all hx
      simp only [List.mem_cons, List.not_mem_nil, or_false] at hn
      rcases hn with rfl | rfl
      · exact struct_of (sets_drop_of (sets_tail (sets_tail (sets_tail (sets_head _ _ _) (by decide)) (by decide)) (by decide)) hk
          (fun m hm hk => key _ (hs m hm hk)) hp pre _ t ht)
      · exact struct_of (sets_drop_of (sets_tail (sets_tail (sets_tail (sets_tail (sets_head _ _ _) (by decide)) (by decide)) (by decide)) (by decide)) hk
          (fun m hm hk => key _ (hs m hm hk)) hp pre _ t ht)
    rw [hx] at e1
    rw [hdrop] at e2
    rw [← h, e1, e2]
    have := decodeRest_unused E (doc := d1) (isBinary := false) (fun l _ => by cases l <;> rfl) r1 r2
    exact ⟨this.1.symm, this.2.symm⟩

/-- Names that are given twice. -/
example : let post : List (Bytes × JVal) := [(b!"extensionsUsed", .arr [.str b!"KHR_z"])]
    let ms : List (Bytes × JVal) := [] ++ (b!"extensionsUsed", .arr [.str b!"KHR_x", .str b!"KHR_y"]) :: post
    let s : Source := { data := b!"{\"extensionsUsed\":[\"KHR_x\",\"KHR_y\"],\"extensionsUsed\":[\"KHR_z\"]}" }
    StartsWith false (.obj ms) s.data ∧ DepthLe 10000 (.obj ms) ∧ usedNames (decodeSource witnessDec s).result = some ([], [b!"KHR_z"]) ∧
    (∃ m ∈ post, foldKey m.1 = foldKey b!"extensionsUsed") ∧ ∀ m ∈ post, foldKey m.1 = foldKey b!"extensionsUsed" → Strings m.2 := by
  intro post ms s
  have hp : jsonOf s = .ok (.obj ms) := rfl
  have ht := print_text (L := compact) ⟨fun _ => by simp [compact, IsBlank], by simp [compact, IsBlank]⟩ _ (jsonOf_valid hp).ok 0
  refine ⟨⟨[], _, [], by simp [IsBlank], ht, by decide +kernel⟩, (jsonOf_valid hp).depth, by decide +kernel, by decide +kernel, fun m hm _ => ?_⟩
  rw [List.mem_singleton.1 hm]
  exact ⟨[b!"KHR_z"], rfl⟩

end Gltf
