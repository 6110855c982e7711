/-
Property C108: the last of several members with one name counts.
-/
import Verif.Props.Reuse

namespace Gltf

open Spec

/-! ### C108 -/

/-- A field of a struct is set by the members with its name and by no others. -/
structure FC.Sets {α τ : Type} (fc : FC τ) (name : Bytes) (f : FE α) (get : τ → α) (set : τ → α → τ) : Prop where
  here : ∀ k v t, foldKey k = foldKey name → fc.dec k v t = (f.dec v (get t)).map (set t)
  there : ∀ k v t a, foldKey k ≠ foldKey name → fc.dec k v (set t a) = (fc.dec k v t).map (set · a)
  twice : ∀ t a b, set (set t a) b = set t b

theorem sets_head {α τ : Type} (name : Bytes) (f : FE α) (r : FC τ) :
    (FC.cons name f r).Sets name f Prod.fst (fun t a => (a, t.2)) where
  here k v t hk := by
    simp only [FC.cons]
    rw [if_pos hk]
  there k v t a hk := by
    simp only [FC.cons]
    rw [if_neg hk, if_neg hk]
    cases r.dec k v t.2 <;> rfl
  twice _ _ _ := rfl

theorem sets_tail {α β τ : Type} {name other : Bytes} {f : FE α} {g : FE β} {r : FC τ} {get : τ → α} {set : τ → α → τ}
    (hr : r.Sets name f get set) (hn : foldKey other ≠ foldKey name) :
    (FC.cons other g r).Sets name f (get ∘ Prod.snd) (fun t a => (t.1, set t.2 a)) where
  here k v t hk := by
    simp only [FC.cons]
    rw [if_neg (fun h => hn (h.symm.trans hk)), hr.here k v t.2 hk]
    show _ = (f.dec v (get t.2)).map _
    cases f.dec v (get t.2) <;> rfl
  there k v t a hk := by
    simp only [FC.cons]
    by_cases ho : foldKey k = foldKey other
    · rw [if_pos ho, if_pos ho]
      cases g.dec v t.1 <;> rfl
    · rw [if_neg ho, if_neg ho, hr.there k v t.2 a hk]
      cases r.dec k v t.2 <;> rfl
  twice t a b := by simp only [hr.twice]

/-- What the field was before does not matter if a member with its name follows. -/
theorem sets_later {α τ : Type} {fc : FC τ} {name : Bytes} {f : FE α} {get : τ → α} {set : τ → α → τ} (h : fc.Sets name f get set)
    (hf : ∀ v x y, f.dec v x = f.dec v y) : ∀ vs t a, (∃ m ∈ vs, foldKey m.1 = foldKey name) → fc.decAll vs (set t a) = fc.decAll vs t
  | [], _, _, ⟨_, hm, _⟩ => by cases hm
  | (k, v) :: vs, t, a, hm => by
    simp only [FC.decAll]
    by_cases hk : foldKey k = foldKey name
    · rw [h.here k v _ hk, h.here k v _ hk, hf v _ (get t)]
      cases f.dec v (get t) with
      | error e => rfl
      | ok x =>
        show fc.decAll vs (set (set t a) x) = fc.decAll vs (set t x)
        rw [h.twice]
    · obtain ⟨m, hm, e1⟩ := hm
      rcases List.mem_cons.1 hm with rfl | hm
      · exact absurd e1 hk
      · rw [h.there k v t a hk]
        cases fc.dec k v t with
        | error e => rfl
        | ok x => exact sets_later h hf vs x a ⟨m, hm, e1⟩

/-- An earlier member can be left out. -/
theorem sets_drop {α τ : Type} {fc : FC τ} {name : Bytes} {f : FE α} {get : τ → α} {set : τ → α → τ} (h : fc.Sets name f get set)
    (hf : ∀ v x y, f.dec v x = f.dec v y) {k : Bytes} {v : JVal} (hk : foldKey k = foldKey name) {post : List (Bytes × JVal)}
    (hm : ∃ m ∈ post, foldKey m.1 = foldKey name) : ∀ pre t a, fc.decAll (pre ++ (k, v) :: post) t = .ok a → fc.decAll (pre ++ post) t = .ok a
  | [], t, a, e => by
    simp only [List.nil_append, FC.decAll] at e ⊢
    rw [h.here k v t hk] at e
    cases hd : f.dec v (get t) with
    | error _ => rw [hd] at e; cases e
    | ok x =>
      rw [hd] at e
      exact (sets_later h hf post t x hm).symm.trans e
  | (k', v') :: pre, t, a, e => by
    simp only [List.cons_append, FC.decAll] at e ⊢
    cases hd : fc.dec k' v' t with
    | error _ => rw [hd] at e; cases e
    | ok x =>
      rw [hd] at e
      exact sets_drop h hf hk hm pre x a e

theorem struct_of {σ τ : Type} {to : σ → τ} {of : τ → σ} {fc : FC τ} {ms : List (Bytes × JVal)} {s : σ} {t : τ}
    (h : fc.decAll ms (to s) = .ok t) : (JC.struct to of fc).dec (.obj ms) s = .ok (of t) := by
  simp only [JC.struct]
  rw [h]
  rfl

theorem document_drop (E : Env) {pre post : List (Bytes × JVal)} {k : Bytes} {v : JVal} {name : Bytes}
    (hn : name ∈ [b!"asset", b!"extras", b!"nodes", b!"materials", b!"scene"]) (hk : foldKey k = foldKey name)
    (hp : ∃ m ∈ post, foldKey m.1 = foldKey name) {d0 d : Document} (h : (documentC E).dec (.obj (pre ++ (k, v) :: post)) d0 = .ok d) :
    (documentC E).dec (.obj (pre ++ post)) d0 = .ok d := by
  obtain ⟨t, ht, rfl⟩ := struct_all h
  simp only [List.mem_cons, List.not_mem_nil, or_false] at hn
  rcases hn with rfl | rfl | rfl | rfl | rfl
  · exact struct_of (sets_drop (sets_tail (sets_tail (sets_tail (sets_tail (sets_tail (sets_tail (sets_tail (sets_head _ _ _) (by decide)) (by decide)) (by decide)) (by decide)) (by decide)) (by decide)) (by decide)) (fun _ _ _ => rfl) hk hp pre _ t ht)
  · exact struct_of (sets_drop (sets_tail (sets_tail (sets_head _ _ _) (by decide)) (by decide)) (fun _ _ _ => rfl) hk hp pre _ t ht)
  · exact struct_of (sets_drop (sets_tail (sets_tail (sets_tail (sets_tail (sets_tail (sets_tail (sets_tail (sets_tail (sets_tail (sets_tail (sets_tail (sets_tail (sets_tail (sets_head _ _ _) (by decide)) (by decide)) (by decide)) (by decide)) (by decide)) (by decide)) (by decide)) (by decide)) (by decide)) (by decide)) (by decide)) (by decide)) (by decide)) (list_any (ptr_any (fun _ _ _ => rfl))) hk hp pre _ t ht)
  · exact struct_of (sets_drop (sets_tail (sets_tail (sets_tail (sets_tail (sets_tail (sets_tail (sets_tail (sets_tail (sets_tail (sets_tail (sets_tail (sets_head _ _ _) (by decide)) (by decide)) (by decide)) (by decide)) (by decide)) (by decide)) (by decide)) (by decide)) (by decide)) (by decide)) (by decide)) (list_any (ptr_any (fun _ _ _ => rfl))) hk hp pre _ t ht)
  · exact struct_of (sets_drop (sets_tail (sets_tail (sets_tail (sets_tail (sets_tail (sets_tail (sets_tail (sets_tail (sets_tail (sets_tail (sets_tail (sets_tail (sets_tail (sets_tail (sets_tail (sets_head _ _ _) (by decide)) (by decide)) (by decide)) (by decide)) (by decide)) (by decide)) (by decide)) (by decide)) (by decide)) (by decide)) (by decide)) (by decide)) (by decide)) (by decide)) (by decide)) scene_any hk hp pre _ t ht)
theorem depthLe_sub {n : Nat} {l l' : List (Bytes × JVal)} (h : DepthLe n (.obj l)) (hs : ∀ m ∈ l', m ∈ l) : DepthLe n (.obj l') := by
  cases h with
  | obj n _ h => exact .obj n _ fun m hm => h m (hs m hm)

/-- C108 in part: an asset, extra data, nodes, materials or a scene can be left out if another follows, in text files. Missing: the
other members, for which this is false (`C108_full_fails`), and members of the values within. -/
theorem C108_last_partial (E : DecEnv) (s s' : Source) (pre post : List (Bytes × JVal)) (k name : Bytes) (v : JVal)
    (h1 : StartsWith false (.obj (pre ++ (k, v) :: post)) s.data) (h2 : StartsWith false (.obj (pre ++ post)) s'.data)
    (hd : DepthLe 10000 (.obj (pre ++ (k, v) :: post))) (hn : name ∈ [b!"asset", b!"extras", b!"nodes", b!"materials", b!"scene"])
    (hk : foldKey k = foldKey name) (hp : ∃ m ∈ post, foldKey m.1 = foldKey name) (d : Document) (h : (decodeSource E s).result = .ok d) :
    (decodeSource E s').result = .ok d ∧ (decodeSource E s').opened = (decodeSource E s).opened := by
  have hd' : DepthLe 10000 (.obj (pre ++ post)) := depthLe_sub hd (by
    intro m hm
    rcases List.mem_append.1 hm with hm | hm
    · exact List.mem_append_left _ hm
    · exact List.mem_append_right _ (List.mem_cons_of_mem _ hm))
  obtain ⟨_, r1, -, -, e1⟩ := decode_value E (headerOf_text (startsWith_notGlb h1)) (jsonOf_file (.inl h1) hd (.inl ⟨_, rfl⟩))
  obtain ⟨_, r2, -, -, e2⟩ := decode_value E (headerOf_text (startsWith_notGlb h2)) (jsonOf_file (.inl h2) hd' (.inl ⟨_, rfl⟩))
  cases hx : (documentC E.json).dec (.obj (pre ++ (k, v) :: post)) {} with
  | error e =>
    rw [hx] at e1
    rw [e1] at h
    cases h
  | ok d1 =>
    rw [hx] at e1
    rw [document_drop E.json hn hk hp hx] at e2
    rw [← h, e1, e2]
    have := decodeRest_unused E (doc := d1) (isBinary := false) (fun l _ => by cases l <;> rfl) r1 r2
    exact ⟨this.1.symm, this.2.symm⟩

/-- C108 for GLB files, if the JSON text fills its chunk or every read returns a multiple of four bytes (see C32). -/
theorem C108_glb_partial (E : DecEnv) (s s' : Source) (pre post : List (Bytes × JVal)) (k name : Bytes) (v : JVal) (bin : Option Bytes)
    (w t w' t' : Bytes) (hw : IsBlank w) (hw' : IsBlank w') (ht : Text false (.value (.obj (pre ++ (k, v) :: post))) t)
    (ht' : Text false (.value (.obj (pre ++ post))) t') (h1 : IsGlb (w ++ t) bin s.data) (h2 : IsGlb (w' ++ t') bin s'.data)
    (hf : s.fin = s'.fin) (ha : s.Aligned ∨ (w ++ t).length % 4 = 0) (ha' : s'.Aligned ∨ (w' ++ t').length % 4 = 0)
    (hd : DepthLe 10000 (.obj (pre ++ (k, v) :: post))) (hn : name ∈ [b!"asset", b!"extras", b!"nodes", b!"materials", b!"scene"])
    (hk : foldKey k = foldKey name) (hp : ∃ m ∈ post, foldKey m.1 = foldKey name) (d : Document) (h : (decodeSource E s).result = .ok d) :
    (decodeSource E s').result = .ok d ∧ (decodeSource E s').opened = (decodeSource E s).opened := by
  have hd' : DepthLe 10000 (.obj (pre ++ post)) := depthLe_sub hd (by
    intro m hm
    rcases List.mem_append.1 hm with hm | hm
    · exact List.mem_append_left _ hm
    · exact List.mem_append_right _ (List.mem_cons_of_mem _ hm))
  obtain ⟨r1, c1, i1, q1, f1, hc1, e1⟩ := decode_glb_json E hd hw ht h1 ha
  obtain ⟨r2, c2, i2, q2, f2, hc2, e2⟩ := decode_glb_json E hd' hw' ht' h2 ha'
  have hc : c1 = c2 := by
    cases bin with
    | none => exact hc1.trans hc2.symm
    | some data => exact isChunk_inj hc1 hc2
  cases hx : (documentC E.json).dec (.obj (pre ++ (k, v) :: post)) {} with
  | error e =>
    rw [hx] at e1
    rw [e1] at h
    cases h
  | ok d1 =>
    rw [hx] at e1
    rw [document_drop E.json hn hk hp hx] at e2
    rw [← h, e1, e2]
    have := decodeRest_congr ⟨q1.trans (hc.trans q2.symm), f1.trans (hf.trans f2.symm), i1, i2⟩ E true d1
    exact ⟨this.1.symm, this.2.1.symm⟩

/-- C108 is false: a mesh of the last list keeps the name that the mesh at this place has in the first. -/
theorem C108_full_fails :
    let s : Source := { data := b!"{\"meshes\":[{\"name\":\"old\",\"primitives\":[]}],\"meshes\":[{\"primitives\":[]}]}" }
    let s' : Source := { data := b!"{\"meshes\":[{\"primitives\":[]}]}" }
    usedNames (decodeSource witnessDec s).result = some ([some b!"old"], []) ∧
    usedNames (decodeSource witnessDec s').result = some ([some []], []) := by
  refine ⟨by decide +kernel, by decide +kernel⟩

/-- Two lists of nodes. -/
example : let ms : List (Bytes × JVal) := [(b!"nodes", .arr [.obj [(b!"name", .str b!"old")]]), (b!"nodes", .arr [.obj []])]
    let s : Source := { data := b!"{\"nodes\":[{\"name\":\"old\"}],\"nodes\":[{}]}" }
    let s' : Source := { data := b!"{\"nodes\":[{}]}" }
    StartsWith false (.obj ms) s.data ∧ StartsWith false (.obj (ms.drop 1)) s'.data ∧ DepthLe 10000 (.obj ms) ∧
    (decodeSource witnessDec s).result.isErr = false := by
  intro ms s s'
  have hp : jsonOf s = .ok (.obj ms) := rfl
  have hp' : jsonOf s' = .ok (.obj (ms.drop 1)) := rfl
  have hl : compact.Blank := ⟨fun _ => by simp [compact, IsBlank], by simp [compact, IsBlank]⟩
  have ht := print_text (L := compact) hl _ (jsonOf_valid hp).ok 0
  have ht' := print_text (L := compact) hl _ (jsonOf_valid hp').ok 0
  exact ⟨⟨[], _, [], by simp [IsBlank], ht, by decide +kernel⟩, ⟨[], _, [], by simp [IsBlank], ht', by decide +kernel⟩,
    (jsonOf_valid hp).depth, by decide +kernel⟩

end Gltf
