/-
Property C82: decoding into a document that has been used before.
-/
import Verif.Props.Schema
import Verif.Props.JsonText

namespace Gltf

open Spec

/-! ### C82 -/

/-- A field of a struct is read from the members with its name. -/
def FC.Has {α τ : Type} (fc : FC τ) (name : Bytes) (f : FE α) (get : τ → α) : Prop :=
  ∀ k v t a, fc.dec k v t = .ok a →
    (foldKey k = foldKey name → f.dec v (get t) = .ok (get a)) ∧ (foldKey k ≠ foldKey name → get a = get t)

theorem has_head {α τ : Type} (name : Bytes) (f : FE α) (r : FC τ) : (FC.cons name f r).Has name f Prod.fst := by
  intro k v t a h
  simp only [FC.cons] at h
  split at h
  · rename_i hk
    cases hd : f.dec v t.1 with
    | error e => rw [hd] at h; cases h
    | ok x => rw [hd] at h; cases h; exact ⟨fun _ => rfl, fun h => absurd hk h⟩
  · rename_i hk
    cases hd : r.dec k v t.2 with
    | error e => rw [hd] at h; cases h
    | ok x => rw [hd] at h; cases h; exact ⟨fun h => absurd h hk, fun _ => rfl⟩

theorem has_tail {α β τ : Type} {name other : Bytes} {f : FE α} {g : FE β} {r : FC τ} {get : τ → α} (hr : r.Has name f get)
    (hn : foldKey other ≠ foldKey name) : (FC.cons other g r).Has name f (get ∘ Prod.snd) := by
  intro k v t a h
  simp only [FC.cons] at h
  split at h
  · rename_i hk
    cases hd : g.dec v t.1 with
    | error e => rw [hd] at h; cases h
    | ok x => rw [hd] at h; cases h; exact ⟨fun h => absurd (hk.symm.trans h) hn, fun _ => rfl⟩
  · cases hd : r.dec k v t.2 with
    | error e => rw [hd] at h; cases h
    | ok x => rw [hd] at h; cases h; exact hr k v _ _ hd

/-- Without a member of its name a field is kept. -/
theorem has_kept {α τ : Type} {fc : FC τ} {name : Bytes} {f : FE α} {get : τ → α} (h : fc.Has name f get) : ∀ vs t a,
    (∀ m ∈ vs, foldKey m.1 ≠ foldKey name) → fc.decAll vs t = .ok a → get a = get t
  | [], t, a, _, e => by cases e; rfl
  | (k, v) :: vs, t, a, hv, e => by
    simp only [FC.decAll] at e
    cases hd : fc.dec k v t with
    | error e' => rw [hd] at e; cases e
    | ok x =>
      rw [hd] at e
      rw [has_kept h vs x a (fun m hm => hv m (List.mem_cons_of_mem _ hm)) e]
      exact (h _ _ _ _ hd).2 (hv (k, v) (by simp))

/-- Two values of a field that are equal stay equal. -/
theorem has_equal {α τ : Type} {fc : FC τ} {name : Bytes} {f : FE α} {get : τ → α} (h : fc.Has name f get) : ∀ vs t t' a a',
    get t = get t' → fc.decAll vs t = .ok a → fc.decAll vs t' = .ok a' → get a = get a'
  | [], t, t', a, a', h0, e, e' => by cases e; cases e'; exact h0
  | (k, v) :: vs, t, t', a, a', h0, e, e' => by
    simp only [FC.decAll] at e e'
    cases hd : fc.dec k v t with
    | error _ => rw [hd] at e; cases e
    | ok x =>
      cases hd' : fc.dec k v t' with
      | error _ => rw [hd'] at e'; cases e'
      | ok x' =>
        rw [hd] at e
        rw [hd'] at e'
        refine has_equal h vs x x' a a' ?_ e e'
        by_cases hk : foldKey k = foldKey name
        · have h1 := (h _ _ _ _ hd).1 hk
          rw [h0, (h _ _ _ _ hd').1 hk] at h1
          injection h1 with h1
          exact h1.symm
        · rw [(h _ _ _ _ hd).2 hk, (h _ _ _ _ hd').2 hk, h0]

/-- A field that does not depend on its value before is the same after a member of its name. -/
theorem has_replaced {α τ : Type} {fc : FC τ} {name : Bytes} {f : FE α} {get : τ → α} (h : fc.Has name f get)
    (hf : ∀ v x y, f.dec v x = f.dec v y) : ∀ vs t t' a a',
    (∃ m ∈ vs, foldKey m.1 = foldKey name) → fc.decAll vs t = .ok a → fc.decAll vs t' = .ok a' → get a = get a'
  | [], _, _, _, _, ⟨_, hm, _⟩, _, _ => by cases hm
  | (k, v) :: vs, t, t', a, a', hm, e, e' => by
    simp only [FC.decAll] at e e'
    cases hd : fc.dec k v t with
    | error _ => rw [hd] at e; cases e
    | ok x =>
      cases hd' : fc.dec k v t' with
      | error _ => rw [hd'] at e'; cases e'
      | ok x' =>
        rw [hd] at e
        rw [hd'] at e'
        by_cases hk : foldKey k = foldKey name
        · refine has_equal h vs x x' a a' ?_ e e'
          have h1 := (h _ _ _ _ hd).1 hk
          rw [hf v _ (get t'), (h _ _ _ _ hd').1 hk] at h1
          injection h1 with h1
          exact h1.symm
        · obtain ⟨m, hm, e1⟩ := hm
          rcases List.mem_cons.1 hm with rfl | hm
          · exact absurd e1 hk
          · exact has_replaced h hf vs x x' a a' ⟨m, hm, e1⟩ e e'

theorem decList_any {α : Type} {c : JC α} (h : ∀ v x y, c.dec v x = c.dec v y) : ∀ vs l l', decList c vs l = decList c vs l'
  | [], _, _ => by simp only [decList]
  | v :: vs, l, l' => by
    have e : ∀ l, decList c (v :: vs) l = (do let a ← c.dec v c.zero; let l ← decList c vs []; return a :: l) := by
      intro l
      cases l with
      | nil => simp only [decList]
      | cons x l =>
        simp only [decList]
        rw [h v x c.zero, decList_any h vs l []]
    rw [e l, e l']

theorem ptr_any {α : Type} {c : JC α} (h : ∀ v x y, c.dec v x = c.dec v y) (v : JVal) (x y : Option α) : (JC.ptr c).dec v x = (JC.ptr c).dec v y := by
  unfold JC.ptr
  cases v <;> simp only [h _ (x.getD c.zero) (y.getD c.zero)]

theorem list_any {α : Type} {c : JC α} (h : ∀ v x y, c.dec v x = c.dec v y) (v : JVal) (x y : List α) : (JC.list c).dec v x = (JC.list c).dec v y := by
  unfold JC.list
  cases v <;> simp only [decList_any h _ x y]

/-- What `Decode` makes of a document: the fields are read from the JSON, then buffers and images are changed. -/
theorem decode_used {E : DecEnv} {s : Source} {ms : List (Bytes × JVal)} (hf : FileOf (.obj ms) s.data) (hn : DepthLe 10000 (.obj ms))
    {d0 d : Document} (h : (decode E (newDecoder s) d0).result = .ok d) :
    ∃ d1, (documentC E.json).dec (.obj ms) d0 = .ok d1 ∧ { d with buffers := [], images := [] } = { d1 with buffers := [], images := [] } := by
  have hv : jsonOf s = .ok (.obj ms) := jsonOf_file hf hn (.inl ⟨_, rfl⟩)
  rw [decode_eq] at h
  have hr : (newDecoder s).Inv := .inl rfl
  obtain ⟨h1, pre, h2, -⟩ := decodeDocument_spec E hr d0
  rcases hd : decodeDocument E (newDecoder s) d0 with ⟨x, r⟩
  rw [hd] at h1 h2 h
  replace h1 : x = docOf E s.data s.fin d0 := h1
  unfold jsonOf at hv
  unfold docOf at h1
  cases hh : headerOf s.data with
  | err e' => rw [hh] at hv; cases hv
  | panic w => rw [hh] at hv; cases hv
  | ok hd' =>
    rw [hh] at hv h1
    replace hv : valueOf (jsonStream s.data hd') (jsonFin s.data s.fin hd') = .ok (.obj ms) := hv
    simp only at h1
    rw [hv] at h1
    simp only at h1
    subst h1
    cases hx : (documentC E.json).dec (.obj ms) d0 with
    | error e => rw [hx] at h; cases h
    | ok d1 =>
      rw [hx] at h
      exact ⟨d1, rfl, (decodeRest_each h2.inv h).2.2⟩

theorem struct_all {σ τ : Type} {to : σ → τ} {of : τ → σ} {fc : FC τ} {ms : List (Bytes × JVal)} {s s' : σ}
    (h : (JC.struct to of fc).dec (.obj ms) s = .ok s') : ∃ t, fc.decAll ms (to s) = .ok t ∧ s' = of t := by
  simp only [JC.struct] at h
  cases hd : fc.decAll ms (to s) with
  | error e => rw [hd] at h; cases h
  | ok t => rw [hd] at h; cases h; exact ⟨t, rfl, rfl⟩

/-- C82 in part: fields of the document that are not in the JSON keep their values. Missing: the other fields, see
`C82_full_fails`. -/
theorem C82_kept_partial (E : DecEnv) (s : Source) (ms : List (Bytes × JVal)) (hf : FileOf (.obj ms) s.data) (hn : DepthLe 10000 (.obj ms))
    (d0 d : Document) (h : (decode E (newDecoder s) d0).result = .ok d) :
    let No (name : Bytes) : Prop := ∀ m ∈ ms, foldKey m.1 ≠ foldKey name
    (No b!"extensions" → d.extensions = d0.extensions) ∧
    (No b!"extras" → d.extras = d0.extras) ∧
    (No b!"extensionsUsed" → d.extensionsUsed = d0.extensionsUsed) ∧
    (No b!"extensionsRequired" → d.extensionsRequired = d0.extensionsRequired) ∧
    (No b!"accessors" → d.accessors = d0.accessors) ∧
    (No b!"animations" → d.animations = d0.animations) ∧
    (No b!"asset" → d.asset = d0.asset) ∧
    (No b!"bufferViews" → d.bufferViews = d0.bufferViews) ∧
    (No b!"cameras" → d.cameras = d0.cameras) ∧
    (No b!"materials" → d.materials = d0.materials) ∧
    (No b!"meshes" → d.meshes = d0.meshes) ∧
    (No b!"nodes" → d.nodes = d0.nodes) ∧
    (No b!"samplers" → d.samplers = d0.samplers) ∧
    (No b!"scene" → d.scene = d0.scene) ∧
    (No b!"scenes" → d.scenes = d0.scenes) ∧
    (No b!"skins" → d.skins = d0.skins) ∧
    (No b!"textures" → d.textures = d0.textures) := by
  obtain ⟨d1, e, e1⟩ := decode_used hf hn h
  obtain ⟨t, ht, rfl⟩ := struct_all e
  refine ⟨?_, ?_, ?_, ?_, ?_, ?_, ?_, ?_, ?_, ?_, ?_, ?_, ?_, ?_, ?_, ?_, ?_⟩
  · intro hm
    rw [show d.extensions = _ from congrArg (·.extensions) e1]
    exact has_kept (has_tail (has_head _ _ _) (by decide)) ms _ t hm ht
  · intro hm
    rw [show d.extras = _ from congrArg (·.extras) e1]
    exact has_kept (has_tail (has_tail (has_head _ _ _) (by decide)) (by decide)) ms _ t hm ht
  · intro hm
    rw [show d.extensionsUsed = _ from congrArg (·.extensionsUsed) e1]
    exact has_kept (has_tail (has_tail (has_tail (has_head _ _ _) (by decide)) (by decide)) (by decide)) ms _ t hm ht
  · intro hm
    rw [show d.extensionsRequired = _ from congrArg (·.extensionsRequired) e1]
    exact has_kept (has_tail (has_tail (has_tail (has_tail (has_head _ _ _) (by decide)) (by decide)) (by decide)) (by decide)) ms _ t hm ht
  · intro hm
    rw [show d.accessors = _ from congrArg (·.accessors) e1]
    exact has_kept (has_tail (has_tail (has_tail (has_tail (has_tail (has_head _ _ _) (by decide)) (by decide)) (by decide)) (by decide)) (by decide)) ms _ t hm ht
  · intro hm
    rw [show d.animations = _ from congrArg (·.animations) e1]
    exact has_kept (has_tail (has_tail (has_tail (has_tail (has_tail (has_tail (has_head _ _ _) (by decide)) (by decide)) (by decide)) (by decide)) (by decide)) (by decide)) ms _ t hm ht
  · intro hm
    rw [show d.asset = _ from congrArg (·.asset) e1]
    exact has_kept (has_tail (has_tail (has_tail (has_tail (has_tail (has_tail (has_tail (has_head _ _ _) (by decide)) (by decide)) (by decide)) (by decide)) (by decide)) (by decide)) (by decide)) ms _ t hm ht
  · intro hm
    rw [show d.bufferViews = _ from congrArg (·.bufferViews) e1]
    exact has_kept (has_tail (has_tail (has_tail (has_tail (has_tail (has_tail (has_tail (has_tail (has_head _ _ _) (by decide)) (by decide)) (by decide)) (by decide)) (by decide)) (by decide)) (by decide)) (by decide)) ms _ t hm ht
  · intro hm
    rw [show d.cameras = _ from congrArg (·.cameras) e1]
    exact has_kept (has_tail (has_tail (has_tail (has_tail (has_tail (has_tail (has_tail (has_tail (has_tail (has_head _ _ _) (by decide)) (by decide)) (by decide)) (by decide)) (by decide)) (by decide)) (by decide)) (by decide)) (by decide)) ms _ t hm ht
  · intro hm
    rw [show d.materials = _ from congrArg (·.materials) e1]
    exact has_kept (has_tail (has_tail (has_tail (has_tail (has_tail (has_tail (has_tail (has_tail (has_tail (has_tail (has_tail (has_head _ _ _) (by decide)) (by decide)) (by decide)) (by decide)) (by decide)) (by decide)) (by decide)) (by decide)) (by decide)) (by decide)) (by decide)) ms _ t hm ht
  · intro hm
    rw [show d.meshes = _ from congrArg (·.meshes) e1]
    exact has_kept (has_tail (has_tail (has_tail (has_tail (has_tail (has_tail (has_tail (has_tail (has_tail (has_tail (has_tail (has_tail (has_head _ _ _) (by decide)) (by decide)) (by decide)) (by decide)) (by decide)) (by decide)) (by decide)) (by decide)) (by decide)) (by decide)) (by decide)) (by decide)) ms _ t hm ht
  · intro hm
    rw [show d.nodes = _ from congrArg (·.nodes) e1]
    exact has_kept (has_tail (has_tail (has_tail (has_tail (has_tail (has_tail (has_tail (has_tail (has_tail (has_tail (has_tail (has_tail (has_tail (has_head _ _ _) (by decide)) (by decide)) (by decide)) (by decide)) (by decide)) (by decide)) (by decide)) (by decide)) (by decide)) (by decide)) (by decide)) (by decide)) (by decide)) ms _ t hm ht
  · intro hm
    rw [show d.samplers = _ from congrArg (·.samplers) e1]
    exact has_kept (has_tail (has_tail (has_tail (has_tail (has_tail (has_tail (has_tail (has_tail (has_tail (has_tail (has_tail (has_tail (has_tail (has_tail (has_head _ _ _) (by decide)) (by decide)) (by decide)) (by decide)) (by decide)) (by decide)) (by decide)) (by decide)) (by decide)) (by decide)) (by decide)) (by decide)) (by decide)) (by decide)) ms _ t hm ht
  · intro hm
    rw [show d.scene = _ from congrArg (·.scene) e1]
    exact has_kept (has_tail (has_tail (has_tail (has_tail (has_tail (has_tail (has_tail (has_tail (has_tail (has_tail (has_tail (has_tail (has_tail (has_tail (has_tail (has_head _ _ _) (by decide)) (by decide)) (by decide)) (by decide)) (by decide)) (by decide)) (by decide)) (by decide)) (by decide)) (by decide)) (by decide)) (by decide)) (by decide)) (by decide)) (by decide)) ms _ t hm ht
  · intro hm
    rw [show d.scenes = _ from congrArg (·.scenes) e1]
    exact has_kept (has_tail (has_tail (has_tail (has_tail (has_tail (has_tail (has_tail (has_tail (has_tail (has_tail (has_tail (has_tail (has_tail (has_tail (has_tail (has_tail (has_head _ _ _) (by decide)) (by decide)) (by decide)) (by decide)) (by decide)) (by decide)) (by decide)) (by decide)) (by decide)) (by decide)) (by decide)) (by decide)) (by decide)) (by decide)) (by decide)) (by decide)) ms _ t hm ht
  · intro hm
    rw [show d.skins = _ from congrArg (·.skins) e1]
    exact has_kept (has_tail (has_tail (has_tail (has_tail (has_tail (has_tail (has_tail (has_tail (has_tail (has_tail (has_tail (has_tail (has_tail (has_tail (has_tail (has_tail (has_tail (has_head _ _ _) (by decide)) (by decide)) (by decide)) (by decide)) (by decide)) (by decide)) (by decide)) (by decide)) (by decide)) (by decide)) (by decide)) (by decide)) (by decide)) (by decide)) (by decide)) (by decide)) (by decide)) ms _ t hm ht
  · intro hm
    rw [show d.textures = _ from congrArg (·.textures) e1]
    exact has_kept (has_tail (has_tail (has_tail (has_tail (has_tail (has_tail (has_tail (has_tail (has_tail (has_tail (has_tail (has_tail (has_tail (has_tail (has_tail (has_tail (has_tail (has_tail (has_head _ _ _) (by decide)) (by decide)) (by decide)) (by decide)) (by decide)) (by decide)) (by decide)) (by decide)) (by decide)) (by decide)) (by decide)) (by decide)) (by decide)) (by decide)) (by decide)) (by decide)) (by decide)) (by decide)) ms _ t hm ht

theorem scene_any (v : JVal) (x y : Option Int) : omitIndex.dec v x = omitIndex.dec v y := by
  cases v <;> rfl

/-- C82 in part: if the JSON has an asset, extra data, nodes, materials or a scene, these do not depend on what was in the document
before. -/
theorem C82_replaced_partial (E : DecEnv) (s : Source) (ms : List (Bytes × JVal)) (hf : FileOf (.obj ms) s.data) (hn : DepthLe 10000 (.obj ms))
    (d0 d d' : Document) (h : (decode E (newDecoder s) d0).result = .ok d) (h' : (decodeSource E s).result = .ok d') :
    let Has (name : Bytes) : Prop := ∃ m ∈ ms, foldKey m.1 = foldKey name
    (Has b!"asset" → d.asset = d'.asset) ∧
    (Has b!"extras" → d.extras = d'.extras) ∧
    (Has b!"nodes" → d.nodes = d'.nodes) ∧
    (Has b!"materials" → d.materials = d'.materials) ∧
    (Has b!"scene" → d.scene = d'.scene) := by
  obtain ⟨d1, e, e1⟩ := decode_used hf hn h
  obtain ⟨t, ht, rfl⟩ := struct_all e
  obtain ⟨d1', e', e1'⟩ := decode_used hf hn h'
  obtain ⟨t', ht', rfl⟩ := struct_all e'
  refine ⟨?_, ?_, ?_, ?_, ?_⟩
  · intro hm
    rw [show d.asset = _ from congrArg (·.asset) e1, show d'.asset = _ from congrArg (·.asset) e1']
    exact has_replaced (has_tail (has_tail (has_tail (has_tail (has_tail (has_tail (has_tail (has_head _ _ _) (by decide)) (by decide)) (by decide)) (by decide)) (by decide)) (by decide)) (by decide)) (fun _ _ _ => rfl) ms _ _ t t' hm ht ht'
  · intro hm
    rw [show d.extras = _ from congrArg (·.extras) e1, show d'.extras = _ from congrArg (·.extras) e1']
    exact has_replaced (has_tail (has_tail (has_head _ _ _) (by decide)) (by decide)) (fun _ _ _ => rfl) ms _ _ t t' hm ht ht'
  · intro hm
    rw [show d.nodes = _ from congrArg (·.nodes) e1, show d'.nodes = _ from congrArg (·.nodes) e1']
    exact has_replaced (has_tail (has_tail (has_tail (has_tail (has_tail (has_tail (has_tail (has_tail (has_tail (has_tail (has_tail (has_tail (has_tail (has_head _ _ _) (by decide)) (by decide)) (by decide)) (by decide)) (by decide)) (by decide)) (by decide)) (by decide)) (by decide)) (by decide)) (by decide)) (by decide)) (by decide)) (list_any (ptr_any (fun _ _ _ => rfl))) ms _ _ t t' hm ht ht'
  · intro hm
    rw [show d.materials = _ from congrArg (·.materials) e1, show d'.materials = _ from congrArg (·.materials) e1']
    exact has_replaced (has_tail (has_tail (has_tail (has_tail (has_tail (has_tail (has_tail (has_tail (has_tail (has_tail (has_tail (has_head _ _ _) (by decide)) (by decide)) (by decide)) (by decide)) (by decide)) (by decide)) (by decide)) (by decide)) (by decide)) (by decide)) (by decide)) (list_any (ptr_any (fun _ _ _ => rfl))) ms _ _ t t' hm ht ht'
  · intro hm
    rw [show d.scene = _ from congrArg (·.scene) e1, show d'.scene = _ from congrArg (·.scene) e1']
    exact has_replaced (has_tail (has_tail (has_tail (has_tail (has_tail (has_tail (has_tail (has_tail (has_tail (has_tail (has_tail (has_tail (has_tail (has_tail (has_tail (has_head _ _ _) (by decide)) (by decide)) (by decide)) (by decide)) (by decide)) (by decide)) (by decide)) (by decide)) (by decide)) (by decide)) (by decide)) (by decide)) (by decide)) (by decide)) (by decide)) scene_any ms _ _ t t' hm ht ht'

/-- The names of the meshes, and the extensions that are used. -/
def usedNames (r : Res Document) : Option (List (Option Bytes) × List Bytes) :=
  match r with
  | .ok d => some (d.meshes.map (Option.map (·.name)), d.extensionsUsed)
  | _ => none

/-- C82 is false: meshes that are in the JSON are mixed with those that were in the document, which also keeps its extensions; and
a buffer that was read from the binary chunk of a GLB file makes the next file fail, although that file is read into a new document. -/
theorem C82_full_fails :
    let d0 : Document := { meshes := [some { name := b!"old" }, some {}], extensionsUsed := [b!"KHR_x"] }
    let s : Source := { data := b!"{\"meshes\":[{\"primitives\":[]}]}" }
    let d1 : Document := { buffers := [some { byteLength := 1, data := [77] }] }
    usedNames (decode witnessDec (newDecoder s) d0).result = some ([some b!"old"], [b!"KHR_x"]) ∧
    usedNames (decodeSource witnessDec s).result = some ([some []], []) ∧
    (decode witnessDec (newDecoder { data := paddedGlb }) {}).result = .ok d1 ∧
    (decode witnessDec (newDecoder s) d1).result.isErr = true := by
  refine ⟨by decide +kernel, by decide +kernel, ?_, by decide +kernel⟩
  rfl

/-- A file with nodes but without materials, and a document that has both. -/
example : let d0 : Document := { nodes := [some { name := b!"old" }], materials := [some { name := b!"old" }] }
    let ms : List (Bytes × JVal) := [(b!"nodes", .arr [.obj [(b!"name", .str b!"new")]])]
    let s : Source := { data := b!"{\"nodes\":[{\"name\":\"new\"}]}" }
    FileOf (.obj ms) s.data ∧ DepthLe 10000 (.obj ms) ∧ (decode witnessDec (newDecoder s) d0).result.isErr = false ∧
    (decodeSource witnessDec s).result.isErr = false ∧ (∀ m ∈ ms, foldKey m.1 ≠ foldKey b!"materials") ∧
    ∃ m ∈ ms, foldKey m.1 = foldKey b!"nodes" := by
  intro d0 ms s
  have hp : jsonOf s = .ok (.obj ms) := rfl
  have ht := print_text (L := compact) ⟨fun _ => by simp [compact, IsBlank], by simp [compact, IsBlank]⟩ _ (jsonOf_valid hp).ok 0
  exact ⟨.inl ⟨[], _, [], by simp [IsBlank], ht, by decide +kernel⟩, (jsonOf_valid hp).depth, by decide +kernel, by decide +kernel,
    by decide +kernel, by decide +kernel⟩

end Gltf
