/-
The writing functions in memory do what the functions on values do.
-/
import Verif.Lemmas.Heap

namespace Gltf.Heap

open Gltf Spec

/-- The slices that show nothing of the spare capacity are as before. -/
def Kept (d d' : MDoc) : Prop := Own d' ∧ ∀ t, Safe d t → Safe d' t ∧ t.bytes d'.mem = t.bytes d.mem

theorem kept_refl {d : MDoc} (h : Own d) : Kept d d := ⟨h, fun _ ht => ⟨ht, rfl⟩⟩

theorem kept_trans {d d' d'' : MDoc} (h : Kept d d') (h' : Kept d' d'') : Kept d d'' :=
  ⟨h'.1, fun t ht => ⟨(h'.2 t (h.2 t ht).1).1, (h'.2 t (h.2 t ht).1).2.trans (h.2 t ht).2⟩⟩

/-- The outcomes with memory and with values agree. -/
inductive Agree {α : Type} (d : MDoc) : MDoc × Res α → Document × Res α → Prop
  | ok {d' : MDoc} {a : α} {x : Document} (h : Kept d d') (hx : x = d'.value) : Agree d (d', .ok a) (x, .ok a)
  | err {d' : MDoc} {e : Err} {x : Document} (h : Kept d d') (hx : x = d'.value) : Agree d (d', .err e) (x, .err e)
  | panic {d' : MDoc} {x : Document} {w w' : String} : Agree d (d', .panic w) (x, .panic w')

/-- The functions agree. -/
def Sim {α : Type} (m : MW α) (w : W α) : Prop := ∀ d, Own d → Agree d (m d) (w d.value)

theorem agree_kept {α : Type} {d d' : MDoc} {r : MDoc × Res α} {r' : Document × Res α} (hk : Kept d d') (h : Agree d' r r') : Agree d r r' := by
  cases h with
  | ok h hx => exact .ok (kept_trans hk h) hx
  | err h hx => exact .err (kept_trans hk h) hx
  | panic => exact .panic

theorem mbind_def {α β : Type} (x : MW α) (f : α → MW β) (d : MDoc) : (x >>= f) d = match x d with
    | (d, .ok a) => f a d
    | (d, .err e) => (d, .err e)
    | (d, .panic w) => (d, .panic w) := rfl

theorem sim_bind {α β : Type} {m : MW α} {w : W α} {f : α → MW β} {g : α → W β} (h : Sim m w) (hf : ∀ a, Sim (f a) (g a)) :
    Sim (m >>= f) (w >>= g) := by
  intro d hd
  have h1 := h d hd
  rw [mbind_def, W.bind_def]
  generalize m d = r at h1 ⊢
  generalize w d.value = r' at h1 ⊢
  cases h1 with
  | ok hk hx => subst hx; exact agree_kept hk (hf _ _ hk.1)
  | err hk hx => exact .err hk hx
  | panic => exact .panic

theorem sim_pure {α : Type} (a : α) : Sim (pure a) (pure a) := fun _ hd => .ok (kept_refl hd) rfl

/-- The function does not access the buffers. -/
def Apart {α : Type} (w : W α) : Prop := ∀ (doc : Document) (bs : List (Option Buffer)),
  (w doc).1.buffers = doc.buffers ∧ w { doc with buffers := bs } = ({ (w doc).1 with buffers := bs }, (w doc).2)

theorem value_eq (d : MDoc) : d.value = { d.doc with buffers := d.value.buffers } := rfl

theorem sim_rest {α : Type} {w : W α} (h : Apart w) : Sim (MW.rest w) w := by
  intro d hd
  obtain ⟨h1, h2⟩ := h d.doc d.value.buffers
  rw [value_eq, h2]
  unfold MW.rest
  simp only
  have hk : Kept d { d with doc := (w d.doc).1 } :=
    ⟨⟨by rw [h1]; exact hd.length, hd.valid, hd.apart⟩, fun t ht => ⟨⟨ht.1, ht.2⟩, rfl⟩⟩
  have hv : ({ (w d.doc).1 with buffers := d.value.buffers } : Document) = MDoc.value { d with doc := (w d.doc).1 } := by
    unfold MDoc.value
    simp only [h1]
  generalize hr : (w d.doc).2 = r
  cases r with
  | ok a => exact .ok hk hv
  | err e => exact .err hk hv
  | panic w => exact .panic

theorem apart_lift {α : Type} (r : Res α) : Apart (W.lift r) := fun _ _ => ⟨rfl, rfl⟩

theorem apart_pure {α : Type} (a : α) : Apart (pure a : W α) := fun _ _ => ⟨rfl, rfl⟩

theorem apart_bind {α β : Type} {w : W α} {f : α → W β} (h : Apart w) (hf : ∀ a, Apart (f a)) : Apart (w >>= f) := by
  intro doc bs
  obtain ⟨h1, h2⟩ := h doc bs
  rw [W.bind_def, W.bind_def, h2]
  generalize w doc = x at h1 ⊢
  obtain ⟨d', r⟩ := x
  cases r with
  | ok a =>
    obtain ⟨h3, h4⟩ := hf a d' bs
    exact ⟨h3.trans h1, h4⟩
  | err e => exact ⟨h1, rfl⟩
  | panic e => exact ⟨h1, rfl⟩

theorem apart_appendAccessor (acr : Accessor) : Apart (appendAccessor acr) := fun _ _ => ⟨rfl, rfl⟩

theorem apart_appendImage (im : Image) : Apart (appendImage im) := fun _ _ => ⟨rfl, rfl⟩

theorem apart_modifyAccessor (i : Nat) (f : Accessor → Accessor) : Apart (modifyAccessor i f) := by
  intro doc bs
  unfold modifyAccessor
  simp only
  rcases doc.accessors[i]? with _ | _ | a
  · exact ⟨rfl, rfl⟩
  · exact ⟨rfl, rfl⟩
  · exact ⟨rfl, rfl⟩

theorem apart_appendInterleaved (index : Nat) (ds : List Slice) : ∀ o, Apart (appendInterleaved index o ds) := by
  induction ds with
  | nil => exact fun o => apart_pure _
  | cons d ds ih => exact fun o => apart_bind (apart_appendAccessor _) fun i => apart_bind (ih _) fun is => apart_pure _

theorem apart_assignAttrs (l : List (Nat × Bytes × Bool)) : ∀ attrs, Apart (assignAttrs attrs l) := by
  induction l with
  | nil => exact fun _ => apart_pure _
  | cons x l ih =>
    obtain ⟨i, n, b⟩ := x
    exact fun attrs => apart_bind (apart_modifyAccessor _ _) fun _ => ih _

/-! ### The functions that write to the buffer -/

theorem value_length {d : MDoc} (h : Own d) : d.value.buffers.length = d.doc.buffers.length := by
  show (List.zipWith _ _ _).length = _
  rw [List.length_zipWith, h.length, Nat.min_self]

theorem value_get {d : MDoc} (i : Nat) : d.value.buffers[i]? = match d.doc.buffers[i]?, d.data[i]? with
    | some b, some s => some (b.map fun b => { b with data := s.bytes d.mem })
    | _, _ => none := by
  show (List.zipWith _ _ _)[i]? = _
  rw [List.getElem?_zipWith]
  cases d.doc.buffers[i]? <;> cases d.data[i]? <;> rfl

theorem withBuffer_spec {d : MDoc} (h : Own d) : Kept d (withBuffer d) ∧ (withBuffer d).value = ensured d.value := by
  unfold withBuffer ensured
  rw [value_length h]
  split
  · rename_i h0
    have hb : d.doc.buffers = [] := List.length_eq_zero_iff.1 h0
    have hd : d.data = [] := List.length_eq_zero_iff.1 (by rw [h.length]; exact h0)
    refine ⟨⟨⟨by simp [hb, hd], ?_, ?_⟩, fun t ht => ⟨⟨ht.1, ?_⟩, rfl⟩⟩, ?_⟩
    · intro s hs
      simp only [hd, List.nil_append, List.mem_singleton] at hs
      subst hs
      exact ⟨Nat.le_refl _, .inl rfl⟩
    · intro s _ t ht
      simp [hd] at ht
    · intro s hs
      simp only [hd, List.nil_append, List.getLast?_singleton, Option.some.injEq] at hs
      subst hs
      exact .inr (.inr (.inr (Nat.zero_le _)))
    · unfold MDoc.value
      simp only [hb, hd, List.nil_append, List.zipWith_cons_cons, List.zipWith_nil_left, Option.map_some]
      rfl
  · exact ⟨kept_refl h, rfl⟩

theorem last_value {d : MDoc} (h : Own d) : d.value.buffers.getLast?.join = (last d).map fun x => { x.1 with data := x.2.bytes d.mem } := by
  unfold last
  rw [List.getLast?_eq_getElem?, List.getLast?_eq_getElem?, List.getLast?_eq_getElem?, value_get, value_length h, h.length]
  cases hb : d.doc.buffers[d.doc.buffers.length - 1]? with
  | none => rfl
  | some b =>
    have : d.doc.buffers.length - 1 < d.data.length := by rw [h.length]; exact (List.getElem?_eq_some_iff.1 hb).1
    rw [List.getElem?_eq_getElem this]
    cases b <;> rfl

theorem setLast_spec {d : MDoc} {b : Buffer} {s s' : GoSlice} {m : Mem} {bl : Int} (h : Own d) (hl : last d = some (b, s)) (hv : Valid m s')
    (hk : ∀ t, Valid d.mem t → Away s s.len t → Valid m t ∧ Away s' s'.len t ∧ t.bytes m = t.bytes d.mem) :
    Kept d (setLast d m bl b s') ∧
    (setLast d m bl b s').value = { d.value with buffers := d.value.buffers.dropLast ++ [some { b with byteLength := bl, data := s'.bytes m }] } := by
  have hlast : d.data.getLast? = some s ∧ d.doc.buffers ≠ [] := by
    unfold last at hl
    split at hl
    · rename_i h1 h2
      cases hl
      refine ⟨h2, fun he => ?_⟩
      rw [he] at h1
      cases h1
    · cases hl
  obtain ⟨hlast, hne⟩ := hlast
  have hpos := List.length_pos_iff.2 hne
  have hlen := h.length
  have hdl : d.data.dropLast.length = d.doc.buffers.dropLast.length := by rw [List.length_dropLast, List.length_dropLast, hlen]
  have hapart := h.apart s hlast
  have hval : ∀ t ∈ d.data.dropLast, Valid d.mem t := fun t ht => h.valid t (List.dropLast_subset _ ht)
  refine ⟨⟨⟨?_, ?_, ?_⟩, fun t ht => ?_⟩, ?_⟩
  · show (d.data.dropLast ++ [s']).length = (d.doc.buffers.dropLast ++ [_]).length
    rw [List.length_append, List.length_append, hdl]; rfl
  · intro t ht
    rcases List.mem_append.1 ht with ht | ht
    · exact (hk t (hval t ht) (hapart t ht)).1
    · cases List.mem_singleton.1 ht; exact hv
  · intro x hx t ht
    change (d.data.dropLast ++ [s']).getLast? = some x at hx
    change t ∈ (d.data.dropLast ++ [s']).dropLast at ht
    rw [List.getLast?_concat] at hx
    cases hx
    rw [List.dropLast_concat] at ht
    exact (hk t (hval t ht) (hapart t ht)).2.1
  · obtain ⟨a1, a2, a3⟩ := hk t ht.1 (ht.2 s hlast)
    refine ⟨⟨a1, fun x hx => ?_⟩, a3⟩
    change (d.data.dropLast ++ [s']).getLast? = some x at hx
    rw [List.getLast?_concat] at hx
    cases hx
    exact a2
  · have hz : List.zipWith (fun (b : Option Buffer) (s : GoSlice) => b.map fun b => { b with data := s.bytes m }) d.doc.buffers.dropLast d.data.dropLast =
        d.value.buffers.dropLast := by
      have hvl := value_length h
      apply List.ext_getElem?
      intro i
      rw [List.getElem?_zipWith, List.getElem?_dropLast, List.getElem?_dropLast, List.getElem?_dropLast, hvl, hlen, value_get]
      by_cases hi : i < d.doc.buffers.length - 1
      · rw [if_pos hi, if_pos hi, if_pos hi]
        rw [List.getElem?_eq_getElem (show i < d.doc.buffers.length by omega), List.getElem?_eq_getElem (show i < d.data.length by omega)]
        have hm : d.data[i]'(by omega) ∈ d.data.dropLast := by
          refine List.mem_of_getElem? (i := i) ?_
          rw [List.getElem?_dropLast, if_pos (by omega), List.getElem?_eq_getElem]
        simp only
        rw [(hk _ (hval _ hm) (hapart _ hm)).2.2]
      · rw [if_neg hi, if_neg hi, if_neg hi]
    unfold MDoc.value setLast
    simp only
    rw [List.zipWith_append (by rw [hdl])]
    rw [hz]
    rfl

theorem last_valid {d : MDoc} {b : Buffer} {s : GoSlice} (h : Own d) (hl : last d = some (b, s)) : Valid d.mem s := by
  unfold last at hl
  split at hl
  · rename_i h1 h2
    cases hl
    exact h.valid _ (List.mem_of_getLast? h2)
  · cases hl

theorem sim_ensurePadding (G : Grow) : Sim (ensurePadding G) Gltf.ensurePadding := by
  intro d hd
  obtain ⟨hk, hv⟩ := withBuffer_spec hd
  unfold ensurePadding Gltf.ensurePadding
  simp only [W.bind_def, lastBuffer_eq, W.lift, setLastBuffer]
  rw [← hv, last_value hk.1]
  cases hl : last (withBuffer d) with
  | none => exact .panic
  | some x =>
    obtain ⟨b, s⟩ := x
    have hs := last_valid hk.1 hl
    simp only [Option.map_some, deref, bytes_length hs]
    rcases append_cases (G := G) (n := getPadding s.len) hs with ⟨r, w, h1, h2⟩ | ⟨m', s', h1, h2⟩
    · rw [h1, h2]
      exact .panic
    · rw [h1, h2]
      obtain ⟨-, g2, g3, -, g5⟩ := append_spec hs h1
      obtain ⟨k1, k2⟩ := setLast_spec (bl := wrap64 (b.byteLength + getPadding s.len)) hk.1 hl g3 fun t t1 t2 =>
        ⟨(g5 t t1 t2).1, away_mono (g5 t t1 t2).2.1 (by omega), (g5 t t1 t2).2.2⟩
      exact .ok (kept_trans hk k1) k2.symm

theorem kept_views {d d' : MDoc} {vs : List (Option BufferView)} (h : Kept d d') : Kept d { d' with doc := { d'.doc with bufferViews := vs } } :=
  ⟨⟨h.1.length, h.1.valid, h.1.apart⟩, fun t ht => ⟨⟨(h.2 t ht).1.1, (h.2 t ht).1.2⟩, (h.2 t ht).2⟩⟩

theorem sim_writeBufferViews (G : Grow) (target : Target) (data : List Slice) : Sim (writeBufferViews G target data) (Gltf.writeBufferViews target data) := by
  intro d hd
  obtain ⟨hk, hv⟩ := withBuffer_spec hd
  unfold writeBufferViews Gltf.writeBufferViews
  simp only [W.bind_def, lastBuffer_eq, W.lift, setLastBuffer, W.get, W.put, W.pure_def]
  cases viewSizes target (decide (1 < data.length)) 0 0 0 0 data with
  | err e => exact .err (kept_refl hd) rfl
  | panic w => exact .panic
  | ok x =>
    obtain ⟨stride, size⟩ := x
    simp only
    rw [← hv, last_value hk.1]
    cases hl : last (withBuffer d) with
    | none => exact .panic
    | some x =>
      obtain ⟨b, s⟩ := x
      have hs := last_valid hk.1 hl
      simp only [Option.map_some, deref, bytes_length hs]
      rcases append_cases (G := G) (n := size) hs with ⟨r, w, h1, h2⟩ | ⟨m', s', h1, h2⟩
      · rw [h1, h2]
        exact .panic
      · rw [h1, h2]
        simp only
        obtain ⟨-, g2, g3, -, g5⟩ := append_spec hs h1
        rcases writeAll_spec (stride := stride) data s.len m' g3 with ⟨w, w', h3, h4⟩ | ⟨m'', h3, h4, h5, h6⟩
        · rw [h3, h4]
          exact .panic
        · rw [h3, h4]
          simp only
          obtain ⟨k1, k2⟩ := setLast_spec (bl := wrap64 (b.byteLength + size)) (m := m'') hk.1 hl h5 fun t t1 t2 => by
            obtain ⟨a1, a2, a3⟩ := g5 t t1 t2
            obtain ⟨a4, a5⟩ := h6 t s.len (Nat.le_refl _) a1 a2
            exact ⟨a4, away_mono a2 (by omega), a5.trans a3⟩
          rw [show (withBuffer d).value.bufferViews = (setLast (withBuffer d) m'' (wrap64 (b.byteLength + size)) b s').doc.bufferViews from rfl]
          refine .ok (kept_views (kept_trans hk k1)) ?_
          have hlen := value_length k1.1
          rw [k2] at hlen
          simp only at hlen
          rw [hlen]
          unfold MDoc.value at k2 ⊢
          simp only at k2 ⊢
          have := congrArg Document.buffers k2
          simp only at this
          rw [this]
          rfl

theorem sim_writeBufferView (G : Grow) (target : Target) (data : Slice) : Sim (writeBufferView G target data) (Gltf.writeBufferView target data) := by
  intro d hd
  have h := sim_writeBufferViews G target [data] d hd
  unfold writeBufferView Gltf.writeBufferView
  generalize writeBufferViews G target [data] d = r at h ⊢
  generalize Gltf.writeBufferViews target [data] d.value = r' at h ⊢
  cases h with
  | ok h hx => exact .ok h hx
  | err h hx => exact .ok h hx
  | panic => exact .panic

/-! ### The other functions -/

theorem sim_writeAccessor (G : Grow) (target : Target) (data : Slice) : Sim (writeAccessor G target data) (Gltf.writeAccessor target data) :=
  sim_bind (sim_ensurePadding G) fun _ => sim_bind (sim_writeBufferView G target data) fun _ => sim_rest (apart_appendAccessor _)

theorem sim_writeAccessorsInterleaved (G : Grow) (data : List Slice) : Sim (writeAccessorsInterleaved G data) (Gltf.writeAccessorsInterleaved data) :=
  sim_bind (sim_ensurePadding G) fun _ => sim_bind (sim_writeBufferViews G targetArrayBuffer data) fun _ => sim_rest (apart_appendInterleaved _ _ _)

theorem sim_writeIndices (G : Grow) (data : Slice) : Sim (writeIndices G data) (Gltf.writeIndices data) := by
  obtain ⟨ty, data⟩ := data
  unfold writeIndices Gltf.writeIndices
  cases ty with
  | base k s => cases k <;> cases s <;> first | exact sim_writeAccessor _ _ _ | exact sim_rest (apart_lift _)
  | _ => exact sim_rest (apart_lift _)

theorem sim_writeNormalized (G : Grow) (check : Slice → Res Bool) (data : Slice) :
    Sim (writeNormalized G check data) (Gltf.writeNormalized check data) :=
  sim_bind (sim_rest (apart_lift _)) fun _ => sim_bind (sim_writeAccessor _ _ _) fun _ =>
    sim_bind (sim_rest (apart_modifyAccessor _ _)) fun _ => sim_pure _

theorem sim_writeJoints (G : Grow) (data : Slice) : Sim (writeJoints G data) (Gltf.writeJoints data) :=
  sim_bind (sim_rest (apart_lift _)) fun _ => sim_writeAccessor _ _ _

theorem sim_writePosition (G : Grow) (data : List (V3 F32)) : Sim (writePosition G data) (Gltf.writePosition data) :=
  sim_bind (sim_writeAccessor _ _ _) fun _ => sim_bind (sim_rest (apart_modifyAccessor _ _)) fun _ =>
    sim_bind (sim_rest (apart_modifyAccessor _ _)) fun _ => sim_pure _

theorem sim_writeImage (G : Grow) (name mimeType : Bytes) (r : Except Err Bytes) :
    Sim (writeImage G name mimeType r) (Gltf.writeImage name mimeType r) := by
  cases r with
  | error e => exact sim_rest (apart_lift _)
  | ok data => exact sim_bind (sim_writeBufferView _ _ _) fun i => sim_rest (apart_appendImage { name := name, mimeType := mimeType, bufferView := some (i : Int) })

theorem sim_writePrimitiveAttributes (G : Grow) (attr : List PrimitiveAttribute) :
    Sim (writePrimitiveAttributes G attr) (Gltf.writePrimitiveAttributes attr) := by
  refine sim_bind (sim_rest (apart_lift _)) fun st => sim_bind (sim_writeAccessorsInterleaved _ _) fun _ =>
    sim_bind (sim_rest (apart_assignAttrs _ _)) fun attrs => ?_
  cases mapGet attrs POSITION with
  | none => exact sim_pure _
  | some pos => exact sim_bind (sim_rest (apart_modifyAccessor _ _)) fun _ => sim_bind (sim_rest (apart_modifyAccessor _ _)) fun _ => sim_pure _

theorem agree_discard {α : Type} {d : MDoc} {r : MDoc × Res α} {r' : Document × Res α} (h : Agree d r r') : Agree d (discard r) (Gltf.discard r') := by
  cases h with
  | ok h hx => exact .ok h hx
  | err h hx => exact .err h hx
  | panic => exact .panic

/-- Every writing function. -/
theorem sim_run (G : Grow) (op : WriteOp) (d : MDoc) (h : Own d) : Agree d (run G d op) (op.run d.value) := by
  cases op with
  | indices data => exact agree_discard (sim_writeIndices G data d h)
  | normal data => exact agree_discard (sim_writeAccessor G _ _ d h)
  | tangent data => exact agree_discard (sim_writeAccessor G _ _ d h)
  | textureCoord data => exact agree_discard (sim_writeNormalized G _ _ d h)
  | weights data => exact agree_discard (sim_writeNormalized G _ _ d h)
  | joints data => exact agree_discard (sim_writeJoints G _ d h)
  | inverseBindMatrices data => exact agree_discard (sim_writeAccessor G _ _ d h)
  | position data => exact agree_discard (sim_writePosition G _ d h)
  | color data => exact agree_discard (sim_writeNormalized G _ _ d h)
  | image name mimeType r => exact agree_discard (sim_writeImage G _ _ _ d h)
  | accessor target data => exact agree_discard (sim_writeAccessor G _ _ d h)
  | accessorsInterleaved data => exact agree_discard (sim_writeAccessorsInterleaved G _ d h)
  | primitiveAttributes attr => exact agree_discard (sim_writePrimitiveAttributes G _ d h)
  | bufferView target data => exact agree_discard (sim_writeBufferView G _ _ d h)
  | bufferViewInterleaved data => exact agree_discard (sim_writeBufferViews G _ _ d h)

theorem calls_spec {d d' : MDoc} (h : Calls d d') : Own d → Kept d d' ∧ History d.value d'.value := by
  induction h with
  | nil d => exact fun ho => ⟨kept_refl ho, .nil _⟩
  | step G op hp more ih =>
    rename_i d d'
    intro ho
    have ha := sim_run G op d ho
    have hx : Kept d (run G d op).1 ∧ (op.run d.value).1 = (run G d op).1.value ∧ (op.run d.value).2.isPanic = false := by
      generalize run G d op = r at ha hp
      generalize op.run d.value = r' at ha
      cases ha with
      | ok h hx => exact ⟨h, hx, rfl⟩
      | err h hx => exact ⟨h, hx, rfl⟩
      | panic => cases hp
    obtain ⟨h1, h2, h3⟩ := hx
    obtain ⟨h4, h5⟩ := ih h1.1
    exact ⟨kept_trans h1 h4, .step op h3 (by rw [h2]; exact h5)⟩

end Gltf.Heap
