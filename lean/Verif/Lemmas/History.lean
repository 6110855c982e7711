/-
Every call of a history extends the document, and reads are kept by extensions.
-/
import Verif.Spec.History
import Verif.Lemmas.WriteRead

namespace Gltf

open Spec

theorem writeAccessor_index {target : Target} {data : Slice} {doc doc' : Document} {i : Nat}
    (h : writeAccessor target data doc = (doc', .ok i)) :
    i = doc.accessors.length ∧ doc'.accessors.length = i + 1 ∧ doc'.images = doc.images := by
  obtain ⟨d1, d2, v, h1, h2, rfl, rfl⟩ := writeAccessor_ok.1 h
  have k1 := ensurePadding_accessors h1
  have k2 := writeBufferViews_accessors h2
  exact ⟨by rw [k2.1, k1.1], by simp, by show d2.images = _; rw [k2.2.1, k1.2.2]⟩

theorem extends_writeNormalized (check : Slice → Res Bool) (data : Slice) (d : Document) :
    Extends d (writeNormalized check data d).1 := by
  unfold writeNormalized
  refine extends_bind (Extends.refl d) fun d1 a h _ => ?_
  obtain ⟨rfl, -⟩ := W.lift_ok.1 h
  refine extends_bind (extends_writeAccessor _ _ _) fun d2 i h2 e2 => ?_
  have hi := (writeAccessor_index h2).1
  exact extends_bind (extends_modifyAccessor e2 (by omega)) fun d3 _ h3 e3 => e3

theorem extends_writePosition (data : List (V3 F32)) (d : Document) : Extends d (writePosition data d).1 := by
  unfold writePosition
  refine extends_bind (extends_writeAccessor _ _ _) fun d2 i h2 e2 => ?_
  have hi := (writeAccessor_index h2).1
  refine extends_bind (extends_modifyAccessor e2 (by omega)) fun d3 _ h3 e3 => ?_
  exact extends_bind (extends_modifyAccessor e3 (by omega)) fun d3 _ h3 e3 => e3

theorem extends_writeJoints (data : Slice) (d : Document) : Extends d (writeJoints data d).1 := by
  unfold writeJoints
  refine extends_bind (Extends.refl d) fun d1 a h _ => ?_
  obtain ⟨rfl, -⟩ := W.lift_ok.1 h
  exact extends_writeAccessor _ _ _

theorem writeIndices_cases (data : Slice) :
    (writeIndices data = writeAccessor targetElementArrayBuffer data ∧
      (data.ty = .base .u16 .sc ∨ data.ty = .base .u32 .sc)) ∨
    writeIndices data = W.lift (.panic "modeler.WriteIndices: invalid type") := by
  unfold writeIndices
  split
  · next h => exact .inl ⟨rfl, .inl h⟩
  · next h => exact .inl ⟨rfl, .inr h⟩
  · exact .inr rfl

theorem extends_writeIndices (data : Slice) (d : Document) : Extends d (writeIndices data d).1 := by
  rcases writeIndices_cases data with ⟨h, -⟩ | h
  · rw [h]; exact extends_writeAccessor _ _ _
  · rw [h]; exact Extends.refl d

theorem extends_writeImage (name mimeType : Bytes) (r : Except Err Bytes) (d : Document) :
    Extends d (writeImage name mimeType r d).1 := by
  unfold writeImage
  cases r with
  | error e => exact Extends.refl d
  | ok data =>
    simp only
    refine extends_bind (extends_writeBufferView _ _ _) fun d1 i h e => ?_
    exact ⟨e.accessors, e.bufferViews, e.images.trans (List.prefix_append _ _), e.buffers, e.rest⟩

theorem writeAccessorsInterleaved_index {data : List Slice} {doc doc' : Document} {is : List Nat}
    (h : writeAccessorsInterleaved data doc = (doc', .ok is)) :
    is = (List.range data.length).map (doc.accessors.length + ·) ∧
      doc'.accessors.length = doc.accessors.length + data.length := by
  obtain ⟨d1, d2, v, h1, h2, rfl, rfl⟩ := writeAccessorsInterleaved_ok.1 h
  have k1 := ensurePadding_accessors h1
  have k2 := writeBufferViews_accessors h2
  refine ⟨by rw [k2.1, k1.1], ?_⟩
  simp [newAccessors_length, k2.1, k1.1]

theorem mapGet_mapSet {α : Type} (m : List (Bytes × α)) (k k' : Bytes) (v : α) :
    mapGet (mapSet m k v) k' = if k = k' then some v else mapGet m k' := by
  induction m with
  | nil => simp [mapSet, mapGet]
  | cons x m ih =>
    obtain ⟨a, b⟩ := x
    simp only [mapSet]
    split
    · next h => subst h; simp only [mapGet]; split <;> rfl
    · next h =>
      simp only [mapGet, ih]
      by_cases h1 : a = k'
      · subst h1; rw [if_pos rfl, if_neg (fun h' => h h'.symm), if_pos rfl]
      · rw [if_neg h1, if_neg h1]

theorem extends_assignAttrs {l : List (Nat × Bytes × Bool)} {attrs : PrimitiveAttributes} {d d1 : Document}
    (e : Extends d d1) (hl : ∀ x ∈ l, d.accessors.length ≤ x.1)
    (ha : ∀ k i, mapGet attrs k = some i → (d.accessors.length : Int) ≤ i) :
    Extends d (assignAttrs attrs l d1).1 ∧
      ∀ d2 attrs', assignAttrs attrs l d1 = (d2, .ok attrs') → ∀ k i, mapGet attrs' k = some i → (d.accessors.length : Int) ≤ i := by
  induction l generalizing attrs d1 with
  | nil =>
    refine ⟨e, ?_⟩
    intro d2 attrs' h
    obtain ⟨-, rfl⟩ := W.pure_ok.1 h
    exact ha
  | cons x l ih =>
    obtain ⟨index, name, normalized⟩ := x
    have hx := hl _ (List.mem_cons_self)
    have key : ∀ d3, Extends d d3 → _ := fun d3 e3 => ih (attrs := mapSet attrs name index) (d1 := d3) e3
      (fun x hx => hl x (List.mem_cons_of_mem _ hx)) (by
        intro k i
        rw [mapGet_mapSet]
        split
        · intro h; cases h; simp only at hx; omega
        · exact ha k i)
    simp only [assignAttrs]
    refine ⟨extends_bind (extends_modifyAccessor e hx) fun d2 _ _ e2 => (key _ e2).1, ?_⟩
    intro d2 attrs' h
    obtain ⟨d3, _, h3, h4⟩ := W.bind_ok.1 h
    have e3 := extends_modifyAccessor (f := fun a => { a with normalized := normalized }) e hx
    rw [h3] at e3
    exact (key d3 e3).2 d2 attrs' h4

theorem extends_writePrimitiveAttributes (attr : List PrimitiveAttribute) (d : Document) :
    Extends d (writePrimitiveAttributes attr d).1 := by
  unfold writePrimitiveAttributes
  refine extends_bind (Extends.refl d) fun d1 st h _ => ?_
  obtain ⟨rfl, -⟩ := W.lift_ok.1 h
  refine extends_bind (extends_writeAccessorsInterleaved _ _) fun d2 is h2 e2 => ?_
  have his := (writeAccessorsInterleaved_index h2).1
  have key := extends_assignAttrs (l := is.zip st.props) (attrs := []) e2 (by
    intro x hx
    have := (List.of_mem_zip (a := x.1) (b := x.2) hx).1
    rw [his, List.mem_map] at this
    obtain ⟨a, -, ha⟩ := this
    omega) (by intro k i h; simp [mapGet] at h)
  refine extends_bind key.1 fun d3 attrs h3 e3 => ?_
  cases hpos : mapGet attrs POSITION with
  | none => exact e3
  | some pos =>
    have hp := key.2 _ _ h3 _ _ hpos
    refine extends_bind (extends_modifyAccessor e3 (by omega)) fun d4 _ _ e4 => ?_
    exact extends_bind (extends_modifyAccessor e4 (by omega)) fun d4 _ _ e4 => e4

theorem WriteOp.run_extends (op : WriteOp) (d : Document) : Extends d (op.run d).1 := by
  cases op with
  | indices data => exact extends_writeIndices data d
  | normal data => exact extends_writeAccessor _ _ d
  | tangent data => exact extends_writeAccessor _ _ d
  | textureCoord data => exact extends_writeNormalized _ data d
  | weights data => exact extends_writeNormalized _ data d
  | joints data => exact extends_writeJoints data d
  | inverseBindMatrices data => exact extends_writeAccessor _ _ d
  | position data => exact extends_writePosition data d
  | color data => exact extends_writeNormalized _ data d
  | image name mimeType r => exact extends_writeImage name mimeType r d
  | accessor target data => exact extends_writeAccessor target data d
  | accessorsInterleaved data => exact extends_writeAccessorsInterleaved data d
  | primitiveAttributes attr => exact extends_writePrimitiveAttributes attr d
  | bufferView target data => exact extends_writeBufferView target data d
  | bufferViewInterleaved data => exact extends_writeBufferViews _ data d

theorem History.extends {d d' : Document} (h : History d d') : Extends d d' := by
  induction h with
  | nil => exact Extends.refl _
  | step op _ _ ih => exact (op.run_extends _).trans ih

/-! ### Reads are kept -/

theorem Spec.Extends.readBufferView {d d' : Document} (e : Extends d d') {bv : BufferView} {bytes : Bytes}
    (h : readBufferView d bv = .ok bytes) : readBufferView d' bv = .ok bytes := by
  unfold Gltf.readBufferView at *
  split at h
  · cases h
  split at h
  · cases h
  next h1 h2 =>
  split at h
  · next b hb =>
    obtain ⟨p', hp', he⟩ := e.buffers _ _ hb
    have hlt := getElem?_lt hp'
    rw [if_neg (by omega), if_neg h2]
    rcases he with rfl | ⟨b0, data, len, hb0, rfl, hpre⟩
    · rw [hp']; exact h
    · cases hb0
      rw [hp']
      simp only at h ⊢
      have hle := hpre.length_le
      split at h
      · cases h
      next h3 =>
      rw [if_neg (by omega)]
      split at h
      · next h4 =>
        rw [if_pos h4]
        rw [← h]
        obtain ⟨t, rfl⟩ := hpre
        congr 2
        exact List.take_append_of_le_length (by omega)
      · cases h
  · cases h

theorem Spec.Extends.bufferViewAt {d d' : Document} (e : Extends d d') {i : Int} {bv : BufferView}
    (h : bufferViewAt d i = .ok bv) : bufferViewAt d' i = .ok bv := by
  unfold Gltf.bufferViewAt at *
  split at h
  · cases h
  · next h1 =>
    rw [if_neg h1]
    split at h
    · next hv =>
      obtain ⟨t, ht⟩ := e.bufferViews
      rw [← ht, List.getElem?_append_left (getElem?_lt hv), hv]
      exact h
    · cases h
    · cases h

theorem Spec.Extends.readBufferViewIndex {d d' : Document} (e : Extends d d') {i : Int} {bytes : Bytes}
    (h : readBufferViewIndex d i = .ok bytes) : readBufferViewIndex d' i = .ok bytes := by
  unfold Gltf.readBufferViewIndex at *
  split at h
  · cases h
  · next h1 =>
    have := e.bufferViews.length_le
    rw [if_neg (by omega)]
    rw [Res.bind_eq_ok] at h ⊢
    obtain ⟨bv, h2, h3⟩ := h
    exact ⟨bv, e.bufferViewAt h2, e.readBufferView h3⟩

theorem Spec.Extends.readDense {d d' : Document} (e : Extends d d') {c : ComponentType} {t : AccessorType} {count : Int}
    {bufferView : Option Int} {byteOffset : Int} {buffer : Bytes} {s : Slice}
    (h : readDense d c t count bufferView byteOffset buffer = .ok s) :
    readDense d' c t count bufferView byteOffset buffer = .ok s := by
  unfold Gltf.readDense at *
  rw [Res.bind_eq_ok] at h ⊢
  obtain ⟨data, h1, h2⟩ := h
  refine ⟨data, h1, ?_⟩
  cases bufferView with
  | none => exact h2
  | some i =>
    simp only [Res.bind_eq_ok] at h2 ⊢
    obtain ⟨buf, k1, bv, k2, k3⟩ := h2
    exact ⟨buf, e.readBufferViewIndex k1, bv, e.bufferViewAt k2, k3⟩

theorem Spec.Extends.readIndicesDense {d d' : Document} (e : Extends d d') {c : ComponentType} {t : AccessorType} {count : Int}
    {bufferView : Option Int} {byteOffset : Int} {buffer : List UInt32} {pool : Bytes} {s : List UInt32}
    (h : readIndicesDense d c t count bufferView byteOffset buffer pool = .ok s) :
    readIndicesDense d' c t count bufferView byteOffset buffer pool = .ok s := by
  unfold Gltf.readIndicesDense at *
  simp only [Res.bind_eq_ok] at h ⊢
  obtain ⟨_, h1, data, h2, h3⟩ := h
  exact ⟨_, h1, data, e.readDense h2, h3⟩

theorem Spec.Extends.readAccessor {d d' : Document} (e : Extends d d') {acr : Accessor} {buffer : Bytes} {p : Pools} {s : Slice}
    (h : readAccessor d acr buffer p = .ok s) : readAccessor d' acr buffer p = .ok s := by
  unfold Gltf.readAccessor at *
  rw [Res.bind_eq_ok] at h ⊢
  obtain ⟨data, h1, h2⟩ := h
  refine ⟨data, e.readDense h1, ?_⟩
  split at h2
  · exact h2
  · simp only [Res.bind_eq_ok] at h2 ⊢
    obtain ⟨idx, k1, vals, k2, k3⟩ := h2
    exact ⟨idx, e.readIndicesDense k1, vals, e.readDense k2, k3⟩

theorem Spec.Extends.accessor {d d' : Document} (e : Extends d d') {i : Nat} {a : Option Accessor}
    (h : d.accessors[i]? = some a) : d'.accessors[i]? = some a := by
  obtain ⟨t, ht⟩ := e.accessors
  rw [← ht, List.getElem?_append_left (getElem?_lt h), h]

theorem Spec.Extends.view {d d' : Document} (e : Extends d d') {i : Nat} {a : Option BufferView}
    (h : d.bufferViews[i]? = some a) : d'.bufferViews[i]? = some a := by
  obtain ⟨t, ht⟩ := e.bufferViews
  rw [← ht, List.getElem?_append_left (getElem?_lt h), h]

end Gltf
