/-
Reading depends only on the buffer views and on the data of the buffers; documents stay saveable while they are
written to.
-/
import Verif.Spec.Survive
import Verif.Lemmas.WellFormed
import Verif.Props.Bounds
import Verif.Lemmas.EncodeOk

namespace Gltf

open Spec

/-! ### Reading the same data -/

/-- The same buffer views, and buffers with the same data. -/
structure SameData (d d' : Document) : Prop where
  views : d'.bufferViews = d.bufferViews
  data : d'.buffers.map (·.map (·.data)) = d.buffers.map (·.map (·.data))

theorem SameData.readBufferView {d d' : Document} (h : SameData d d') (bv : BufferView) : readBufferView d' bv = readBufferView d bv := by
  have hl : d'.buffers.length = d.buffers.length := by simpa using congrArg List.length h.data
  unfold Gltf.readBufferView
  rw [hl]
  split
  · rfl
  split
  · rfl
  have hg : (d'.buffers[bv.buffer.toNat]?).map (·.map (·.data)) = (d.buffers[bv.buffer.toNat]?).map (·.map (·.data)) := by
    rw [← List.getElem?_map, ← List.getElem?_map, h.data]
  cases h1 : d.buffers[bv.buffer.toNat]? with
  | none =>
    rw [h1] at hg
    cases h2 : d'.buffers[bv.buffer.toNat]? with
    | none => rfl
    | some x => rw [h2] at hg; cases hg
  | some x =>
    rw [h1] at hg
    cases h2 : d'.buffers[bv.buffer.toNat]? with
    | none => rw [h2] at hg; cases hg
    | some y =>
      rw [h2] at hg
      simp only [Option.map_some, Option.some.injEq] at hg
      cases x with
      | none =>
        cases y with
        | none => rfl
        | some y => cases hg
      | some x =>
        cases y with
        | none => cases hg
        | some y =>
          simp only [Option.map_some, Option.some.injEq] at hg
          simp only [hg]

theorem SameData.bufferViewAt {d d' : Document} (h : SameData d d') (i : Int) : bufferViewAt d' i = bufferViewAt d i := by
  unfold Gltf.bufferViewAt
  rw [h.views]

theorem SameData.readBufferViewIndex {d d' : Document} (h : SameData d d') (i : Int) :
    readBufferViewIndex d' i = readBufferViewIndex d i := by
  unfold Gltf.readBufferViewIndex
  rw [h.views, h.bufferViewAt, show Gltf.readBufferView d' = Gltf.readBufferView d from funext h.readBufferView]

theorem SameData.readDense {d d' : Document} (h : SameData d d') : readDense d' = readDense d := by
  funext c t count bufferView byteOffset buffer
  unfold Gltf.readDense
  cases bufferView with
  | none => rfl
  | some i => simp only [h.bufferViewAt, h.readBufferViewIndex]

theorem SameData.readAccessor {d d' : Document} (h : SameData d d') : readAccessor d' = readAccessor d := by
  funext acr buffer p
  unfold Gltf.readAccessor Gltf.readIndicesDense
  rw [h.readDense]

theorem sameBuffers_data : ∀ {bin : Bool} {l l' : List (Option Buffer)}, SameBuffers bin l l' →
    l'.map (·.map (·.data)) = l.map (·.map (·.data))
  | _, [], [], _ => rfl
  | bin, some b :: l, some b' :: l', h => by
    have h1 := sameBuffers_data h.2
    have h2 : b'.data = b.data := by
      have := h.1
      unfold SameBuffer at this
      split at this
      · obtain ⟨t, -, rfl⟩ := this; rfl
      · obtain ⟨u, -, rfl⟩ := this; rfl
    simp [h1, h2]
  | _, [], _ :: _, h => h.elim
  | _, none :: _, _, h => by unfold SameBuffers at h; exact h.elim
  | _, some _ :: _, [], h => h.elim
  | _, some _ :: _, none :: _, h => h.elim

/-! ### Documents that can take more data -/

theorem Spec.DocumentOk.update {r : Registry} {n : Nat} {d : Document} (h : DocumentOk r n d) {bs : List (Option Buffer)}
    {vs : List (Option BufferView)} {as : List (Option Accessor)} {is : List (Option Image)}
    (hb : ∀ o ∈ bs, ∀ a ∈ o, BufferOk r n a) (hv : ∀ o ∈ vs, ∀ a ∈ o, BufferViewOk r n a) (ha : ∀ o ∈ as, ∀ a ∈ o, AccessorOk r n a)
    (hi : ∀ o ∈ is, ∀ a ∈ o, ImageOk r n a) :
    DocumentOk r n { d with buffers := bs, bufferViews := vs, accessors := as, images := is } where
  buffers := hb
  extensions := h.extensions
  extras := h.extras
  extensionsUsed := h.extensionsUsed
  extensionsRequired := h.extensionsRequired
  accessors := ha
  animations := h.animations
  asset := h.asset
  bufferViews := hv
  cameras := h.cameras
  images := hi
  materials := h.materials
  meshes := h.meshes
  nodes := h.nodes
  samplers := h.samplers
  scene := h.scene
  scenes := h.scenes
  skins := h.skins
  textures := h.textures

theorem forall_mem_concat {α : Type} {p : Option α → Prop} {l : List (Option α)} {a : Option α} (h : ∀ o ∈ l, p o) (ha : p a) :
    ∀ o ∈ l ++ [a], p o := by
  intro o ho
  rcases List.mem_append.1 ho with ho | ho
  · exact h o ho
  · rw [List.mem_singleton.1 ho]; exact ha

theorem utf8Empty : IsUtf8 ([] : Bytes) := utf8_ascii (by decide)

theorem noExtensions (r : Registry) (n : Nat) : ExtOk r n [] := ⟨⟨by simp, by simp⟩, by simp⟩

/-- `Spec.Growable` with any condition on the URI of the last buffer. -/
structure GrowableU (P : Bytes → Prop) (r : Registry) (n : Nat) (bin : Bool) (d : Document) : Prop where
  ok : DocumentOk r n d
  images : none ∉ d.images
  buffers : d.buffers = [] ∨ ∃ bs b, d.buffers = bs ++ [some b] ∧ AllStorable bin bs ∧ (b.uri = [] ∨ P b.uri) ∧ b.byteLength = b.data.length

section
variable {P : Bytes → Prop} {r : Registry} {n : Nat} {bin : Bool} {d d' : Document}

theorem grow_ensured (h : GrowableU P r n bin d) : GrowableU P r n bin (ensured d) := by
  unfold ensured
  split
  · next h0 =>
    have h0 := List.length_eq_zero_iff.1 h0
    refine ⟨?_, h.images, .inr ⟨[], {}, by simp [h0], trivial, .inl rfl, rfl⟩⟩
    refine h.ok.update (forall_mem_concat h.ok.buffers ?_) h.ok.bufferViews h.ok.accessors h.ok.images
    intro a ha
    cases ha
    exact ⟨noExtensions _ _, .null n, utf8Empty, utf8Empty, by unfold IntOk; decide⟩
  · exact h

theorem grow_last (h : GrowableU P r n bin d) {b : Buffer} (hb : (ensured d).buffers.getLast?.join = some b) :
    AllStorable bin (ensured d).buffers.dropLast ∧ (b.uri = [] ∨ P b.uri) ∧ b.byteLength = b.data.length := by
  rcases (grow_ensured h).buffers with h0 | ⟨bs, b', h1, h2, h3, h4⟩
  · rw [h0] at hb; cases hb
  · rw [h1] at hb ⊢
    simp only [List.getLast?_append, List.getLast?_singleton, Option.some_or, Option.join_some, Option.some.injEq] at hb
    subst hb
    simp only [List.dropLast_concat]
    exact ⟨h2, h3, h4⟩

theorem grow_withLast (h : GrowableU P r n bin d) {b : Buffer} {data : Bytes} {len : Int}
    (hb : (ensured d).buffers.getLast?.join = some b) (hl : len = data.length) (hm : data.length ≤ maxAlloc) :
    GrowableU P r n bin (withLast d { b with data := data, byteLength := len }) := by
  obtain ⟨h1, h2, h3⟩ := grow_last h hb
  refine ⟨?_, h.images, .inr ⟨_, _, rfl, h1, h2, hl⟩⟩
  have hbs := (grow_ensured h).ok.buffers
  have hbo := hbs (some b) (by rw [last_decomp hb]; simp) b rfl
  refine h.ok.update (forall_mem_concat (fun o ho => hbs o ((List.dropLast_sublist _).subset ho)) ?_) h.ok.bufferViews
    h.ok.accessors h.ok.images
  intro a ha
  cases ha
  exact ⟨hbo.extensions, hbo.extras, hbo.name, hbo.uri, by
    show IntOk len
    unfold IntOk
    unfold maxAlloc at hm
    omega⟩

theorem grow_ensurePadding (h : GrowableU P r n bin d) (hd : ensurePadding d = (d', .ok ())) : GrowableU P r n bin d' := by
  obtain ⟨b, hb, hle, rfl⟩ := ensurePadding_ok.1 hd
  refine grow_withLast h hb ?_ ?_
  · rw [(grow_last h hb).2.2, wrap64_id (by omega) (by unfold maxAlloc at hle; omega)]
    simp
  · simp; omega

/-- Sizes of a buffer view that was written. -/
theorem view_bounds {target : Target} {data : List Slice} {stride size : Nat} {b bytes : Bytes}
    (hv : viewSizes target (decide (1 < data.length)) 0 0 0 0 data = .ok (stride, size)) (hle : b.length + size ≤ maxAlloc)
    (hw : writeAll stride b.length (b ++ List.replicate size 0) data = .ok bytes) :
    stride < 9223372036854775808 ∧ ∀ x ∈ data, x.data.length ≤ size := by
  rcases viewSizes_cases hv with ⟨rfl, -⟩ | ⟨m, hm, hs, hsz, hst⟩
  · rw [viewSizes_nil] at hv
    cases hv
    exact ⟨by decide, by simp⟩
  · constructor
    · by_cases h1 : data.length ≤ 1
      · match data, h1 with
        | [], _ => rw [viewSizes_nil] at hv; cases hv; decide
        | [x], _ =>
          rw [viewSizes_single] at hv
          have hx : x.esz ≤ 64 := by
            unfold Slice.esz
            have : ∀ (k : Kind) (s : Shape), elemSize k s ≤ 64 := by intro k s; cases k <;> cases s <;> decide
            exact this _ _
          cases hv
          split <;> omega
      · obtain hst := hst.resolve_left h1
        obtain ⟨x, hx⟩ : ∃ x, data[data.length - 1]? = some x := ⟨_, List.getElem?_eq_getElem (by omega)⟩
        have hin := writeAll_inside hw (j := data.length - 1) (by omega)
        have hx64 : x.esz ≤ 64 := by
          unfold Slice.esz
          have : ∀ (k : Kind) (s : Shape), elemSize k s ≤ 64 := by intro k s; cases k <;> cases s <;> decide
          exact this _ _
        have hrow : rowSize data = rowSize (data.take (data.length - 1)) + x.esz := by
          have : data = data.take (data.length - 1) ++ [x] := by
            conv => lhs; rw [← List.take_append_drop (data.length - 1) data]
            congr 1
            have hlt := getElem?_lt hx
            rw [List.getElem?_eq_getElem hlt] at hx
            rw [List.drop_eq_getElem_cons hlt, Option.some.inj hx, List.drop_eq_nil_of_le (by omega)]
          conv => lhs; rw [this]
          simp [rowSize, Slice.esz]
        simp only [List.length_append, List.length_replicate] at hin
        unfold maxAlloc at hle
        omega
    · intro x hx
      rw [hm x hx, hsz]
      have hpos : 0 < rowSize data := by
        rw [← hs x hx]
        have := elemSize_pos (kind x.ty) (shape x.ty)
        unfold effStride
        split <;> omega
      exact Nat.le_mul_of_pos_right _ hpos

/-- What writing a buffer view gives. -/
theorem grow_writeBufferViews {target : Target} {data : List Slice} {v : Nat} (h : GrowableU P r n bin d)
    (hd : writeBufferViews target data d = (d', .ok v)) (hs1 : d'.buffers.length < 9223372036854775808) :
    GrowableU P r n bin d' ∧ ∀ x ∈ data, x.data.length ≤ maxAlloc := by
  obtain ⟨stride, size, b, bytes, hv, hb, hle, hw, rfl, rfl⟩ := writeBufferViews_ok.1 hd
  obtain ⟨k1, k2⟩ := view_bounds hv hle hw
  have hlen := writeAll_prefix hw
  have hg := grow_withLast h hb (data := bytes) (len := wrap64 (b.byteLength + (size : Nat)))
    (by rw [(grow_last h hb).2.2, wrap64_id (by omega) (by unfold maxAlloc at hle; omega), hlen.2]; simp) (by omega)
  refine ⟨⟨?_, hg.images, hg.buffers⟩, fun x hx => by have := k2 x hx; omega⟩
  refine hg.ok.update hg.ok.buffers (forall_mem_concat hg.ok.bufferViews ?_) hg.ok.accessors hg.ok.images
  intro a ha
  cases ha
  have hne := List.length_pos_iff.2 (ensured_buffers_ne d)
  have hbl : (ensured d).buffers.length < 9223372036854775808 := by
    simp only [withLast, List.length_append, List.length_dropLast, List.length_singleton] at hs1
    omega
  unfold maxAlloc at hle
  refine ⟨noExtensions _ _, .null n, ?_, ?_, ?_, ?_, utf8Empty⟩ <;> (unfold IntOk; simp only; omega)

theorem c_known (t : ETy) : (∀ k, t.c ≠ .unknown k) ∧ ∀ k, t.t ≠ .unknown k := by
  cases t with
  | base k s => cases k <;> cases s <;> exact ⟨fun _ h => (nomatch h), fun _ h => (nomatch h)⟩
  | rgba => exact ⟨fun _ h => (nomatch h), fun _ h => (nomatch h)⟩
  | rgba64 => exact ⟨fun _ h => (nomatch h), fun _ h => (nomatch h)⟩

theorem grow_append (h : GrowableU P r n bin d) {l : List Accessor} (hl : ∀ a ∈ l, AccessorOk r n a) :
    GrowableU P r n bin { d with accessors := d.accessors ++ l.map some } := by
  refine ⟨h.ok.update h.ok.buffers h.ok.bufferViews ?_ h.ok.images, h.images, h.buffers⟩
  intro o ho a ha
  rcases List.mem_append.1 ho with ho | ho
  · exact h.ok.accessors o ho a ha
  · obtain ⟨x, hx, rfl⟩ := List.mem_map.1 ho
    cases ha
    exact hl _ hx

theorem accessor_ok {v : Nat} {off count : Int} {t : ETy} (hv : v < 9223372036854775808) (ho : IntOk off) (hc : IntOk count) :
    AccessorOk r n { bufferView := some (v : Int), byteOffset := off, componentType := t.c, type := t.t, count := count } where
  extensions := noExtensions _ _
  extras := .null n
  name := utf8Empty
  bufferView := by intro i hi; cases hi; unfold IntOk; omega
  byteOffset := ho
  componentType := (c_known t).1
  count := hc
  type := (c_known t).2
  max := by intro x hx; cases hx
  min := by intro x hx; cases hx
  sparse := by intro x hx; cases hx

theorem grow_writeAccessor {target : Target} {data : Slice} {i : Nat} (h : GrowableU P r n bin d)
    (hd : writeAccessor target data d = (d', .ok i)) (hs1 : d'.buffers.length < 9223372036854775808)
    (hs2 : d'.bufferViews.length < 9223372036854775808) : GrowableU P r n bin d' := by
  obtain ⟨d1, d2, v, h1, h2, rfl, rfl⟩ := writeAccessor_ok.1 hd
  obtain ⟨g, hx⟩ := grow_writeBufferViews (grow_ensurePadding h h1) h2 hs1
  have hv := (writeBufferViews_accessors h2).2.2.2
  have hx := hx data (by simp)
  simp only at hs2
  refine grow_append g (l := [_]) ?_
  intro a ha
  rw [List.mem_singleton.1 ha]
  unfold maxAlloc at hx
  exact accessor_ok (by omega) (by unfold IntOk; decide) (by unfold IntOk; omega)

theorem grow_writeAccessorsInterleaved {data : List Slice} {is : List Nat} (h : GrowableU P r n bin d)
    (hd : writeAccessorsInterleaved data d = (d', .ok is)) (hs1 : d'.buffers.length < 9223372036854775808)
    (hs2 : d'.bufferViews.length < 9223372036854775808) : GrowableU P r n bin d' := by
  obtain ⟨d1, d2, v, h1, h2, rfl, rfl⟩ := writeAccessorsInterleaved_ok.1 hd
  obtain ⟨g, hx⟩ := grow_writeBufferViews (grow_ensurePadding h h1) h2 hs1
  have hv := (writeBufferViews_accessors h2).2.2.2
  simp only at hs2
  refine grow_append g ?_
  intro a ha
  obtain ⟨j, x, hj, rfl⟩ := mem_newAccessors ha
  have hx := hx x (List.mem_of_getElem? hj)
  obtain ⟨stride, size, b, bytes, -, -, hle, hw, -, -⟩ := writeBufferViews_ok.1 h2
  have hin := writeAll_inside hw (getElem?_lt hj)
  simp only [List.length_append, List.length_replicate] at hin
  unfold maxAlloc at hx hle
  exact accessor_ok (by omega) (by unfold IntOk; omega) (by unfold IntOk; omega)

/-! ### The bounds of positions -/

/-- The bounds of all accessors are finite. -/
def FiniteBounds (d : Document) : Prop :=
  ∀ o ∈ d.accessors, ∀ a ∈ o, (∀ x ∈ a.max, x.finite = true) ∧ ∀ x ∈ a.min, x.finite = true

theorem Spec.DocumentOk.finiteBounds (h : DocumentOk r n d) : FiniteBounds d := fun o ho a ha => ⟨(h.accessors o ho a ha).max, (h.accessors o ho a ha).min⟩

theorem finite_modify {i : Nat} {f : Accessor → Accessor} (h : FiniteBounds d) (hd : modifyAccessor i f d = (d', .ok ()))
    (hf : ∀ a, ((∀ x ∈ a.max, x.finite = true) ∧ ∀ x ∈ a.min, x.finite = true) → (∀ x ∈ (f a).max, x.finite = true) ∧ ∀ x ∈ (f a).min, x.finite = true) :
    FiniteBounds d' := by
  unfold modifyAccessor at hd
  split at hd
  · simp at hd
  · simp at hd
  · next a ha =>
    simp only [Prod.mk.injEq, and_true] at hd
    subst hd
    intro o ho b hb
    rcases List.mem_or_eq_of_mem_set ho with ho | rfl
    · exact h o ho b hb
    · cases hb
      exact hf a (h _ (List.mem_of_getElem? ha) a rfl)

theorem finite_assignAttrs {l : List (Nat × Bytes × Bool)} {attrs attrs' : PrimitiveAttributes} {d : Document} (h : FiniteBounds d)
    (hd : assignAttrs attrs l d = (d', .ok attrs')) : FiniteBounds d' := by
  induction l generalizing attrs d with
  | nil =>
    obtain ⟨rfl, -⟩ := W.pure_ok.1 hd
    exact h
  | cons x l ih =>
    obtain ⟨index, name, normalized⟩ := x
    simp only [assignAttrs] at hd
    obtain ⟨d1, _, h1, h2⟩ := W.bind_ok.1 hd
    exact ih (finite_modify h h1 fun a ha => ha) h2

theorem minMax_finite {data : List (V3 F32)} (h : ∀ v ∈ data, FiniteVec v) :
    (∀ x ∈ (minMaxFloat32 data).1.toList, x.finite = true) ∧ ∀ x ∈ (minMaxFloat32 data).2.toList, x.finite = true := by
  obtain ⟨a, b, c, a', b', c', h1, h2, e1, e2, e3⟩ := minMaxFloat32_exact data h
  rw [h1, h2]
  constructor
  · intro x hx
    simp only [List.mem_cons, List.not_mem_nil, or_false] at hx
    rcases hx with rfl | rfl | rfl
    · exact e1.1
    · exact e2.1
    · exact e3.1
  · intro x hx
    simp only [List.mem_cons, List.not_mem_nil, or_false] at hx
    rcases hx with rfl | rfl | rfl
    · exact e1.2.1
    · exact e2.2.1
    · exact e3.2.1

/-- The bounds of the first loop of `WritePrimitiveAttributes`. -/
def FiniteState (mn mx : V3 F64) : Prop := (∀ x ∈ mn.toList, x.finite = true) ∧ ∀ x ∈ mx.toList, x.finite = true

theorem checkAttr_finite {name : Bytes} {s : Slice} {mn mx mn' mx' : V3 F64} {b : Bool} (h : FiniteState mn mx)
    (hp : name = POSITION → ∀ v, s = ⟨.base .f32 .v3, v⟩ → ∀ x ∈ v, FiniteVec x) (hc : checkAttr name s mn mx = .ok (b, mn', mx')) :
    FiniteState mn' mx' := by
  unfold checkAttr at hc
  split at hc
  · next hn =>
    split at hc
    · cases hc
      exact minMax_finite (hp hn _ rfl)
    · cases hc
  · have key : ∀ {α : Type} (x : Res α) (f : α → Bool), x.map (fun n => (f n, mn, mx)) = .ok (b, mn', mx') → FiniteState mn' mx' := by
      intro α x f hx
      cases x with
      | ok a => cases hx; exact h
      | err e => cases hx
      | panic w => cases hx
    split at hc
    · exact key _ id hc
    split at hc
    · exact key _ id hc
    split at hc
    · exact key _ (fun _ => false) hc
    split at hc
    · exact key _ id hc
    · cases hc; exact h

theorem collectAttrs_finite {attr : List PrimitiveAttribute} {st st' : AttrState} (h : FiniteState st.min st.max)
    (hp : ∀ a ∈ attr, a.name = POSITION → ∀ v, a.data = some ⟨.base .f32 .v3, v⟩ → ∀ x ∈ v, FiniteVec x)
    (hc : collectAttrs st attr = .ok st') : FiniteState st'.min st'.max := by
  induction attr generalizing st with
  | nil => cases hc; exact h
  | cons a attr ih =>
    have hp' := fun b hb => hp b (List.mem_cons_of_mem _ hb)
    unfold collectAttrs at hc
    split at hc
    · exact ih h hp' hc
    · next s hs =>
      split at hc
      · exact ih h hp' hc
      · rw [Res.bind_eq_ok] at hc
        obtain ⟨⟨b, mn, mx⟩, h1, h2⟩ := hc
        exact ih (st := { data := st.data ++ [s], props := st.props ++ [(a.name, b)], min := mn, max := mx })
          (checkAttr_finite h (fun hn v hv => hp a List.mem_cons_self hn v (by rw [hs, hv])) h1) hp' h2

/-- Only the bounds matter for documents that differ in the bounds and in `Normalized`. -/
theorem grow_same (h : GrowableU P r n bin d) (s : SameDoc d d') (hf : FiniteBounds d') : GrowableU P r n bin d' := by
  have hb : d'.buffers = d.buffers := by rw [s.rest]
  have hi : d'.images = d.images := by rw [s.rest]
  refine ⟨?_, by rw [hi]; exact h.images, by rw [hb]; exact h.buffers⟩
  rw [s.rest]
  refine h.ok.update h.ok.buffers h.ok.bufferViews ?_ h.ok.images
  intro o ho a ha
  obtain ⟨f1, f2⟩ := hf o ho a ha
  obtain ⟨i, hi⟩ := List.mem_iff_getElem?.1 ho
  obtain ⟨b, hb, hs⟩ := s.back hi
  have hb := h.ok.accessors b (List.mem_of_getElem? hb)
  rcases hs with rfl | ⟨y, mn, mx, nm, rfl, rfl⟩
  · exact hb a ha
  · cases ha
    have := hb y rfl
    exact ⟨this.extensions, this.extras, this.name, this.bufferView, this.byteOffset, this.componentType, this.count, this.type,
      f1, f2, this.sparse⟩

theorem op_ok {op : WriteOp} (h : GrowableU P r n bin d) (hp : PlainOp op) (hr : op.run d = (d', .ok ()))
    (hs1 : d'.buffers.length < 9223372036854775808) (hs2 : d'.bufferViews.length < 9223372036854775808) : GrowableU P r n bin d' := by
  have acc : ∀ {target data i}, writeAccessor target data d = (d', .ok i) → GrowableU P r n bin d' :=
    fun h' => grow_writeAccessor h h' hs1 hs2
  have norm : ∀ {check data i}, writeNormalized check data d = (d', .ok i) → GrowableU P r n bin d' := by
    intro check data i h'
    obtain ⟨d1, b, -, h1, h2⟩ := writeNormalized_core h'
    have s := modifyAccessor_same (fun a => sameNorm a b) h2
    have g := grow_writeAccessor h h1 (by rw [s.rest] at hs1; exact hs1) (by rw [s.rest] at hs2; exact hs2)
    exact grow_same g s (finite_modify (DocumentOk.finiteBounds g.ok) h2 fun a ha => ha)
  cases op with
  | indices data =>
    obtain ⟨i, h'⟩ := discard_ok.1 hr
    rcases writeIndices_cases data with ⟨h1, -⟩ | h1
    · rw [h1] at h'; exact acc h'
    · rw [h1] at h'; exact nomatch (W.lift_ok.1 h').2
  | normal data => obtain ⟨i, h'⟩ := discard_ok.1 hr; exact acc h'
  | tangent data => obtain ⟨i, h'⟩ := discard_ok.1 hr; exact acc h'
  | inverseBindMatrices data => obtain ⟨i, h'⟩ := discard_ok.1 hr; exact acc h'
  | accessor target data => obtain ⟨i, h'⟩ := discard_ok.1 hr; exact acc h'
  | accessorsInterleaved data => obtain ⟨i, h'⟩ := discard_ok.1 hr; exact grow_writeAccessorsInterleaved h h' hs1 hs2
  | textureCoord data => obtain ⟨i, h'⟩ := discard_ok.1 hr; exact norm h'
  | weights data => obtain ⟨i, h'⟩ := discard_ok.1 hr; exact norm h'
  | color data => obtain ⟨i, h'⟩ := discard_ok.1 hr; exact norm h'
  | joints data =>
    obtain ⟨i, h'⟩ := discard_ok.1 hr
    unfold writeJoints at h'
    obtain ⟨d1, _, h1, g⟩ := W.bind_ok.1 h'
    obtain ⟨rfl, -⟩ := W.lift_ok.1 h1
    exact acc g
  | position data =>
    obtain ⟨i, h'⟩ := discard_ok.1 hr
    obtain ⟨d1, d2, h1, h2, h3⟩ := writePosition_core h'
    have s1 := modifyAccessor_same (fun a => sameMin a _) h2
    have s2 := modifyAccessor_same (fun a => sameMax a _) h3
    have s := s1.trans s2
    have g := grow_writeAccessor h h1 (by rw [s.rest] at hs1; exact hs1) (by rw [s.rest] at hs2; exact hs2)
    have hm := minMax_finite hp
    exact grow_same g s (finite_modify (finite_modify (DocumentOk.finiteBounds g.ok) h2 fun a ha => ⟨ha.1, hm.1⟩) h3 fun a ha => ⟨hm.2, ha.2⟩)
  | image name mimeType res =>
    obtain ⟨i, h'⟩ := discard_ok.1 hr
    unfold writeImage at h'
    cases res with
    | error e => exact nomatch (W.lift_ok.1 h').2
    | ok data =>
      simp only at h'
      obtain ⟨d1, v, h1, g⟩ := W.bind_ok.1 h'
      rw [writeBufferView_eq] at h1
      simp only [W.bind_def, W.get, W.put, W.pure_def, Prod.mk.injEq] at g
      obtain ⟨rfl, -⟩ := g
      have hv := (writeBufferViews_accessors h1).2.2.2
      have g := (grow_writeBufferViews h h1 hs1).1
      simp only at hs2
      refine ⟨g.ok.update g.ok.buffers g.ok.bufferViews g.ok.accessors (forall_mem_concat g.ok.images ?_), ?_, g.buffers⟩
      · intro a ha
        cases ha
        exact ⟨noExtensions _ _, .null n, hp.1, utf8Empty, hp.2, by intro i hi; cases hi; unfold IntOk; omega⟩
      · intro hn
        rcases List.mem_append.1 hn with hn | hn
        · exact g.images hn
        · simp at hn
  | primitiveAttributes attr =>
    obtain ⟨i, h'⟩ := discard_ok.1 hr
    obtain ⟨st, d1, is, d2, h1, h2, h3, h4⟩ := writePrimitiveAttributes_core h'
    have s0 := same_assignAttrs h3
    have s : SameDoc d1 d' := by
      refine s0.trans ?_
      rcases h4 with ⟨-, rfl⟩ | ⟨pos, d3, -, h5, h6⟩
      · exact .refl _
      · exact (modifyAccessor_same (fun a => sameMin a _) h5).trans (modifyAccessor_same (fun a => sameMax a _) h6)
    have g := grow_writeAccessorsInterleaved h h2 (by rw [s.rest] at hs1; exact hs1) (by rw [s.rest] at hs2; exact hs2)
    refine grow_same g s ?_
    have f2 := finite_assignAttrs (DocumentOk.finiteBounds g.ok) h3
    have hm : FiniteState st.min st.max := collectAttrs_finite (by constructor <;> decide) hp h1
    rcases h4 with ⟨-, rfl⟩ | ⟨pos, d3, -, h5, h6⟩
    · exact f2
    · exact finite_modify (finite_modify f2 h5 fun a ha => ⟨ha.1, hm.1⟩) h6 fun a ha => ⟨hm.2, ha.2⟩
  | bufferView target data =>
    obtain ⟨i, h'⟩ := discard_ok.1 hr
    rw [writeBufferView_eq] at h'
    exact (grow_writeBufferViews h h' hs1).1
  | bufferViewInterleaved data =>
    obtain ⟨i, h'⟩ := discard_ok.1 hr
    exact (grow_writeBufferViews h h' hs1).1

theorem Spec.PlainHistory.history (h : PlainHistory d d') : History d d' := by
  induction h with
  | nil => exact .nil _
  | step op _ hp _ ih => exact .step op hp ih

theorem Spec.Extends.buffers_le (e : Extends d d') : d.buffers.length ≤ d'.buffers.length := by
  by_cases h0 : d.buffers.length = 0
  · omega
  · obtain ⟨p, hp, -⟩ := e.buffers (d.buffers.length - 1) _ (List.getElem?_eq_getElem (by omega))
    have := getElem?_lt hp
    omega

theorem Spec.PlainHistory.growU (h : PlainHistory d d') (g : GrowableU P r n bin d)
    (hs1 : d'.buffers.length < 9223372036854775808) (hs2 : d'.bufferViews.length < 9223372036854775808) : GrowableU P r n bin d' := by
  induction h with
  | nil => exact g
  | step op hp hn rest ih =>
    next d d' =>
    have e := rest.history.extends
    have l1 := e.buffers_le
    have l2 := e.bufferViews.length_le
    refine ih ?_ hs1 hs2
    cases hr : op.run d with
    | mk d1 res =>
      rw [hr] at hn l1 l2
      cases res with
      | panic w => cases hn
      | err e =>
        rcases WriteOp.run_err hr with rfl | h'
        · exact g
        · exact grow_ensurePadding g h'
      | ok u => exact op_ok g hp hr (Nat.lt_of_le_of_lt l1 hs1) (Nat.lt_of_le_of_lt l2 hs2)

theorem Spec.PlainHistory.grow (h : PlainHistory d d') (g : Growable r n bin d)
    (hs1 : d'.buffers.length < 9223372036854775808) (hs2 : d'.bufferViews.length < 9223372036854775808) : Growable r n bin d' :=
  have g' := h.growU (P := fun u => ∃ name, FileUri u name ∧ FileName name) ⟨g.ok, g.images, g.buffers⟩ hs1 hs2
  ⟨g'.ok, g'.images, g'.buffers⟩

theorem allStorable_concat : ∀ {bin : Bool} {bs : List (Option Buffer)} {b : Buffer}, AllStorable bin bs → (b.uri = [] ∨ ∃ name, FileUri b.uri name ∧ FileName name) →
    b.byteLength = b.data.length → b.data ≠ [] → AllStorable bin (bs ++ [some b])
  | bin, [], b, _, hu, hl, hd => by
    have hpos := List.length_pos_iff.2 hd
    refine ⟨by omega, ?_, trivial⟩
    rcases hu with hu | ⟨name, hu, hv⟩
    · cases bin with
      | true => exact .chunk rfl hu hl.symm
      | false => exact .inline rfl hu hd
    · exact .file name hu hv hd (by omega)
  | _, none :: _, _, h, _, _, _ => h.elim
  | _, some _ :: _, _, h, hu, hl, hd => ⟨h.1, h.2.1, allStorable_concat h.2.2 hu hl hd⟩

end

end Gltf
