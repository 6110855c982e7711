/-
Properties C63 and C64: what the writing functions of package modeler say about the data, and the
element types that they take.
-/
import Verif.Spec.Describe
import Verif.Props.Attributes

namespace Gltf

open Spec

theorem strideFor_eq (target : Target) (d : Slice) :
    (if target = targetArrayBuffer ∧ d.ty.c.byteSize * d.ty.t.components ≠ d.esz then d.esz else 0) = strideFor target d.ty := by
  have key : ∀ t : ETy, (t.c.byteSize * t.t.components ≠ elemSize (kind t) (shape t)) ↔
      plainSize (kind t) (shape t) < elemSize (kind t) (shape t) := by
    intro t
    cases t with
    | base k s => cases k <;> cases s <;> decide
    | rgba => decide
    | rgba64 => decide
  unfold strideFor
  simp only [Slice.esz, key]
  rfl

/-- The buffer view of one slice. -/
theorem described_view {target : Target} {data : Slice} {doc doc' : Document} {v : Nat}
    (h : writeBufferViews target [data] doc = (doc', .ok v)) :
    ∃ bv, doc'.bufferViews = doc.bufferViews ++ [some bv] ∧ v = doc.bufferViews.length ∧ doc'.accessors = doc.accessors ∧
      bv.target = target ∧ bv.byteStride = (strideFor target data.ty : Int) ∧ bv.byteLength = (byteCount data : Int) := by
  obtain ⟨stride, size, b, bytes, hv, -, -, -, rfl, rfl⟩ := writeBufferViews_ok.1 h
  rw [viewSizes_single, strideFor_eq] at hv
  simp only [Res.ok.injEq, Prod.mk.injEq] at hv
  obtain ⟨rfl, rfl⟩ := hv
  exact ⟨_, rfl, rfl, rfl, rfl, rfl, rfl⟩

theorem described_writeAccessor {target : Target} {data : Slice} {doc doc' : Document} {i : Nat}
    (h : writeAccessor target data doc = (doc', .ok i)) : Described doc doc' target data false := by
  obtain ⟨d1, d2, v, h1, h2, rfl, rfl⟩ := writeAccessor_ok.1 h
  obtain ⟨k1, k2, -⟩ := ensurePadding_accessors h1
  obtain ⟨bv, e1, e2, e3, e4, e5, e6⟩ := described_view h2
  refine ⟨{ bufferView := some (v : Int), byteOffset := 0, componentType := data.ty.c, type := data.ty.t, count := data.data.length },
    bv, ?_, ?_, ⟨?_, rfl, (ETy.c_eq _).1, (ETy.c_eq _).2, rfl, rfl, rfl, rfl⟩, e4, e5, e6⟩
  · show d2.accessors ++ _ = _
    rw [e3, k1]
  · show d2.bufferViews = _
    rw [e1, k2]
  · rw [e2, k2]

theorem described_modify {target : Target} {data : Slice} {doc d doc' : Document} {b b' : Bool} {f : Accessor → Accessor}
    {i : Nat} (hf : ∀ a v o, AccessorDescribes a v o data b → AccessorDescribes (f a) v o data b')
    (hi : i = doc.accessors.length) (hd : Described doc d target data b) (h : modifyAccessor i f d = (doc', .ok ())) :
    Described doc doc' target data b' := by
  obtain ⟨acr, bv, e1, e2, e3, e4⟩ := hd
  obtain ⟨a, ha, rfl⟩ := modifyAccessor_ok.1 h
  subst hi
  rw [e1, List.getElem?_append_right (Nat.le_refl _), Nat.sub_self] at ha
  cases ha
  refine ⟨f acr, bv, ?_, e2, hf _ _ _ e3, e4⟩
  show d.accessors.set _ _ = _
  rw [e1, List.set_append_right _ _ (Nat.le_refl _), Nat.sub_self]
  rfl

theorem described_writeNormalized {check : Slice → Res Bool} {data : Slice} {doc doc' : Document} {i : Nat}
    (h : writeNormalized check data doc = (doc', .ok i)) :
    ∃ b, check data = .ok b ∧ Described doc doc' 34962 data b := by
  obtain ⟨d, b, hc, h1, h2⟩ := writeNormalized_core h
  refine ⟨b, hc, described_modify ?_ (writeAccessor_index h1).1 (described_writeAccessor h1) h2⟩
  exact fun a v o x => ⟨x.1, x.2, x.3, x.4, x.5, rfl, x.7, x.8⟩

/-! ### C63 New accessors and buffer views describe the data written -/

/-- C63 for `WriteAccessor` and the helpers built on it: the new accessor has the component type,
type and number of elements of the data, and the new buffer view has the length of the data, the
target that suits the helper, and a stride exactly when vertex data is padded. `Normalized` is set
exactly for integer texture coordinates, weights and colours. -/
theorem C63_accessor_described (doc doc' : Document) (i : Nat) :
    (∀ target data, writeAccessor target data doc = (doc', .ok i) → Described doc doc' target data false) ∧
    (∀ data, writeIndices data doc = (doc', .ok i) → Described doc doc' 34963 data false) ∧
    (∀ data, writePosition data doc = (doc', .ok i) → Described doc doc' 34962 ⟨.base .f32 .v3, data⟩ false) ∧
    (∀ data, writeNormal data doc = (doc', .ok i) → Described doc doc' 34962 ⟨.base .f32 .v3, data⟩ false) ∧
    (∀ data, writeTangent data doc = (doc', .ok i) → Described doc doc' 34962 ⟨.base .f32 .v4, data⟩ false) ∧
    (∀ data, writeInverseBindMatrices data doc = (doc', .ok i) → Described doc doc' 34962 ⟨.base .f32 .m4, data⟩ false) ∧
    (∀ data, writeJoints data doc = (doc', .ok i) → Described doc doc' 34962 data false) ∧
    (∀ data, writeTextureCoord data doc = (doc', .ok i) → Described doc doc' 34962 data (decide (kind data.ty ≠ .f32))) ∧
    (∀ data, writeWeights data doc = (doc', .ok i) → Described doc doc' 34962 data (decide (kind data.ty ≠ .f32))) ∧
    (∀ data, writeColor data doc = (doc', .ok i) → Described doc doc' 34962 data (decide (kind data.ty ≠ .f32))) := by
  refine ⟨fun _ _ => described_writeAccessor, ?_, ?_, fun _ => described_writeAccessor, fun _ => described_writeAccessor,
    fun _ => described_writeAccessor, ?_, ?_, ?_, ?_⟩
  · intro data h
    rcases writeIndices_cases data with ⟨h', -⟩ | h'
    · rw [h'] at h; exact described_writeAccessor h
    · rw [h'] at h; exact nomatch (W.lift_ok.1 h).2
  · intro data h
    obtain ⟨d, d2, h1, h2, h3⟩ := writePosition_core h
    have hi := (writeAccessor_index h1).1
    refine described_modify (b := false) ?_ hi (described_modify (b := false) ?_ hi (described_writeAccessor h1) h2) h3
    · exact fun a v o x => ⟨x.1, x.2, x.3, x.4, x.5, x.6, x.7, x.8⟩
    · exact fun a v o x => ⟨x.1, x.2, x.3, x.4, x.5, x.6, x.7, x.8⟩
  · intro data h
    unfold writeJoints at h
    obtain ⟨d1, _, h1, h2⟩ := W.bind_ok.1 h
    obtain ⟨rfl, -⟩ := W.lift_ok.1 h1
    exact described_writeAccessor h2
  · intro data h
    obtain ⟨b, hc, hd⟩ := described_writeNormalized h
    rw [checkTextureCoord_eq] at hc
    split at hc <;> cases hc
    exact hd
  · intro data h
    obtain ⟨b, hc, hd⟩ := described_writeNormalized h
    rw [checkWeights_eq] at hc
    split at hc <;> cases hc
    exact hd
  · intro data h
    obtain ⟨b, hc, hd⟩ := described_writeNormalized h
    rw [checkColor_eq] at hc
    split at hc <;> cases hc
    exact hd

/-- C63 for `WriteBufferView` and `WriteImage`: an image is written without target and stride. -/
theorem C63_view_described (doc doc' : Document) (i : Nat) :
    (∀ target data, writeBufferView target data doc = (doc', .ok i) →
      ∃ bv, doc'.bufferViews = doc.bufferViews ++ [some bv] ∧ doc'.accessors = doc.accessors ∧
        bv.target = target ∧ bv.byteStride = (strideFor target data.ty : Int) ∧ bv.byteLength = (byteCount data : Int)) ∧
    (∀ name mimeType bytes, writeImage name mimeType (.ok bytes) doc = (doc', .ok i) →
      ∃ bv, doc'.bufferViews = doc.bufferViews ++ [some bv] ∧ doc'.accessors = doc.accessors ∧
        bv.target = 0 ∧ bv.byteStride = 0 ∧ bv.byteLength = (bytes.length : Int)) := by
  refine ⟨fun target data h => ?_, fun name mimeType bytes h => ?_⟩
  · rw [writeBufferView_eq] at h
    obtain ⟨bv, e1, -, e3, e4⟩ := described_view h
    exact ⟨bv, e1, e3, e4⟩
  · unfold writeImage at h
    simp only at h
    obtain ⟨d1, v, h1, h2⟩ := W.bind_ok.1 h
    rw [writeBufferView_eq] at h1
    obtain ⟨d2, doc2, h3, h4⟩ := W.bind_ok.1 h2
    simp only [W.get, Prod.mk.injEq, Res.ok.injEq] at h3
    obtain ⟨rfl, rfl⟩ := h3
    obtain ⟨d3, u, h5, h6⟩ := W.bind_ok.1 h4
    obtain ⟨rfl, rfl⟩ := W.pure_ok.1 h6
    simp only [W.put, Prod.mk.injEq, and_true] at h5
    subst h5
    obtain ⟨bv, e1, -, e3, e4, e5, e6⟩ := described_view h1
    exact ⟨bv, e1, e3, e4, e5, by simpa [byteCount, elemSize, kind, shape, size] using e6⟩

/-- C63 for `WriteAccessorsInterleaved` with several slices: one buffer view for vertex data whose
stride is the size of one element of each of the slices, and accessor `j` starts after one element
of each of the slices before it. -/
theorem C63_interleaved_described (doc doc' : Document) (data : List Slice) (is : List Nat)
    (h : writeAccessorsInterleaved data doc = (doc', .ok is)) (hm : 1 < data.length) :
    ∃ bv, doc'.bufferViews = doc.bufferViews ++ [some bv] ∧ bv.target = 34962 ∧ bv.byteStride = (rowSize data : Int) ∧
      bv.byteLength = (byteCounts data : Int) ∧
      ∀ (j : Nat) (d : Slice), data[j]? = some d → ∃ i acr, is[j]? = some i ∧ doc'.accessors[i]? = some (some acr) ∧
        AccessorDescribes acr doc.bufferViews.length (rowSize (data.take j)) d false := by
  obtain ⟨d1, d2, v, h1, h2, rfl, rfl⟩ := writeAccessorsInterleaved_ok.1 h
  obtain ⟨k1, k2, -⟩ := ensurePadding_accessors h1
  obtain ⟨stride, size, b, bytes, hv, -, -, -, rfl, rfl⟩ := writeBufferViews_ok.1 h2
  obtain ⟨x, xs, rfl⟩ : ∃ x xs, data = x :: xs := by
    cases data with
    | nil => simp at hm
    | cons x xs => exact ⟨x, xs, rfl⟩
  have hxs : xs ≠ [] := by rintro rfl; simp at hm
  rw [viewSizes_cons hxs] at hv
  split at hv
  · next hall =>
    simp only [Res.ok.injEq, Prod.mk.injEq] at hv
    obtain ⟨rfl, rfl⟩ := hv
    have hsum : ∀ (l : List Slice) (n : Nat), (∀ y ∈ l, y.data.length = n) → byteCounts l = n * rowSize l := by
      intro l n hl
      induction l with
      | nil => rfl
      | cons y ys ih =>
        have hy := hl y List.mem_cons_self
        have := ih (fun z hz => hl z (List.mem_cons_of_mem _ hz))
        have e : byteCounts (y :: ys) = byteCount y + byteCounts ys := by simp [byteCounts]
        rw [e, this, rowSize_cons, Nat.mul_add, byteCount, hy]
    refine ⟨_, by rw [← k2], rfl, rfl, ?_, ?_⟩
    · rw [hsum (x :: xs) x.data.length]
      intro y hy
      rcases List.mem_cons.1 hy with rfl | hy
      · rfl
      · exact hall y hy
    · intro j d hj
      have hlt := getElem?_lt hj
      refine ⟨d1.accessors.length + j,
        { bufferView := some (d1.bufferViews.length : Int), byteOffset := ((0 + rowSize (List.take j (x :: xs)) : Nat) : Int),
          componentType := d.ty.c, type := d.ty.t, count := d.data.length }, ?_, ?_, ?_⟩
      · rw [List.getElem?_map, List.getElem?_range hlt]; rfl
      · show (d1.accessors ++ (newAccessors _ 0 (x :: xs)).map some)[_]? = _
        rw [List.getElem?_append_right (by omega), Nat.add_sub_cancel_left, List.getElem?_map, newAccessors_getElem? hj]
        rfl
      · exact ⟨by rw [k2], by rw [Nat.zero_add], (ETy.c_eq _).1, (ETy.c_eq _).2, rfl, rfl, rfl, rfl⟩
  · cases hv

/-- The stride of colours of three bytes, of positions, of indices of two bytes. -/
example : strideFor 34962 (.base .u8 .v3) = 4 ∧ strideFor 34962 (.base .f32 .v3) = 0 ∧ strideFor 34963 (.base .u8 .v3) = 0 ∧
    strideFor 34962 (.base .u8 .m3) = 12 := by decide

/-- Colours of three bytes are written. -/
example : ∃ doc', writeColor ⟨.base .u8 .v3, [⟨1, 2, 3⟩]⟩ {} = (doc', .ok 0) := ⟨_, outcome (by decide +kernel)⟩

/-! ### C64 The typed writers take exactly their element types -/

/-- A call either succeeds or panics leaving the document as it was, according to a condition. -/
def SucceedsOrPanics {α : Type} (x : Document × Res α) (doc : Document) (good : Prop) : Prop :=
  (good → ∃ doc' a, x = (doc', .ok a)) ∧ (¬ good → x.1 = doc ∧ x.2.isPanic = true)

theorem writeNormalized_accepts {check : Slice → Res Bool} {data : Slice} {doc : Document} {m : Nat} {good : Prop}
    (hl : LastLength doc m) (hr : roundUp4 m + byteCount data ≤ maxAlloc)
    (hg : good → ∃ b, check data = .ok b) (hn : ¬ good → ∃ e, check data = .err e) :
    SucceedsOrPanics (writeNormalized check data doc) doc good := by
  refine ⟨fun h => ?_, fun h => ?_⟩
  · obtain ⟨b, hb⟩ := hg h
    obtain ⟨d1, h1⟩ := writeAccessor_succeeds (target := targetArrayBuffer) hl hr
    obtain ⟨acr, bv, e1, -⟩ := described_writeAccessor h1
    unfold writeNormalized
    rw [W.bind_def, hb]
    simp only [W.lift, panicOnErr]
    rw [W.bind_def, h1]
    simp only
    rw [W.bind_def]
    have : modifyAccessor doc.accessors.length (fun a => { a with normalized := b }) d1 =
        ({ d1 with accessors := d1.accessors.set doc.accessors.length (some { acr with normalized := b }) }, .ok ()) := by
      unfold modifyAccessor
      rw [e1, List.getElem?_append_right (Nat.le_refl _), Nat.sub_self]
      rfl
    rw [this]
    exact ⟨_, _, rfl⟩
  · obtain ⟨e, he⟩ := hn h
    unfold writeNormalized
    rw [W.bind_def, he]
    exact ⟨rfl, rfl⟩

/-- C64: `WriteIndices`, `WriteJoints`, `WriteWeights`, `WriteTextureCoord` and `WriteColor` succeed
for the element types that they are for, and panic, leaving the document unchanged, for all others. -/
theorem C64_writers_accept (data : Slice) (doc : Document) (m : Nat) (hl : LastLength doc m)
    (hr : roundUp4 m + byteCount data ≤ maxAlloc) :
    SucceedsOrPanics (writeIndices data doc) doc (IndexType data.ty) ∧
    SucceedsOrPanics (writeJoints data doc) doc (JointType data.ty) ∧
    SucceedsOrPanics (writeWeights data doc) doc (WeightType data.ty) ∧
    SucceedsOrPanics (writeTextureCoord data doc) doc (TexCoordType data.ty) ∧
    SucceedsOrPanics (writeColor data doc) doc (ColorType data.ty) := by
  obtain ⟨d1, h1⟩ := writeAccessor_succeeds (target := targetArrayBuffer) hl hr
  obtain ⟨d2, h2⟩ := writeAccessor_succeeds (target := targetElementArrayBuffer) hl hr
  refine ⟨⟨fun h => ?_, fun h => ?_⟩, ⟨fun h => ?_, fun h => ?_⟩, writeNormalized_accepts hl hr ?_ ?_,
    writeNormalized_accepts hl hr ?_ ?_, writeNormalized_accepts hl hr ?_ ?_⟩
  · refine ⟨d2, doc.accessors.length, ?_⟩
    unfold writeIndices
    rcases h with h | h <;> rw [h] <;> exact h2
  · rcases writeIndices_cases data with ⟨-, h'⟩ | h'
    · exact absurd h' h
    · rw [h']; exact ⟨rfl, rfl⟩
  · refine ⟨d1, doc.accessors.length, ?_⟩
    unfold writeJoints checkJoints
    rw [W.bind_def]
    rcases h with h | h <;> rw [h] <;> exact h1
  · unfold writeJoints
    rw [W.bind_def, checkJoints_eq, if_neg]
    · exact ⟨rfl, rfl⟩
    · intro h'
      simp only [Bool.or_eq_true, decide_eq_true_eq] at h'
      exact h h'
  · rintro (h | h | h) <;> exact ⟨_, by unfold checkWeights; rw [h]⟩
  · intro h
    rw [checkWeights_eq, if_neg]
    · exact ⟨_, rfl⟩
    · intro h'
      simp only [Bool.or_eq_true, decide_eq_true_eq] at h'
      exact h (or_assoc.1 h')
  · rintro (h | h | h) <;> exact ⟨_, by unfold checkTextureCoord; rw [h]⟩
  · intro h
    obtain ⟨ty, d⟩ := data
    unfold TexCoordType at h
    unfold checkTextureCoord
    cases ty with
    | base k s =>
      cases k <;> cases s <;> first
        | exact ⟨_, rfl⟩
        | exact absurd (.inl rfl) h
        | exact absurd (.inr (.inl rfl)) h
        | exact absurd (.inr (.inr rfl)) h
    | rgba => exact ⟨_, rfl⟩
    | rgba64 => exact ⟨_, rfl⟩
  · rintro (h | h | h | h | h | h | h | h) <;> exact ⟨_, by unfold checkColor; rw [h]⟩
  · intro h
    obtain ⟨ty, d⟩ := data
    simp only [ColorType, not_or] at h
    obtain ⟨n1, n2, n3, n4, n5, n6, n7, n8⟩ := h
    unfold checkColor
    cases ty with
    | base k s =>
      cases k <;> cases s <;> first
        | exact ⟨_, rfl⟩
        | exact absurd rfl n3
        | exact absurd rfl n4
        | exact absurd rfl n5
        | exact absurd rfl n6
        | exact absurd rfl n7
        | exact absurd rfl n8
    | rgba => exact absurd rfl n1
    | rgba64 => exact absurd rfl n2

/-- An empty document has room for bytes; bytes are no indices. -/
example : LastLength ({} : Document) 0 ∧ roundUp4 0 + byteCount ⟨.base .u8 .sc, [1, 2, 3]⟩ ≤ maxAlloc ∧
    ¬ IndexType (.base .u8 .sc) ∧ IndexType (.base .u32 .sc) ∧ ColorType .rgba64 ∧ ¬ JointType (.base .f32 .v4) :=
  ⟨.inl ⟨rfl, rfl⟩, by decide, by unfold IndexType; decide, .inr rfl, .inr (.inl rfl), by unfold JointType; decide⟩

end Gltf
