/-
Every call of a writing function is one of three core writes, followed by assignments to the
`Normalized`, `Min` and `Max` fields of accessors.
-/
import Verif.Lemmas.History

namespace Gltf

open Spec

/-- Accessors that only differ in `Normalized`, `Min` and `Max`. -/
def SameAcr (a a' : Option Accessor) : Prop :=
  a = a' ∨ ∃ x mn mx nm, a = some x ∧ a' = some { x with min := mn, max := mx, normalized := nm }

theorem SameAcr.trans {a b c : Option Accessor} (h1 : SameAcr a b) (h2 : SameAcr b c) : SameAcr a c := by
  rcases h1 with rfl | ⟨x, mn, mx, nm, rfl, rfl⟩
  · exact h2
  · rcases h2 with rfl | ⟨y, mn', mx', nm', h, rfl⟩
    · exact .inr ⟨x, mn, mx, nm, rfl, rfl⟩
    · cases h; exact .inr ⟨x, mn', mx', nm', rfl, rfl⟩

/-- Documents that only differ in such fields of accessors. -/
structure SameDoc (d d' : Document) : Prop where
  rest : d' = { d with accessors := d'.accessors }
  length : d'.accessors.length = d.accessors.length
  acr : ∀ (i : Nat) (a : Option Accessor), d.accessors[i]? = some a →
    ∃ a', d'.accessors[i]? = some a' ∧ SameAcr a a'

theorem SameDoc.refl (d : Document) : SameDoc d d := ⟨rfl, rfl, fun _ a h => ⟨a, h, .inl rfl⟩⟩

theorem SameDoc.trans {a b c : Document} (h1 : SameDoc a b) (h2 : SameDoc b c) : SameDoc a c where
  rest := by
    rw [h2.rest]
    have := h1.rest
    rw [this]
  length := by rw [h2.length, h1.length]
  acr := fun i x h => by
    obtain ⟨y, hy, e1⟩ := h1.acr i x h
    obtain ⟨z, hz, e2⟩ := h2.acr i y hy
    exact ⟨z, hz, e1.trans e2⟩

theorem SameDoc.back {d d' : Document} (h : SameDoc d d') {i : Nat} {a' : Option Accessor} (ha : d'.accessors[i]? = some a') :
    ∃ a, d.accessors[i]? = some a ∧ SameAcr a a' := by
  have hi := getElem?_lt ha
  rw [h.length] at hi
  obtain ⟨b, hb, hs⟩ := h.acr i _ (List.getElem?_eq_getElem hi)
  rw [ha] at hb; cases hb
  exact ⟨_, List.getElem?_eq_getElem hi, hs⟩

theorem modifyAccessor_same {i : Nat} {f : Accessor → Accessor} {d d' : Document}
    (hf : ∀ a, SameAcr (some a) (some (f a))) (h : modifyAccessor i f d = (d', .ok ())) : SameDoc d d' := by
  unfold modifyAccessor at h
  split at h
  · simp at h
  · simp at h
  · next a ha =>
    simp only [Prod.mk.injEq, and_true] at h
    subst h
    refine ⟨rfl, by simp, fun j b hb => ?_⟩
    show ∃ a', (d.accessors.set i (some (f a)))[j]? = some a' ∧ _
    by_cases hij : i = j
    · subst hij
      rw [ha] at hb; cases hb
      exact ⟨some (f a), by rw [List.getElem?_set_self (getElem?_lt ha)], hf a⟩
    · exact ⟨b, by rw [List.getElem?_set_ne hij]; exact hb, .inl rfl⟩

/-- The three core writes. -/
inductive CoreWrite (doc : Document) : Document → Prop
  | accessor {target data d i} (h : writeAccessor target data doc = (d, .ok i)) : CoreWrite doc d
  | interleaved {data d is} (h : writeAccessorsInterleaved data doc = (d, .ok is)) : CoreWrite doc d
  | view {target data d v images} (h : writeBufferViews target data doc = (d, .ok v)) :
      CoreWrite doc { d with images := images }

theorem writeNormalized_core {check : Slice → Res Bool} {data : Slice} {doc doc' : Document} {i : Nat}
    (h : writeNormalized check data doc = (doc', .ok i)) :
    ∃ d b, check data = .ok b ∧ writeAccessor targetArrayBuffer data doc = (d, .ok i) ∧
      modifyAccessor i (fun a => { a with normalized := b }) d = (doc', .ok ()) := by
  unfold writeNormalized at h
  obtain ⟨d1, b, h1, h2⟩ := W.bind_ok.1 h
  obtain ⟨rfl, hp⟩ := W.lift_ok.1 h1
  obtain ⟨d2, j, h3, h4⟩ := W.bind_ok.1 h2
  obtain ⟨d3, u, h5, h6⟩ := W.bind_ok.1 h4
  obtain ⟨rfl, rfl⟩ := W.pure_ok.1 h6
  refine ⟨d2, b, ?_, h3, h5⟩
  cases hc : check data with
  | ok b' => rw [hc] at hp; exact hp
  | err e => rw [hc] at hp; simp [panicOnErr] at hp
  | panic e => rw [hc] at hp; simp [panicOnErr] at hp

theorem writePosition_core {data : List (V3 F32)} {doc doc' : Document} {i : Nat}
    (h : writePosition data doc = (doc', .ok i)) :
    ∃ d d2, writeAccessor targetArrayBuffer ⟨.base .f32 .v3, data⟩ doc = (d, .ok i) ∧
      modifyAccessor i (fun a => { a with min := (minMaxFloat32 data).1.toList }) d = (d2, .ok ()) ∧
      modifyAccessor i (fun a => { a with max := (minMaxFloat32 data).2.toList }) d2 = (doc', .ok ()) := by
  unfold writePosition at h
  obtain ⟨d2, j, h3, h4⟩ := W.bind_ok.1 h
  obtain ⟨d3, u, h5, h6⟩ := W.bind_ok.1 h4
  obtain ⟨d4, u', h7, h8⟩ := W.bind_ok.1 h6
  obtain ⟨rfl, rfl⟩ := W.pure_ok.1 h8
  exact ⟨d2, d3, h3, h5, h7⟩

theorem same_assignAttrs {l : List (Nat × Bytes × Bool)} {attrs attrs' : PrimitiveAttributes} {d d' : Document}
    (h : assignAttrs attrs l d = (d', .ok attrs')) : SameDoc d d' := by
  induction l generalizing attrs d with
  | nil =>
    obtain ⟨rfl, -⟩ := W.pure_ok.1 h
    exact SameDoc.refl _
  | cons x l ih =>
    obtain ⟨index, name, normalized⟩ := x
    simp only [assignAttrs] at h
    obtain ⟨d1, _, h1, h2⟩ := W.bind_ok.1 h
    exact (modifyAccessor_same (fun a => .inr ⟨a, a.min, a.max, normalized, rfl, rfl⟩) h1).trans (ih h2)

/-- Decomposition of a successful `writePrimitiveAttributes`. -/
theorem writePrimitiveAttributes_core {attr : List PrimitiveAttribute} {doc doc' : Document} {attrs : PrimitiveAttributes}
    (h : writePrimitiveAttributes attr doc = (doc', .ok attrs)) :
    ∃ st d is d2, collectAttrs {} attr = .ok st ∧ writeAccessorsInterleaved st.data doc = (d, .ok is) ∧
      assignAttrs [] (is.zip st.props) d = (d2, .ok attrs) ∧
      ((mapGet attrs POSITION = none ∧ doc' = d2) ∨ ∃ pos d3, mapGet attrs POSITION = some pos ∧
        modifyAccessor pos.toNat (fun a => { a with min := st.min.toList }) d2 = (d3, .ok ()) ∧
        modifyAccessor pos.toNat (fun a => { a with max := st.max.toList }) d3 = (doc', .ok ())) := by
  unfold writePrimitiveAttributes at h
  obtain ⟨d1, st, h1, g1⟩ := W.bind_ok.1 h
  clear h
  obtain ⟨hd, h1'⟩ := W.lift_ok.1 h1
  clear h1
  subst hd
  have h1 := h1'
  obtain ⟨d2, is, h2, g2⟩ := W.bind_ok.1 g1
  obtain ⟨d3, at', h3, h⟩ := W.bind_ok.1 g2
  cases hpos : mapGet at' POSITION with
  | none =>
    simp only [hpos] at h
    obtain ⟨rfl, rfl⟩ := W.pure_ok.1 h
    exact ⟨st, d2, is, doc', h1, h2, h3, .inl ⟨hpos, rfl⟩⟩
  | some pos =>
    simp only [hpos] at h
    obtain ⟨d4, _, h4, g3⟩ := W.bind_ok.1 h
    obtain ⟨d5, _, h5, g4⟩ := W.bind_ok.1 g3
    obtain ⟨rfl, rfl⟩ := W.pure_ok.1 g4
    exact ⟨st, d2, is, d3, h1, h2, h3, .inr ⟨pos, d4, hpos, h4, h5⟩⟩

theorem discard_ok {α : Type} {r : Document × Res α} {d : Document} :
    discard r = (d, .ok ()) ↔ ∃ a, r = (d, .ok a) := by
  obtain ⟨d', r⟩ := r
  cases r <;> simp [discard]

theorem sameMin (a : Accessor) (l : List F64) : SameAcr (some a) (some { a with min := l }) :=
  .inr ⟨a, l, a.max, a.normalized, rfl, rfl⟩

theorem sameMax (a : Accessor) (l : List F64) : SameAcr (some a) (some { a with max := l }) :=
  .inr ⟨a, a.min, l, a.normalized, rfl, rfl⟩

theorem sameNorm (a : Accessor) (b : Bool) : SameAcr (some a) (some { a with normalized := b }) :=
  .inr ⟨a, a.min, a.max, b, rfl, rfl⟩

/-- A successful call is a core write followed by assignments. -/
theorem WriteOp.run_core {op : WriteOp} {doc doc' : Document} (h : op.run doc = (doc', .ok ())) :
    ∃ d, CoreWrite doc d ∧ SameDoc d doc' := by
  cases op with
  | indices data =>
    obtain ⟨i, h⟩ := discard_ok.1 h
    rcases writeIndices_cases data with ⟨h', -⟩ | h'
    · rw [h'] at h; exact ⟨_, .accessor h, .refl _⟩
    · rw [h'] at h; exact nomatch (W.lift_ok.1 h).2
  | normal data => obtain ⟨i, h⟩ := discard_ok.1 h; exact ⟨_, .accessor h, .refl _⟩
  | tangent data => obtain ⟨i, h⟩ := discard_ok.1 h; exact ⟨_, .accessor h, .refl _⟩
  | inverseBindMatrices data => obtain ⟨i, h⟩ := discard_ok.1 h; exact ⟨_, .accessor h, .refl _⟩
  | accessor target data => obtain ⟨i, h⟩ := discard_ok.1 h; exact ⟨_, .accessor h, .refl _⟩
  | accessorsInterleaved data => obtain ⟨i, h⟩ := discard_ok.1 h; exact ⟨_, .interleaved h, .refl _⟩
  | textureCoord data =>
    obtain ⟨i, h⟩ := discard_ok.1 h
    obtain ⟨d, b, -, h1, h2⟩ := writeNormalized_core h
    exact ⟨d, .accessor h1, modifyAccessor_same (fun a => sameNorm a b) h2⟩
  | weights data =>
    obtain ⟨i, h⟩ := discard_ok.1 h
    obtain ⟨d, b, -, h1, h2⟩ := writeNormalized_core h
    exact ⟨d, .accessor h1, modifyAccessor_same (fun a => sameNorm a b) h2⟩
  | color data =>
    obtain ⟨i, h⟩ := discard_ok.1 h
    obtain ⟨d, b, -, h1, h2⟩ := writeNormalized_core h
    exact ⟨d, .accessor h1, modifyAccessor_same (fun a => sameNorm a b) h2⟩
  | joints data =>
    obtain ⟨i, h⟩ := discard_ok.1 h
    unfold writeJoints at h
    obtain ⟨d1, _, h1, g⟩ := W.bind_ok.1 h
    obtain ⟨rfl, -⟩ := W.lift_ok.1 h1
    exact ⟨_, .accessor g, .refl _⟩
  | position data =>
    obtain ⟨i, h⟩ := discard_ok.1 h
    obtain ⟨d, d2, h1, h2, h3⟩ := writePosition_core h
    exact ⟨d, .accessor h1, (modifyAccessor_same (fun a => sameMin a _) h2).trans
      (modifyAccessor_same (fun a => sameMax a _) h3)⟩
  | image name mimeType r =>
    obtain ⟨i, h⟩ := discard_ok.1 h
    unfold writeImage at h
    cases r with
    | error e => exact nomatch (W.lift_ok.1 h).2
    | ok data =>
      simp only at h
      obtain ⟨d1, v, h1, g⟩ := W.bind_ok.1 h
      rw [writeBufferView_eq] at h1
      simp only [W.bind_def, W.get, W.put, W.pure_def, Prod.mk.injEq] at g
      obtain ⟨rfl, -⟩ := g
      exact ⟨_, .view h1, .refl _⟩
  | primitiveAttributes attr =>
    obtain ⟨i, h⟩ := discard_ok.1 h
    obtain ⟨st, d, is, d2, h1, h2, h3, h4⟩ := writePrimitiveAttributes_core h
    refine ⟨d, .interleaved h2, (same_assignAttrs h3).trans ?_⟩
    rcases h4 with ⟨-, rfl⟩ | ⟨pos, d3, -, h5, h6⟩
    · exact .refl _
    · exact (modifyAccessor_same (fun a => sameMin a _) h5).trans (modifyAccessor_same (fun a => sameMax a _) h6)
  | bufferView target data =>
    obtain ⟨i, h⟩ := discard_ok.1 h
    rw [writeBufferView_eq] at h
    exact ⟨_, .view (images := doc'.images) h, .refl _⟩
  | bufferViewInterleaved data =>
    obtain ⟨i, h⟩ := discard_ok.1 h
    exact ⟨_, .view (images := doc'.images) h, .refl _⟩

/-! ### Calls that return an error -/

theorem ensurePadding_ne_err (d : Document) (e : Err) : (ensurePadding d).2 ≠ .err e := by
  unfold ensurePadding
  simp only [W.bind_def, lastBuffer_eq, W.lift, setLastBuffer]
  cases (ensured d).buffers.getLast?.join with
  | none => simp [deref]
  | some b =>
    simp only [deref, appendZeros]
    split
    · next h => split at h <;> simp_all
    · next h => split at h <;> simp_all
    · simp

theorem W.bind_err {α β : Type} {x : W α} {f : α → W β} {doc doc' : Document} {e : Err}
    (h : (x >>= f) doc = (doc', .err e)) :
    x doc = (doc', .err e) ∨ ∃ d1 a, x doc = (d1, .ok a) ∧ f a d1 = (doc', .err e) := by
  rw [W.bind_def] at h
  split at h
  · next d1 a hx => exact .inr ⟨d1, a, hx, h⟩
  · next hx => rw [hx]; simp only [Prod.mk.injEq, Res.err.injEq] at h; left; rw [h.1, h.2]
  · simp at h

/-- Errors of an interleaved write: only the padding has been added. -/
theorem writeAccessorsInterleaved_err {data : List Slice} {doc doc' : Document} {e : Err}
    (h : writeAccessorsInterleaved data doc = (doc', .err e)) :
    ensurePadding doc = (doc', .ok ()) ∧
      viewSizes targetArrayBuffer (decide (1 < data.length)) 0 0 0 0 data = .err e := by
  unfold writeAccessorsInterleaved writeBufferViewInterleaved at h
  rcases W.bind_err h with h | ⟨d1, _, h1, h⟩
  · exact absurd (by rw [h]) (ensurePadding_ne_err doc e)
  rcases W.bind_err h with h | ⟨d2, v, h2, h⟩
  · have := writeBufferViews_err (target := targetArrayBuffer) (data := data) (doc := d1) (e := e) (by rw [h])
    rw [h] at this
    obtain ⟨h3, rfl⟩ := this
    exact ⟨h1, h3⟩
  · rw [appendInterleaved_eq] at h; simp at h

theorem writeAccessor_ne_err {target : Target} {data : Slice} {doc doc' : Document} {e : Err} :
    writeAccessor target data doc ≠ (doc', .err e) := by
  intro h
  unfold writeAccessor at h
  rcases W.bind_err h with h | ⟨d1, _, h1, h⟩
  · exact absurd (by rw [h]) (ensurePadding_ne_err doc e)
  rcases W.bind_err h with h | ⟨d2, v, h2, h⟩
  · rw [writeBufferView_eq] at h
    have := writeBufferViews_err (target := target) (data := [data]) (doc := d1) (e := e) (by rw [h])
    rw [viewSizes_single] at this
    exact nomatch this.1
  · change appendAccessor _ d2 = _ at h
    rw [appendAccessor_eq] at h; simp at h

theorem modifyAccessor_ne_err {i : Nat} {f : Accessor → Accessor} {d d' : Document} {e : Err} :
    modifyAccessor i f d ≠ (d', .err e) := by
  unfold modifyAccessor
  split <;> simp

theorem assignAttrs_ne_err {l : List (Nat × Bytes × Bool)} {attrs : PrimitiveAttributes} {d d' : Document} {e : Err} :
    assignAttrs attrs l d ≠ (d', .err e) := by
  induction l generalizing attrs d with
  | nil => simp [assignAttrs, W.pure_def]
  | cons x l ih =>
    obtain ⟨index, name, normalized⟩ := x
    simp only [assignAttrs]
    intro h
    rcases W.bind_err h with h | ⟨d1, _, h1, h⟩
    · exact modifyAccessor_ne_err h
    · exact ih h

theorem writePrimitiveAttributes_err {attr : List PrimitiveAttribute} {doc doc' : Document} {e : Err}
    (h : writePrimitiveAttributes attr doc = (doc', .err e)) :
    (doc' = doc ∧ collectAttrs {} attr = .err e) ∨
      ∃ st, collectAttrs {} attr = .ok st ∧ writeAccessorsInterleaved st.data doc = (doc', .err e) := by
  unfold writePrimitiveAttributes at h
  rcases W.bind_err h with h | ⟨d1, st, h1, g⟩
  · simp only [W.lift, Prod.mk.injEq] at h
    exact .inl ⟨h.1.symm, h.2⟩
  clear h
  obtain ⟨hd, h1'⟩ := W.lift_ok.1 h1
  clear h1
  subst hd
  have h1 := h1'
  rcases W.bind_err g with h | ⟨d2, is, h2, h⟩
  · exact .inr ⟨st, h1, h⟩
  rcases W.bind_err h with h | ⟨d3, at', h3, h⟩
  · exact absurd h assignAttrs_ne_err
  cases hpos : mapGet at' POSITION with
  | none => simp only [hpos, W.pure_def] at h; simp at h
  | some pos =>
    simp only [hpos] at h
    rcases W.bind_err h with h | ⟨d4, _, h4, h⟩
    · exact absurd h modifyAccessor_ne_err
    rcases W.bind_err h with h | ⟨d5, _, h5, h⟩
    · exact absurd h modifyAccessor_ne_err
    simp [W.pure_def] at h

theorem discard_err {α : Type} {r : Document × Res α} {d : Document} {e : Err} :
    discard r = (d, .err e) ↔ r = (d, .err e) := by
  obtain ⟨d', r⟩ := r
  cases r <;> simp [discard]

theorem writeNormalized_ne_err {check : Slice → Res Bool} {data : Slice} {doc doc' : Document} {e : Err} :
    writeNormalized check data doc ≠ (doc', .err e) := by
  intro h
  unfold writeNormalized at h
  rcases W.bind_err h with h | ⟨d1, b, h1, h⟩
  · simp only [W.lift, Prod.mk.injEq] at h
    cases hc : check data <;> rw [hc] at h <;> simp [panicOnErr] at h
  rcases W.bind_err h with h | ⟨d2, i, h2, h⟩
  · exact writeAccessor_ne_err h
  rcases W.bind_err h with h | ⟨d3, _, h3, h⟩
  · exact modifyAccessor_ne_err h
  simp [W.pure_def] at h

/-- A call that returns an error leaves the document as it was, up to padding. -/
theorem WriteOp.run_err {op : WriteOp} {doc doc' : Document} {e : Err} (h : op.run doc = (doc', .err e)) :
    doc' = doc ∨ ensurePadding doc = (doc', .ok ()) := by
  cases op with
  | indices data =>
    have h := discard_err.1 h
    rcases writeIndices_cases data with ⟨h', -⟩ | h'
    · rw [h'] at h; exact absurd h writeAccessor_ne_err
    · rw [h'] at h; simp [W.lift] at h
  | normal data => exact absurd (discard_err.1 h) writeAccessor_ne_err
  | tangent data => exact absurd (discard_err.1 h) writeAccessor_ne_err
  | inverseBindMatrices data => exact absurd (discard_err.1 h) writeAccessor_ne_err
  | accessor target data => exact absurd (discard_err.1 h) writeAccessor_ne_err
  | accessorsInterleaved data => exact .inr (writeAccessorsInterleaved_err (discard_err.1 h)).1
  | textureCoord data => exact absurd (discard_err.1 h) writeNormalized_ne_err
  | weights data => exact absurd (discard_err.1 h) writeNormalized_ne_err
  | color data => exact absurd (discard_err.1 h) writeNormalized_ne_err
  | joints data =>
    have h := discard_err.1 h
    unfold writeJoints at h
    rcases W.bind_err h with h | ⟨d1, b, h1, h⟩
    · simp only [W.lift, Prod.mk.injEq] at h
      cases hc : checkJoints data <;> rw [hc] at h <;> simp [panicOnErr] at h
    · exact absurd h writeAccessor_ne_err
  | position data =>
    have h := discard_err.1 h
    unfold writePosition at h
    rcases W.bind_err h with h | ⟨d1, b, h1, h⟩
    · exact absurd h writeAccessor_ne_err
    rcases W.bind_err h with h | ⟨d2, _, h2, h⟩
    · exact absurd h modifyAccessor_ne_err
    rcases W.bind_err h with h | ⟨d3, _, h3, h⟩
    · exact absurd h modifyAccessor_ne_err
    simp [W.pure_def] at h
  | image name mimeType r =>
    have h := discard_err.1 h
    unfold writeImage at h
    cases r with
    | error e =>
      simp only [W.lift, Prod.mk.injEq] at h
      exact .inl h.1.symm
    | ok data =>
      simp only at h
      rcases W.bind_err h with h | ⟨d1, v, h1, h⟩
      · rw [writeBufferView_eq] at h
        have := writeBufferViews_err (target := targetNone) (data := [⟨.base .u8 .sc, data⟩]) (doc := doc) (e := e) (by rw [h])
        rw [viewSizes_single] at this
        exact nomatch this.1
      · simp [W.bind_def, W.get, W.put, W.pure_def] at h
  | primitiveAttributes attr =>
    rcases writePrimitiveAttributes_err (discard_err.1 h) with ⟨h, -⟩ | ⟨st, -, h⟩
    · exact .inl h
    · exact .inr (writeAccessorsInterleaved_err h).1
  | bufferView target data =>
    have h := discard_err.1 h
    rw [writeBufferView_eq] at h
    have := writeBufferViews_err (target := target) (data := [data]) (doc := doc) (e := e) (by rw [h])
    rw [viewSizes_single] at this
    exact nomatch this.1
  | bufferViewInterleaved data =>
    have h := discard_err.1 h
    have := writeBufferViews_err (target := targetArrayBuffer) (data := data) (doc := doc) (e := e)
      (by unfold writeBufferViewInterleaved at h; rw [h])
    left
    unfold writeBufferViewInterleaved at h
    rw [h] at this
    exact this.2

end Gltf
