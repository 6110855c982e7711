/-
Properties C74 and C76: the functions of the modeler only append, and the documents of `NewDocument`.
-/
import Verif.Props.ModelerWrite

namespace Gltf

open Spec

/-- Number of buffers after a call: the first buffer is created on demand. -/
theorem W.bind_buffers {α β : Type} {x : W α} {f : α → W β} {d : Document} {P : Document → Document → Prop}
    (trans : ∀ a b c, P a b → P b c → P a c) (h1 : P d (x d).1) (h2 : ∀ a d', x d = (d', .ok a) → P d' (f a d').1) : P d ((x >>= f) d).1 := by
  show P d (W.bind x f d).1
  unfold W.bind
  match h : x d with
  | (d', .ok a) => rw [h] at h1; exact trans _ _ _ h1 (h2 a d' h)
  | (d', .err e) => rw [h] at h1; exact h1
  | (d', .panic w) => rw [h] at h1; exact h1

/-- The buffers but the last one are kept, and a buffer is added only if there was none. -/
def Spec.LastOnly (d d' : Document) : Prop :=
  d'.buffers = d.buffers ∨ ∃ p, d'.buffers = d.buffers.dropLast ++ [p]

theorem LastOnly.refl (d : Document) : LastOnly d d := .inl rfl

theorem LastOnly.trans (a b c : Document) (h1 : LastOnly a b) (h2 : LastOnly b c) : LastOnly a c := by
  rcases h2 with h2 | ⟨p, h2⟩
  · unfold LastOnly; rw [h2]; exact h1
  · rcases h1 with h1 | ⟨q, h1⟩
    · exact .inr ⟨p, by rw [h2, h1]⟩
    · exact .inr ⟨p, by rw [h2, h1, List.dropLast_concat]⟩

theorem LastOnly.of_eq {d d' : Document} (h : d'.buffers = d.buffers) : LastOnly d d' := .inl h

theorem lastOnly_lift {α : Type} (r : Res α) (d : Document) : LastOnly d (W.lift r d).1 := .inl rfl
theorem lastOnly_pure {α : Type} (r : α) (d : Document) : LastOnly d ((pure r : W α) d).1 := .inl rfl
theorem lastOnly_get (d : Document) : LastOnly d (W.get d).1 := .inl rfl

theorem lastOnly_lastBuffer (d : Document) : LastOnly d (lastBuffer d).1 := by
  unfold lastBuffer
  by_cases h : d.buffers.length = 0
  · right
    refine ⟨some {}, ?_⟩
    simp only [if_pos h]
    rw [List.length_eq_zero_iff.1 h]
    rfl
  · left
    simp only [if_neg h]

theorem lastOnly_setLast (b : Buffer) (d : Document) : LastOnly d (setLastBuffer b d).1 := .inr ⟨_, rfl⟩

theorem lastOnly_bind {α β : Type} {x : W α} {f : α → W β} {d : Document} (h1 : LastOnly d (x d).1)
    (h2 : ∀ a d', LastOnly d' (f a d').1) : LastOnly d ((x >>= f) d).1 :=
  W.bind_buffers LastOnly.trans h1 fun a d' _ => h2 a d'

theorem lastOnly_ensurePadding (d : Document) : LastOnly d (ensurePadding d).1 := by
  unfold ensurePadding
  refine lastOnly_bind (lastOnly_lastBuffer d) fun p d => ?_
  refine lastOnly_bind (lastOnly_lift _ d) fun b d => ?_
  refine lastOnly_bind (lastOnly_lift _ d) fun data d => ?_
  exact lastOnly_setLast _ d

theorem lastOnly_writeBufferViews (target : Target) (data : List Slice) (d : Document) : LastOnly d (writeBufferViews target data d).1 := by
  unfold writeBufferViews
  refine lastOnly_bind (lastOnly_lift _ d) fun p d => ?_
  refine lastOnly_bind (lastOnly_lastBuffer d) fun p d => ?_
  refine lastOnly_bind (lastOnly_lift _ d) fun b d => ?_
  refine lastOnly_bind (lastOnly_lift _ d) fun b d => ?_
  refine lastOnly_bind (lastOnly_lift _ d) fun b d => ?_
  refine lastOnly_bind (lastOnly_setLast _ d) fun b d => ?_
  exact .inl rfl

theorem lastOnly_writeBufferView (target : Target) (data : Slice) (d : Document) : LastOnly d (writeBufferView target data d).1 := by
  have h := lastOnly_writeBufferViews target [data] d
  unfold writeBufferView
  split
  · next d' e he => rw [he] at h; exact h
  · next => exact h

theorem lastOnly_appendAccessor (acr : Accessor) (d : Document) : LastOnly d (appendAccessor acr d).1 := .inl rfl

theorem lastOnly_writeAccessor (target : Target) (data : Slice) (d : Document) : LastOnly d (writeAccessor target data d).1 := by
  unfold writeAccessor
  refine lastOnly_bind (lastOnly_ensurePadding d) fun _ d => ?_
  refine lastOnly_bind (lastOnly_writeBufferView _ _ d) fun _ d => ?_
  exact lastOnly_appendAccessor _ d

theorem lastOnly_appendInterleaved (index : Nat) : ∀ (l : List Slice) (off : Nat) (d : Document), LastOnly d (appendInterleaved index off l d).1
  | [], _, d => .inl rfl
  | s :: l, off, d => by
    unfold appendInterleaved
    refine lastOnly_bind (lastOnly_appendAccessor _ d) fun _ d => ?_
    refine lastOnly_bind (lastOnly_appendInterleaved index l _ d) fun _ d => ?_
    exact lastOnly_pure _ d

theorem lastOnly_writeAccessorsInterleaved (data : List Slice) (d : Document) : LastOnly d (writeAccessorsInterleaved data d).1 := by
  unfold writeAccessorsInterleaved
  refine lastOnly_bind (lastOnly_ensurePadding d) fun _ d => ?_
  refine lastOnly_bind (lastOnly_writeBufferViews _ _ d) fun _ d => ?_
  exact lastOnly_appendInterleaved _ _ _ d

theorem lastOnly_modify (i : Nat) (f : Accessor → Accessor) (d : Document) : LastOnly d (modifyAccessor i f d).1 := by
  unfold modifyAccessor
  split <;> exact .inl rfl

theorem lastOnly_writeNormalized (check : Slice → Res Bool) (data : Slice) (d : Document) : LastOnly d (writeNormalized check data d).1 := by
  unfold writeNormalized
  refine lastOnly_bind (lastOnly_lift _ d) fun _ d => ?_
  refine lastOnly_bind (lastOnly_writeAccessor _ _ d) fun _ d => ?_
  refine lastOnly_bind (lastOnly_modify _ _ d) fun _ d => ?_
  exact lastOnly_pure _ d

theorem lastOnly_assignAttrs : ∀ (l : List (Nat × Bytes × Bool)) (attrs : PrimitiveAttributes) (d : Document),
    LastOnly d (assignAttrs attrs l d).1
  | [], _, d => .inl rfl
  | (i, n, b) :: l, attrs, d => by
    unfold assignAttrs
    refine lastOnly_bind (lastOnly_modify _ _ d) fun _ d => ?_
    exact lastOnly_assignAttrs l _ d

theorem lastOnly_run (op : WriteOp) (d : Document) : LastOnly d (op.run d).1 := by
  cases op with
  | indices data =>
    show LastOnly d (writeIndices data d).1
    rcases writeIndices_cases data with ⟨h, -⟩ | h
    · rw [h]; exact lastOnly_writeAccessor _ _ _
    · rw [h]; exact .inl rfl
  | normal data => exact lastOnly_writeAccessor _ _ d
  | tangent data => exact lastOnly_writeAccessor _ _ d
  | textureCoord data => exact lastOnly_writeNormalized _ data d
  | weights data => exact lastOnly_writeNormalized _ data d
  | joints data =>
    show LastOnly d (writeJoints data d).1
    unfold writeJoints
    exact lastOnly_bind (lastOnly_lift _ d) fun _ d => lastOnly_writeAccessor _ _ d
  | inverseBindMatrices data => exact lastOnly_writeAccessor _ _ d
  | position data =>
    show LastOnly d (writePosition data d).1
    unfold writePosition
    refine lastOnly_bind (lastOnly_writeAccessor _ _ d) fun _ d => ?_
    refine lastOnly_bind (lastOnly_modify _ _ d) fun _ d => ?_
    refine lastOnly_bind (lastOnly_modify _ _ d) fun _ d => ?_
    exact lastOnly_pure _ d
  | color data => exact lastOnly_writeNormalized _ data d
  | image name mimeType r =>
    show LastOnly d (writeImage name mimeType r d).1
    unfold writeImage
    cases r with
    | error e => exact .inl rfl
    | ok data => exact lastOnly_bind (lastOnly_writeBufferView _ _ d) fun _ d => .inl rfl
  | accessor target data => exact lastOnly_writeAccessor target data d
  | accessorsInterleaved data => exact lastOnly_writeAccessorsInterleaved data d
  | primitiveAttributes attr =>
    show LastOnly d (writePrimitiveAttributes attr d).1
    unfold writePrimitiveAttributes
    refine lastOnly_bind (lastOnly_lift _ d) fun _ d => ?_
    refine lastOnly_bind (lastOnly_writeAccessorsInterleaved _ d) fun _ d => ?_
    refine lastOnly_bind (lastOnly_assignAttrs _ _ d) fun attrs d => ?_
    cases mapGet attrs POSITION
    · exact lastOnly_pure _ d
    · refine lastOnly_bind (lastOnly_modify _ _ d) fun _ d => ?_
      refine lastOnly_bind (lastOnly_modify _ _ d) fun _ d => ?_
      exact lastOnly_pure _ d
  | bufferView target data => exact lastOnly_writeBufferView target data d
  | bufferViewInterleaved data => exact lastOnly_writeBufferViews _ data d

/-- C74: after any calls of the writing functions, also failing ones, the document has the same accessors, buffer views
and images as before, followed by new ones; the buffers are the same but for the data of the last one, which has grown
at the end; a buffer is added only if there was none; everything else is unchanged. -/
theorem C74_only_appends (doc doc' : Document) (h : History doc doc') : Extends doc doc' ∧ LastOnly doc doc' := by
  refine ⟨h.extends, ?_⟩
  induction h with
  | nil => exact LastOnly.refl _
  | step op _ _ ih => exact LastOnly.trans _ _ _ (lastOnly_run op _) ih

/-- C76: after `NewDocument` and any calls of the writing functions, the version of the asset is 2.0 and the document
has one scene, without nodes, to which its default scene refers. -/
theorem C76_new_document (doc' : Document) (h : History newDocument doc') :
    doc'.asset.version = b!"2.0" ∧ doc'.asset.minVersion = [] ∧
    (∃ i : Nat, doc'.scene = some (i : Int) ∧ ∃ s, doc'.scenes[i]? = some (some s) ∧ s.nodes = []) ∧
    doc'.scenes.length = 1 ∧ doc'.nodes = [] ∧ doc'.meshes = [] ∧ doc'.materials = [] ∧
    doc'.extensionsUsed = [] ∧ doc'.extensionsRequired = [] ∧ doc'.buffers.length ≤ 1 := by
  obtain ⟨e, hl⟩ := C74_only_appends _ _ h
  have hr := e.rest
  obtain ⟨ext, extras, used, required, acc, anim, asset, buf, bv, cam, img, mat, mesh, nodes, samp, scene, scenes, skins, tex⟩ := doc'
  simp only [newDocument, Document.mk.injEq] at hr
  obtain ⟨-, -, rfl, rfl, -, -, rfl, -, -, -, -, rfl, rfl, rfl, -, rfl, rfl, -, -⟩ := hr
  refine ⟨rfl, rfl, ⟨0, rfl, _, rfl, rfl⟩, rfl, rfl, rfl, rfl, rfl, rfl, ?_⟩
  rcases hl with hl | ⟨p, hl⟩
  · have := congrArg List.length hl
    simp only at this ⊢
    rw [this]
    exact Nat.zero_le 1
  · exact Nat.le_of_eq (congrArg List.length hl)

/-- The asset names the generator and nothing else but the version. -/
theorem C76_asset (doc' : Document) (h : History newDocument doc') :
    doc'.asset = { generator := b!"qmuntal/gltf", version := b!"2.0" } ∧ doc'.extensions = [] ∧ doc'.extras = .null := by
  have hr := (C74_only_appends _ _ h).1.rest
  exact ⟨(congrArg Document.asset hr :), (congrArg Document.extensions hr :), (congrArg Document.extras hr :)⟩

/-- Two calls, of which the second one fails, after which a document with a mesh has one more accessor and a longer buffer. -/
example : ∃ doc', History { buffers := [some {}, some { uri := b!"a.bin", data := [1], byteLength := 1 }], meshes := [some {}] } doc' ∧
    doc'.accessors.length = 1 ∧ doc'.meshes.length = 1 ∧
    doc'.buffers.map (·.map fun b => (b.uri, b.data, b.byteLength)) = [some ([], [], 0), some (b!"a.bin", [1, 0, 0, 0, 5, 0], 6)] :=
  ⟨_, .step (.indices ⟨.base .u16 .sc, ([5] : List UInt16)⟩) (by decide +kernel)
      (.step (.image b!"x" b!"image/png" (.error (.msg "gone"))) (by decide +kernel) (.nil _)), by decide +kernel⟩

end Gltf
