/-
Properties C08 and C20-C26: the reading functions of package modeler.
-/
import Verif.Lemmas.Scratch
import Verif.Props.ModelerWrite

namespace Gltf

open Spec

/-! ### C08 ReadAccessor does not depend on the scratch buffer -/

/-- The full statement of C08. -/
def C08_full : Prop :=
  ∀ (doc : Document) (acr : Accessor) (buffer buffer' : Bytes) (p : Pools),
    SameOutcome (readAccessor doc acr buffer p) (readAccessor doc acr buffer' p)

/-- C08 is false of the code: without a buffer view the result is whatever the scratch buffer
contained. -/
theorem C08_full_fails : ¬ C08_full := by
  intro h
  have := h {} { componentType := .ubyte, type := .scalar, count := 2 } [] [7, 8] ⟨[], [], []⟩
  rw [show readAccessor {} { componentType := .ubyte, type := .scalar, count := 2 } [] ⟨[], [], []⟩
      = .ok ⟨.base .u8 .sc, [0, 0]⟩ by decide +kernel,
    show readAccessor {} { componentType := .ubyte, type := .scalar, count := 2 } [7, 8] ⟨[], [], []⟩
      = .ok ⟨.base .u8 .sc, [7, 8]⟩ by decide +kernel] at this
  revert this
  show ¬ (_ = _)
  decide +kernel

/-- C08 for accessors with a buffer view, of any type but 3x3 matrices of 32 bit integers, when the
strides are at most 2^14 and not negative and the data can be allocated; the contents of the pools
do not matter either. (Missing: accessors without buffer view, where it is false; 3x3 matrices of
32 bit integers, where a non-empty scratch buffer panics; absurd strides and counts.) -/
theorem C08_scratch_partial (doc : Document) (acr : Accessor) (buffer buffer' : Bytes) (p p' : Pools)
    (ht : Tame doc) (hm : Modest acr) (hv : acr.bufferView ≠ none) :
    SameOutcome (readAccessor doc acr buffer p) (readAccessor doc acr buffer' p') :=
  (readAccessor_rel ht hm hv).same

/-- A sparse strided accessor and different scratch buffers. -/
example : ∃ (doc : Document) (acr : Accessor), Tame doc ∧ Modest acr ∧ acr.bufferView ≠ none ∧
    readAccessor doc acr [9, 9, 9, 9, 9] ⟨[5], [], [1]⟩ = .ok ⟨.base .u16 .sc, [1, 3, 3]⟩ := by
  refine ⟨{ buffers := [some { data := [1, 0, 9, 9, 2, 0, 9, 9, 3, 0, 1], byteLength := 11 }],
            bufferViews := [some { buffer := 0, byteLength := 10, byteStride := 4 },
              some { buffer := 0, byteOffset := 10, byteLength := 1 },
              some { buffer := 0, byteOffset := 8, byteLength := 2 }] },
    { componentType := .ushort, type := .scalar, count := 3, bufferView := some 0,
      sparse := some { count := 1, indices := { bufferView := 1, componentType := .ubyte },
                       values := { bufferView := 2 } } }, ⟨?_, ?_⟩, ⟨by decide, by decide, ?_⟩, by decide, by decide +kernel⟩
  · intro b hb
    simp only [List.mem_singleton, Option.some.injEq] at hb
    subst hb; unfold GoLen; decide
  · intro bv hb
    simp only [List.mem_cons, Option.some.injEq, List.not_mem_nil, or_false] at hb
    rcases hb with rfl | rfl | rfl <;> decide
  · intro sp hsp
    cases hsp; decide

/-! ### C23 Typed readers return Count elements whatever buffer they recycle -/

/-- A typed reader: document, accessor, buffer to recycle, scratch buffer from the pool, other pools. -/
abbrev TypedReader (β : Type) := Document → Accessor → List β → Bytes → Pools → Res (List β)

/-- The full statement of C23 for one reader. -/
def ReadsExactly {β : Type} (f : TypedReader β) : Prop :=
  ∀ doc acr buffer buffer' b0 b0' p p',
    SameOutcome (f doc acr buffer b0 p) (f doc acr buffer' b0' p') ∧
    ∀ r, f doc acr buffer b0 p = .ok r → (r.length : Int) = acr.count

/-- C23 is false of the code for accessors without elements: the recycled buffer comes back as it is. -/
theorem C23_full_fails_empty : ¬ ReadsExactly readIndices := by
  intro h
  have := (h {} { componentType := .ubyte, type := .scalar, count := 0 } [7] [] [] [] ⟨[], [], []⟩ ⟨[], [], []⟩).2 [7]
    (by decide +kernel)
  revert this; decide

/-- C23 is false of the code for accessors without buffer view: the result is what the pool
contained. -/
theorem C23_full_fails_no_view : ∃ acr : Accessor, acr.count = 1 ∧
    readIndices {} acr [] [] ⟨[], [], []⟩ = .ok [0] ∧ readIndices {} acr [] [5] ⟨[], [], []⟩ = .ok [5] :=
  ⟨{ componentType := .ubyte, type := .scalar, count := 1 }, by decide, by decide +kernel, by decide +kernel⟩

/-- C23 for one reader, restricted to accessors that have elements (or no buffer to recycle), a buffer
view, and modest sizes. -/
def ReadsCount {β : Type} (f : TypedReader β) : Prop :=
  ∀ doc acr buffer buffer' b0 b0' p p', (acr.count ≠ 0 ∨ (buffer = [] ∧ buffer' = [])) →
    (∀ r, f doc acr buffer b0 p = .ok r → (r.length : Int) = acr.count) ∧
    f doc acr buffer b0 p = f doc acr buffer' b0 p ∧
    (Tame doc → Modest acr → acr.bufferView ≠ none → SameOutcome (f doc acr buffer b0 p) (f doc acr buffer' b0' p'))

theorem typedBody_fail {β : Type} {check : ComponentType → AccessorType → Res Unit} {zero : β}
    {conv : List β → Slice → Res (List β)} {doc : Document} {acr : Accessor} {buffer : List β} {b0 : Bytes} {p : Pools}
    (hck : check acr.componentType acr.type = .ok ()) :
    (∀ e, readAccessor doc acr b0 p = .err e → typedBody check zero conv doc acr buffer b0 p = .err e) ∧
    (∀ w, readAccessor doc acr b0 p = .panic w → typedBody check zero conv doc acr buffer b0 p = .panic w) := by
  constructor <;> intro e h <;> unfold typedBody <;> rw [hck, Res.ok_bind, h] <;> rfl

theorem readsCount_typedBody {β : Type} {check : ComponentType → AccessorType → Res Unit} {zero : β}
    {conv : List β → Slice → Res (List β)} {acc : ComponentType → AccessorType → Bool} {f : Slice → List β}
    (hc : Converts acc conv f) (hacc : ∀ c t, check c t = .ok () → acc c t = true) :
    ReadsCount (typedBody check zero conv) := by
  intro doc acr buffer buffer' b0 b0' p p' hb
  cases hck : check acr.componentType acr.type with
  | err e =>
    have h : ∀ b b0 p, typedBody check zero conv doc acr b b0 p = .err e := by
      intros; unfold typedBody; rw [hck]; rfl
    simp only [h]
    exact ⟨fun r h => (nomatch h), trivial, fun _ _ _ => rfl⟩
  | panic w =>
    have h : ∀ b b0 p, typedBody check zero conv doc acr b b0 p = .panic w := by
      intros; unfold typedBody; rw [hck]; rfl
    simp only [h]
    exact ⟨fun r h => (nomatch h), trivial, fun _ _ _ => trivial⟩
  | ok u =>
    have ha := hacc _ _ hck
    have hb1 : acr.count ≠ 0 ∨ buffer = [] := hb.imp_right (·.1)
    have hb2 : acr.count ≠ 0 ∨ buffer' = [] := hb.imp_right (·.2)
    have key : ∀ {b b0 p}, (acr.count ≠ 0 ∨ b = []) → typedBody check zero conv doc acr b b0 p = (readAccessor doc acr b0 p).map f := by
      intro b b0 p hb
      cases hr : readAccessor doc acr b0 p with
      | ok s =>
        obtain ⟨rest, h1, h2⟩ := typedBody_of_ok (zero := zero) (buffer := b) hc hck ha hr
        rw [h1, (h2 hb).1, List.append_nil]; rfl
      | err e => exact (typedBody_fail hck).1 e hr
      | panic w => exact (typedBody_fail hck).2 w hr
    refine ⟨fun r hr => ?_, by rw [key hb1, key hb2], fun ht hm hv => ?_⟩
    · rw [key hb1] at hr
      obtain ⟨s, hs, rfl⟩ := Res.map_eq_ok.1 hr
      obtain ⟨rest, h1, h2⟩ := typedBody_of_ok (zero := zero) (buffer := buffer) hc hck ha hs
      exact (h2 hb1).2
    · rw [key hb1, key hb2]
      have hrel := readAccessor_rel (buffer := b0) (buffer' := b0') (p := p) (p' := p') ht hm hv
      generalize readAccessor doc acr b0 p = x at hrel
      generalize readAccessor doc acr b0' p' = y at hrel
      cases hrel with
      | ok h => exact congrArg f h
      | err e => exact rfl
      | panic w w' => exact trivial

theorem checkNormalized_accepts {t0 c t} : checkNormalized t0 c t = .ok () ↔
    ((c = .ubyte || c = .ushort || c = .float) && t = t0) = true := by
  cases c <;> simp [checkNormalized]

theorem checkReadJoints_accepts {c t} : checkReadJoints c t = .ok () ↔ acceptsJoints c t = true := by
  cases c <;> cases t <;> simp [checkReadJoints, acceptsJoints]

theorem checkReadColor_accepts {c t} : checkReadColor c t = .ok () ↔ acceptsColor c t = true := by
  cases c <;> cases t <;> simp [checkReadColor, acceptsColor]

theorem checkExact_accepts {c0 t0 c t} : checkExact c0 t0 c t = .ok () ↔
    (decide (c = c0) && decide (t = t0)) = true := by
  unfold checkExact
  by_cases h1 : c = c0 <;> by_cases h2 : t = t0 <;> simp [h1, h2]

theorem readsCount_exact (k : Kind) (s : Shape) : ReadsCount (readExact (.base k s)) :=
  readsCount_typedBody (check := checkExact (ETy.base k s).c (ETy.base k s).t) (exact_converts k s)
    (by intro c t h; rw [checkExact_accepts, ← (ctypes k s).1, ← (ctypes k s).2] at h; exact h)

/-- C23 for every typed reader (missing: accessors without elements and accessors without buffer
view, where it is false). -/
theorem C23_typed_readers_partial (cf : ColorFns) :
    ReadsCount readIndices ∧ ReadsCount readNormal ∧ ReadsCount readTangent ∧ ReadsCount readTextureCoord ∧
    ReadsCount readWeights ∧ ReadsCount readJoints ∧ ReadsCount readPosition ∧ ReadsCount (readColor cf) ∧
    ReadsCount (readColor64 cf) ∧ ReadsCount readInverseBindMatrices :=
  ⟨readsCount_typedBody indices_converts fun _ _ => checkIndices_accepts.1,
    readsCount_exact _ _, readsCount_exact _ _,
    readsCount_typedBody texCoord_converts fun _ _ => checkNormalized_accepts.1,
    readsCount_typedBody weights_converts fun _ _ => checkNormalized_accepts.1,
    readsCount_typedBody joints_converts fun _ _ => checkReadJoints_accepts.1,
    readsCount_exact _ _,
    readsCount_typedBody (color_converts cf) fun _ _ => checkReadColor_accepts.1,
    readsCount_typedBody (color64_converts cf) fun _ _ => checkReadColor_accepts.1,
    readsCount_exact _ _⟩

/-- Two joints read into a longer dirty buffer. -/
example : readJoints { buffers := [some { data := [1, 2, 3, 4, 5, 6, 7, 8] }],
                       bufferViews := [some { buffer := 0, byteLength := 8 }] }
      { componentType := .ubyte, type := .vec4, count := 2, bufferView := some 0 }
      [⟨9, 9, 9, 9⟩, ⟨9, 9, 9, 9⟩, ⟨9, 9, 9, 9⟩] [77] ⟨[], [], []⟩ = .ok [⟨1, 2, 3, 4⟩, ⟨5, 6, 7, 8⟩] := by decide +kernel

/-! ### C24 Typed readers check the accessor type -/

/-- A reader fails without looking at the document exactly for the types that are not accepted;
for the others it fails only as `ReadAccessor` does. -/
def ChecksType {β : Type} (f : TypedReader β) (acc : ComponentType → AccessorType → Bool) : Prop :=
  ∀ acr : Accessor,
    (acc acr.componentType acr.type = false → ∃ e, ∀ doc buffer b0 p, f doc acr buffer b0 p = .err (.msg e)) ∧
    (acc acr.componentType acr.type = true → ∀ doc buffer b0 p,
      (∀ e, f doc acr buffer b0 p = .err e ↔ readAccessor doc acr b0 p = .err e) ∧
      ((f doc acr buffer b0 p).isOk = (readAccessor doc acr b0 p).isOk))

theorem checksType_typedBody {β : Type} {check : ComponentType → AccessorType → Res Unit} {zero : β}
    {conv : List β → Slice → Res (List β)} {acc : ComponentType → AccessorType → Bool} {f : Slice → List β}
    (hc : Converts acc conv f) (hacc : ∀ c t, check c t = .ok () ↔ acc c t = true)
    (hno : ∀ c t, acc c t = false → ∃ e, check c t = .err (.msg e)) :
    ChecksType (typedBody check zero conv) acc := by
  intro acr
  refine ⟨fun h => ?_, fun h doc buffer b0 p => ?_⟩
  · obtain ⟨e, he⟩ := hno _ _ h
    refine ⟨e, fun doc buffer b0 p => ?_⟩
    unfold typedBody; rw [he]; rfl
  · have hck := (hacc _ _).2 h
    cases hr : readAccessor doc acr b0 p with
    | ok s =>
      obtain ⟨rest, h1, -⟩ := typedBody_of_ok (zero := zero) (buffer := buffer) hc hck h hr
      rw [h1]
      simp [Res.isOk]
    | err e => rw [(typedBody_fail hck).1 e hr]; simp [Res.isOk]
    | panic w => rw [(typedBody_fail hck).2 w hr]; simp [Res.isOk]

theorem checksType_exact (k : Kind) (s : Shape) :
    ChecksType (readExact (.base k s)) fun c t => decide (c = componentTypeOf k) && decide (t = accessorTypeOf s) :=
  checksType_typedBody (check := checkExact (ETy.base k s).c (ETy.base k s).t) (exact_converts k s)
    (by intro c t; rw [checkExact_accepts, ← (ctypes k s).1, ← (ctypes k s).2])
    (by
      intro c t h
      rw [(ctypes k s).1, (ctypes k s).2] at h
      unfold checkExact
      by_cases h1 : c = (ETy.base k s).c <;> by_cases h2 : t = (ETy.base k s).t <;> simp [h1, h2] at h ⊢)

/-- C24 for every typed reader. -/
theorem C24_type_checks (cf : ColorFns) :
    ChecksType readIndices acceptsIndices ∧ ChecksType readNormal acceptsVec3 ∧ ChecksType readTangent acceptsVec4 ∧
    ChecksType readTextureCoord acceptsTextureCoord ∧ ChecksType readWeights acceptsWeights ∧
    ChecksType readJoints acceptsJoints ∧ ChecksType readPosition acceptsVec3 ∧
    ChecksType (readColor cf) acceptsColor ∧ ChecksType (readColor64 cf) acceptsColor ∧
    ChecksType readInverseBindMatrices acceptsMat4 := by
  refine ⟨checksType_typedBody indices_converts (fun _ _ => checkIndices_accepts) ?_,
    checksType_exact .f32 .v3, checksType_exact .f32 .v4,
    checksType_typedBody texCoord_converts (fun _ _ => checkNormalized_accepts) ?_,
    checksType_typedBody weights_converts (fun _ _ => checkNormalized_accepts) ?_,
    checksType_typedBody joints_converts (fun _ _ => checkReadJoints_accepts) ?_,
    checksType_exact .f32 .v3,
    checksType_typedBody (color_converts cf) (fun _ _ => checkReadColor_accepts) ?_,
    checksType_typedBody (color64_converts cf) (fun _ _ => checkReadColor_accepts) ?_,
    checksType_exact .f32 .m4⟩
  · intro c t h; cases c <;> cases t <;> simp [acceptsIndices, checkIndices] at h ⊢
  · intro c t h; cases c <;> cases t <;> simp [acceptsTextureCoord, checkNormalized] at h ⊢
  · intro c t h; cases c <;> cases t <;> simp [acceptsWeights, checkNormalized] at h ⊢
  · intro c t h; cases c <;> cases t <;> simp [acceptsJoints, checkReadJoints] at h ⊢
  · intro c t h; cases c <;> cases t <;> simp [acceptsColor, checkReadColor] at h ⊢
  · intro c t h; cases c <;> cases t <;> simp [acceptsColor, checkReadColor] at h ⊢

/-- An accepted and a rejected accessor. -/
example : acceptsColor .ushort .vec3 = true ∧ acceptsColor .short .vec3 = false ∧ acceptsIndices .uint .vec2 = false := by
  decide

/-- What was written is read back through a typed reader. -/
theorem written_typed {β : Type} {check : ComponentType → AccessorType → Res Unit} {zero : β}
    {conv : List β → Slice → Res (List β)} {acc : ComponentType → AccessorType → Bool} {f : Slice → List β}
    (hc : Converts acc conv f) (hacc : ∀ c t, check c t = .ok () ↔ acc c t = true)
    (hx : acc .uint .mat3 = false)
    {target : Target} {data : Slice} {doc d doc' : Document} {i : Nat}
    (h : writeAccessor target data doc = (d, .ok i)) (hs : SameDoc d doc') (ha : acc data.ty.c data.ty.t = true) :
    ∃ acr, doc'.accessors[i]? = some (some acr) ∧ acc acr.componentType acr.type = true ∧
      ∀ b0 p, readAccessor doc' acr b0 p = .ok (back data) ∧
        typedBody check zero conv doc' acr [] b0 p = .ok (f (back data)) := by
  obtain ⟨acr, h1, h2, h3, h4, h5⟩ := written_back h hs
  rw [← h2, ← h3] at ha
  refine ⟨acr, h1, ha, fun b0 p => ?_⟩
  have hr := h5 b0 p (by
    rintro ⟨e1, e2, -⟩
    rw [h2, h3, e1, e2, hx] at ha
    cases ha)
  obtain ⟨rest, h6, h7⟩ := typedBody_of_ok (zero := zero) (buffer := []) (b0 := b0) (p := p) hc ((hacc _ _).2 ha) ha hr
  exact ⟨hr, by rw [h6, (h7 (.inr rfl)).1, List.append_nil]⟩

theorem written_exact {k : Kind} {s : Shape} (hx : ¬ (k = .u32 ∧ s = .m3)) {target : Target} {data : List (s.A k.T)}
    {doc d doc' : Document} {i : Nat}
    (h : writeAccessor target ⟨.base k s, data⟩ doc = (d, .ok i)) (hs : SameDoc d doc') :
    ∃ acr, doc'.accessors[i]? = some (some acr) ∧ ∀ b0 p, readExact (.base k s) doc' acr [] b0 p = .ok data := by
  obtain ⟨acr, h1, -, h2⟩ := written_typed (zero := (ETy.base k s).zero) (exact_converts k s)
    (check := checkExact (ETy.base k s).c (ETy.base k s).t)
    (by intro c t; rw [checkExact_accepts, ← (ctypes k s).1, ← (ctypes k s).2])
    (by cases k <;> cases s <;> first | rfl | exact absurd ⟨rfl, rfl⟩ hx) h hs
    (by rw [(ctypes k s).1, (ctypes k s).2]; simp)
  refine ⟨acr, h1, fun b0 p => (h2 b0 p).2.trans ?_⟩
  have : back ⟨.base k s, data⟩ = ⟨.base k s, data⟩ := by
    simp only [back, backTy]
    congr 1
    exact List.map_id _
  rw [this]
  simp [exactFn]

theorem same_modify {i : Nat} {f : Accessor → Accessor} {d d' : Document} (hf : ∀ a, SameAcr (some a) (some (f a)))
    (h : modifyAccessor i f d = (d', .ok ())) : SameDoc d d' := modifyAccessor_same hf h

/-- C24: what the float writers wrote is accepted by the readers and comes back unchanged. -/
theorem C24_float_round_trip (doc doc' : Document) (i : Nat) :
    (∀ data, writeNormal data doc = (doc', .ok i) →
      ∃ acr, doc'.accessors[i]? = some (some acr) ∧ ∀ b0 p, readNormal doc' acr [] b0 p = .ok data) ∧
    (∀ data, writeTangent data doc = (doc', .ok i) →
      ∃ acr, doc'.accessors[i]? = some (some acr) ∧ ∀ b0 p, readTangent doc' acr [] b0 p = .ok data) ∧
    (∀ data, writePosition data doc = (doc', .ok i) →
      ∃ acr, doc'.accessors[i]? = some (some acr) ∧ ∀ b0 p, readPosition doc' acr [] b0 p = .ok data) ∧
    (∀ data, writeInverseBindMatrices data doc = (doc', .ok i) →
      ∃ acr, doc'.accessors[i]? = some (some acr) ∧ ∀ b0 p, readInverseBindMatrices doc' acr [] b0 p = .ok data) := by
  refine ⟨fun data h => ?_, fun data h => ?_, fun data h => ?_, fun data h => ?_⟩
  · exact written_exact (k := .f32) (s := .v3) (by decide) h (SameDoc.refl _)
  · exact written_exact (k := .f32) (s := .v4) (by decide) h (SameDoc.refl _)
  · obtain ⟨d, d2, h1, h2, h3⟩ := writePosition_core h
    exact written_exact (k := .f32) (s := .v3) (by decide) h1
      ((same_modify (fun a => sameMin a _) h2).trans (same_modify (fun a => sameMax a _) h3))
  · exact written_exact (k := .f32) (s := .m4) (by decide) h (SameDoc.refl _)

theorem writeIndices_types {data : Slice} {doc doc' : Document} {i : Nat} (h : writeIndices data doc = (doc', .ok i)) :
    writeAccessor targetElementArrayBuffer data doc = (doc', .ok i) ∧
    (data.ty = .base .u16 .sc ∨ data.ty = .base .u32 .sc) := by
  obtain ⟨ty, d⟩ := data
  cases ty with
  | base k s =>
    cases k <;> cases s <;> first
      | exact ⟨h, .inl rfl⟩
      | exact ⟨h, .inr rfl⟩
      | (simp [writeIndices, W.lift] at h; done)
  | rgba => simp [writeIndices, W.lift] at h
  | rgba64 => simp [writeIndices, W.lift] at h

theorem writeJoints_types {data : Slice} {doc doc' : Document} {i : Nat} (h : writeJoints data doc = (doc', .ok i)) :
    writeAccessor targetArrayBuffer data doc = (doc', .ok i) ∧
    (data.ty = .base .u8 .v4 ∨ data.ty = .base .u16 .v4) := by
  unfold writeJoints at h
  obtain ⟨d, u, h1, h2⟩ := W.bind_ok.1 h
  obtain ⟨rfl, h3⟩ := W.lift_ok.1 h1
  refine ⟨h2, ?_⟩
  obtain ⟨ty, d⟩ := data
  cases ty with
  | base k s =>
    cases k <;> cases s <;> first
      | exact .inl rfl
      | exact .inr rfl
      | (simp [checkJoints, panicOnErr] at h3; done)
  | rgba => simp [checkJoints, panicOnErr] at h3
  | rgba64 => simp [checkJoints, panicOnErr] at h3

/-- C24: what the other typed writers wrote is accepted by the reader, which returns a conversion of
the data (C25, C26). -/
theorem C24_written_accepted (cf : ColorFns) (doc doc' : Document) (i : Nat) (data : Slice) :
    (writeIndices data doc = (doc', .ok i) →
      ∃ acr, doc'.accessors[i]? = some (some acr) ∧ ∀ b0 p, (readIndices doc' acr [] b0 p).isOk) ∧
    (writeJoints data doc = (doc', .ok i) →
      ∃ acr, doc'.accessors[i]? = some (some acr) ∧ ∀ b0 p, (readJoints doc' acr [] b0 p).isOk) ∧
    (writeTextureCoord data doc = (doc', .ok i) →
      ∃ acr, doc'.accessors[i]? = some (some acr) ∧ ∀ b0 p, ∃ r, readTextureCoord doc' acr [] b0 p = .ok r ∧
        ∀ v, data = ⟨.base .f32 .v2, v⟩ → r = v) ∧
    (writeWeights data doc = (doc', .ok i) →
      ∃ acr, doc'.accessors[i]? = some (some acr) ∧ ∀ b0 p, ∃ r, readWeights doc' acr [] b0 p = .ok r ∧
        ∀ v, data = ⟨.base .f32 .v4, v⟩ → r = v) ∧
    (writeColor data doc = (doc', .ok i) →
      ∃ acr, doc'.accessors[i]? = some (some acr) ∧ ∀ b0 p, (readColor cf doc' acr [] b0 p).isOk ∧
        (readColor64 cf doc' acr [] b0 p).isOk) := by
  have hid : ∀ {k : Kind} {s : Shape} (v : List (s.A k.T)), back ⟨.base k s, v⟩ = ⟨.base k s, v⟩ := by
    intro k s v
    simp only [back, backTy]
    congr 1
    exact List.map_id _
  refine ⟨fun h => ?_, fun h => ?_, fun h => ?_, fun h => ?_, fun h => ?_⟩
  · obtain ⟨h1, h2⟩ := writeIndices_types h
    obtain ⟨acr, k1, -, k2⟩ := written_typed (zero := 0) indices_converts (fun _ _ => checkIndices_accepts) (by decide) h1
      (SameDoc.refl _) (by rcases h2 with h2 | h2 <;> rw [h2] <;> decide)
    exact ⟨acr, k1, fun b0 p => by
      have := (k2 b0 p).2
      unfold readIndices
      unfold typedBody at this
      rw [this]; rfl⟩
  · obtain ⟨h1, h2⟩ := writeJoints_types h
    obtain ⟨acr, k1, -, k2⟩ := written_typed (zero := ⟨0, 0, 0, 0⟩) joints_converts (fun _ _ => checkReadJoints_accepts) (by decide) h1
      (SameDoc.refl _) (by rcases h2 with h2 | h2 <;> rw [h2] <;> decide)
    exact ⟨acr, k1, fun b0 p => by
      have := (k2 b0 p).2
      unfold readJoints
      unfold typedBody at this
      rw [this]; rfl⟩
  · obtain ⟨d, b, h1, h2, h3⟩ := writeNormalized_core h
    obtain ⟨acr, k1, -, k2⟩ := written_typed (zero := ⟨⟨0⟩, ⟨0⟩⟩) texCoord_converts (fun _ _ => checkNormalized_accepts) (by decide) h2
      (same_modify (fun a => sameNorm a _) h3) (by
        obtain ⟨ty, d⟩ := data
        cases ty with
        | base k s => cases k <;> cases s <;> first | rfl | (simp [checkTextureCoord] at h1; done)
        | rgba => simp [checkTextureCoord] at h1
        | rgba64 => simp [checkTextureCoord] at h1)
    refine ⟨acr, k1, fun b0 p => ⟨_, (k2 b0 p).2, ?_⟩⟩
    rintro v rfl
    rw [hid]; rfl
  · obtain ⟨d, b, h1, h2, h3⟩ := writeNormalized_core h
    obtain ⟨acr, k1, -, k2⟩ := written_typed (zero := ⟨⟨0⟩, ⟨0⟩, ⟨0⟩, ⟨0⟩⟩) weights_converts (fun _ _ => checkNormalized_accepts) (by decide) h2
      (same_modify (fun a => sameNorm a _) h3) (by
        obtain ⟨ty, d⟩ := data
        cases ty with
        | base k s => cases k <;> cases s <;> first | rfl | (simp [checkWeights] at h1; done)
        | rgba => simp [checkWeights] at h1
        | rgba64 => simp [checkWeights] at h1)
    refine ⟨acr, k1, fun b0 p => ⟨_, (k2 b0 p).2, ?_⟩⟩
    rintro v rfl
    rw [hid]; rfl
  · obtain ⟨d, b, h1, h2, h3⟩ := writeNormalized_core h
    have hacc : acceptsColor data.ty.c data.ty.t = true := by
      obtain ⟨ty, d⟩ := data
      cases ty with
      | base k s => cases k <;> cases s <;> first | rfl | (simp [checkColor] at h1; done)
      | rgba => rfl
      | rgba64 => rfl
    obtain ⟨acr, k1, -, k2⟩ := written_typed (zero := ⟨0, 0, 0, 0⟩) (color_converts cf) (fun _ _ => checkReadColor_accepts) (by decide) h2
      (same_modify (fun a => sameNorm a _) h3) hacc
    obtain ⟨acr', k1', -, k2'⟩ := written_typed (zero := ⟨0, 0, 0, 0⟩) (color64_converts cf) (fun _ _ => checkReadColor_accepts) (by decide) h2
      (same_modify (fun a => sameNorm a _) h3) hacc
    rw [k1] at k1'
    cases k1'
    refine ⟨acr, k1, fun b0 p => ⟨?_, ?_⟩⟩
    · have := (k2 b0 p).2
      unfold readColor
      unfold typedBody at this
      rw [this]; rfl
    · have := (k2' b0 p).2
      unfold readColor64
      unfold typedBody at this
      rw [this]; rfl

/-- Texture coordinates written as unsigned bytes. -/
example : ∃ doc' acr, writeTextureCoord ⟨.base .u8 .v2, [⟨0, 255⟩]⟩ {} = (doc', .ok 0) ∧
    doc'.accessors[0]? = some (some acr) ∧ acr.normalized = true ∧
    readTextureCoord doc' acr [] [] ⟨[], [], []⟩ = .ok [⟨⟨0⟩, ⟨0x3F800000⟩⟩] := by
  have h : ∃ doc', writeTextureCoord ⟨.base .u8 .v2, [⟨0, 255⟩]⟩ {} = (doc', .ok 0) ∧
      (doc'.accessors[0]?.join.map fun acr => (acr.normalized, readTextureCoord doc' acr [] [] ⟨[], [], []⟩))
        = some (true, .ok [⟨⟨0⟩, ⟨0x3F800000⟩⟩]) := ⟨_, outcome (by decide +kernel), by decide +kernel⟩
  obtain ⟨doc', h1, h2⟩ := h
  obtain ⟨acr, h3, -⟩ := (C24_written_accepted ⟨fun _ => ⟨0, 0, 0⟩, fun _ => ⟨0, 0, 0, 0⟩, fun _ => ⟨0, 0, 0⟩, fun _ => ⟨0, 0, 0, 0⟩⟩
    {} doc' 0 _).2.2.1 h1
  rw [h3] at h2
  simp only [Option.join_some, Option.map_some, Option.some.injEq, Prod.mk.injEq] at h2
  exact ⟨doc', acr, h1, h3, h2.1, h2.2⟩

/-! ### C25 Indices and joints are widened without loss -/

theorem indicesFn_scalars {k : Kind} {s : Shape} {d : List (s.A k.T)}
    (h : acceptsIndices (componentTypeOf k) (accessorTypeOf s) = true) :
    scalars ⟨.base k s, d⟩ = some ((indicesFn ⟨.base k s, d⟩).map fun x => x.toNat) := by
  have h8 : ∀ x : UInt8, (UInt32.ofNat x.toNat).toNat = x.toNat := by
    intro x; have := x.toNat_lt; rw [UInt32.toNat_ofNat']; omega
  have h16 : ∀ x : UInt16, (UInt32.ofNat x.toNat).toNat = x.toNat := by
    intro x; have := x.toNat_lt; rw [UInt32.toNat_ofNat']; omega
  cases k <;> cases s <;> first
    | exact absurd h (by decide)
    | (simp only [scalars, indicesFn, List.map_map, Function.comp_def, h8, h16]; done)
    | rfl

/-- What a successful typed read tells. -/
theorem typedBody_inv {β : Type} {check : ComponentType → AccessorType → Res Unit} {zero : β}
    {conv : List β → Slice → Res (List β)} {acc : ComponentType → AccessorType → Bool} {f : Slice → List β}
    (hc : Converts acc conv f) (hacc : ∀ c t, check c t = .ok () → acc c t = true)
    {doc : Document} {acr : Accessor} {buffer r : List β} {b0 : Bytes} {p : Pools}
    (h : typedBody check zero conv doc acr buffer b0 p = .ok r) (hb : acr.count ≠ 0 ∨ buffer = []) :
    ∃ (k : Kind) (s : Shape) (d : List (s.A k.T)), readAccessor doc acr b0 p = .ok ⟨.base k s, d⟩ ∧
      acc (componentTypeOf k) (accessorTypeOf s) = true ∧ r = f ⟨.base k s, d⟩ := by
  have hck : check acr.componentType acr.type = .ok () := by
    cases hck : check acr.componentType acr.type with
    | ok u => rfl
    | err e => unfold typedBody at h; rw [hck] at h; exact (nomatch h)
    | panic e => unfold typedBody at h; rw [hck] at h; exact (nomatch h)
  cases hr : readAccessor doc acr b0 p with
  | ok s =>
    obtain ⟨rest, h1, h2⟩ := typedBody_of_ok (zero := zero) (buffer := buffer) hc hck (hacc _ _ hck) hr
    rw [h1, (h2 hb).1, List.append_nil] at h
    cases h
    obtain ⟨k, sh, e1, e2, e3, -⟩ := readAccessor_inv hr
    obtain ⟨ty, d⟩ := s
    cases e3
    exact ⟨k, sh, d, rfl, by rw [← e1, ← e2]; exact hacc _ _ hck, rfl⟩
  | err e => rw [(typedBody_fail hck).1 e hr] at h; exact (nomatch h)
  | panic w => rw [(typedBody_fail hck).2 w hr] at h; exact (nomatch h)

/-- C25: `ReadIndices` returns the numbers that `ReadAccessor` finds in the buffer. -/
theorem C25_indices (doc : Document) (acr : Accessor) (buffer r : List UInt32) (b0 : Bytes) (p : Pools)
    (h : readIndices doc acr buffer b0 p = .ok r) (hb : acr.count ≠ 0 ∨ buffer = []) :
    ∃ s, readAccessor doc acr b0 p = .ok s ∧ scalars s = some (r.map fun x => x.toNat) := by
  obtain ⟨k, s, d, h1, h2, rfl⟩ := typedBody_inv indices_converts (fun _ _ => checkIndices_accepts.1) h hb
  exact ⟨_, h1, indicesFn_scalars h2⟩

/-- C25: `WriteIndices` then `ReadIndices` gives back the same numbers. -/
theorem C25_indices_round_trip (data : Slice) (doc doc' : Document) (i : Nat)
    (h : writeIndices data doc = (doc', .ok i)) :
    ∃ acr, doc'.accessors[i]? = some (some acr) ∧ ∀ b0 p, ∃ r, readIndices doc' acr [] b0 p = .ok r ∧
      scalars data = some (r.map fun x => x.toNat) := by
  obtain ⟨h1, h2⟩ := writeIndices_types h
  obtain ⟨acr, k1, -, k2⟩ := written_typed (zero := 0) indices_converts (fun _ _ => checkIndices_accepts) (by decide) h1
    (SameDoc.refl _) (by rcases h2 with h2 | h2 <;> rw [h2] <;> decide)
  refine ⟨acr, k1, fun b0 p => ⟨_, (k2 b0 p).2, ?_⟩⟩
  obtain ⟨ty, d⟩ := data
  have hid : ∀ {k : Kind} {s : Shape} (v : List (s.A k.T)), back ⟨.base k s, v⟩ = ⟨.base k s, v⟩ := by
    intro k s v
    simp only [back, backTy]
    congr 1
    exact List.map_id _
  simp only at h2
  rcases h2 with rfl | rfl <;> rw [hid] <;> exact indicesFn_scalars (by decide)

theorem jointsFn_vectors {k : Kind} {s : Shape} {d : List (s.A k.T)}
    (h : acceptsJoints (componentTypeOf k) (accessorTypeOf s) = true) :
    ∃ m, vectors ⟨.base k s, d⟩
      = some (m, (jointsFn ⟨.base k s, d⟩).map fun v => [v.x0.toNat, v.x1.toNat, v.x2.toNat, v.x3.toNat]) := by
  cases k <;> cases s <;> first
    | exact absurd h (by decide)
    | exact ⟨65535, rfl⟩
    | exact ⟨255, by simp only [vectors, jointsFn, List.map_map, Function.comp_def, UInt8.toNat_toUInt16]⟩

/-- C25: `ReadJoints` returns the numbers that `ReadAccessor` finds in the buffer. -/
theorem C25_joints (doc : Document) (acr : Accessor) (buffer r : List (V4 UInt16)) (b0 : Bytes) (p : Pools)
    (h : readJoints doc acr buffer b0 p = .ok r) (hb : acr.count ≠ 0 ∨ buffer = []) :
    ∃ s m, readAccessor doc acr b0 p = .ok s ∧
      vectors s = some (m, r.map fun v => [v.x0.toNat, v.x1.toNat, v.x2.toNat, v.x3.toNat]) := by
  obtain ⟨k, s, d, h1, h2, rfl⟩ := typedBody_inv joints_converts (fun _ _ => checkReadJoints_accepts.1) h hb
  obtain ⟨m, hm⟩ := jointsFn_vectors h2
  exact ⟨_, m, h1, hm⟩

/-- C25: `WriteJoints` then `ReadJoints` gives back the same numbers. -/
theorem C25_joints_round_trip (data : Slice) (doc doc' : Document) (i : Nat)
    (h : writeJoints data doc = (doc', .ok i)) :
    ∃ acr, doc'.accessors[i]? = some (some acr) ∧ ∀ b0 p, ∃ r m, readJoints doc' acr [] b0 p = .ok r ∧
      vectors data = some (m, r.map fun v => [v.x0.toNat, v.x1.toNat, v.x2.toNat, v.x3.toNat]) := by
  obtain ⟨h1, h2⟩ := writeJoints_types h
  obtain ⟨acr, k1, -, k2⟩ := written_typed (zero := ⟨0, 0, 0, 0⟩) joints_converts (fun _ _ => checkReadJoints_accepts) (by decide) h1
    (SameDoc.refl _) (by rcases h2 with h2 | h2 <;> rw [h2] <;> decide)
  obtain ⟨ty, d⟩ := data
  have hid : ∀ {k : Kind} {s : Shape} (v : List (s.A k.T)), back ⟨.base k s, v⟩ = ⟨.base k s, v⟩ := by
    intro k s v
    simp only [back, backTy]
    congr 1
    exact List.map_id _
  refine ⟨acr, k1, fun b0 p => ⟨jointsFn (back ⟨ty, d⟩), ?_⟩⟩
  simp only at h2
  rcases h2 with rfl | rfl
  · obtain ⟨m, hm⟩ := jointsFn_vectors (k := .u8) (s := .v4) (d := d) (by decide)
    exact ⟨m, (k2 b0 p).2, by rw [hid]; exact hm⟩
  · obtain ⟨m, hm⟩ := jointsFn_vectors (k := .u16) (s := .v4) (d := d) (by decide)
    exact ⟨m, (k2 b0 p).2, by rw [hid]; exact hm⟩

/-- Three 16 bit indices. -/
example : ∃ doc', writeIndices ⟨.base .u16 .sc, [1, 65535, 0]⟩ {} = (doc', .ok 0) ∧
    (doc'.accessors[0]?.join.map fun acr => readIndices doc' acr [] [9, 9, 9] ⟨[], [], []⟩) = some (.ok [1, 65535, 0]) :=
  ⟨_, outcome (by decide +kernel), by decide +kernel⟩

/-! ### C26 Color reads keep the normalized value -/

/-- The full statement of C26 for `ReadColor`. -/
def C26_full : Prop :=
  ∀ (cf : ColorFns) (doc : Document) (acr : Accessor) (r : List (V4 UInt8)) (b0 : Bytes) (p : Pools) (s : Slice)
    (m : Nat) (vs : List (List Nat)),
    readColor cf doc acr [] b0 p = .ok r → readAccessor doc acr b0 p = .ok s → vectors s = some (m, vs) →
    r.length = vs.length ∧
    ∀ (i : Nat) v x, vs[i]? = some v → r[i]? = some x →
      SameColor v m [x.x0.toNat, x.x1.toNat, x.x2.toNat, x.x3.toNat] 255

/-- C26 is false of the code: `ReadColor` keeps the low byte of 16 bit components, so that 255 out of
65535, which is nearly black, becomes white. -/
theorem C26_full_fails : ¬ C26_full := by
  intro h
  have := (h ⟨fun _ => ⟨0, 0, 0⟩, fun _ => ⟨0, 0, 0, 0⟩, fun _ => ⟨0, 0, 0⟩, fun _ => ⟨0, 0, 0, 0⟩⟩
    { buffers := [some { data := [255, 0, 255, 0, 255, 0, 255, 255] }], bufferViews := [some { buffer := 0, byteLength := 8 }] }
    { componentType := .ushort, type := .vec4, count := 1, bufferView := some 0 }
    [⟨255, 255, 255, 255⟩] [] ⟨[], [], []⟩ ⟨.base .u16 .v4, [⟨255, 255, 255, 65535⟩]⟩ 65535 [[255, 255, 255, 65535]]
    (by decide +kernel) (by decide +kernel) rfl).2 0 _ _ rfl rfl
  have := this.2.1 0 255 255 rfl rfl
  revert this
  unfold SameLevel
  decide

theorem sameLevel_self (v m : Nat) (h : 0 < m) : SameLevel v m v m := by unfold SameLevel; omega

theorem sameColor3 {a b c x y z w m n : Nat} (h1 : SameLevel a m x n) (h2 : SameLevel b m y n) (h3 : SameLevel c m z n)
    (hw : w = n) : SameColor [a, b, c] m [x, y, z, w] n := by
  refine ⟨rfl, fun j u v hu hv => ?_, fun _ => by rw [hw]; rfl⟩
  match j with
  | 0 => cases hu; cases hv; exact h1
  | 1 => cases hu; cases hv; exact h2
  | 2 => cases hu; cases hv; exact h3
  | j + 3 => simp at hu

theorem sameColor4 {a b c d x y z w m n : Nat} (h1 : SameLevel a m x n) (h2 : SameLevel b m y n) (h3 : SameLevel c m z n)
    (h4 : SameLevel d m w n) : SameColor [a, b, c, d] m [x, y, z, w] n := by
  refine ⟨rfl, fun j u v hu hv => ?_, fun h => by simp at h⟩
  match j with
  | 0 => cases hu; cases hv; exact h1
  | 1 => cases hu; cases hv; exact h2
  | 2 => cases hu; cases hv; exact h3
  | 3 => cases hu; cases hv; exact h4
  | j + 4 => simp at hu

/-- `uint16(e) | uint16(e)<<8` is `257 * e`. -/
theorem widen_toNat (e : UInt8) : (widen e).toNat = 257 * e.toNat := by
  have h : ∀ n < 256, (widen (UInt8.ofNat n)).toNat = 257 * n := by decide +kernel
  have := h e.toNat e.toNat_lt
  rwa [UInt8.ofNat_toNat] at this

theorem sameLevel_widen (e : UInt8) : SameLevel e.toNat 255 (widen e).toNat 65535 := by
  rw [widen_toNat]; unfold SameLevel; omega

/-- C26 for `ReadColor` of 8 bit colours (missing: 16 bit colours, where it is false). -/
theorem C26_color_partial (cf : ColorFns) (doc : Document) (acr : Accessor) (buffer r : List (V4 UInt8)) (b0 : Bytes) (p : Pools)
    (s : Slice) (vs : List (List Nat))
    (h : readColor cf doc acr buffer b0 p = .ok r) (hb : acr.count ≠ 0 ∨ buffer = [])
    (hr : readAccessor doc acr b0 p = .ok s) (hv : vectors s = some (255, vs)) :
    r.length = vs.length ∧
    ∀ (i : Nat) v x, vs[i]? = some v → r[i]? = some x →
      SameColor v 255 [x.x0.toNat, x.x1.toNat, x.x2.toNat, x.x3.toNat] 255 := by
  obtain ⟨k, sh, d, h1, h2, rfl⟩ := typedBody_inv (color_converts cf) (fun _ _ => checkReadColor_accepts.1) h hb
  rw [hr] at h1
  cases h1
  have hs : ∀ n : Nat, SameLevel n 255 n 255 := fun n => sameLevel_self n 255 (by decide)
  cases k <;> cases sh <;> first
    | exact absurd h2 (by decide)
    | (cases hv; done)
    | (simp only [vectors, Option.some.injEq, Prod.mk.injEq] at hv
       obtain ⟨hm, rfl⟩ := hv
       first
       | (exact absurd hm (by decide))
       | (refine ⟨by simp [colorFn], fun i v x hv hx => ?_⟩
          simp only [colorFn, List.getElem?_map, Option.map_eq_some_iff] at hv hx
          obtain ⟨e, he, rfl⟩ := hv
          first
          | (obtain ⟨e', he', rfl⟩ := hx
             rw [he] at he'; cases he'
             exact sameColor3 (hs _) (hs _) (hs _) rfl)
          | (rw [he] at hx; cases hx
             exact sameColor4 (hs _) (hs _) (hs _) (hs _))))

/-- C26 for `ReadColor64`, for 8 and 16 bit colours. -/
theorem C26_color64 (cf : ColorFns) (doc : Document) (acr : Accessor) (buffer r : List (V4 UInt16)) (b0 : Bytes) (p : Pools)
    (s : Slice) (m : Nat) (vs : List (List Nat))
    (h : readColor64 cf doc acr buffer b0 p = .ok r) (hb : acr.count ≠ 0 ∨ buffer = [])
    (hr : readAccessor doc acr b0 p = .ok s) (hv : vectors s = some (m, vs)) :
    r.length = vs.length ∧
    ∀ (i : Nat) v x, vs[i]? = some v → r[i]? = some x →
      SameColor v m [x.x0.toNat, x.x1.toNat, x.x2.toNat, x.x3.toNat] 65535 ∧
      (∀ (j a b : Nat), v[j]? = some a → [x.x0.toNat, x.x1.toNat, x.x2.toNat, x.x3.toNat][j]? = some b →
        b * m = a * 65535) := by
  obtain ⟨k, sh, d, h1, h2, rfl⟩ := typedBody_inv (color64_converts cf) (fun _ _ => checkReadColor_accepts.1) h hb
  rw [hr] at h1
  cases h1
  have hs : ∀ n : Nat, SameLevel n 65535 n 65535 := fun n => sameLevel_self n 65535 (by decide)
  cases k <;> cases sh <;> (try exact absurd h2 (by decide)) <;> try (cases hv; done)
  · simp only [vectors, Option.some.injEq, Prod.mk.injEq] at hv
    obtain ⟨rfl, rfl⟩ := hv
    refine ⟨by simp [color64Fn], fun i v x hv hx => ?_⟩
    simp only [color64Fn, List.getElem?_map, Option.map_eq_some_iff] at hv hx
    obtain ⟨e, he, rfl⟩ := hv
    obtain ⟨e', he', rfl⟩ := hx
    rw [he] at he'; cases he'
    refine ⟨sameColor3 (sameLevel_widen _) (sameLevel_widen _) (sameLevel_widen _) (by simp only []; decide), fun j a b ha hb => ?_⟩
    match j with
    | 0 => cases ha; cases hb; simp only [widen_toNat]; omega
    | 1 => cases ha; cases hb; simp only [widen_toNat]; omega
    | 2 => cases ha; cases hb; simp only [widen_toNat]; omega
    | 3 => simp at ha
    | j + 4 => simp at ha
  · simp only [vectors, Option.some.injEq, Prod.mk.injEq] at hv
    obtain ⟨rfl, rfl⟩ := hv
    refine ⟨by simp [color64Fn], fun i v x hv hx => ?_⟩
    simp only [color64Fn, List.getElem?_map, Option.map_eq_some_iff] at hv hx
    obtain ⟨e, he, rfl⟩ := hv
    obtain ⟨e', he', rfl⟩ := hx
    rw [he] at he'; cases he'
    refine ⟨sameColor4 (sameLevel_widen _) (sameLevel_widen _) (sameLevel_widen _) (sameLevel_widen _), fun j a b ha hb => ?_⟩
    match j with
    | 0 => cases ha; cases hb; simp only [widen_toNat]; omega
    | 1 => cases ha; cases hb; simp only [widen_toNat]; omega
    | 2 => cases ha; cases hb; simp only [widen_toNat]; omega
    | 3 => cases ha; cases hb; simp only [widen_toNat]; omega
    | j + 4 => simp at ha
  · simp only [vectors, Option.some.injEq, Prod.mk.injEq] at hv
    obtain ⟨rfl, rfl⟩ := hv
    refine ⟨by simp [color64Fn], fun i v x hv hx => ?_⟩
    simp only [color64Fn, List.getElem?_map, Option.map_eq_some_iff] at hv hx
    obtain ⟨e, he, rfl⟩ := hv
    obtain ⟨e', he', rfl⟩ := hx
    rw [he] at he'; cases he'
    refine ⟨sameColor3 (hs _) (hs _) (hs _) (by simp only []; decide), fun j a b ha hb => ?_⟩
    match j with
    | 0 => cases ha; cases hb; rfl
    | 1 => cases ha; cases hb; rfl
    | 2 => cases ha; cases hb; rfl
    | 3 => simp at ha
    | j + 4 => simp at ha
  · simp only [vectors, Option.some.injEq, Prod.mk.injEq] at hv
    obtain ⟨rfl, rfl⟩ := hv
    refine ⟨by simp [color64Fn], fun i v x hv hx => ?_⟩
    simp only [color64Fn, List.getElem?_map, Option.map_eq_some_iff] at hv hx
    obtain ⟨e, he, rfl⟩ := hv
    rw [he] at hx; cases hx
    refine ⟨sameColor4 (hs _) (hs _) (hs _) (hs _), fun j a b ha hb => ?_⟩
    match j with
    | 0 => cases ha; cases hb; rfl
    | 1 => cases ha; cases hb; rfl
    | 2 => cases ha; cases hb; rfl
    | 3 => cases ha; cases hb; rfl
    | j + 4 => simp at ha

/-- An 8 bit colour without alpha, read with 16 bits. -/
example : readColor64 ⟨fun _ => ⟨0, 0, 0⟩, fun _ => ⟨0, 0, 0, 0⟩, fun _ => ⟨0, 0, 0⟩, fun _ => ⟨0, 0, 0, 0⟩⟩
    { buffers := [some { data := [1, 2, 255, 0] }], bufferViews := [some { buffer := 0, byteLength := 4 }] }
    { componentType := .ubyte, type := .vec3, count := 1, bufferView := some 0 } [] [] ⟨[], [], []⟩
    = .ok [⟨257, 514, 65535, 65535⟩] := by decide +kernel

end Gltf
