/-
Property C21: which accessors without sparse data panic when they are read, exactly.
-/
import Verif.Props.ModelerReadSafe
import Verif.Props.BinaryExact

namespace Gltf

open Spec

/-- The buffer view designates a buffer that does not exist as a value, or a range of it that panics. -/
def Spec.BadView (doc : Document) (bv : BufferView) : Prop :=
  bv.buffer < 0 ∨ ∃ i : Nat, bv.buffer = i ∧ (doc.buffers[i]? = some none ∨
    ∃ b, doc.buffers[i]? = some (some b) ∧ BadRange bv b.data.length)

/-- The buffer view designates `l` bytes that exist. -/
def Spec.GoodView (doc : Document) (bv : BufferView) (l : Nat) : Prop :=
  ∃ (i o : Nat) (b : Buffer), bv.buffer = i ∧ bv.byteOffset = o ∧ bv.byteLength = l ∧
    doc.buffers[i]? = some (some b) ∧ o + l ≤ b.data.length

/-- The reasons for which an accessor of `count` elements panics: its buffer view is negative, nil or bad; its offset is
not inside of the view; or its elements are signed scalar bytes that fit in the rest of the view, with bytes to spare. -/
def Spec.BadAccessor (doc : Document) (c : ComponentType) (t : AccessorType) (count : Nat) (i off : Int) : Prop :=
  i < 0 ∨ doc.bufferViews[i.toNat]? = some none ∨
    ∃ bv, doc.bufferViews[i.toNat]? = some (some bv) ∧ (BadView doc bv ∨
      ∃ l : Nat, GoodView doc bv l ∧ (off < 0 ∨ l < off ∨
        (c = .byte ∧ t = .scalar ∧ off + count < l ∧ off + needed (.base .i8 .sc) bv.byteStride.toNat count ≤ l)))

/-- The bytes of the buffer views are Go integers. -/
def Spec.IntViews (doc : Document) : Prop :=
  ∀ bv, some bv ∈ doc.bufferViews → IsInt bv.byteOffset ∧ IsInt bv.byteLength

theorem isPanic_iff {α : Type} {x : Res α} : x.isPanic = true ↔ ∃ w, x = .panic w := by
  cases x <;> simp [Res.isPanic]

theorem isPanic_bind_pure {α β : Type} {x : Res α} {g : α → β} :
    (x >>= fun a => pure (g a)).isPanic = x.isPanic := by
  cases x <;> rfl

theorem goodView_iff {doc : Document} {bv : BufferView} :
    (∃ (i o l : Nat) (b : Buffer), bv.buffer = i ∧ bv.byteOffset = o ∧ bv.byteLength = l ∧
        doc.buffers[i]? = some (some b) ∧ o + l ≤ b.data.length) ↔ ∃ l, GoodView doc bv l :=
  ⟨fun ⟨i, o, l, b, h⟩ => ⟨l, i, o, b, h⟩, fun ⟨l, i, o, b, h⟩ => ⟨i, o, l, b, h⟩⟩

theorem readDense_panic_iff {doc : Document} {c : ComponentType} {t : AccessorType} {count : Nat} {off : Int}
    {v : Option Int} {buffer : Bytes} (ht : Tame doc) (hi : IntViews doc) (hc : c.toNat < 6) (hy : t.toNat < 7)
    (hm : count * (c.byteSize * t.components) ≤ maxAlloc) :
    (readDense doc c t count v off buffer).isPanic = true ↔
      (c = .uint ∧ t = .mat3 ∧ buffer ≠ []) ∨ ∃ i, v = some i ∧ BadAccessor doc c t count i off := by
  obtain ⟨hp, he⟩ := C07_panic_iff c t count buffer hc hy hm
  unfold readDense
  cases hs : makeSliceBuffer c t count buffer with
  | err e => rw [hs] at he; exact absurd rfl he
  | panic w =>
    have := hp.1 ⟨w, hs⟩
    exact ⟨fun _ => .inl this, fun _ => rfl⟩
  | ok s =>
    have hx : ¬ (c = .uint ∧ t = .mat3 ∧ buffer ≠ []) := by
      intro h
      obtain ⟨w, hw⟩ := hp.2 h
      rw [hs] at hw; cases hw
    rw [Res.ok_bind]
    obtain ⟨k, sh, rfl, rfl, e3, e4⟩ := makeSliceBuffer_inv hs
    obtain ⟨ty, d⟩ := s
    cases e3
    have e5 : d.length = count := by have : (d.length : Int) = count := e4; omega
    cases v with
    | none =>
      constructor
      · intro h; cases h
      · rintro (h | ⟨i, h, -⟩)
        · exact absurd h hx
        · cases h
    | some i =>
      simp only
      have hgoal : ∀ P : Prop, (P ↔ BadAccessor doc (componentTypeOf k) (accessorTypeOf sh) count i off) →
          (P ↔ (componentTypeOf k = .uint ∧ accessorTypeOf sh = .mat3 ∧ buffer ≠ []) ∨
            ∃ i', some i = some i' ∧ BadAccessor doc (componentTypeOf k) (accessorTypeOf sh) count i' off) := by
        intro P h
        rw [h]
        constructor
        · exact fun h => .inr ⟨i, rfl, h⟩
        · rintro (h | ⟨i', h, h'⟩)
          · exact absurd h hx
          · cases h; exact h'
      apply hgoal
      unfold BadAccessor
      by_cases hneg : i < 0
      · have : readBufferViewIndex doc i = .panic "index out of range" := by
          unfold readBufferViewIndex bufferViewAt
          rw [if_neg (by omega), if_pos hneg]; rfl
        rw [this]
        exact ⟨fun _ => .inl hneg, fun _ => rfl⟩
      by_cases hlen : (doc.bufferViews.length : Int) ≤ i
      · have : readBufferViewIndex doc i = .err (.msg "gltf: bufferview index overflows") := by
          unfold readBufferViewIndex; rw [if_pos hlen]
        rw [this, List.getElem?_eq_none (by omega)]
        constructor
        · intro h; cases h
        · rintro (h | h | ⟨bv, h, -⟩)
          · exact absurd h hneg
          · cases h
          · cases h
      have hlt : i.toNat < doc.bufferViews.length := by omega
      cases hq : doc.bufferViews[i.toNat]? with
      | none => rw [List.getElem?_eq_getElem hlt] at hq; cases hq
      | some q =>
      cases q with
      | none =>
        have : readBufferViewIndex doc i = .panic "nil pointer dereference" := by
          unfold readBufferViewIndex bufferViewAt
          rw [if_neg hlen, if_neg hneg, hq]; rfl
        rw [this]
        exact ⟨fun _ => .inr (.inl rfl), fun _ => rfl⟩
      | some bv =>
        have hat : bufferViewAt doc i = .ok bv := by
          unfold bufferViewAt; rw [if_neg hneg, hq]
        have hri : readBufferViewIndex doc i = readBufferView doc bv := by
          unfold readBufferViewIndex; rw [if_neg hlen, hat]; rfl
        rw [hri]
        have hmem : some bv ∈ doc.bufferViews := List.mem_of_getElem? hq
        obtain ⟨hio, hil⟩ := hi bv hmem
        obtain ⟨hvp, hvo⟩ := C21_buffer_view_iff doc bv ht hio hil
        rw [goodView_iff] at hvo
        have hclean : ∀ P : Prop, (P ↔ (BadView doc bv ∨ ∃ l : Nat, GoodView doc bv l ∧ (off < 0 ∨ l < off ∨
            (componentTypeOf k = .byte ∧ accessorTypeOf sh = .scalar ∧ off + count < l ∧
              off + needed (.base .i8 .sc) bv.byteStride.toNat count ≤ l)))) →
            (P ↔ i < 0 ∨ some (some bv) = some none ∨ ∃ bv', some (some bv) = some (some bv') ∧
              (BadView doc bv' ∨ ∃ l : Nat, GoodView doc bv' l ∧ (off < 0 ∨ l < off ∨
            (componentTypeOf k = .byte ∧ accessorTypeOf sh = .scalar ∧ off + count < l ∧
              off + needed (.base .i8 .sc) bv'.byteStride.toNat count ≤ l)))) := by
          intro P h
          rw [h]
          constructor
          · exact fun h => .inr (.inr ⟨bv, rfl, h⟩)
          · rintro (h | h | ⟨bv', h, h'⟩)
            · exact absurd h hneg
            · cases h
            · cases h; exact h'
        apply hclean
        cases hbuf : readBufferView doc bv with
        | err e =>
          rw [hbuf] at hvp hvo
          constructor
          · intro h; cases h
          · rintro (h | ⟨l, h, -⟩)
            · have := hvp.2 h; cases this
            · obtain ⟨b, hb⟩ := hvo.2 ⟨l, h⟩; cases hb
        | panic w =>
          rw [hbuf] at hvp
          exact ⟨fun _ => .inl (hvp.1 rfl), fun _ => rfl⟩
        | ok buf =>
          have hnb : ¬ BadView doc bv := by
            intro h
            have := hvp.2 h
            rw [hbuf] at this; cases this
          have hgl := readBufferView_len ht hbuf
          obtain ⟨bi, o, l, b, q1, q2, q3, q4, q5, q6⟩ := C20_exact_bytes doc bv buf ht hil hbuf
          have hbl : buf.length = l := by rw [q6]; simp; omega
          have hl : ∀ l', GoodView doc bv l' ↔ l' = l := by
            intro l'
            constructor
            · rintro ⟨_, _, _, -, -, h, -⟩; omega
            · rintro rfl; exact ⟨bi, o, b, q1, q2, q3, q4, q5⟩
          have hclean2 : ∀ P : Prop, (P ↔ (off < 0 ∨ l < off ∨
            (componentTypeOf k = .byte ∧ accessorTypeOf sh = .scalar ∧ off + count < l ∧
              off + needed (.base .i8 .sc) bv.byteStride.toNat count ≤ l))) →
              (P ↔ (BadView doc bv ∨ ∃ l : Nat, GoodView doc bv l ∧ (off < 0 ∨ l < off ∨
            (componentTypeOf k = .byte ∧ accessorTypeOf sh = .scalar ∧ off + count < l ∧
              off + needed (.base .i8 .sc) bv.byteStride.toNat count ≤ l)))) := by
            intro P h
            rw [h]
            constructor
            · exact fun h => .inr ⟨l, (hl l).2 rfl, h⟩
            · rintro (h | ⟨l', h, h'⟩)
              · exact absurd h hnb
              · rw [hl] at h; subst h; exact h'
          apply hclean2
          rw [Res.ok_bind, hat, Res.ok_bind]
          by_cases hoff : 0 ≤ off ∧ off ≤ l
          · have hsl : sliceFrom buf off = .ok (buf.drop off.toNat) := by
              unfold sliceFrom; rw [if_pos (by rw [hbl]; exact hoff)]
            rw [hsl, Res.ok_bind, isPanic_bind_pure, isPanic_iff]
            have hst := ht.strides bv hmem
            obtain ⟨st, hst'⟩ := Int.eq_ofNat_of_zero_le hst.1
            have hcnt : d.length ≤ maxAlloc := by
              have hpz := memSize_pos k sh
              unfold ETy.memSize at hpz
              rw [← (ctypes k sh).1, ← (ctypes k sh).2] at hpz
              have := Nat.le_trans (Nat.le_mul_of_pos_right _ hpz) hm
              omega
            have hr := (C04_read_iff (.base k sh) d (buf.drop off.toNat) st
              (by unfold GoLen at *; rw [List.length_drop]; omega) (by omega)
              (needed_small (by omega) hcnt)).2.1
            show (∃ w, read (buf.drop off.toNat) bv.byteStride (.base k sh) d = .panic w) ↔ _
            rw [hst', hr, List.length_drop, hbl, e5]
            constructor
            · rintro ⟨h, h1, h2⟩
              cases h
              exact .inr (.inr ⟨rfl, rfl, by omega, by simp only [Int.toNat_natCast]; omega⟩)
            · rintro (h | h | ⟨h1, h2, h3, h4⟩)
              · omega
              · omega
              · have hk : k = .i8 := by revert h1; cases k <;> decide
                have hsh : sh = .sc := by revert h2; cases sh <;> decide
                subst hk; subst hsh
                simp only [Int.toNat_natCast] at h4
                exact ⟨rfl, by omega, by omega⟩
          · have hsl : sliceFrom buf off = .panic "slice bounds out of range" := by
              unfold sliceFrom; rw [if_neg (by rw [hbl]; exact hoff)]
            rw [hsl]
            exact ⟨fun _ => by omega, fun _ => rfl⟩

/-- C21 for `ReadAccessor` without sparse data, exactly: for valid types and a count that can be allocated, it panics for
3x3 matrices of `uint32` with a scratch buffer, and for the buffer views and offsets of `BadAccessor`; never otherwise. -/
theorem C21_accessor_iff (doc : Document) (acr : Accessor) (count : Nat) (buffer : Bytes) (p : Pools)
    (ht : Tame doc) (hi : IntViews doc) (hc : acr.componentType.toNat < 6) (hy : acr.type.toNat < 7)
    (hn : acr.count = count) (hm : count * (acr.componentType.byteSize * acr.type.components) ≤ maxAlloc)
    (hs : acr.sparse = none) :
    (readAccessor doc acr buffer p).isPanic = true ↔
      (acr.componentType = .uint ∧ acr.type = .mat3 ∧ buffer ≠ []) ∨
        ∃ i, acr.bufferView = some i ∧ BadAccessor doc acr.componentType acr.type count i acr.byteOffset := by
  unfold readAccessor
  rw [hs, hn]
  simp only
  rw [isPanic_bind_pure (g := fun a => a)]
  exact readDense_panic_iff ht hi hc hy hm

/-- Two bytes of a view of three: panics as signed bytes, not as unsigned ones, nor if the rest of the view is exactly
as long, nor if it is too short. -/
example :
    let doc : Document := { buffers := [some { data := [1, 2, 3] }], bufferViews := [some { buffer := 0, byteLength := 3 }] }
    let acr (c : ComponentType) (n off : Int) : Accessor :=
      { componentType := c, type := .scalar, count := n, bufferView := some 0, byteOffset := off }
    Tame doc ∧ IntViews doc ∧
    (readAccessor doc (acr .byte 2 0) [] ⟨[], [], []⟩).isPanic = true ∧
    (readAccessor doc (acr .ubyte 2 0) [] ⟨[], [], []⟩).isPanic = false ∧
    (readAccessor doc (acr .byte 2 1) [] ⟨[], [], []⟩).isPanic = false ∧
    (readAccessor doc (acr .byte 2 2) [] ⟨[], [], []⟩).isPanic = false ∧
    (readAccessor doc (acr .byte 2 4) [] ⟨[], [], []⟩).isPanic = true := by
  refine ⟨⟨?_, ?_⟩, ?_, by decide +kernel, by decide +kernel, by decide +kernel, by decide +kernel, by decide +kernel⟩
  · intro b hb; simp at hb; subst hb; unfold GoLen; simp
  · intro bv hb; simp at hb; subst hb; simp
  · intro bv hb; simp at hb; subst hb; simp [IsInt]

/-! ### Sparse data -/

theorem sparseLoop_panic_iff {α : Type} {idx : List UInt32} {vals : List α} {n i : Nat} {s : List α}
    (h1 : i + n ≤ idx.length) (h2 : i + n ≤ vals.length) :
    (sparseLoop idx vals n i s).isPanic = true ↔ ∃ j k, i ≤ j ∧ j < i + n ∧ idx[j]? = some k ∧ s.length ≤ k.toNat := by
  induction n generalizing i s with
  | zero =>
    constructor
    · intro h; cases h
    · rintro ⟨j, k, h, h', -⟩; omega
  | succ n ih =>
    unfold sparseLoop
    have hi : idx[i]? = some idx[i] := List.getElem?_eq_getElem (show i < idx.length by omega)
    rw [hi, List.getElem?_eq_getElem (show i < vals.length by omega)]
    simp only
    by_cases hk : idx[i].toNat < s.length
    · rw [if_pos hk, ih (by omega) (by omega), List.length_set]
      constructor
      · rintro ⟨j, k, a, b, c⟩
        exact ⟨j, k, by omega, by omega, c⟩
      · rintro ⟨j, k, a, b, c, d⟩
        by_cases hj : j = i
        · subst hj
          rw [hi] at c; cases c; omega
        · exact ⟨j, k, by omega, by omega, c, d⟩
    · rw [if_neg hk]
      exact ⟨fun _ => ⟨i, _, Nat.le_refl _, by omega, hi, by omega⟩, fun _ => rfl⟩

/-- The result of a computation followed by another one, for panics. -/
theorem isPanic_bind_iff {α β : Type} {x : Res α} {f : α → Res β} :
    (x >>= f).isPanic = true ↔ x.isPanic = true ∨ ∃ a, x = .ok a ∧ (f a).isPanic = true := by
  cases x with
  | ok a =>
    rw [Res.ok_bind]
    constructor
    · exact fun h => .inr ⟨a, rfl, h⟩
    · rintro (h | ⟨b, h, h'⟩)
      · cases h
      · cases h; exact h'
  | err e =>
    constructor
    · intro h; cases h
    · rintro (h | ⟨b, h, -⟩)
      · cases h
      · cases h
  | panic w => exact ⟨fun _ => .inl rfl, fun _ => rfl⟩

theorem Rel.isPanic {α : Type} {R : α → α → Prop} {x y : Res α} (h : Rel R x y) : x.isPanic = y.isPanic := by
  cases h <;> rfl

/-- C21 for `ReadAccessor` with sparse data, exactly: it panics if the accessor panics without the sparse data; or, if it
is read, if reading the indices panics; or, if they are read, if reading the values panics; or, if they are read too, if
an index is not smaller than the count. -/
theorem C21_sparse_iff (doc : Document) (acr : Accessor) (sp : Sparse) (buffer : Bytes) (p : Pools)
    (ht : Tame doc) (hm : Modest acr) (hs : acr.sparse = some sp) (hc : 0 ≤ sp.count) :
    (readAccessor doc acr buffer p).isPanic = true ↔
      (readAccessor doc { acr with sparse := none } buffer p).isPanic = true ∨
      (∃ s, readAccessor doc { acr with sparse := none } buffer p = .ok s) ∧
        ((readIndices doc (indicesAccessor sp) [] [] ⟨[], [], []⟩).isPanic = true ∨
          ∃ idx, readIndices doc (indicesAccessor sp) [] [] ⟨[], [], []⟩ = .ok idx ∧
            ((readAccessor doc (valuesAccessor acr sp) [] ⟨[], [], []⟩).isPanic = true ∨
              (∃ v, readAccessor doc (valuesAccessor acr sp) [] ⟨[], [], []⟩ = .ok v) ∧
                ∃ k ∈ idx, acr.count ≤ k.toNat)) := by
  obtain ⟨m1, m2⟩ := hm.sparse sp hs
  have hbase : readAccessor doc { acr with sparse := none } buffer p =
      readDense doc acr.componentType acr.type acr.count acr.bufferView acr.byteOffset buffer := by
    unfold readAccessor
    simp only
    generalize readDense doc acr.componentType acr.type acr.count acr.bufferView acr.byteOffset buffer = x
    cases x <;> rfl
  have hvals : readAccessor doc (valuesAccessor acr sp) [] ⟨[], [], []⟩ =
      readDense doc acr.componentType acr.type sp.count (some sp.values.bufferView) sp.values.byteOffset [] := by
    unfold readAccessor valuesAccessor
    simp only
    generalize readDense doc acr.componentType acr.type sp.count (some sp.values.bufferView) sp.values.byteOffset [] = x
    cases x <;> rfl
  have hidx : readIndices doc (indicesAccessor sp) [] [] ⟨[], [], []⟩ =
      readIndicesDense doc sp.indices.componentType .scalar sp.count (some sp.indices.bufferView) sp.indices.byteOffset [] [] := by
    rw [← readIndices_plainAccessor (p := ⟨[], [], []⟩)]; rfl
  have hrelV := readDense_rel (buffer := p.b2) (buffer' := []) (i := sp.values.bufferView)
    (off := sp.values.byteOffset) (c := acr.componentType) (t := acr.type) ht m1 hm.type
  have hrelI := readIndicesDense_rel (idx := p.idx) (idx' := []) (b1 := p.b1) (b1' := []) (i := sp.indices.bufferView)
    (off := sp.indices.byteOffset) ht m2
  have hlen : ∀ idx, readIndices doc (indicesAccessor sp) [] [] ⟨[], [], []⟩ = .ok idx → (idx.length : Int) = sp.count :=
    fun idx h => (C23_typed_readers_partial ⟨fun _ => ⟨0, 0, 0⟩, fun _ => ⟨0, 0, 0, 0⟩, fun _ => ⟨0, 0, 0⟩, fun _ => ⟨0, 0, 0, 0⟩⟩).1
      doc (indicesAccessor sp) [] [] [] [] ⟨[], [], []⟩ ⟨[], [], []⟩ (.inr ⟨rfl, rfl⟩) |>.1 idx h
  rw [hidx] at hlen
  rw [hbase, hvals, hidx]
  unfold readAccessor
  rw [isPanic_bind_iff]
  simp only [hs]
  generalize hI : readIndicesDense doc sp.indices.componentType .scalar sp.count (some sp.indices.bufferView)
    sp.indices.byteOffset p.idx p.b1 = x at hrelI
  generalize readIndicesDense doc sp.indices.componentType .scalar sp.count (some sp.indices.bufferView)
    sp.indices.byteOffset [] [] = x' at hrelI hlen
  generalize hV : readDense doc acr.componentType acr.type sp.count (some sp.values.bufferView)
    sp.values.byteOffset p.b2 = y at hrelV
  generalize readDense doc acr.componentType acr.type sp.count (some sp.values.bufferView)
    sp.values.byteOffset [] = y' at hrelV
  -- one value of the accessor without the sparse data
  have key : ∀ s, readDense doc acr.componentType acr.type acr.count acr.bufferView acr.byteOffset buffer = .ok s →
      ((x >>= fun indices => y >>= fun values =>
        if h : values.ty = s.ty then
          sparseLoop indices (h ▸ values.data) sp.count.toNat 0 s.data >>= fun d => pure (⟨s.ty, d⟩ : Slice)
        else .panic "reflect.Set: value not assignable").isPanic = true ↔
      (x'.isPanic = true ∨ ∃ idx, x' = .ok idx ∧ (y'.isPanic = true ∨ (∃ v, y' = .ok v) ∧ ∃ k ∈ idx, acr.count ≤ k.toNat))) := by
    intro s hsd
    obtain ⟨k, sh, e1, e2, e3, e4⟩ := readDense_inv hsd
    rw [isPanic_bind_iff]
    cases hrelI with
    | err e =>
      constructor
      · rintro (h | ⟨a, h, -⟩)
        · cases h
        · cases h
      · rintro (h | ⟨a, h, -⟩)
        · cases h
        · cases h
    | panic w w' => exact ⟨fun _ => .inl rfl, fun _ => .inl rfl⟩
    | @ok idx idx' hr =>
      have hl' := hlen idx' rfl
      have h1 : (∃ a, Res.ok idx = .ok a ∧ (y >>= fun values =>
          if h : values.ty = s.ty then
            sparseLoop a (h ▸ values.data) sp.count.toNat 0 s.data >>= fun d => pure (⟨s.ty, d⟩ : Slice)
          else .panic "reflect.Set: value not assignable").isPanic = true) ↔
          (y'.isPanic = true ∨ (∃ v, y' = .ok v) ∧ ∃ k ∈ idx', acr.count ≤ k.toNat) := by
        have : (∃ a, Res.ok idx = .ok a ∧ (y >>= fun values =>
          if h : values.ty = s.ty then
            sparseLoop a (h ▸ values.data) sp.count.toNat 0 s.data >>= fun d => pure (⟨s.ty, d⟩ : Slice)
          else .panic "reflect.Set: value not assignable").isPanic = true) ↔ (y >>= fun values =>
          if h : values.ty = s.ty then
            sparseLoop idx (h ▸ values.data) sp.count.toNat 0 s.data >>= fun d => pure (⟨s.ty, d⟩ : Slice)
          else .panic "reflect.Set: value not assignable").isPanic = true := by
          constructor
          · rintro ⟨a, h, h'⟩; cases h; exact h'
          · exact fun h => ⟨idx, rfl, h⟩
        rw [this, isPanic_bind_iff]
        cases hrelV with
        | err e =>
          constructor
          · rintro (h | ⟨a, h, -⟩)
            · cases h
            · cases h
          · rintro (h | ⟨⟨v, h⟩, -⟩)
            · cases h
            · cases h
        | panic w w' => exact ⟨fun _ => .inl rfl, fun _ => .inl rfl⟩
        | @ok v v' hv =>
          subst hv
          obtain ⟨k2, sh2, g1, g2, g3, g4⟩ := readDense_inv hV
          have hk : k2 = k := by
            have : componentTypeOf k2 = componentTypeOf k := by rw [← g1, e1]
            revert this; cases k <;> cases k2 <;> decide
          have hsh : sh2 = sh := by
            have : accessorTypeOf sh2 = accessorTypeOf sh := by rw [← g2, e2]
            revert this; cases sh <;> cases sh2 <;> decide
          subst hk; subst hsh
          obtain ⟨ty, d⟩ := s
          obtain ⟨ty2, vd⟩ := v
          cases e3; cases g3
          simp only at e4 g4
          have e5 : (d.length : Int) = acr.count := e4
          have g5 : (vd.length : Int) = sp.count := g4
          have hbody : (sparseLoop idx vd sp.count.toNat 0 d).isPanic = true ↔ ∃ k ∈ idx', acr.count ≤ k.toNat := by
            rcases hr with h0 | rfl
            · rw [h0]
              have : idx' = [] := List.eq_nil_of_length_eq_zero (by omega)
              subst this
              constructor
              · intro h; cases h
              · rintro ⟨k, h, -⟩; cases h
            · rw [sparseLoop_panic_iff (by omega) (by omega)]
              constructor
              · rintro ⟨j, k, -, -, h3, h4⟩
                exact ⟨k, List.mem_of_getElem? h3, by omega⟩
              · rintro ⟨k, h3, h4⟩
                obtain ⟨j, hj⟩ := List.getElem?_of_mem h3
                have : j < idx.length := by
                  rcases Nat.lt_or_ge j idx.length with h | h
                  · exact h
                  · rw [List.getElem?_eq_none h] at hj; cases hj
                exact ⟨j, k, by omega, by omega, hj, by omega⟩
          constructor
          · rintro (h | ⟨a, h, h'⟩)
            · cases h
            · cases h
              rw [dif_pos rfl, isPanic_bind_pure] at h'
              exact .inr ⟨⟨_, rfl⟩, hbody.1 h'⟩
          · rintro (h | ⟨-, h⟩)
            · cases h
            · refine .inr ⟨_, rfl, ?_⟩
              rw [dif_pos rfl, isPanic_bind_pure]
              exact hbody.2 h
      rw [h1]
      constructor
      · rintro (h | h)
        · cases h
        · exact .inr ⟨idx', rfl, h⟩
      · rintro (h | ⟨a, h, h'⟩)
        · cases h
        · cases h; exact .inr h'
  constructor
  · rintro (h | ⟨s, h, h'⟩)
    · exact .inl h
    · exact .inr ⟨⟨s, h⟩, (key s h).1 h'⟩
  · rintro (h | ⟨⟨s, h⟩, h'⟩)
    · exact .inl h
    · exact .inr ⟨s, h, (key s h).2 h'⟩

/-- Three elements, the third replaced: read; the fourth replaced: panics; and the indices missing: an error. -/
example :
    let view (o : Int) : BufferView := { buffer := 0, byteOffset := o, byteLength := 1 }
    let doc : Document := { buffers := [some { data := [2, 3, 9] }], bufferViews := [some (view 0), some (view 1), some (view 2)] }
    let sp (i : Int) : Sparse := { count := 1, indices := { bufferView := i, componentType := .ubyte }, values := { bufferView := 2 } }
    let acr (i : Int) : Accessor := { componentType := .ubyte, type := .scalar, count := 3, sparse := some (sp i) }
    Tame doc ∧ Modest (acr 1) ∧
    (readAccessor doc (acr 0) [] ⟨[], [], []⟩).isOk = true ∧
    (readAccessor doc (acr 1) [] ⟨[], [], []⟩).isPanic = true ∧
    (readAccessor doc (acr 7) [] ⟨[], [], []⟩).isErr = true := by
  refine ⟨⟨?_, ?_⟩, ⟨by simp, by decide, ?_⟩, by decide +kernel, by decide +kernel, by decide +kernel⟩
  · intro b hb; simp at hb; subst hb; unfold GoLen; simp
  · intro bv hb; simp at hb; rcases hb with rfl | rfl | rfl <;> simp
  · intro sp hsp; cases hsp; decide

end Gltf
