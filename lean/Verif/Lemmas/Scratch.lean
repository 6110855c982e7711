/-
Reads do not depend on the scratch buffers.
-/
import Verif.Lemmas.Convert

namespace Gltf

open Spec

/-- Outcomes that are the same up to a relation of the values and the messages of panics. -/
inductive Rel {α β : Type} (R : α → β → Prop) : Res α → Res β → Prop
  | ok {a b} (h : R a b) : Rel R (.ok a) (.ok b)
  | err (e) : Rel R (.err e) (.err e)
  | panic (w w') : Rel R (.panic w) (.panic w')

theorem Rel.refl {α : Type} {R : α → α → Prop} (h : ∀ a, R a a) (x : Res α) : Rel R x x := by
  cases x with
  | ok a => exact .ok (h a)
  | err e => exact .err e
  | panic w => exact .panic w w

theorem Rel.of_eq {α : Type} {x y : Res α} (h : x = y) : Rel Eq x y := h ▸ Rel.refl (fun _ => rfl) x

theorem Rel.bind {α β γ δ : Type} {R : α → β → Prop} {Q : γ → δ → Prop} {x : Res α} {y : Res β} {f : α → Res γ}
    {g : β → Res δ} (h : Rel R x y) (hf : ∀ a b, x = .ok a → y = .ok b → R a b → Rel Q (f a) (g b)) : Rel Q (x >>= f) (y >>= g) := by
  cases h with
  | ok h => exact hf _ _ rfl rfl h
  | err e => exact .err e
  | panic w w' => exact .panic w w'

theorem le_needed {t : ETy} {stride n : Nat} : n ≤ needed t stride n := by
  unfold needed
  split
  · omega
  · have h1 := effStride_pos t stride
    have h2 := elemSize_pos (kind t) (shape t)
    have : 1 * (n - 1) ≤ effStride t stride * (n - 1) := Nat.mul_le_mul_right _ h1
    omega

/-- The previous content of the data does not matter for `Read`. -/
theorem read_congr {t : ETy} {data data' : List t.Elem} {b : Bytes} {stride : Nat} (hb : GoLen b)
    (hov : needed t stride data.length < 2 ^ 63) (hl : data.length = data'.length) :
    read b (stride : Int) t data = read b (stride : Int) t data' := by
  by_cases h0 : data.length = 0
  · have h1 : data = [] := List.length_eq_zero_iff.1 h0
    have h2 : data' = [] := List.length_eq_zero_iff.1 (by omega)
    rw [h1, h2]
  by_cases hs : b.length < needed t stride data.length
  · rw [read_eq (by omega) hov, read_eq (by omega) (by rw [← hl]; exact hov), if_pos hs, if_pos (by rw [← hl]; exact hs)]
  have hn : needed t stride data.length ≤ b.length := by omega
  have hn' : needed t stride data'.length ≤ b.length := by rw [← hl]; exact hn
  have hle := Nat.le_trans le_needed hn
  by_cases hu : t = .base .u8 .sc
  · subst hu
    rw [read_u8 hb (by omega) hn hle, read_u8 hb (by omega) hn' (by rw [← hl]; exact hle), hl]
  by_cases hi : t = .base .i8 .sc
  · subst hi
    rw [read_i8 hb (by omega) hn, read_i8 hb (by omega) hn']
    unfold readInt8
    rw [hl]
    split
    · rw [List.drop_of_length_le (l := data) (by omega), List.drop_of_length_le (l := data') (by omega)]
    · rfl
  · rw [read_ok hb hi hu (by omega) hn, read_ok hb hi hu (by omega) hn', hl]

theorem ctypes (k : Kind) (s : Shape) :
    componentTypeOf k = (ETy.base k s).c ∧ accessorTypeOf s = (ETy.base k s).t := by
  cases k <;> cases s <;> exact ⟨rfl, rfl⟩

theorem castSlice_neg {c : ComponentType} {t : AccessorType} {count : Int} {v : Bytes} (h : count < 0) :
    ∃ w, castSlice c t count v = .panic w := by
  unfold castSlice
  simp only
  generalize (v.length / _ : Nat) = l
  have : count < (l : Int) := by omega
  simp only [this, if_true]
  cases castType c t with
  | none => exact ⟨_, rfl⟩
  | some ty =>
    simp only [reslice, h, if_true]
    exact ⟨_, rfl⟩

theorem makeSlice_neg {k : Kind} {s : Shape} {count : Int} (h : count < 0) :
    ∃ w, makeSlice (componentTypeOf k) (accessorTypeOf s) count = .panic w := by
  rw [makeSlice_types]
  unfold makeZeros
  rw [if_pos h]
  exact ⟨_, rfl⟩

/-- Two scratch buffers give slices of the same type and length. -/
theorem makeSliceBuffer_rel {c : ComponentType} {t : AccessorType} {count : Int} {buffer buffer' : Bytes}
    (hm : count.toNat * (c.byteSize * t.components) ≤ maxAlloc) (hx : ¬ (c = .uint ∧ t = .mat3)) :
    Rel (fun a b : Slice => a.ty = b.ty ∧ a.data.length = b.data.length ∧ a.data.length = count.toNat ∧
        ∃ k s, c = componentTypeOf k ∧ t = accessorTypeOf s ∧ a.ty = .base k s)
      (makeSliceBuffer c t count buffer) (makeSliceBuffer c t count buffer') := by
  cases hck : checkAccessorType c t with
  | err e => unfold makeSliceBuffer; rw [hck]; exact .err e
  | panic w => unfold makeSliceBuffer; rw [hck]; exact .panic w w
  | ok u =>
    obtain ⟨k, s, rfl, rfl⟩ := checkAccessorType_ok hck
    by_cases hc : count < 0
    · have key : ∀ b, ∃ w, makeSliceBuffer (componentTypeOf k) (accessorTypeOf s) count b = .panic w := by
        intro b
        unfold makeSliceBuffer
        rw [hck, Res.ok_bind]
        split
        · exact makeSlice_neg hc
        · exact castSlice_neg hc
      obtain ⟨w, hw⟩ := key buffer
      obtain ⟨w', hw'⟩ := key buffer'
      rw [hw, hw']; exact .panic w w'
    · have key : ∀ b, ∃ d, makeSliceBuffer (componentTypeOf k) (accessorTypeOf s) count b = .ok ⟨.base k s, d⟩ ∧ d.length = count.toNat := by
        intro b
        have := makeSliceBuffer_base (k := k) (s := s) (n := count.toNat) (buffer := b)
          (by unfold ETy.memSize; rw [← (ctypes k s).1, ← (ctypes k s).2]; exact hm)
          (by rintro ⟨rfl, rfl, -⟩; exact hx ⟨rfl, rfl⟩)
        rw [← (ctypes k s).1, ← (ctypes k s).2, Int.toNat_of_nonneg (by omega)] at this
        exact this
      obtain ⟨d, hd, hl⟩ := key buffer
      obtain ⟨d', hd', hl'⟩ := key buffer'
      rw [hd, hd']
      exact .ok ⟨rfl, by simp only; rw [hl, hl'], hl, k, s, rfl, rfl, rfl⟩

theorem bufferViewAt_ok {doc : Document} {i : Int} {bv : BufferView} (h : bufferViewAt doc i = .ok bv) :
    0 ≤ i ∧ doc.bufferViews[i.toNat]? = some (some bv) := by
  unfold bufferViewAt at h
  split at h
  · cases h
  · split at h
    · next hb => cases h; exact ⟨by omega, hb⟩
    · cases h
    · cases h

theorem readBufferView_len {doc : Document} {bv : BufferView} {bytes : Bytes} (ht : Tame doc)
    (h : readBufferView doc bv = .ok bytes) : GoLen bytes := by
  unfold readBufferView at h
  split at h
  · cases h
  · split at h
    · cases h
    · split at h
      · next b hb =>
        have := ht.buffers b (List.mem_of_getElem? hb)
        unfold GoLen at *
        simp only at h
        split at h
        · cases h
        · split at h
          · cases h; simp; omega
          · cases h
      · cases h

theorem readBufferViewIndex_len {doc : Document} {i : Int} {bytes : Bytes} (ht : Tame doc)
    (h : readBufferViewIndex doc i = .ok bytes) : GoLen bytes := by
  unfold readBufferViewIndex at h
  split at h
  · cases h
  · obtain ⟨bv, -, h⟩ := Res.bind_eq_ok.1 h
    exact readBufferView_len ht h

theorem sliceFrom_len {b tail : Bytes} {off : Int} (h : sliceFrom b off = .ok tail) : tail.length ≤ b.length := by
  unfold sliceFrom at h
  split at h
  · cases h; simp
  · cases h

theorem memSize_pos (k : Kind) (s : Shape) : 0 < (ETy.base k s).memSize := by
  cases k <;> cases s <;> decide

theorem needed_small {k : Kind} {s : Shape} {st n : Nat} (hst : st ≤ 2 ^ 14) (hn : n ≤ maxAlloc) :
    needed (.base k s) st n < 2 ^ 63 := by
  have h1 : elemSize (kind (.base k s)) (shape (.base k s)) < 1000 := elemSize_le k s
  unfold needed
  split
  · omega
  · have h2 : effStride (.base k s) st ≤ 2 ^ 14 := by
      unfold effStride; split
      · omega
      · exact hst
    have h3 : effStride (.base k s) st * (n - 1) ≤ 2 ^ 14 * maxAlloc := Nat.mul_le_mul h2 (by omega)
    have h4 : (2 : Nat) ^ 14 * maxAlloc = 2 ^ 62 := by decide
    omega

/-- The dense part of a read with a buffer view does not depend on the scratch buffer. -/
theorem readDense_rel {doc : Document} {c : ComponentType} {t : AccessorType} {count off : Int} {i : Int}
    {buffer buffer' : Bytes} (ht : Tame doc)
    (hm : count.toNat * (c.byteSize * t.components) ≤ maxAlloc) (hx : ¬ (c = .uint ∧ t = .mat3)) :
    Rel Eq (readDense doc c t count (some i) off buffer) (readDense doc c t count (some i) off buffer') := by
  unfold readDense
  apply Rel.bind (makeSliceBuffer_rel hm hx)
  rintro ⟨ty, d⟩ ⟨ty', d'⟩ - - ⟨hty, hl, hlen, k, s, rfl, rfl, hb⟩
  simp only at hty hb
  subst hb; subst hty
  simp only at hl hlen
  apply Rel.bind (Rel.refl (R := Eq) (fun _ => rfl) _)
  rintro buf _ hbuf - rfl
  apply Rel.bind (Rel.refl (R := Eq) (fun _ => rfl) _)
  rintro bv _ hbv - rfl
  apply Rel.bind (Rel.refl (R := Eq) (fun _ => rfl) _)
  rintro tail _ htail - rfl
  apply Rel.of_eq
  have h1 := readBufferViewIndex_len ht hbuf
  have h2 := sliceFrom_len htail
  have h3 := ht.strides bv (List.mem_of_getElem? (bufferViewAt_ok hbv).2)
  obtain ⟨st, hst⟩ := Int.eq_ofNat_of_zero_le h3.1
  have hcnt : count.toNat ≤ maxAlloc := by
    have hp := memSize_pos k s
    unfold ETy.memSize at hp
    rw [← (ctypes k s).1, ← (ctypes k s).2] at hp
    exact Nat.le_trans (Nat.le_mul_of_pos_right _ hp) hm
  show (do let x ← read tail bv.byteStride (.base k s) d; _) = (do let x ← read tail bv.byteStride (.base k s) d'; _)
  rw [hst, read_congr (data' := d') (by unfold GoLen at *; omega) (by
    have : d.length ≤ maxAlloc := by rw [hlen]; exact hcnt
    exact needed_small (by omega) this) hl]


/-- An accessor without sparse data. -/
def plainAccessor (c : ComponentType) (t : AccessorType) (count : Int) (bv : Option Int) (off : Int) : Accessor :=
  { componentType := c, type := t, count := count, bufferView := bv, byteOffset := off }

theorem readAccessor_plainAccessor {doc : Document} {c : ComponentType} {t : AccessorType} {count : Int} {bv : Option Int}
    {off : Int} {buffer : Bytes} {p : Pools} :
    readAccessor doc (plainAccessor c t count bv off) buffer p = readDense doc c t count bv off buffer := by
  unfold readAccessor plainAccessor
  simp only
  cases readDense doc c t count bv off buffer <;> rfl

theorem readIndices_plainAccessor {doc : Document} {c : ComponentType} {t : AccessorType} {count : Int} {bv : Option Int}
    {off : Int} {buffer : List UInt32} {b0 : Bytes} {p : Pools} :
    readIndices doc (plainAccessor c t count bv off) buffer b0 p = readIndicesDense doc c t count bv off buffer b0 := by
  unfold readIndices readIndicesDense
  rw [readAccessor_plainAccessor]; rfl

theorem checkIndices_accepts {c : ComponentType} {t : AccessorType} :
    checkIndices c t = .ok () ↔ acceptsIndices c t = true := by
  cases c <;> cases t <;> simp [checkIndices, acceptsIndices]

theorem readIndices_of_ok {doc : Document} {acr : Accessor} {buffer : List UInt32} {b0 : Bytes} {p : Pools} {s : Slice}
    (ha : acceptsIndices acr.componentType acr.type = true) (hr : readAccessor doc acr b0 p = .ok s) :
    ∃ rest, readIndices doc acr buffer b0 p = .ok (indicesFn s ++ rest) ∧
      (acr.count ≠ 0 ∨ buffer = [] → rest = [] ∧ ((indicesFn s).length : Int) = acr.count) :=
  typedBody_of_ok (check := checkIndices) (zero := 0) indices_converts (checkIndices_accepts.2 ha) ha hr

/-- The sparse indices do not depend on the pools, unless there are none. -/
theorem readIndicesDense_rel {doc : Document} {c : ComponentType} {count off : Int} {i : Int} {idx idx' : List UInt32}
    {b1 b1' : Bytes} (ht : Tame doc) (hm : count.toNat * c.byteSize ≤ maxAlloc) :
    Rel (fun a b => count = 0 ∨ a = b) (readIndicesDense doc c .scalar count (some i) off idx b1)
      (readIndicesDense doc c .scalar count (some i) off idx' b1') := by
  cases hck : checkIndices c .scalar with
  | err e => unfold readIndicesDense; rw [hck]; exact .err e
  | panic w => unfold readIndicesDense; rw [hck]; exact .panic w w
  | ok u =>
    have hd := readDense_rel (buffer := b1) (buffer' := b1') (t := .scalar) (i := i) (off := off) (count := count) (c := c) ht
      (by simpa [AccessorType.components] using hm) (by simp)
    cases h1 : readDense doc c .scalar count (some i) off b1 with
    | ok s =>
      rw [h1] at hd
      cases h2 : readDense doc c .scalar count (some i) off b1' with
      | ok s' =>
        rw [h2] at hd
        cases hd with
        | ok hd =>
          subst hd
          have p : Pools := ⟨[], [], []⟩
          have ha := checkIndices_accepts.1 hck
          obtain ⟨r1, e1, f1⟩ := readIndices_of_ok (acr := plainAccessor c .scalar count (some i) off) (buffer := idx) (p := p) ha
            (readAccessor_plainAccessor.trans h1)
          obtain ⟨r2, e2, f2⟩ := readIndices_of_ok (acr := plainAccessor c .scalar count (some i) off) (buffer := idx') (p := p) ha
            (readAccessor_plainAccessor.trans h2)
          rw [readIndices_plainAccessor] at e1 e2
          rw [e1, e2]
          refine .ok ?_
          by_cases hz : count = 0
          · exact .inl hz
          · right; rw [(f1 (.inl hz)).1, (f2 (.inl hz)).1]
      | err e => rw [h2] at hd; cases hd
      | panic e => rw [h2] at hd; cases hd
    | err e =>
      rw [h1] at hd
      generalize h2 : readDense doc c .scalar count (some i) off b1' = y at hd
      cases hd
      unfold readIndicesDense
      rw [hck, h1, h2]; exact .err e
    | panic w =>
      rw [h1] at hd
      generalize h2 : readDense doc c .scalar count (some i) off b1' = y at hd
      cases hd
      unfold readIndicesDense
      rw [hck, h1, h2]; exact .panic _ _

/-- Reading an accessor with a buffer view does not depend on any scratch buffer. -/
theorem readAccessor_rel {doc : Document} {acr : Accessor} {buffer buffer' : Bytes} {p p' : Pools} (ht : Tame doc)
    (hm : Modest acr) (hv : acr.bufferView ≠ none) :
    Rel Eq (readAccessor doc acr buffer p) (readAccessor doc acr buffer' p') := by
  obtain ⟨i, hi⟩ := Option.ne_none_iff_exists'.1 hv
  unfold readAccessor
  rw [hi]
  apply Rel.bind (readDense_rel ht hm.count hm.type)
  rintro s _ - - rfl
  cases hs : acr.sparse with
  | none => exact .ok rfl
  | some sp =>
    simp only
    apply Rel.bind (readIndicesDense_rel ht (hm.sparse sp hs).2)
    rintro idx idx' - - hidx
    apply Rel.bind (readDense_rel ht (hm.sparse sp hs).1 hm.type)
    rintro v _ - - rfl
    split
    · apply Rel.of_eq
      rcases hidx with h0 | rfl
      · rw [h0]; rfl
      · rfl
    · exact .panic _ _

theorem Rel.same {α : Type} {x y : Res α} (h : Rel Eq x y) : SameOutcome x y := by
  cases h with
  | ok h => exact h
  | err e => exact rfl
  | panic w w' => exact trivial

theorem Rel.of_same {α : Type} {x y : Res α} (h : SameOutcome x y) : Rel Eq x y := by
  cases x <;> cases y <;> simp only [SameOutcome] at h
  · exact .ok h
  · exact h ▸ .err _
  · exact .panic _ _

end Gltf
