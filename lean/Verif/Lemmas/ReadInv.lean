/-
What a successful read tells: element type and number of elements; independence from scratch buffers.
-/
import Verif.Lemmas.Back

namespace Gltf

open Spec

theorem goCopy_length {α : Type} (dst src : List α) : (goCopy dst src).length = dst.length := by
  simp [goCopy]; omega

theorem goCopy_full {α : Type} {dst src : List α} (h : src.length = dst.length) : goCopy dst src = src := by
  unfold goCopy
  rw [List.take_of_length_le (by omega), List.drop_of_length_le (by omega), List.append_nil]

theorem readLoop_length {α : Type} {get : Bytes → Res α} {b : Bytes} {e : Int} {i : Nat} {data d : List α}
    (h : readLoop get b e i data = .ok d) : d.length = data.length := by
  induction data generalizing i d with
  | nil => unfold readLoop at h; cases h; rfl
  | cons x xs ih =>
    unfold readLoop at h
    simp only [Res.bind_eq_ok, Res.pure_eq, Res.ok.injEq] at h
    obtain ⟨tail, -, y, -, ys, hys, rfl⟩ := h
    simp [ih hys]

theorem readSwitch_length {b : Bytes} {e : Int} {t : ETy} {data d : List t.Elem}
    (h : readSwitch b e t data = .ok d) : d.length = data.length := by
  by_cases h8 : t = .base .i8 .sc
  · subst h8
    have h : readInt8 b data = .ok d := h
    unfold readInt8 at h
    split at h
    · cases h; simp; omega
    · cases h
  · by_cases hu : t = .base .u8 .sc
    · subst hu
      have h : (if e ≠ 1 then Res.ok (goCopy data b) else readLoop Ubyte.scalar b e 0 data) = .ok d := h
      split at h
      · cases h; exact goCopy_length _ _
      · exact readLoop_length h
    · rw [readSwitch_eq h8 hu] at h
      exact readLoop_length h

theorem read_length {b : Bytes} {st : Int} {t : ETy} {data d : List t.Elem}
    (h : read b st t data = .ok d) : d.length = data.length := by
  unfold read at h
  simp only at h
  generalize (if st = 0 then ((sizeOfElement t.c t.t : Nat) : Int) else st) = e at h
  generalize (if e ≠ _ then _ else _ : Int) = high at h
  split at h
  · cases h
  · exact readSwitch_length h

theorem makeZeros_ok {t : ETy} {count : Int} {d : List t.Elem} (h : makeZeros t count = .ok d) :
    (d.length : Int) = count ∧ d = List.replicate count.toNat t.zero := by
  unfold makeZeros at h
  split at h
  · cases h
  · split at h
    · cases h
    · cases h; simp; omega

theorem reslice_ok {t : ETy} {v : Bytes} {l rem : Int} {d : List t.Elem} (hr : 0 ≤ rem)
    (h : reslice t v l rem = .ok d) : (d.length : Int) = l + rem ∧ 0 ≤ l := by
  unfold reslice at h
  split at h
  · cases h
  · simp only at h
    split at h
    · obtain ⟨z, hz, rfl⟩ := Res.map_eq_ok.1 h
      have := (makeZeros_ok hz).1
      simp; omega
    · cases h; simp; omega

theorem componentType_cases (c : ComponentType) : (∃ k, c = componentTypeOf k) ∨ ∃ n, c = .unknown n := by
  cases c with
  | float => exact .inl ⟨.f32, rfl⟩
  | byte => exact .inl ⟨.i8, rfl⟩
  | ubyte => exact .inl ⟨.u8, rfl⟩
  | short => exact .inl ⟨.i16, rfl⟩
  | ushort => exact .inl ⟨.u16, rfl⟩
  | uint => exact .inl ⟨.u32, rfl⟩
  | unknown n => exact .inr ⟨n, rfl⟩

theorem accessorType_cases (t : AccessorType) : (∃ s, t = accessorTypeOf s) ∨ ∃ n, t = .unknown n := by
  cases t with
  | scalar => exact .inl ⟨.sc, rfl⟩
  | vec2 => exact .inl ⟨.v2, rfl⟩
  | vec3 => exact .inl ⟨.v3, rfl⟩
  | vec4 => exact .inl ⟨.v4, rfl⟩
  | mat2 => exact .inl ⟨.m2, rfl⟩
  | mat3 => exact .inl ⟨.m3, rfl⟩
  | mat4 => exact .inl ⟨.m4, rfl⟩
  | unknown n => exact .inr ⟨n, rfl⟩

theorem checkAccessorType_ok {c : ComponentType} {t : AccessorType} (h : checkAccessorType c t = .ok ()) :
    ∃ k s, c = componentTypeOf k ∧ t = accessorTypeOf s := by
  rcases componentType_cases c with ⟨k, rfl⟩ | ⟨n, rfl⟩
  · rcases accessorType_cases t with ⟨s, rfl⟩ | ⟨n, rfl⟩
    · exact ⟨k, s, rfl, rfl⟩
    · cases k <;> simp [componentTypeOf, checkAccessorType] at h
  · simp [checkAccessorType] at h

theorem castType_some {k : Kind} {s : Shape} {ty : ETy} (h : castType (componentTypeOf k) (accessorTypeOf s) = some ty) :
    ty = .base k s := by
  cases k <;> cases s <;> first | (cases h; rfl) | simp [componentTypeOf, accessorTypeOf, castType] at h

theorem makeSlice_types (k : Kind) (s : Shape) (count : Int) :
    makeSlice (componentTypeOf k) (accessorTypeOf s) count
      = (makeZeros (.base k s) count).map fun d => ⟨.base k s, d⟩ := by
  cases k <;> cases s <;> rfl

/-- A slice made for an accessor has its type and count. -/
theorem makeSliceBuffer_inv {c : ComponentType} {t : AccessorType} {count : Int} {buffer : Bytes} {r : Slice}
    (h : makeSliceBuffer c t count buffer = .ok r) :
    ∃ k s, c = componentTypeOf k ∧ t = accessorTypeOf s ∧ r.ty = .base k s ∧ (r.data.length : Int) = count := by
  unfold makeSliceBuffer at h
  obtain ⟨u, hck, h⟩ := Res.bind_eq_ok.1 h
  obtain ⟨k, s, rfl, rfl⟩ := checkAccessorType_ok hck
  refine ⟨k, s, rfl, rfl, ?_⟩
  split at h
  · rw [makeSlice_types] at h
    obtain ⟨d, hd, rfl⟩ := Res.map_eq_ok.1 h
    exact ⟨rfl, (makeZeros_ok hd).1⟩
  · unfold castSlice at h
    simp only at h
    split at h
    · rename_i ty hty
      obtain ⟨d, hd, rfl⟩ := Res.map_eq_ok.1 h
      refine ⟨castType_some hty, ?_⟩
      have := reslice_ok (by split; · omega
                             · split <;> omega) hd
      revert this
      generalize ((buffer.length / _ : Nat) : Int) = l
      intro this
      simp only
      by_cases h1 : count < l
      · simp only [h1, if_true] at this; omega
      · simp only [h1, if_false] at this
        by_cases h2 : count > l
        · simp only [h2, if_true] at this; omega
        · simp only [h2, if_false] at this; omega
    · cases h

/-- The dense part of a read has the type and count of the accessor. -/
theorem readDense_inv {doc : Document} {c : ComponentType} {t : AccessorType} {count : Int} {bv : Option Int} {off : Int}
    {buffer : Bytes} {r : Slice} (h : readDense doc c t count bv off buffer = .ok r) :
    ∃ k s, c = componentTypeOf k ∧ t = accessorTypeOf s ∧ r.ty = .base k s ∧ (r.data.length : Int) = count := by
  unfold readDense at h
  obtain ⟨d, hd, h⟩ := Res.bind_eq_ok.1 h
  obtain ⟨k, s, hc, ht, hty, hl⟩ := makeSliceBuffer_inv hd
  refine ⟨k, s, hc, ht, ?_⟩
  split at h
  · cases h; exact ⟨hty, hl⟩
  · obtain ⟨buf, -, h⟩ := Res.bind_eq_ok.1 h
    obtain ⟨v, -, h⟩ := Res.bind_eq_ok.1 h
    obtain ⟨tail, -, h⟩ := Res.bind_eq_ok.1 h
    obtain ⟨x, hx, h⟩ := Res.bind_eq_ok.1 h
    cases h
    exact ⟨hty, by rw [← hl, read_length hx]⟩

theorem sparseLoop_length {α : Type} {idx : List UInt32} {vals : List α} {n i : Nat} {s r : List α}
    (h : sparseLoop idx vals n i s = .ok r) : r.length = s.length := by
  induction n generalizing i s with
  | zero => unfold sparseLoop at h; cases h; rfl
  | succ n ih =>
    unfold sparseLoop at h
    split at h
    · split at h
      · rw [ih h, List.length_set]
      · cases h
    · cases h

/-- What `ReadAccessor` returns has the type and count of the accessor. -/
theorem readAccessor_inv {doc : Document} {acr : Accessor} {buffer : Bytes} {p : Pools} {r : Slice}
    (h : readAccessor doc acr buffer p = .ok r) :
    ∃ k s, acr.componentType = componentTypeOf k ∧ acr.type = accessorTypeOf s ∧ r.ty = .base k s ∧
      (r.data.length : Int) = acr.count := by
  unfold readAccessor at h
  obtain ⟨d, hd, h⟩ := Res.bind_eq_ok.1 h
  obtain ⟨k, s, hc, ht, hty, hl⟩ := readDense_inv hd
  refine ⟨k, s, hc, ht, ?_⟩
  split at h
  · cases h; exact ⟨hty, hl⟩
  · obtain ⟨idx, -, h⟩ := Res.bind_eq_ok.1 h
    obtain ⟨v, -, h⟩ := Res.bind_eq_ok.1 h
    split at h
    · obtain ⟨x, hx, h⟩ := Res.bind_eq_ok.1 h
      cases h
      exact ⟨hty, by rw [← hl, sparseLoop_length hx]⟩
    · cases h

end Gltf
