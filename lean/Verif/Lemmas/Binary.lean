/-
Per type facts about the get and put functions, and the loops of Read and Write.
-/
import Verif.Model.Binary
import Verif.Spec.Layout
import Verif.Lemmas.Patch

namespace Gltf

open Spec

/-- Bytes of a component as the code writes them. -/
def encBytes : (k : Kind) → k.T → Bytes
  | .i8, x => [x.toUInt8]
  | .u8, x => [x]
  | .i16, x => leBytes 2 x.toUInt16.toNat
  | .u16, x => leBytes 2 x.toNat
  | .u32, x => leBytes 4 x.toNat
  | .f32, x => leBytes 4 x.bits.toNat

@[simp] theorem encBytes_length (k : Kind) (x : k.T) : (encBytes k x).length = size k := by
  cases k <;> rfl

theorem leNat_leBytes (n v : Nat) : leNat (leBytes n v) = v % 256 ^ n := by
  induction n generalizing v with
  | zero => simp [leBytes, leNat, Nat.mod_one]
  | succ n ih =>
    have h : (UInt8.ofNat v).toNat = v % 256 := by simp
    rw [leBytes, leNat, ih, h, Nat.pow_succ', Nat.mod_mul]

theorem ofMem_encBytes (k : Kind) (x : k.T) : k.ofMem (encBytes k x) = x := by
  cases k with
  | i8 => simp [Kind.ofMem, encBytes, leNat]
  | u8 => simp [Kind.ofMem, encBytes, leNat]
  | i16 =>
    simp only [Kind.ofMem, encBytes, leNat_leBytes]
    rw [Nat.mod_eq_of_lt (by have := x.toUInt16.toNat_lt; omega)]; simp
  | u16 =>
    simp only [Kind.ofMem, encBytes, leNat_leBytes]
    rw [Nat.mod_eq_of_lt (by have := x.toNat_lt; omega)]; simp
  | u32 =>
    simp only [Kind.ofMem, encBytes, leNat_leBytes]
    rw [Nat.mod_eq_of_lt (by have := x.toNat_lt; omega)]; simp
  | f32 =>
    simp only [Kind.ofMem, encBytes, leNat_leBytes]
    rw [Nat.mod_eq_of_lt (by have := x.bits.toNat_lt; omega)]; simp

theorem leBytes_getElem? (n v j : Nat) (h : j < n) :
    (leBytes n v)[j]? = some (UInt8.ofNat (v / 256 ^ j % 256)) := by
  induction n generalizing v j with
  | zero => omega
  | succ n ih =>
    cases j with
    | zero => 
      simp only [leBytes, List.getElem?_cons_zero, Nat.pow_zero, Nat.div_one, Option.some.injEq]
      apply UInt8.toNat_inj.1; simp
    | succ j =>
      simp only [leBytes, List.getElem?_cons_succ]
      rw [ih _ _ (by omega), Nat.div_div_eq_div_mul, Nat.pow_succ, Nat.mul_comm 256]

theorem i8_bits (x : Int8) : (x.toInt % 256).toNat = x.toUInt8.toNat := by
  have h1 : x.toInt = x.toBitVec.toInt := rfl
  have h2 : x.toUInt8.toNat = x.toBitVec.toNat := rfl
  have h3 := x.toBitVec.isLt
  rw [h1, h2, BitVec.toInt_eq_toNat_cond]
  split <;> omega

theorem i16_bits (x : Int16) : (x.toInt % 65536).toNat = x.toUInt16.toNat := by
  have h1 : x.toInt = x.toBitVec.toInt := rfl
  have h2 : x.toUInt16.toNat = x.toBitVec.toNat := rfl
  have h3 := x.toBitVec.isLt
  rw [h1, h2, BitVec.toInt_eq_toNat_cond]
  split <;> omega

theorem encBytes_getElem? (k : Kind) (x : k.T) (j : Nat) (h : j < size k) :
    (encBytes k x)[j]? = some (byteOf k x j) := by
  cases k with
  | i8 =>
    have : j = 0 := by simp [size] at h; omega
    subst this
    simp only [encBytes, byteOf, bits, List.getElem?_cons_zero, Option.some.injEq]
    have : (x.toInt % 256).toNat = x.toUInt8.toNat := i8_bits x
    apply UInt8.toNat_inj.1
    rw [this]; simp
  | u8 =>
    have : j = 0 := by simp [size] at h; omega
    subst this
    simp only [encBytes, byteOf, bits, List.getElem?_cons_zero, Option.some.injEq]
    apply UInt8.toNat_inj.1
    simp
  | i16 =>
    have : (x.toInt % 65536).toNat = x.toUInt16.toNat := i16_bits x
    simp only [encBytes, byteOf, bits, this]
    exact leBytes_getElem? _ _ _ h
  | u16 => exact leBytes_getElem? _ _ _ h
  | u32 => exact leBytes_getElem? _ _ _ h
  | f32 => exact leBytes_getElem? _ _ _ h

/-- The writes made by the put function of an element type, in column-major order. -/
def cells (t : ETy) (v : t.Elem) : List Cell :=
  (List.range (cols (shape t))).flatMap fun c => (List.range (rows (shape t))).map fun r =>
    (componentOffset (kind t) (shape t) r c,
      (component t v r c).elim [] (encBytes (kind t)))

theorem elemPut_eq (t : ETy) (b : Bytes) (v : t.Elem) : elemPut t b v = storesAt b (cells t v) := by
  cases t with
  | base k s => cases k <;> cases s <;> rfl
  | rgba => rfl
  | rgba64 => rfl

theorem sizeOfElement_eq (t : ETy) : sizeOfElement t.c t.t = elemSize (kind t) (shape t) := by
  cases t with
  | base k s => cases k <;> cases s <;> rfl
  | rgba => rfl
  | rgba64 => rfl

/-- Element assembled from the bytes of its components. -/
def ofCells : (t : ETy) → (Nat → Nat → Bytes) → t.Elem
  | .base k s, f => s.build fun r c => k.ofMem (f r c)
  | .rgba, f => ⟨Kind.ofMem .u8 (f 0 0), Kind.ofMem .u8 (f 1 0), Kind.ofMem .u8 (f 2 0), Kind.ofMem .u8 (f 3 0)⟩
  | .rgba64, f => ⟨Kind.ofMem .u16 (f 0 0), Kind.ofMem .u16 (f 1 0), Kind.ofMem .u16 (f 2 0), Kind.ofMem .u16 (f 3 0)⟩

theorem get8_ok {b : Bytes} {o : Nat} (h : o + 1 ≤ b.length) :
    get8 b o = .ok (Kind.ofMem .u8 (window b o 1)) := by
  simp only [get8, loadAt, if_pos h]; rfl

theorem get16_ok {b : Bytes} {o : Nat} (h : o + 2 ≤ b.length) :
    get16 b o = .ok (Kind.ofMem .u16 (window b o 2)) := by
  simp only [get16, loadAt, if_pos h]; rfl

theorem get32_ok {b : Bytes} {o : Nat} (h : o + 4 ≤ b.length) :
    get32 b o = .ok (Kind.ofMem .u32 (window b o 4)) := by
  simp only [get32, loadAt, if_pos h]; rfl

open Lean.Parser.Tactic in
/-- Evaluate a get function on a buffer that is long enough. -/
local macro "eval_get" : tactic => `(tactic|
  (simp (discharger := omega) only [elemGet, Byte.scalar, Byte.vec2, Byte.vec3, Byte.vec4, Byte.mat2, Byte.mat3, Byte.mat4,
    Ubyte.scalar, Ubyte.vec2, Ubyte.vec3, Ubyte.vec4, Ubyte.mat2, Ubyte.mat3, Ubyte.mat4,
    Short.scalar, Short.vec2, Short.vec3, Short.vec4, Short.mat2, Short.mat3, Short.mat4,
    Ushort.scalar, Ushort.vec2, Ushort.vec3, Ushort.vec4, Ushort.mat2, Ushort.mat3, Ushort.mat4,
    Uint.scalar, Uint.vec2, Uint.vec3, Uint.vec4, Uint.mat2, Uint.mat3, Uint.mat4,
    Float.scalar, Float.vec2, Float.vec3, Float.vec4, Float.mat2, Float.mat3, Float.mat4,
    get8_ok, get16_ok, get32_ok, Res.ok_bind, Res.pure_eq]; rfl))

theorem elemGet_eq (t : ETy) (b : Bytes) (h : elemSize (kind t) (shape t) ≤ b.length) :
    elemGet t b = .ok (ofCells t fun r c => window b (componentOffset (kind t) (shape t) r c) (size (kind t))) := by
  cases t with
  | base k s => 
    cases k <;> cases s <;> simp only [kind, shape, elemSize, cols, columnStride, roundUp4, rows, size] at h <;> eval_get
  | rgba => simp only [kind, shape, elemSize, cols, columnStride, roundUp4, rows, size] at h; eval_get
  | rgba64 => simp only [kind, shape, elemSize, cols, columnStride, roundUp4, rows, size] at h; eval_get

theorem ofCells_component (t : ETy) (v : t.Elem) (f : Nat → Nat → Bytes)
    (h : ∀ r c, r < rows (shape t) → c < cols (shape t) →
      f r c = (component t v r c).elim [] (encBytes (kind t))) : ofCells t f = v := by
  have key : ∀ r c, r < rows (shape t) → c < cols (shape t) →
      (kind t).ofMem (f r c) = (component t v r c).elim ((kind t).ofMem []) id := by
    intro r c hr hc
    rw [h r c hr hc]
    cases component t v r c with
    | none => rfl
    | some x => simp [ofMem_encBytes]
  clear h
  cases t with
  | base k s =>
    cases s <;> simp only [shape, kind, rows, cols] at key <;>
      simp (discharger := omega) only [ofCells, Shape.build, key] <;> rfl
  | rgba =>
    simp only [shape, kind, rows, cols] at key
    simp (discharger := omega) only [ofCells, key]; rfl
  | rgba64 =>
    simp only [shape, kind, rows, cols] at key
    simp (discharger := omega) only [ofCells, key]; rfl

theorem cells_fits (t : ETy) (v : t.Elem) : ∀ p ∈ cells t v, Fits (elemSize (kind t) (shape t)) p := by
  cases t with
  | base k s =>
    cases k <;> cases s <;> simp [cells, Fits, shape, kind, rows, cols, elemSize, columnStride, roundUp4,
      componentOffset, size, component, arrayComponent, at2, at3, at4, List.range, List.range.loop]
  | rgba =>
    simp [cells, Fits, shape, kind, rows, cols, elemSize, columnStride, roundUp4,
      componentOffset, size, component, arrayComponent, at4, List.range, List.range.loop]
  | rgba64 =>
    simp [cells, Fits, shape, kind, rows, cols, elemSize, columnStride, roundUp4,
      componentOffset, size, component, arrayComponent, at4, List.range, List.range.loop]

theorem cells_disj (t : ETy) (v : t.Elem) : (cells t v).Pairwise Disj := by
  cases t with
  | base k s =>
    cases k <;> cases s <;> simp [cells, Disj, shape, kind, rows, cols, columnStride, roundUp4,
      componentOffset, size, component, arrayComponent, at2, at3, at4, List.range, List.range.loop]
  | rgba =>
    simp [cells, Disj, shape, kind, rows, cols, columnStride, roundUp4,
      componentOffset, size, component, arrayComponent, at4, List.range, List.range.loop]
  | rgba64 =>
    simp [cells, Disj, shape, kind, rows, cols, columnStride, roundUp4,
      componentOffset, size, component, arrayComponent, at4, List.range, List.range.loop]

theorem component_isSome (t : ETy) (v : t.Elem) {r c : Nat} (hr : r < rows (shape t)) (hc : c < cols (shape t)) :
    ∃ x, component t v r c = some x := by
  have fin2 : ∀ {n}, n < 2 → n = 0 ∨ n = 1 := by omega
  have fin3 : ∀ {n}, n < 3 → n = 0 ∨ n = 1 ∨ n = 2 := by omega
  have fin4 : ∀ {n}, n < 4 → n = 0 ∨ n = 1 ∨ n = 2 ∨ n = 3 := by omega
  cases t with
  | base k s =>
    cases s <;> simp only [shape, rows, cols, Nat.lt_one_iff] at hr hc
    · subst hr hc; exact ⟨_, rfl⟩
    · subst hc; rcases fin2 hr with rfl | rfl <;> exact ⟨_, rfl⟩
    · subst hc; rcases fin3 hr with rfl | rfl | rfl <;> exact ⟨_, rfl⟩
    · subst hc; rcases fin4 hr with rfl | rfl | rfl | rfl <;> exact ⟨_, rfl⟩
    · rcases fin2 hr with rfl | rfl <;> rcases fin2 hc with rfl | rfl <;> exact ⟨_, rfl⟩
    · rcases fin3 hr with rfl | rfl | rfl <;> rcases fin3 hc with rfl | rfl | rfl <;> exact ⟨_, rfl⟩
    · rcases fin4 hr with rfl | rfl | rfl | rfl <;> rcases fin4 hc with rfl | rfl | rfl | rfl <;> exact ⟨_, rfl⟩
  | rgba =>
    simp only [shape, rows, cols, Nat.lt_one_iff] at hr hc
    subst hc; rcases fin4 hr with rfl | rfl | rfl | rfl <;> exact ⟨_, rfl⟩
  | rgba64 =>
    simp only [shape, rows, cols, Nat.lt_one_iff] at hr hc
    subst hc; rcases fin4 hr with rfl | rfl | rfl | rfl <;> exact ⟨_, rfl⟩

theorem mem_cells {t : ETy} {v : t.Elem} {r c : Nat} (hr : r < rows (shape t)) (hc : c < cols (shape t))
    {x : (kind t).T} (hx : component t v r c = some x) :
    (componentOffset (kind t) (shape t) r c, encBytes (kind t) x) ∈ cells t v := by
  simp only [cells, List.mem_flatMap, List.mem_map, List.mem_range]
  exact ⟨c, hc, r, hr, by rw [hx]; rfl⟩

theorem of_mem_cells {t : ETy} {v : t.Elem} {p : Cell} (h : p ∈ cells t v) :
    ∃ r c x, r < rows (shape t) ∧ c < cols (shape t) ∧ component t v r c = some x ∧
      p = (componentOffset (kind t) (shape t) r c, encBytes (kind t) x) := by
  simp only [cells, List.mem_flatMap, List.mem_map, List.mem_range] at h
  obtain ⟨c, hc, r, hr, rfl⟩ := h
  obtain ⟨x, hx⟩ := component_isSome t v hr hc
  exact ⟨r, c, x, hr, hc, hx, by rw [hx]; rfl⟩

/-- All writes of a strided slice whose first element has index `i`. -/
def cellsFrom (t : ETy) (e : Nat) : Nat → List t.Elem → List Cell
  | _, [] => []
  | i, x :: xs => (cells t x).map (shiftCell (e * i)) ++ cellsFrom t e (i + 1) xs

theorem mem_cellsFrom {t : ETy} {e i : Nat} {data : List t.Elem} {p : Cell} :
    p ∈ cellsFrom t e i data ↔ ∃ j x q, data[j]? = some x ∧ q ∈ cells t x ∧ p = shiftCell (e * (i + j)) q := by
  induction data generalizing i with
  | nil => simp [cellsFrom]
  | cons y ys ih =>
    simp only [cellsFrom, List.mem_append, List.mem_map, ih]
    constructor
    · rintro (⟨q, hq, rfl⟩ | ⟨j, x, q, hj, hq, rfl⟩)
      · exact ⟨0, y, q, rfl, hq, rfl⟩
      · exact ⟨j + 1, x, q, hj, hq, by rw [show i + 1 + j = i + (j + 1) by omega]⟩
    · rintro ⟨j, x, q, hj, hq, rfl⟩
      cases j with
      | zero => left; simp at hj; subst hj; exact ⟨q, hq, rfl⟩
      | succ j => right; exact ⟨j, x, q, by simpa using hj, hq, by rw [show i + 1 + j = i + (j + 1) by omega]⟩

theorem mul_le_of_lt {e j n : Nat} (h : j < n) : e * j ≤ e * (n - 1) := Nat.mul_le_mul_left e (by omega)

theorem cellsFrom_fits {t : ETy} {e i : Nat} {data : List t.Elem} {n : Nat}
    (h : data.length = 0 ∨ e * (i + data.length - 1) + elemSize (kind t) (shape t) ≤ n) :
    ∀ p ∈ cellsFrom t e i data, Fits n p := by
  intro p hp
  obtain ⟨j, x, q, hj, hq, rfl⟩ := mem_cellsFrom.1 hp
  have hj' : j < data.length := (List.getElem?_eq_some_iff.1 hj).1
  have h2 : e * (i + j) ≤ e * (i + data.length - 1) := Nat.mul_le_mul_left e (by omega)
  have h3 := cells_fits t x q hq
  unfold Fits shiftCell at *
  simp only at h3 ⊢
  omega

theorem cellsFrom_ge {t : ETy} {e i : Nat} {data : List t.Elem} :
    ∀ p ∈ cellsFrom t e i data, e * i ≤ p.1 := by
  intro p hp
  obtain ⟨j, x, q, hj, hq, rfl⟩ := mem_cellsFrom.1 hp
  have : e * i ≤ e * (i + j) := Nat.mul_le_mul_left e (by omega)
  simp only [shiftCell]; omega

theorem cellsFrom_disj {t : ETy} {e i : Nat} {data : List t.Elem}
    (h : elemSize (kind t) (shape t) ≤ e) : (cellsFrom t e i data).Pairwise Disj := by
  induction data generalizing i with
  | nil => simp [cellsFrom]
  | cons y ys ih =>
    simp only [cellsFrom, List.pairwise_append]
    refine ⟨?_, ih, ?_⟩
    · rw [List.pairwise_map]
      refine (cells_disj t y).imp ?_
      intro a b hab
      unfold Disj shiftCell at *; simp only; omega
    · intro a ha b hb
      obtain ⟨q, hq, rfl⟩ := List.mem_map.1 ha
      have h1 := cells_fits t y q hq
      have h2 := cellsFrom_ge b hb
      rw [Nat.mul_add, Nat.mul_one] at h2
      unfold Disj; unfold Fits at h1
      simp only [shiftCell]; omega

theorem writeLoop_eq {t : ETy} {e i : Nat} {b : Bytes} {data : List t.Elem}
    (hb : b.length < 9223372036854775808)
    (h : data.length = 0 ∨ e * (i + data.length - 1) + elemSize (kind t) (shape t) ≤ b.length) :
    writeLoop (elemPut t) (e : Int) i b data = .ok (patches b (cellsFrom t e i data)) := by
  induction data generalizing i b with
  | nil => rfl
  | cons x xs ih =>
    have h' : e * (i + xs.length) + elemSize (kind t) (shape t) ≤ b.length := by
      rcases h with h | h
      · simp at h
      · simpa [show i + (xs.length + 1) - 1 = i + xs.length by omega] using h
    have hi : e * i ≤ e * (i + xs.length) := Nat.mul_le_mul_left e (by omega)
    have hw : wrap64 ((e : Int) * (i : Int)) = ((e * i : Nat) : Int) := by
      rw [← Int.natCast_mul]; exact wrap64_id (by omega) (by omega)
    have hfit : ∀ p ∈ cells t x, Fits (b.length - e * i) p := by
      intro p hp
      have := cells_fits t x p hp
      unfold Fits at *; omega
    have hstep : withSliceFrom b (wrap64 ((e : Int) * (i : Int))) (fun tail => elemPut t tail x)
        = .ok (patches b ((cells t x).map (shiftCell (e * i)))) := by
      rw [hw]
      unfold withSliceFrom
      rw [if_pos (by omega), Int.toNat_natCast]
      show Res.map _ (elemPut t _ x) = _
      rw [elemPut_eq,
        storesAt_eq (by intro p hp; simpa using hfit p hp), Res.map_ok, patches_shift (by omega) hfit]
    have hlen : (patches b ((cells t x).map (shiftCell (e * i)))).length = b.length := by
      apply patches_length
      intro p hp
      obtain ⟨q, hq, rfl⟩ := List.mem_map.1 hp
      have := hfit q hq
      unfold Fits shiftCell at *; simp only; omega
    rw [writeLoop, hstep, Res.ok_bind, ih (by omega)
      (by rw [hlen]; right
          rw [show i + 1 + xs.length - 1 = i + xs.length by omega]; exact h'), cellsFrom, patches_append]

/-- Value of the element at byte offset `o`. -/
def elemAt (t : ETy) (b : Bytes) (o : Nat) : t.Elem :=
  ofCells t fun r c => window b (o + componentOffset (kind t) (shape t) r c) (size (kind t))

theorem readLoop_eq {t : ETy} {e i : Nat} {b : Bytes} {data : List t.Elem}
    (hb : b.length < 9223372036854775808)
    (h : data.length = 0 ∨ e * (i + data.length - 1) + elemSize (kind t) (shape t) ≤ b.length) :
    readLoop (elemGet t) b (e : Int) i data
      = .ok ((List.range data.length).map fun j => elemAt t b (e * (i + j))) := by
  induction data generalizing i with
  | nil => rfl
  | cons x xs ih =>
    have h' : e * (i + xs.length) + elemSize (kind t) (shape t) ≤ b.length := by
      rcases h with h | h
      · simp at h
      · simpa [show i + (xs.length + 1) - 1 = i + xs.length by omega] using h
    have hi : e * i ≤ e * (i + xs.length) := Nat.mul_le_mul_left e (by omega)
    have hw : wrap64 ((e : Int) * (i : Int)) = ((e * i : Nat) : Int) := by
      rw [← Int.natCast_mul]; exact wrap64_id (by omega) (by omega)
    have hstep : sliceFrom b (wrap64 ((e : Int) * (i : Int))) = .ok (b.drop (e * i)) := by
      rw [hw]; unfold sliceFrom; rw [if_pos (by omega), Int.toNat_natCast]
    have hget : elemGet t (b.drop (e * i)) = .ok (elemAt t b (e * i)) := by
      rw [elemGet_eq t _ (by simp; omega)]
      simp only [window_drop]; rfl
    rw [readLoop, hstep, Res.ok_bind, hget, Res.ok_bind, ih (by
      right; rw [show i + 1 + xs.length - 1 = i + xs.length by omega]; exact h'), Res.ok_bind]
    simp only [List.length_cons, List.range_succ_eq_map, List.map_cons, List.map_map, Res.pure_eq,
      Nat.add_zero]
    have hc : (fun j => elemAt t b (e * (i + 1 + j))) = (fun j => elemAt t b (e * (i + j))) ∘ Nat.succ := by
      funext j
      show _ = elemAt t b (e * (i + (j + 1)))
      rw [show i + 1 + j = i + (j + 1) by omega]
    rw [hc]

/-- Reading an element back from the bytes of a strided write. -/
theorem elemAt_patches {t : ETy} {e : Nat} {b : Bytes} {data : List t.Elem} {j : Nat} {x : t.Elem}
    (he : elemSize (kind t) (shape t) ≤ e)
    (h : data.length = 0 ∨ e * (data.length - 1) + elemSize (kind t) (shape t) ≤ b.length)
    (hj : data[j]? = some x) : elemAt t (patches b (cellsFrom t e 0 data)) (e * j) = x := by
  apply ofCells_component
  intro r c hr hc
  obtain ⟨y, hy⟩ := component_isSome t x hr hc
  rw [hy]
  have hm : shiftCell (e * (0 + j)) (componentOffset (kind t) (shape t) r c, encBytes (kind t) y)
      ∈ cellsFrom t e 0 data := mem_cellsFrom.2 ⟨j, x, _, hj, mem_cells hr hc hy, rfl⟩
  have := window_patches (b := b) (cellsFrom_fits (by simpa using h)) (cellsFrom_disj he) hm
  simpa [shiftCell] using this

end Gltf
