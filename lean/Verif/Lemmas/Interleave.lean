/-
Several slices written into the same region of a buffer.
-/
import Verif.Lemmas.Grow

namespace Gltf

open Spec

theorem elemAt_of_mem {L : List Cell} {b : Bytes} {t : ETy} {x : t.Elem} {o : Nat}
    (hf : ∀ p ∈ L, Fits b.length p) (hd : L.Pairwise Disj) (h : ∀ q ∈ cells t x, shiftCell o q ∈ L) :
    elemAt t (patches b L) o = x := by
  apply ofCells_component
  intro r c hr hc
  obtain ⟨y, hy⟩ := component_isSome t x hr hc
  have := window_patches hf hd (h _ (mem_cells hr hc hy))
  rw [hy]
  simpa [shiftCell] using this

/-- Size of an element of a slice. -/
abbrev Slice.esz (d : Slice) : Nat := elemSize (kind d.ty) (shape d.ty)

theorem rowSize_cons (d : Slice) (ds : List Slice) : rowSize (d :: ds) = d.esz + rowSize ds := by
  simp [rowSize, Slice.esz]

/-- The writes of all the slices. -/
def allCells (S : Nat) : (off : Nat) → List Slice → List Cell
  | _, [] => []
  | off, d :: ds =>
    (cellsFrom d.ty (effStride d.ty S) 0 d.data).map (shiftCell off) ++ allCells S (off + d.esz) ds

/-- The hypotheses on interleaved slices: `n` elements each, `E` the distance between elements. -/
structure Rows (S n E : Nat) (ds : List Slice) : Prop where
  len : ∀ d ∈ ds, d.data.length = n
  stride : ∀ d ∈ ds, effStride d.ty S = E
  u8 : ∀ d ∈ ds, d.ty = .base .u8 .sc → E = 1 ∨ n ≤ 1

theorem Rows.tail {S n E : Nat} {d : Slice} {ds : List Slice} (h : Rows S n E (d :: ds)) : Rows S n E ds :=
  ⟨fun x hx => h.len x (List.mem_cons_of_mem _ hx), fun x hx => h.stride x (List.mem_cons_of_mem _ hx),
    fun x hx => h.u8 x (List.mem_cons_of_mem _ hx)⟩

theorem shiftCell_shiftCell (a c : Nat) (p : Cell) : shiftCell a (shiftCell c p) = shiftCell (a + c) p := by
  simp [shiftCell, Nat.add_assoc]

theorem mem_allCells {S n E off : Nat} {ds : List Slice} (h : Rows S n E ds) {p : Cell} (hp : p ∈ allCells S off ds) :
    ∃ o e i q, off ≤ o ∧ o + e ≤ off + rowSize ds ∧ i < n ∧ Fits e q ∧ p = shiftCell (o + E * i) q := by
  induction ds generalizing off with
  | nil => simp [allCells] at hp
  | cons d ds ih =>
    simp only [allCells, List.mem_append, List.mem_map] at hp
    rw [rowSize_cons]
    rcases hp with ⟨p, hp, rfl⟩ | hp
    · obtain ⟨j, x, q, hj, hq, rfl⟩ := mem_cellsFrom.1 hp
      refine ⟨off, d.esz, j, q, Nat.le_refl _, by omega, ?_, cells_fits _ _ q hq, ?_⟩
      · have := (List.getElem?_eq_some_iff.1 hj).1
        rw [h.len d (by simp)] at this; exact this
      · rw [shiftCell_shiftCell, h.stride d (by simp), Nat.zero_add]
    · obtain ⟨o, e, i, q, h1, h2, h3, h4, h5⟩ := ih h.tail hp
      exact ⟨o, e, i, q, by omega, by omega, h3, h4, h5⟩

theorem allCells_fits {S n E off : Nat} {ds : List Slice} (h : Rows S n E ds) {m : Nat}
    (hm : off + rowSize ds + E * (n - 1) ≤ m) : ∀ p ∈ allCells S off ds, Fits m p := by
  intro p hp
  obtain ⟨o, e, i, q, h1, h2, h3, h4, rfl⟩ := mem_allCells h hp
  have := mul_le_of_lt (e := E) h3
  simp only [Fits, shiftCell] at *
  omega

theorem allCells_disj {S n E off : Nat} {ds : List Slice} (h : Rows S n E ds) (hE : rowSize ds ≤ E) :
    (allCells S off ds).Pairwise Disj := by
  induction ds generalizing off with
  | nil => simp [allCells]
  | cons d ds ih =>
    rw [rowSize_cons] at hE
    simp only [allCells, List.pairwise_append]
    refine ⟨?_, ih h.tail (by omega), ?_⟩
    · rw [List.pairwise_map]
      refine (cellsFrom_disj (by rw [h.stride d (by simp)]; exact Nat.le_trans (Nat.le_add_right _ _) hE)).imp ?_
      intro p q hpq
      simp only [Disj, shiftCell] at *
      omega
    · intro p hp p' hp'
      rw [List.mem_map] at hp
      obtain ⟨p, hp, rfl⟩ := hp
      obtain ⟨j, x, q, hj, hq, rfl⟩ := mem_cellsFrom.1 hp
      obtain ⟨o, e, i, q', h1, h2, h3, h4, rfl⟩ := mem_allCells h.tail hp'
      have hq' := cells_fits _ _ q hq
      rw [shiftCell_shiftCell, h.stride d (by simp), Nat.zero_add]
      simp only [Disj, shiftCell, Fits, Slice.esz] at *
      rcases Nat.lt_or_ge j i with hlt | hge
      · have : E * (j + 1) ≤ E * i := Nat.mul_le_mul_left E hlt
        rw [Nat.mul_add] at this
        omega
      · rcases Nat.eq_or_lt_of_le hge with rfl | hlt
        · omega
        · have : E * (i + 1) ≤ E * j := Nat.mul_le_mul_left E hlt
          rw [Nat.mul_add] at this
          omega

/-- The writes of an element are among the writes of all the slices. -/
theorem allCells_has {S n E off : Nat} {ds : List Slice} (h : Rows S n E ds) {j i : Nat} {d : Slice} {x : d.ty.Elem}
    (hd : ds[j]? = some d) (hx : d.data[i]? = some x) {q : Cell} (hq : q ∈ cells d.ty x) :
    shiftCell (off + rowSize (ds.take j) + E * i) q ∈ allCells S off ds := by
  induction ds generalizing off j with
  | nil => simp at hd
  | cons y ds ih =>
    cases j with
    | zero =>
      simp only [List.getElem?_cons_zero, Option.some.injEq] at hd
      subst hd
      simp only [allCells, List.mem_append, List.mem_map]
      left
      refine ⟨_, mem_cellsFrom.2 ⟨i, x, q, hx, hq, rfl⟩, ?_⟩
      rw [shiftCell_shiftCell, h.stride y (by simp)]
      simp [rowSize]
    | succ j =>
      simp only [List.getElem?_cons_succ] at hd
      simp only [allCells, List.mem_append]
      right
      have := ih h.tail (off := off + y.esz) hd
      simp only [List.take_succ_cons, rowSize_cons]
      rw [← Nat.add_assoc]; exact this

theorem withSliceFrom_eq {b : Bytes} {off : Nat} (h : off ≤ b.length) (f : Bytes → Res Bytes) :
    withSliceFrom b off f = (f (b.drop off)).map (b.take off ++ ·) := by
  unfold withSliceFrom
  rw [if_pos (by omega)]; simp

/-- The second loop of `writeBufferViews` on non-empty slices of the same length. -/
theorem writeAll_eq {S n E off : Nat} {ds : List Slice} {b : Bytes} (h : Rows S n E ds) (hb : GoLen b) (hn : 0 < n)
    (hm : off + rowSize ds + E * (n - 1) ≤ b.length) :
    writeAll S off b ds = .ok (patches b (allCells S off ds)) := by
  induction ds generalizing off b with
  | nil => rfl
  | cons d ds ih =>
    rw [rowSize_cons] at hm
    have hlen := h.len d (by simp)
    have hE := h.stride d (by simp)
    have hneed : needed d.ty S d.data.length ≤ (b.drop off).length := by
      unfold needed
      rw [if_neg (by omega), hE, hlen, List.length_drop]
      show E * (n - 1) + d.esz ≤ _
      omega
    have hw : writeIgnore (b.drop off) S d
        = .ok (patches (b.drop off) (cellsFrom d.ty (effStride d.ty S) 0 d.data)) := by
      unfold writeIgnore
      rw [write_ok (by unfold GoLen at *; rw [List.length_drop]; omega) hneed
        (by intro ht; rw [hE, hlen]; exact h.u8 d (by simp) ht)]
    have hfit : ∀ p ∈ cellsFrom d.ty (effStride d.ty S) 0 d.data, Fits (b.length - off) p := by
      apply cellsFrom_fits
      right
      rw [hE, hlen]
      simp only [Slice.esz] at hm
      simp; omega
    have hfit' : ∀ p ∈ (cellsFrom d.ty (effStride d.ty S) 0 d.data).map (shiftCell off), Fits b.length p := by
      intro p hp
      rw [List.mem_map] at hp
      obtain ⟨p, hp, rfl⟩ := hp
      have := hfit p hp
      simp only [Fits, shiftCell] at *
      omega
    have hpl := patches_length hfit'
    simp only [writeAll]
    rw [withSliceFrom_eq (by omega), hw, Res.map_ok, patches_shift (by omega) hfit, Res.ok_bind, sizeOfElement_eq]
    rw [ih h.tail (by unfold GoLen at *; omega) (by rw [hpl]; simp only [Slice.esz] at hm; omega)]
    rw [allCells, patches_append]

theorem viewSizes_step (target : Target) (many : Bool) (i r st sz : Nat) (d : Slice) (ds : List Slice) :
    viewSizes target many i r st sz (d :: ds) =
      if i ≠ 0 ∧ r ≠ d.data.length then
        .err (.msg "gltf: interleaved data shall have the same number of elements in all chunks")
      else
        viewSizes target many (i + 1) (if i = 0 then d.data.length else r)
          (if many = true then st + d.esz
            else if target = targetArrayBuffer ∧ d.ty.c.byteSize * d.ty.t.components ≠ d.esz then d.esz else st)
          (sz + d.data.length * d.esz) ds := by
  simp only [Slice.esz, ← sizeOfElement_eq]
  rfl

/-- The first loop on slices after the first. -/
theorem viewSizes_many {target : Target} {i n st sz : Nat} {ds : List Slice} (hi : i ≠ 0) :
    viewSizes target true i n st sz ds =
      if ∀ d ∈ ds, d.data.length = n then .ok (st + rowSize ds, sz + n * rowSize ds)
      else .err (.msg "gltf: interleaved data shall have the same number of elements in all chunks") := by
  induction ds generalizing i st sz with
  | nil => simp [viewSizes, rowSize]
  | cons d ds ih =>
    rw [viewSizes_step]
    by_cases hd : d.data.length = n
    · rw [if_neg (by simp [hd]), if_neg hi, if_pos rfl, ih (by omega)]
      simp only [List.forall_mem_cons, hd, true_and]
      congr 2
      simp only [rowSize_cons, Nat.mul_add, Prod.mk.injEq]
      omega
    · rw [if_pos ⟨hi, fun h => hd h.symm⟩, if_neg]
      intro h; exact hd (h d (by simp))

theorem viewSizes_single (target : Target) (d : Slice) :
    viewSizes target (decide (1 < [d].length)) 0 0 0 0 [d] =
      .ok (if target = targetArrayBuffer ∧ d.ty.c.byteSize * d.ty.t.components ≠ d.esz then d.esz else 0,
        d.data.length * d.esz) := by
  rw [viewSizes_step]
  simp [viewSizes]

theorem viewSizes_nil (target : Target) : viewSizes target (decide (1 < ([] : List Slice).length)) 0 0 0 0 [] = .ok (0, 0) := rfl

theorem viewSizes_cons {target : Target} {d : Slice} {ds : List Slice} (h : ds ≠ []) :
    viewSizes target (decide (1 < (d :: ds).length)) 0 0 0 0 (d :: ds) =
      if ∀ x ∈ ds, x.data.length = d.data.length then
        .ok (rowSize (d :: ds), d.data.length * rowSize (d :: ds))
      else .err (.msg "gltf: interleaved data shall have the same number of elements in all chunks") := by
  have hl : 1 < (d :: ds).length := by
    have := List.length_pos_iff.2 h; simp; exact this
  rw [decide_eq_true hl]
  rw [viewSizes_step, if_neg (by simp), if_pos rfl, if_pos rfl, viewSizes_many (by omega), rowSize_cons]
  simp only [Nat.zero_add, Nat.mul_add]

end Gltf
