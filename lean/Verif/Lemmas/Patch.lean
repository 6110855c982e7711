/-
Overwriting disjoint ranges of a byte string.
-/
import Verif.Model.Component

namespace Gltf

/-- Overwrite `bs` at `off` (used where it fits). -/
def patch (b : Bytes) (off : Nat) (bs : Bytes) : Bytes :=
  b.take off ++ bs ++ b.drop (off + bs.length)

/-- A write of some bytes at an offset. -/
abbrev Cell := Nat × Bytes

/-- Perform several writes in order. -/
def patches (b : Bytes) (l : List Cell) : Bytes := l.foldl (fun b p => patch b p.1 p.2) b

/-- The write fits in a buffer of length `n`. -/
def Fits (n : Nat) (p : Cell) : Prop := p.1 + p.2.length ≤ n

/-- Two writes do not overlap. -/
def Disj (p q : Cell) : Prop := p.1 + p.2.length ≤ q.1 ∨ q.1 + q.2.length ≤ p.1

/-- The writes in order, failing when one is out of range. -/
def storesAt : Bytes → List Cell → Res Bytes
  | b, [] => .ok b
  | b, [p] => storeAt b p.1 p.2
  | b, p :: q :: l => do
    let b ← storeAt b p.1 p.2
    storesAt b (q :: l)

theorem storesAt_cons (b : Bytes) (p : Cell) (l : List Cell) :
    storesAt b (p :: l) = (storeAt b p.1 p.2 >>= fun b => storesAt b l) := by
  cases l with
  | nil => simp only [storesAt]; cases storeAt b p.1 p.2 <;> rfl
  | cons q l => rfl

theorem patch_length {b : Bytes} {off : Nat} {bs : Bytes} (h : off + bs.length ≤ b.length) :
    (patch b off bs).length = b.length := by
  simp [patch]; omega

theorem patch_getElem? {b : Bytes} {off : Nat} {bs : Bytes} (h : off + bs.length ≤ b.length) (p : Nat) :
    (patch b off bs)[p]? = if off ≤ p ∧ p < off + bs.length then bs[p - off]? else b[p]? := by
  unfold patch
  by_cases h1 : p < off
  · rw [List.append_assoc, List.getElem?_append_left (by simp; omega)]
    simp [h1]; omega
  · by_cases h2 : p < off + bs.length
    · rw [List.append_assoc, List.getElem?_append_right (by simp; omega)]
      rw [List.getElem?_append_left (by simp; omega)]
      simp only [List.length_take]
      rw [if_pos (by omega)]
      congr 1; omega
    · rw [List.getElem?_append_right (by simp; omega)]
      simp only [List.length_append, List.length_take, List.getElem?_drop]
      rw [if_neg (by omega)]
      congr 1; omega

theorem patches_length {b : Bytes} {l : List Cell} (h : ∀ p ∈ l, Fits b.length p) :
    (patches b l).length = b.length := by
  induction l generalizing b with
  | nil => rfl
  | cons p l ih =>
    have hp := patch_length (h p (by simp))
    simp only [patches, List.foldl_cons]
    have := ih (b := patch b p.1 p.2) (by intro q hq; rw [hp]; exact h q (by simp [hq]))
    rw [← hp]; exact this

theorem storesAt_eq {b : Bytes} {l : List Cell} (h : ∀ p ∈ l, Fits b.length p) :
    storesAt b l = .ok (patches b l) := by
  induction l generalizing b with
  | nil => rfl
  | cons p l ih =>
    have h0 : p.1 + p.2.length ≤ b.length := h p (by simp)
    have hp := patch_length h0
    simp only [storesAt_cons, patches, List.foldl_cons]
    have h1 : storeAt b p.1 p.2 = .ok (patch b p.1 p.2) := by simp [storeAt, patch, h0]
    rw [h1, Res.ok_bind]
    exact ih (b := patch b p.1 p.2) (by intro q hq; rw [hp]; exact h q (by simp [hq]))

/-- Outside of all written ranges nothing changes. -/
theorem patches_frame {b : Bytes} {l : List Cell} (h : ∀ p ∈ l, Fits b.length p) {i : Nat}
    (hi : ∀ p ∈ l, ¬ (p.1 ≤ i ∧ i < p.1 + p.2.length)) : (patches b l)[i]? = b[i]? := by
  induction l generalizing b with
  | nil => rfl
  | cons p l ih =>
    have h0 : p.1 + p.2.length ≤ b.length := h p (by simp)
    have hp := patch_length h0
    simp only [patches, List.foldl_cons]
    have h2 := ih (b := patch b p.1 p.2) (by intro q hq; rw [hp]; exact h q (by simp [hq]))
      (by intro q hq; exact hi q (by simp [hq]))
    unfold patches at h2
    rw [h2, patch_getElem? h0, if_neg (hi p (by simp))]

/-- Inside a written range, the written byte. -/
theorem patches_hit {b : Bytes} {l : List Cell} (h : ∀ p ∈ l, Fits b.length p)
    (hd : l.Pairwise Disj) {p : Cell} (hp : p ∈ l) {j : Nat} (hj : j < p.2.length) :
    (patches b l)[p.1 + j]? = p.2[j]? := by
  induction l generalizing b with
  | nil => simp at hp
  | cons q l ih =>
    have h0 : q.1 + q.2.length ≤ b.length := h q (by simp)
    have hq := patch_length h0
    have hf : ∀ x ∈ l, Fits (patch b q.1 q.2).length x := by
      intro x hx; rw [hq]; exact h x (by simp [hx])
    rw [List.pairwise_cons] at hd
    simp only [patches, List.foldl_cons]
    rcases List.mem_cons.1 hp with rfl | hp
    · have := patches_frame (i := p.1 + j) hf (by
        intro x hx hc
        have := hd.1 x hx
        unfold Disj at this; omega)
      unfold patches at this
      rw [this, patch_getElem? h0, if_pos (by omega)]
      congr 1; omega
    · exact ih hf hd.2 hp

/-- `n` bytes of `b` starting at `off`. -/
def window (b : Bytes) (off n : Nat) : Bytes := (b.drop off).take n

theorem window_drop (b : Bytes) (a o n : Nat) : window (b.drop a) o n = window b (a + o) n := by
  simp [window, List.drop_drop]

theorem window_patches {b : Bytes} {l : List Cell} (h : ∀ p ∈ l, Fits b.length p)
    (hd : l.Pairwise Disj) {p : Cell} (hp : p ∈ l) :
    window (patches b l) p.1 p.2.length = p.2 := by
  apply List.ext_getElem?
  intro j
  unfold window
  by_cases hj : j < p.2.length
  · rw [List.getElem?_take, if_pos hj, List.getElem?_drop, patches_hit h hd hp hj]
  · rw [List.getElem?_take, if_neg hj, List.getElem?_eq_none (by omega)]

/-- Shift a write. -/
def shiftCell (a : Nat) (p : Cell) : Cell := (a + p.1, p.2)

theorem patch_shift {b : Bytes} {a off : Nat} {bs : Bytes} (_ha : a ≤ b.length) :
    b.take a ++ patch (b.drop a) off bs = patch b (a + off) bs := by
  unfold patch
  rw [List.drop_drop, ← List.append_assoc, ← List.append_assoc, List.take_add]
  congr 2; omega

theorem patches_shift {b : Bytes} {a : Nat} {l : List Cell} (ha : a ≤ b.length)
    (h : ∀ p ∈ l, Fits (b.length - a) p) :
    b.take a ++ patches (b.drop a) l = patches b (l.map (shiftCell a)) := by
  induction l generalizing b with
  | nil => simp [patches]
  | cons p l ih =>
    have h0 : p.1 + p.2.length ≤ b.length - a := h p (by simp)
    have h1 : (patch b (a + p.1) p.2).length = b.length := patch_length (by omega)
    have key := ih (b := patch b (a + p.1) p.2) (by omega)
      (by intro q hq; rw [h1]; exact h q (by simp [hq]))
    have e1 : (patch b (a + p.1) p.2).take a = b.take a := by
      rw [← patch_shift ha, List.take_append_of_le_length (by rw [List.length_take]; omega),
        List.take_take, Nat.min_self]
    have e2 : (patch b (a + p.1) p.2).drop a = patch (b.drop a) p.1 p.2 := by
      rw [← patch_shift ha, List.drop_append_of_le_length (by rw [List.length_take]; omega)]
      simp
    rw [e1, e2] at key
    simp only [patches, List.foldl_cons, List.map_cons, shiftCell] at key ⊢
    exact key

theorem patches_append (b : Bytes) (l1 l2 : List Cell) :
    patches b (l1 ++ l2) = patches (patches b l1) l2 := by simp [patches]

end Gltf
