/-
Lemmas about slices in memory.
-/
import Verif.Spec.Heap
import Verif.Lemmas.WriteRead

namespace Gltf.Heap

open Gltf Spec

theorem splice_length {α : Type} {a bs : List α} {i : Nat} (h : i + bs.length ≤ a.length) : (splice a i bs).length = a.length := by
  unfold splice
  simp only [List.length_append, List.length_take, List.length_drop]
  omega

theorem splice_get {α : Type} {a bs : List α} {i j : Nat} (h : i + bs.length ≤ a.length) :
    (splice a i bs)[j]? = if i ≤ j ∧ j < i + bs.length then bs[j - i]? else a[j]? := by
  unfold splice
  rw [List.getElem?_append, List.getElem?_append]
  simp only [List.length_append, List.length_take, Nat.min_eq_left (show i ≤ a.length by omega), List.getElem?_drop]
  split
  · split
    · rw [if_neg (by omega), List.getElem?_take_of_lt (by omega)]
    · rw [if_pos (by omega)]
  · rw [if_neg (by omega)]
    congr 1
    omega

theorem bytes_get {α : Type} (s : GoSlice) (m : List (List α)) (j : Nat) : (s.bytes m)[j]? = if j < s.len then (m[s.arr]?.getD [])[s.off + j]? else none := by
  unfold GoSlice.bytes
  rw [List.getElem?_take, List.getElem?_drop]

theorem bytes_length {α : Type} {s : GoSlice} {m : List (List α)} (h : Valid m s) : (s.bytes m).length = s.len := by
  unfold GoSlice.bytes
  rw [List.length_take, List.length_drop]
  obtain ⟨h1, h2 | ⟨a, h2, h3⟩⟩ := h
  · omega
  · rw [h2, Option.getD_some]; omega

theorem store_get {α : Type} {s : GoSlice} {m : List (List α)} {i : Nat} {bs : List α} (j : Nat) :
    (s.store m i bs)[j]? = if j = s.arr then m[j]?.map fun a => splice a (s.off + i) bs else m[j]? := by
  unfold GoSlice.store
  rw [List.getElem?_modify]
  by_cases h : j = s.arr
  · subst h; simp
  · rw [if_neg h]
    cases m[j]? with
    | none => rfl
    | some a => simp [Ne.symm h]

theorem store_valid {α : Type} {s t : GoSlice} {m : List (List α)} {i : Nat} {bs : List α} (hs : Valid m s) (hi : i + bs.length ≤ s.cap) (ht : Valid m t) :
    Valid (s.store m i bs) t := by
  refine ⟨ht.1, ht.2.imp id ?_⟩
  rintro ⟨a, h1, h2⟩
  rw [store_get]
  by_cases h : t.arr = s.arr
  · rw [if_pos h, h1]
    refine ⟨_, rfl, ?_⟩
    rcases hs.2 with h0 | ⟨a', h3, h4⟩
    · have : bs = [] := List.length_eq_zero_iff.1 (by omega)
      subst this
      unfold splice
      simp only [List.append_nil, List.length_nil, Nat.add_zero, List.take_append_drop]
      exact h2
    · rw [h] at h1
      cases h3.symm.trans h1
      rw [splice_length (by omega)]
      exact h2
  · rw [if_neg h]
    exact ⟨a, h1, h2⟩

/-- A store is not seen by slices that are away from it. -/
theorem store_away {α : Type} {s t : GoSlice} {m : List (List α)} {i k : Nat} {bs : List α} (hs : Valid m s) (hi : i + bs.length ≤ s.cap) (hk : k ≤ i)
    (ht : Away s k t) : t.bytes (s.store m i bs) = t.bytes m := by
  apply List.ext_getElem?
  intro j
  rw [bytes_get, bytes_get, store_get]
  split
  · rename_i hj
    split
    · rename_i he
      cases ha : m[t.arr]? with
      | none => rfl
      | some a =>
        simp only [Option.map_some, Option.getD_some]
        rcases hs.2 with h0 | ⟨a', h3, h4⟩
        · have : bs = [] := List.length_eq_zero_iff.1 (by omega)
          subst this
          unfold splice
          simp
        · rw [he, h3] at ha
          cases ha
          rw [splice_get (by omega), if_neg]
          rintro ⟨g1, g2⟩
          rcases ht with h | h | h | h
          · omega
          · exact h he
          · omega
          · omega
    · rfl
  · rfl

/-- What a slice shows after a store into it. -/
theorem store_bytes {α : Type} {s : GoSlice} {m : List (List α)} {i : Nat} {bs : List α} (hs : Valid m s) (hi : i + bs.length ≤ s.len) :
    s.bytes (s.store m i bs) = (s.bytes m).take i ++ bs ++ (s.bytes m).drop (i + bs.length) := by
  have hlen := bytes_length hs
  apply List.ext_getElem?
  intro j
  have h1 := splice_get (a := s.bytes m) (bs := bs) (i := i) (j := j) (by omega)
  unfold splice at h1
  rw [h1, bytes_get, bytes_get, store_get, if_pos rfl]
  rcases hs with ⟨hc, h0 | ⟨a, h3, h4⟩⟩
  · rw [if_neg (by omega), if_neg (by omega), if_neg (by omega)]
  · rw [h3]
    simp only [Option.map_some, Option.getD_some]
    by_cases hj : j < s.len
    · rw [if_pos hj, if_pos hj, splice_get (by omega)]
      by_cases hb : i ≤ j ∧ j < i + bs.length
      · rw [if_pos (by omega), if_pos hb]
        congr 1
        omega
      · rw [if_neg (by omega), if_neg hb]
    · rw [if_neg hj, if_neg (by omega), if_neg hj]

theorem away_mono {s t : GoSlice} {k k' : Nat} (h : Away s k t) (hk : k ≤ k') : Away s k' t := by
  rcases h with h | h | h | h
  · exact .inl h
  · exact .inr (.inl h)
  · exact .inr (.inr (.inl (by omega)))
  · exact .inr (.inr (.inr h))

theorem valid_append {α : Type} {m : List (List α)} {t : GoSlice} {x : List α} (h : Valid m t) : Valid (m ++ [x]) t := by
  refine ⟨h.1, h.2.imp id ?_⟩
  rintro ⟨a, h1, h2⟩
  exact ⟨a, by rw [List.getElem?_append_left (List.getElem?_eq_some_iff.1 h1).1]; exact h1, h2⟩

theorem bytes_append {α : Type} {m : List (List α)} {t : GoSlice} {x : List α} (h : Valid m t) : t.bytes (m ++ [x]) = t.bytes m := by
  rcases h with ⟨h1, h2 | ⟨a, h2, h3⟩⟩
  · have : t.len = 0 := by omega
    unfold GoSlice.bytes
    rw [this, List.take_zero, List.take_zero]
  · unfold GoSlice.bytes
    rw [List.getElem?_append_left (List.getElem?_eq_some_iff.1 h2).1]

/-- What `append` does. -/
theorem append_spec {G : Grow} {m m' : Mem} {s s' : GoSlice} {n : Nat} (hs : Valid m s) (h : append G m s n = .ok (m', s')) :
    s.len + n ≤ maxAlloc ∧ s'.len = s.len + n ∧ Valid m' s' ∧ s'.bytes m' = s.bytes m ++ List.replicate n 0 ∧
    ∀ t, Valid m t → Away s s.len t → Valid m' t ∧ Away s' s.len t ∧ t.bytes m' = t.bytes m := by
  unfold append at h
  split at h
  · rename_i hm
    refine ⟨hm, ?_⟩
    split at h
    · rename_i hc
      cases h
      have hr : s.len + (List.replicate n (0 : UInt8)).length ≤ s.cap := by rw [List.length_replicate]; exact hc
      have hv := store_valid (t := s) hs hr hs
      have hv' : Valid (s.store m s.len (List.replicate n 0)) { s with len := s.len + n } := ⟨hc, hv.2⟩
      refine ⟨rfl, hv', ?_, fun t h1 h2 => ⟨store_valid hs hr h1, h2, store_away hs hr (Nat.le_refl _) h2⟩⟩
      have hs2 : Valid m { s with len := s.len + n } := ⟨hc, hs.2⟩
      have hb := store_bytes (s := { s with len := s.len + n }) (i := s.len) (bs := List.replicate n 0) hs2 (by rw [List.length_replicate]; exact Nat.le_refl _)
      refine Eq.trans hb ?_
      rw [List.drop_eq_nil_of_le (by rw [bytes_length hs2, List.length_replicate]; exact Nat.le_refl _), List.append_nil]
      congr 1
      unfold GoSlice.bytes
      rw [List.take_take, Nat.min_eq_left (show s.len ≤ s.len + n by omega)]
    · cases h
      have hlen := bytes_length hs
      refine ⟨rfl, ⟨by simp, .inr ⟨_, by simp; rfl, ?_⟩⟩, ?_, fun t h1 h2 => ⟨valid_append h1, ?_, bytes_append h1⟩⟩
      · rw [List.length_append, List.length_replicate, hlen]; simp; omega
      · unfold GoSlice.bytes
        simp only [List.getElem?_append_right (Nat.le_refl _), Nat.sub_self, List.getElem?_cons_zero, Option.getD_some, List.drop_zero]
        change List.take (s.len + n) (s.bytes m ++ _) = s.bytes m ++ _
        rw [List.take_append, hlen, List.take_of_length_le (by omega), List.take_replicate]
        congr 2
        omega
      · rcases h1.2 with h3 | ⟨a, h3, -⟩
        · exact .inl (by have := h1.1; omega)
        · exact .inr (.inl (Nat.ne_of_lt (List.getElem?_eq_some_iff.1 h3).1))
  · cases h

theorem append_cases {G : Grow} {m : Mem} {s : GoSlice} {n : Nat} (hs : Valid m s) :
    (∃ r w, append G m s n = .panic w ∧ appendZeros (s.bytes m) n = .panic r) ∨
    ∃ m' s', append G m s n = .ok (m', s') ∧ appendZeros (s.bytes m) n = .ok (s'.bytes m') := by
  by_cases h : s.len + n ≤ maxAlloc
  · refine .inr ?_
    have : ∃ m' s', append G m s n = .ok (m', s') := by
      unfold append
      rw [if_pos h]
      split
      · exact ⟨_, _, rfl⟩
      · exact ⟨_, _, rfl⟩
    obtain ⟨m', s', h1⟩ := this
    refine ⟨m', s', h1, ?_⟩
    unfold appendZeros
    rw [bytes_length hs, if_pos h, (append_spec hs h1).2.2.2.1]
  · refine .inl ⟨"growslice: len out of range", "growslice: len out of range", ?_, ?_⟩
    · unfold append
      rw [if_neg h]
    · unfold appendZeros
      rw [bytes_length hs, if_neg h]

theorem tail_valid {m : Mem} {s : GoSlice} {i : Nat} (h : Valid m s) (hi : i ≤ s.len) : Valid m (s.tail i) := by
  refine ⟨?_, ?_⟩
  · have := h.1
    show s.len - i ≤ s.cap - i
    omega
  · rcases h.2 with h0 | ⟨a, h1, h2⟩
    · exact .inl (by show s.cap - i = 0; omega)
    · refine .inr ⟨a, h1, ?_⟩
      have := h.1
      show s.off + i + (s.cap - i) ≤ a.length
      omega

theorem tail_bytes {m : Mem} {s : GoSlice} {i : Nat} : (s.tail i).bytes m = (s.bytes m).drop i := by
  unfold GoSlice.bytes GoSlice.tail
  rw [List.drop_take, List.drop_drop]

theorem tail_store {m : Mem} {s : GoSlice} {i : Nat} {bs : Bytes} : (s.tail i).store m 0 bs = s.store m i bs := by
  unfold GoSlice.store GoSlice.tail
  simp

/-- The loop that writes the elements. -/
theorem writeAll_spec {stride : Nat} {s : GoSlice} (ds : List Slice) : ∀ (o : Nat) (m : Mem), Valid m s →
    (∃ w w', writeAll stride s o m ds = .panic w ∧ Gltf.writeAll stride o (s.bytes m) ds = .panic w') ∨
    ∃ m', writeAll stride s o m ds = .ok m' ∧ Gltf.writeAll stride o (s.bytes m) ds = .ok (s.bytes m') ∧ Valid m' s ∧
      ∀ t k, k ≤ o → Valid m t → Away s k t → Valid m' t ∧ t.bytes m' = t.bytes m := by
  induction ds with
  | nil =>
    intro o m hs
    exact .inr ⟨m, rfl, rfl, hs, fun t k _ h1 h2 => ⟨h1, rfl⟩⟩
  | cons d ds ih =>
    intro o m hs
    have hlen := bytes_length hs
    unfold writeAll Gltf.writeAll withSliceFrom
    rw [hlen]
    by_cases ho : o ≤ s.len
    · rw [if_pos ho, if_pos (by omega), Int.toNat_natCast]
      simp only
      rw [tail_bytes]
      cases hw : writeIgnore ((s.bytes m).drop o) stride d with
      | err e =>
        exfalso
        unfold writeIgnore at hw
        split at hw
        · cases hw
        · rename_i h'; exact h' e hw
      | panic w => exact .inl ⟨w, w, rfl, rfl⟩
      | ok bs =>
        have hbl := writeIgnore_length hw
        rw [List.length_drop, hlen] at hbl
        simp only [Res.map, Res.ok_bind]
        rw [tail_store]
        have hcap := hs.1
        have hv := store_valid (i := o) (bs := bs) (t := s) hs (by omega) hs
        have hb := store_bytes (i := o) (bs := bs) hs (by omega)
        rw [List.drop_eq_nil_of_le (by omega), List.append_nil] at hb
        rw [← hb]
        rcases ih (o + sizeOfElement d.ty.c d.ty.t) _ hv with h | ⟨m', h1, h2, h3, h4⟩
        · exact .inl h
        · refine .inr ⟨m', h1, h2, h3, fun t k hk g1 g2 => ?_⟩
          obtain ⟨a1, a2⟩ := h4 t k (by omega) (store_valid hs (by omega) g1) g2
          exact ⟨a1, a2.trans (store_away hs (by omega) hk g2)⟩
    · rw [if_neg ho, if_neg (by omega)]
      exact .inl ⟨_, _, rfl, rfl⟩

end Gltf.Heap
