/-
Property C105: which memory the typed readers change.
-/
import Verif.Model.HeapRead
import Verif.Lemmas.Heap
import Verif.Props.Concurrent

namespace Gltf

open Spec Heap Conc

theorem reader_body (cf : ColorFns) (r : Reader) : r.read cf = typedBody r.check r.ty.zero (r.conv cf) := by
  cases r <;> rfl

/-- The conversion loops replace the first elements of the buffer. -/
theorem reader_conv (cf : ColorFns) (r : Reader) {doc : Document} {acr : Accessor} {b0 : Bytes} {p : Pools} {data : Slice}
    (hck : r.check acr.componentType acr.type = .ok ()) (hr : readAccessor doc acr b0 p = .ok data) :
    ∃ x : List r.ty.Elem, (x.length : Int) = acr.count ∧
      ∀ b, x.length ≤ b.length → r.conv cf b data = .ok (x ++ b.drop x.length) := by
  obtain ⟨k, sh, h1, h2, h3, h4⟩ := readAccessor_inv hr
  obtain ⟨ty, d⟩ := data
  simp only at h3; subst h3
  simp only at h4
  have key : ∀ {acc : ComponentType → AccessorType → Bool} {f : Slice → List r.ty.Elem}, Converts acc (r.conv cf) f →
      (∀ c t, r.check c t = .ok () → acc c t = true) → ∃ x : List r.ty.Elem, (x.length : Int) = acr.count ∧
      ∀ b, x.length ≤ b.length → r.conv cf b ⟨.base k sh, d⟩ = .ok (x ++ b.drop x.length) := by
    intro acc f hc ha
    have ha' := ha _ _ hck
    rw [h1, h2] at ha'
    have hl := hc.length k sh d ha'
    refine ⟨f ⟨.base k sh, d⟩, by rw [hl]; exact h4, fun b hb => ?_⟩
    rw [hl] at hb ⊢
    exact hc.loop k sh d b ha' hb
  have exact_acc : ∀ k' s', ∀ c t, checkExact (ETy.base k' s').c (ETy.base k' s').t c t = .ok () →
      (decide (c = componentTypeOf k') && decide (t = accessorTypeOf s')) = true := by
    intro k' s' c t h
    rw [checkExact_accepts, ← (ctypes k' s').1, ← (ctypes k' s').2] at h
    exact h
  cases r
  case indices => exact key indices_converts fun _ _ => checkIndices_accepts.1
  case normal => exact key (exact_converts _ _) (exact_acc _ _)
  case position => exact key (exact_converts _ _) (exact_acc _ _)
  case tangent => exact key (exact_converts _ _) (exact_acc _ _)
  case inverseBindMatrices => exact key (exact_converts _ _) (exact_acc _ _)
  case textureCoord => exact key texCoord_converts fun _ _ => checkNormalized_accepts.1
  case weights => exact key weights_converts fun _ _ => checkNormalized_accepts.1
  case joints => exact key joints_converts fun _ _ => checkReadJoints_accepts.1
  case color => exact key (color_converts cf) fun _ _ => checkReadColor_accepts.1
  case color64 => exact key (color64_converts cf) fun _ _ => checkReadColor_accepts.1

/-- Storing what a slice shows anyhow has no effect. -/
theorem store_rest {α : Type} {s : GoSlice} {m : List (List α)} {x : List α} (hs : Valid m s) (hx : x.length ≤ s.len) :
    s.store m 0 (x ++ (s.bytes m).drop x.length) = s.store m 0 x := by
  have hlen := bytes_length hs
  apply List.ext_getElem?
  intro j
  rw [store_get, store_get]
  split
  · rename_i hj
    cases ha : m[j]? with
    | none => rfl
    | some a =>
      simp only [Option.map_some, Option.some.injEq]
      subst hj
      rcases hs with ⟨hc, h0 | ⟨a', h3, h4⟩⟩
      · have e1 : s.bytes m = [] := List.length_eq_zero_iff.1 (by omega)
        rw [e1, List.drop_nil, List.append_nil]
      · cases h3.symm.trans ha
        apply List.ext_getElem?
        intro i
        have hl : (x ++ (s.bytes m).drop x.length).length = s.len := by
          rw [List.length_append, List.length_drop]; omega
        rw [splice_get (by rw [hl]; omega), splice_get (by omega), hl]
        by_cases h1 : s.off + 0 ≤ i ∧ i < s.off + 0 + s.len
        · rw [if_pos h1, List.getElem?_append]
          by_cases h2 : i - (s.off + 0) < x.length
          · rw [if_pos h2, if_pos (by omega)]
          · rw [if_neg h2, if_neg (by omega), List.getElem?_drop, bytes_get, if_pos (by omega), ha, Option.getD_some]
            congr 1
            omega
        · rw [if_neg h1, if_neg (by omega)]
  · rfl

/-- The slice `t` shows nothing of the first `n` elements of the memory of `s`. -/
def Spec.Outside (s : GoSlice) (n : Nat) (t : GoSlice) : Prop :=
  n = 0 ∨ t.len = 0 ∨ t.arr ≠ s.arr ∨ t.off + t.len ≤ s.off ∨ s.off + n ≤ t.off

theorem store_outside {α : Type} {s t : GoSlice} {m : List (List α)} {i n : Nat} {bs : List α} (hs : Valid m s) (hi : i + bs.length ≤ s.cap)
    (hn : i + bs.length ≤ n) (ht : Outside s n t) : t.bytes (s.store m i bs) = t.bytes m := by
  apply List.ext_getElem?
  intro j
  rw [bytes_get, bytes_get, store_get]
  split
  · rename_i hj
    split
    · rename_i he
      cases ha : m[t.arr]? with
      | none => rfl
      | some a =>
        simp only [Option.map_some, Option.getD_some]
        rcases hs.2 with h0 | ⟨a', h3, h4⟩
        · have : bs = [] := List.length_eq_zero_iff.1 (by omega)
          subst this
          unfold splice
          simp
        · rw [he, h3] at ha
          cases ha
          rw [splice_get (by omega), if_neg]
          rintro ⟨g1, g2⟩
          rcases ht with h | h | h | h | h
          · omega
          · omega
          · exact h he
          · omega
          · omega
    · rfl
  · rfl

/-- What `makeBufferOf` does in memory. -/
theorem heap_makeBufferOf {α : Type} {extra : Nat} {zero : α} {count : Int} {m : List (List α)} {s : GoSlice} (hs : Valid m s) (hc : 0 ≤ count) :
    ∃ m' s', Heap.makeBufferOf extra zero count m s = .ok (m', s') ∧ Valid m' s' ∧ count ≤ s'.len ∧
      Gltf.makeBufferOf zero count (s.bytes m) = .ok (s'.bytes m') ∧
      (count.toNat ≤ s.cap → s'.arr = s.arr ∧ s'.off = s.off ∧ s'.cap = s.cap ∧ (count ≠ 0 → s'.len = count.toNat) ∧ (count = 0 → s' = s) ∧
        ∀ t, Valid m t → Valid m' t ∧ (Outside s count.toNat t → t.bytes m' = t.bytes m)) ∧
      (s.cap < count.toNat → s'.arr = m.length ∧ ∀ t, Valid m t → Valid m' t ∧ t.bytes m' = t.bytes m) := by
  have hlen := bytes_length hs
  obtain ⟨n, rfl⟩ := Int.eq_ofNat_of_zero_le hc
  have hcut : ∀ l, l ≤ s.cap → Valid m { s with len := l } := fun l hl => ⟨hl, hs.2⟩
  have htake : ∀ l, s.len ≤ l → (GoSlice.bytes { s with len := l } m).take s.len = s.bytes m := by
    intro l hl
    unfold GoSlice.bytes
    rw [List.take_take, Nat.min_eq_left hl]
  unfold Heap.makeBufferOf Gltf.makeBufferOf
  simp only [Int.toNat_natCast]
  rw [hlen]
  by_cases h1 : s.len < n
  · have h1' : (s.len : Int) < n := by omega
    simp only [if_pos h1']
    by_cases h2 : n ≤ s.cap
    · rw [if_pos h2]
      have hr : (List.replicate (n - s.len) zero).length = n - s.len := List.length_replicate
      refine ⟨_, _, rfl, store_valid hs (by omega) (hcut n h2), Int.le_refl _, ?_, fun _ => ⟨rfl, rfl, rfl, fun _ => rfl, fun h => ?_, fun t ht => ⟨store_valid hs (by omega) ht, fun ho => ?_⟩⟩,
        fun h => absurd h (by omega)⟩
      · have := store_bytes (s := { s with len := n }) (i := s.len) (bs := List.replicate (n - s.len) zero) (hcut n h2) (by show s.len + _ ≤ n; omega)
        rw [htake n (by omega), List.drop_of_length_le (by rw [bytes_length (hcut n h2)]; show n ≤ _; omega), List.append_nil] at this
        rw [show ((n : Int) - s.len).toNat = n - s.len by omega]
        exact congrArg Res.ok this.symm
      · omega
      · exact store_outside hs (by omega) (by omega) ho
    · rw [if_neg h2]
      refine ⟨_, _, rfl, ⟨by show n ≤ n + extra; omega, .inr ⟨_, List.getElem?_concat_length, ?_⟩⟩, Int.le_refl _, ?_, fun h => absurd h (by omega), fun _ => ⟨rfl, fun t ht => ⟨valid_append ht, bytes_append ht⟩⟩⟩
      · show 0 + (n + extra) ≤ _
        rw [List.length_append, hlen, List.length_replicate]
        omega
      · unfold GoSlice.bytes
        simp only [List.getElem?_concat_length, Option.getD_some, List.drop_zero]
        rw [List.take_append, List.length_take, List.length_drop]
        have hl2 := hlen
        unfold GoSlice.bytes at hl2
        rw [List.length_take, List.length_drop] at hl2
        rw [hl2, List.take_replicate, List.take_of_length_le (l := List.take _ _) (by rw [List.length_take, List.length_drop]; omega)]
        rw [show ((n : Int) - s.len).toNat = min (n - s.len) (n - s.len + extra) by omega]
  · have h1' : ¬ (s.len : Int) < n := by omega
    simp only [if_neg h1']
    have := hs.1
    by_cases h2 : n = 0
    · subst h2
      have h2' : ¬ ((0 : Nat) : Int) ≠ 0 := by omega
      simp only [if_neg h2']
      exact ⟨m, s, rfl, hs, by omega, rfl, fun _ => ⟨rfl, rfl, rfl, fun h => absurd rfl h, fun _ => rfl, fun t ht => ⟨ht, fun _ => rfl⟩⟩, fun h => absurd h (by omega)⟩
    · have h2' : (n : Int) ≠ 0 := by omega
      simp only [if_pos h2', if_pos hc]
      refine ⟨m, _, rfl, hcut n (by omega), Int.le_refl _, ?_, fun _ => ⟨rfl, rfl, rfl, fun _ => rfl, fun h => absurd h (by omega), fun t ht => ⟨ht, fun _ => rfl⟩⟩, fun h => absurd h (by omega)⟩
      unfold GoSlice.bytes
      rw [List.take_take, Nat.min_eq_left (by omega)]

/-- What the typed readers do in memory. -/
theorem readRecycled_spec (cf : ColorFns) (r : Reader) (extra : Nat) (doc : Document) (acr : Accessor) (m : List (List r.ty.Elem)) (s : GoSlice)
    (b0 : Bytes) (p : Pools) (hs : Valid m s) :
    (∃ e, readRecycled cf r extra doc acr m s b0 p = .err e ∧ r.read cf doc acr (s.bytes m) b0 p = .err e) ∨
    (∃ w, readRecycled cf r extra doc acr m s b0 p = .panic w ∧ r.read cf doc acr (s.bytes m) b0 p = .panic w) ∨
    ∃ m' s', readRecycled cf r extra doc acr m s b0 p = .ok (m', s') ∧ r.read cf doc acr (s.bytes m) b0 p = .ok (s'.bytes m') ∧ Valid m' s' ∧
      0 ≤ acr.count ∧
      (acr.count ≤ s.cap → s'.arr = s.arr ∧ s'.off = s.off ∧ s'.cap = s.cap ∧ (acr.count ≠ 0 → s'.len = acr.count) ∧
        ∀ t, Valid m t → Valid m' t ∧ (Outside s acr.count.toNat t → t.bytes m' = t.bytes m)) ∧
      (s.cap < acr.count → s'.arr = m.length ∧ ∀ t, Valid m t → Valid m' t ∧ t.bytes m' = t.bytes m) := by
  rw [reader_body]
  unfold readRecycled typedBody
  cases hck : r.check acr.componentType acr.type with
  | err e => exact .inl ⟨e, rfl, rfl⟩
  | panic w => exact .inr (.inl ⟨w, rfl, rfl⟩)
  | ok u =>
    cases hr : readAccessor doc acr b0 p with
    | err e => exact .inl ⟨e, rfl, rfl⟩
    | panic w => exact .inr (.inl ⟨w, rfl, rfl⟩)
    | ok data =>
      obtain ⟨x, hx, hconv⟩ := reader_conv cf r hck hr
      obtain ⟨m1, s1, e1, v1, l1, e2, hin, hnew⟩ := heap_makeBufferOf (extra := extra) (zero := r.ty.zero) hs (show 0 ≤ acr.count by omega)
      have hb := hconv (s1.bytes m1) (by rw [bytes_length v1]; omega)
      have hst := store_rest (x := x) v1 (by omega)
      have hc1 := v1.1
      refine .inr (.inr ⟨s1.store m1 0 (x ++ (s1.bytes m1).drop x.length), s1, ?_, ?_, ?_, by omega, fun h => ?_, fun h => ?_⟩)
      · simp only [Res.ok_bind, e1, hb]
        rfl
      · simp only [Res.ok_bind, e2, hb]
        rw [hst, store_bytes v1 (by omega), Nat.zero_add]
        rfl
      · rw [hst]
        exact store_valid v1 (by omega) v1
      · obtain ⟨g1, g2, g3, g4, g5, g6⟩ := hin (by omega)
        refine ⟨g1, g2, g3, fun h0 => by have := g4 h0; omega, fun t ht => ?_⟩
        rw [hst]
        refine ⟨store_valid v1 (by omega) (g6 t ht).1, fun ho => ?_⟩
        rw [store_outside (n := acr.count.toNat) v1 (by omega) (by omega) (by unfold Outside at ho ⊢; rw [g1, g2]; exact ho)]
        exact (g6 t ht).2 ho
      · obtain ⟨g1, g2⟩ := hnew (by omega)
        refine ⟨g1, fun t ht => ?_⟩
        rw [hst]
        refine ⟨store_valid v1 (by omega) (g2 t ht).1, ?_⟩
        have hne : t.len = 0 ∨ t.arr ≠ s1.arr := by
          rcases ht with ⟨k1, k2 | ⟨a, k2, k3⟩⟩
          · exact .inl (by omega)
          · have := (List.getElem?_eq_some_iff.1 k2).1
            exact .inr (by omega)
        rw [store_outside (n := acr.count.toNat) v1 (by omega) (by omega) (hne.elim (fun h => .inr (.inl h)) fun h => .inr (.inr (.inl h)))]
        exact (g2 t ht).2

/-- C105: a typed reader that gets a buffer changes no elements but the first `Count` of the array that the buffer is a part of, and
none at all if the capacity of the buffer does not suffice. -/
theorem C105_elsewhere (cf : ColorFns) (r : Reader) (extra : Nat) (doc : Document) (acr : Accessor) (m m' : List (List r.ty.Elem))
    (s s' t : GoSlice) (b0 : Bytes) (p : Pools) (hs : Valid m s) (ht : Valid m t) (h : readRecycled cf r extra doc acr m s b0 p = .ok (m', s'))
    (ho : s.cap < acr.count ∨ Outside s acr.count.toNat t) : t.bytes m' = t.bytes m := by
  rcases readRecycled_spec cf r extra doc acr m s b0 p hs with ⟨e, h1, -⟩ | ⟨w, h1, -⟩ | ⟨m1, s1, h1, -, -, -, hin, hnew⟩
  · rw [h] at h1; cases h1
  · rw [h] at h1; cases h1
  · rw [h] at h1
    cases h1
    by_cases hc : s.cap < acr.count
    · exact ((hnew hc).2 t ht).2
    · exact ((hin (by omega)).2.2.2.2 t ht).2 (ho.resolve_left hc)

/-- C105: the result shows what the reader returns if slices are taken for values. -/
theorem C105_values (cf : ColorFns) (r : Reader) (extra : Nat) (doc : Document) (acr : Accessor) (m : List (List r.ty.Elem)) (s : GoSlice)
    (b0 : Bytes) (p : Pools) (hs : Valid m s) :
    (readRecycled cf r extra doc acr m s b0 p).map (fun x => x.2.bytes x.1) = r.read cf doc acr (s.bytes m) b0 p := by
  rcases readRecycled_spec cf r extra doc acr m s b0 p hs with ⟨e, h1, h2⟩ | ⟨w, h1, h2⟩ | ⟨m1, s1, h1, h2, -⟩ <;> rw [h1, h2] <;> rfl

/-- C105: the result of an earlier call stays as it is when its array is not recycled. -/
theorem C105_results (cf : ColorFns) (r : Reader) (extra extra' : Nat) (doc doc' : Document) (acr acr' : Accessor)
    (m m1 m2 : List (List r.ty.Elem)) (s s' t t' : GoSlice) (b0 b0' : Bytes) (p p' : Pools) (hs : Valid m s) (ht : Valid m t)
    (h : readRecycled cf r extra doc acr m s b0 p = .ok (m1, s')) (h' : readRecycled cf r extra' doc' acr' m1 t b0' p' = .ok (m2, t'))
    (hn : s.arr ≠ t.arr ∨ s.cap = 0 ∨ t.cap = 0) :
    r.read cf doc acr (s.bytes m) b0 p = .ok (s'.bytes m2) ∧ r.read cf doc' acr' (t.bytes m) b0' p' = .ok (t'.bytes m2) := by
  have hmem : ∀ x, Valid m x → x.cap = 0 ∨ x.arr < m.length := by
    intro x hx
    rcases hx.2 with k | ⟨a, k, -⟩
    · exact .inl k
    · exact .inr (List.getElem?_eq_some_iff.1 k).1
  rcases readRecycled_spec cf r extra doc acr m s b0 p hs with ⟨e, h1, -⟩ | ⟨w, h1, -⟩ | ⟨m1', s1, h1, hv, v1, hc0, hin, hnew⟩
  · rw [h] at h1; cases h1
  · rw [h] at h1; cases h1
  rw [h] at h1
  cases h1
  have hle := v1.1
  have ht1 : Valid m1 t ∧ t.bytes m1 = t.bytes m := by
    by_cases hc : s.cap < acr.count
    · exact (hnew hc).2 t ht
    · obtain ⟨g1, g2⟩ := (hin (by omega)).2.2.2.2 t ht
      refine ⟨g1, g2 ?_⟩
      have := ht.1
      rcases hn with k | k | k
      · exact .inr (.inr (.inl (Ne.symm k)))
      · exact .inl (by omega)
      · exact .inr (.inl (by omega))
  rcases readRecycled_spec cf r extra' doc' acr' m1 t b0' p' ht1.1 with ⟨e, h2, -⟩ | ⟨w, h2, -⟩ | ⟨m2', t1, h2, hv', v2, hc0', hin', hnew'⟩
  · rw [h'] at h2; cases h2
  · rw [h'] at h2; cases h2
  rw [h'] at h2
  cases h2
  rw [ht1.2] at hv'
  refine ⟨?_, hv'⟩
  rw [hv]
  congr 1
  symm
  by_cases hc' : t.cap < acr'.count
  · exact ((hnew' hc').2 s' v1).2
  · refine ((hin' (by omega)).2.2.2.2 s' v1).2 ?_
    rcases hmem t ht with k | k
    · exact .inl (by omega)
    by_cases hc : s.cap < acr.count
    · exact .inr (.inr (.inl (by rw [(hnew hc).1]; omega)))
    · obtain ⟨g1, -, g3, -⟩ := hin (by omega)
      rcases hn with k' | k' | k'
      · exact .inr (.inr (.inl (by rw [g1]; exact k')))
      · exact .inr (.inl (by omega))
      · exact .inl (by omega)

/-- C105: a buffer that suffices is recycled: the result is a part of its array, so that slices that show the array show the elements that
were read, also in the spare capacity of the buffer. -/
theorem C105_recycled (cf : ColorFns) (r : Reader) (extra : Nat) (doc : Document) (acr : Accessor) (m m' : List (List r.ty.Elem))
    (s s' : GoSlice) (b0 : Bytes) (p : Pools) (l : List r.ty.Elem) (hs : Valid m s) (h : readRecycled cf r extra doc acr m s b0 p = .ok (m', s'))
    (hc : acr.count ≤ s.cap) (h0 : acr.count ≠ 0) (hl : r.read cf doc acr (s.bytes m) b0 p = .ok l) :
    s' = { s with len := acr.count.toNat } ∧ (GoSlice.bytes { s with len := s.cap } m').take acr.count.toNat = l := by
  rcases readRecycled_spec cf r extra doc acr m s b0 p hs with ⟨e, h1, -⟩ | ⟨w, h1, -⟩ | ⟨m1', s1, h1, hv, v1, hc0, hin, hnew⟩
  · rw [h] at h1; cases h1
  · rw [h] at h1; cases h1
  rw [h] at h1
  cases h1
  obtain ⟨g1, g2, g3, g4, -⟩ := hin hc
  have g4 := g4 h0
  have e : s' = { s with len := acr.count.toNat } := by
    cases s'
    simp only [GoSlice.mk.injEq]
    simp only at g1 g2 g3 g4
    exact ⟨g1, g2, by omega, g3⟩
  refine ⟨e, ?_⟩
  rw [hv] at hl
  cases hl
  rw [e]
  unfold GoSlice.bytes
  rw [List.take_take, Nat.min_eq_left (by show acr.count.toNat ≤ s.cap; omega)]

/-- Three indices in a buffer view. -/
def threeIndices : Document where
  buffers := [some { byteLength := 3, data := [7, 8, 9] }]
  bufferViews := [some { byteLength := 3 }]

/-- The accessor of these indices. -/
def threeIndicesAcr : Accessor := { bufferView := some 0, componentType := .ubyte, type := .scalar, count := 3 }

/-- An array of four numbers. -/
def fourNumbers : List (List UInt32) := [[1, 2, 3, 4]]

/-- The same after the indices were read into it. -/
def fourNumbers' : List (List UInt32) := [[7, 8, 9, 4]]

/-- The same after the indices were read into a new array. -/
def fourNumbersNew : List (List UInt32) := [[1, 2, 3, 4], [7, 8, 9, 0, 0, 0, 0, 0]]

/-- An empty slice with capacity for four elements is recycled: the array shows the indices, and its last element is as before. If the
capacity is two, there is a new array. -/
example (cf : ColorFns) : Valid fourNumbers ⟨0, 0, 0, 4⟩ ∧ Outside ⟨0, 0, 0, 4⟩ 3 ⟨0, 3, 1, 1⟩ ∧
    readRecycled cf .indices 0 threeIndices threeIndicesAcr fourNumbers ⟨0, 0, 0, 4⟩ [] ⟨[], [], []⟩ = .ok (fourNumbers', ⟨0, 0, 3, 4⟩) ∧
    readRecycled cf .indices 5 threeIndices threeIndicesAcr fourNumbers ⟨0, 0, 1, 2⟩ [] ⟨[], [], []⟩ = .ok (fourNumbersNew, ⟨1, 0, 3, 8⟩) :=
  ⟨⟨by decide, .inr ⟨_, rfl, by decide⟩⟩, .inr (.inr (.inr (.inr (by decide)))), rfl, rfl⟩

end Gltf
