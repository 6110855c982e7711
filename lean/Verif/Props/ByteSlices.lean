/-
What `WriteAccessorsInterleaved` makes of slices of bytes, where C13 is false.
-/
import Verif.Props.ModelerWrite
import Verif.Props.BinaryExact

namespace Gltf

open Spec

/-- `ReadAccessor` of unsigned bytes: the bytes that follow each other, whatever the stride. -/
theorem readDense_bytes {doc : Document} {n a st : Nat} {i : Int} {bv : BufferView} {b : Buffer} {o L : Nat} (hn : 0 < n)
    (hr : InRange doc i bv b o L) (hst : bv.byteStride = st) (ha : a ≤ L) (hneed : needed (.base .u8 .sc) st n ≤ L - a) (hm : n ≤ maxAlloc) :
    readDense doc .ubyte .scalar n (some i) a [] = .ok ⟨.base .u8 .sc, (b.data.drop (o + a)).take n⟩ := by
  obtain ⟨d, hd, hl⟩ := makeSliceBuffer_base (k := .u8) (s := .sc) (n := n) (buffer := []) (by rw [show (ETy.base Kind.u8 Shape.sc).memSize = 1 from rfl]; omega) (by simp)
  have hin := hr.inside
  have hsm := hr.small
  unfold GoLen at hsm
  unfold readDense
  rw [show makeSliceBuffer .ubyte .scalar n [] = _ from hd, Res.ok_bind]
  simp only
  rw [hr.readIndex.1, hr.readIndex.2, Res.ok_bind, Res.ok_bind]
  have hwl := window_length hin
  have hge := needed_ge (.base .u8 .sc) st n
  unfold sliceFrom
  rw [if_pos (by rw [hwl]; omega), Res.ok_bind, hst, Int.toNat_natCast]
  have htl : ((window b.data o L).drop a).length = L - a := by rw [List.length_drop, hwl]
  rw [read_u8 (by unfold GoLen; omega) (by omega) (by rw [hl, htl]; exact hneed) (by rw [hl, htl]; omega)]
  rw [Res.ok_bind, hl, Res.pure_eq]
  congr 2
  unfold window
  rw [List.drop_take, List.take_take, List.drop_drop, Nat.min_eq_left (by omega)]

theorem writeIgnore_bytes {data : List UInt8} {b : Bytes} {st : Nat} (hb : GoLen b) (h0 : 0 < data.length)
    (hn : needed (.base .u8 .sc) st data.length ≤ b.length) : writeIgnore b st ⟨.base .u8 .sc, data⟩ = .ok (data ++ b.drop data.length) := by
  unfold GoLen at hb
  have e : write b st (.base .u8 .sc) data = .ok (goCopy b data) := by
    rw [write_eq (t := .base .u8 .sc) (by omega), if_neg (by omega), if_neg (by omega)]
    rfl
  have hge := needed_ge (.base .u8 .sc) st data.length
  unfold writeIgnore
  simp only
  rw [e]
  unfold goCopy
  rw [List.take_of_length_le (by omega)]

/-- C13 for two slices of bytes: the second reads back, the first has its first byte followed by those of the second. -/
theorem C13_two_bytes (a b : List UInt8) (h0 : 0 < a.length) (doc doc' : Document) (is : List Nat)
    (h : writeAccessorsInterleaved [⟨.base .u8 .sc, a⟩, ⟨.base .u8 .sc, b⟩] doc = (doc', .ok is)) :
    ∃ i j acr acr', is = [i, j] ∧ doc'.accessors[i]? = some (some acr) ∧ doc'.accessors[j]? = some (some acr') ∧
      ∀ p, readAccessor doc' acr [] p = .ok ⟨.base .u8 .sc, a.take 1 ++ b.take (a.length - 1)⟩ ∧
        readAccessor doc' acr' [] p = .ok ⟨.base .u8 .sc, b⟩ := by
  obtain ⟨d1, d2, v, h1, h2, rfl, rfl⟩ := writeAccessorsInterleaved_ok.1 h
  obtain ⟨stride, size, bv, b', b0, hv, hb, hr, hst, -, hlen, -, -, hmax, hw⟩ := writeBufferViews_view h2
  rw [viewSizes_cons (by simp)] at hv
  have hrow : rowSize [(⟨.base .u8 .sc, a⟩ : Slice), ⟨.base .u8 .sc, b⟩] = 2 := rfl
  split at hv
  · rename_i hl
    have hl : b.length = a.length := hl ⟨.base .u8 .sc, b⟩ (by simp)
    simp only [Res.ok.injEq, Prod.mk.injEq, hrow] at hv
    obtain ⟨rfl, rfl⟩ := hv
    have hsm := hr.small
    unfold GoLen at hsm
    have hne : ∀ n, 0 < n → needed (.base .u8 .sc) 2 n = 2 * (n - 1) + 1 := by
      intro n hn
      unfold needed
      rw [if_neg (by omega)]
      rfl
    simp only [writeAll] at hw
    rw [withSliceFrom_eq (by simp), List.drop_left, List.take_left, writeIgnore_bytes (by unfold GoLen; simp; omega) h0 (by rw [hne _ h0]; simp; omega),
      Res.map_ok, Res.ok_bind] at hw
    obtain ⟨x, a', rfl⟩ : ∃ x a', a = x :: a' := by
      cases a with
      | nil => simp at h0
      | cons x a' => exact ⟨x, a', rfl⟩
    have e1 : ∀ y : Bytes, b0.data ++ (x :: a' ++ y) = (b0.data ++ [x]) ++ (a' ++ y) := by simp
    have hs1 : sizeOfElement (ETy.base .u8 .sc).c (ETy.base .u8 .sc).t = 1 := rfl
    simp only [hs1] at hw
    rw [e1, withSliceFrom_eq (by simp), show b0.data.length + 1 = (b0.data ++ [x]).length by simp, List.drop_left, List.take_left,
      writeIgnore_bytes (by unfold GoLen; simp at hlen hsm ⊢; omega) (by omega) (by rw [hne _ (by omega)]; simp at hl ⊢; omega),
      Res.map_ok, Res.ok_bind] at hw
    generalize ((a' ++ List.drop _ _).drop b.length : Bytes) = rest at hw
    simp only [Res.ok.injEq] at hw
    have hlb : b.length = a'.length + 1 := hl
    have hm : a'.length + 1 ≤ maxAlloc := by
      simp only [List.length_cons] at hmax
      omega
    have r0 := readDense_bytes (n := a'.length + 1) (a := 0) (by omega) hr hst (by omega)
      (by rw [hne _ (by omega)]; simp only [List.length_cons]; omega) hm
    have r1 := readDense_bytes (n := a'.length + 1) (a := 1) (by omega) hr hst (by simp only [List.length_cons]; omega)
      (by rw [hne _ (by omega)]; simp only [List.length_cons]; omega) hm
    rw [← hw] at r0 r1
    have e0 : (((b0.data ++ [x] ++ (b ++ rest)).drop (b0.data.length + 0)).take (a'.length + 1) : Bytes) = [x] ++ b.take a'.length := by
      rw [List.append_assoc, show b0.data.length + 0 = b0.data.length from rfl, List.drop_left, List.singleton_append, List.take_succ_cons,
        List.take_append_of_le_length (by omega)]
      rfl
    have e2 : (((b0.data ++ [x] ++ (b ++ rest)).drop (b0.data.length + 1)).take (a'.length + 1) : Bytes) = b := by
      rw [show b0.data.length + 1 = (b0.data ++ [x]).length by simp, List.drop_left, ← hlb, List.take_left]
    rw [e0] at r0
    rw [e2] at r1
    refine ⟨d2.accessors.length, d2.accessors.length + 1,
      { bufferView := some (v : Int), byteOffset := 0, componentType := .ubyte, type := .scalar, count := (a'.length + 1 : Nat) },
      { bufferView := some (v : Int), byteOffset := 1, componentType := .ubyte, type := .scalar, count := b.length }, by simp [List.range_succ], ?_, ?_, ?_⟩
    · show (d2.accessors ++ _)[_]? = _
      rw [List.getElem?_append_right (by omega), Nat.sub_self]
      rfl
    · show (d2.accessors ++ _)[_]? = _
      rw [List.getElem?_append_right (by omega), Nat.add_sub_cancel_left]
      rfl
    · intro p
      refine ⟨readAccessor_plain rfl ((extends_appendAccessors d2 _).readDense r0), readAccessor_plain rfl ((extends_appendAccessors d2 _).readDense ?_)⟩
      rw [hlb]
      exact r1
  · cases hv

/-- The first slice reads back exactly if its other bytes are the first ones of the second. -/
theorem C13_two_bytes_iff (a b : List UInt8) (h0 : 0 < a.length) (doc doc' : Document) (is : List Nat)
    (h : writeAccessorsInterleaved [⟨.base .u8 .sc, a⟩, ⟨.base .u8 .sc, b⟩] doc = (doc', .ok is)) (i : Nat) (hi : is[0]? = some i)
    (acr : Accessor) (ha : doc'.accessors[i]? = some (some acr)) (p : Pools) :
    readAccessor doc' acr [] p = .ok ⟨.base .u8 .sc, a⟩ ↔ a.drop 1 = b.take (a.length - 1) := by
  obtain ⟨i', j, acr', acr2, rfl, h1, -, h2⟩ := C13_two_bytes a b h0 doc doc' is h
  simp only [List.getElem?_cons_zero, Option.some.injEq] at hi
  subst hi
  rw [h1] at ha
  simp only [Option.some.injEq] at ha
  subst ha
  rw [(h2 p).1]
  constructor
  · intro e
    have e' : a.take 1 ++ b.take (a.length - 1) = a := by
      injection e with e
      injection e
    have := congrArg (List.drop 1) e'
    cases a with
    | nil => simp at h0
    | cons x a => simpa using this.symm
  · intro e
    rw [← e, List.take_append_drop]

/-- Three bytes each: `1, 2, 3` and `4, 5, 6` are read as `1, 4, 5` and `4, 5, 6`. -/
example : ∃ doc' is, writeAccessorsInterleaved [⟨.base .u8 .sc, [1, 2, 3]⟩, ⟨.base .u8 .sc, [4, 5, 6]⟩] {} = (doc', .ok is) ∧
    (doc'.accessors[0]?.join.map fun acr => readAccessor doc' acr [] ⟨[], [], []⟩) = some (.ok ⟨.base .u8 .sc, [1, 4, 5]⟩) ∧ is[0]? = some 0 :=
  ⟨_, _, outcome (r := .ok [0, 1]) (by decide +kernel), by decide +kernel, rfl⟩

end Gltf
