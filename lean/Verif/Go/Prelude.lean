/-
Basic vocabulary for modelling Go: results, 64 bit integers, byte strings.
-/
import Lean.Elab.Term

namespace Gltf

/-- Bytes of a Go `[]byte` or `string`. -/
abbrev Bytes := List UInt8

/-- Error values. Only the identities that the code or its users distinguish are kept. -/
inductive Err where
  /-- `io.ErrShortBuffer` -/
  | shortBuffer
  /-- `io.EOF` -/
  | eof
  /-- `io.ErrUnexpectedEOF` -/
  | unexpectedEOF
  /-- an error of a lower layer (file system, reader or writer) -/
  | io (code : Nat)
  /-- any other error, tagged by the place that creates it -/
  | msg (s : String)
deriving DecidableEq, Repr

/-- Result of a Go function returning `(α, error)` that may also panic. -/
inductive Res (α : Type) where
  | ok (a : α)
  | err (e : Err)
  | panic (why : String)
deriving DecidableEq, Repr

namespace Res

@[inline] def bind {α β : Type} : Res α → (α → Res β) → Res β
  | ok a, f => f a
  | err e, _ => err e
  | panic w, _ => panic w

@[inline] def map {α β} (f : α → β) : Res α → Res β
  | ok a => ok (f a)
  | err e => err e
  | panic w => panic w

instance : Monad Res where
  pure := ok
  bind := bind

@[simp] theorem pure_eq {α} (a : α) : (pure a : Res α) = ok a := rfl
@[simp] theorem ok_bind {α β} (a : α) (f : α → Res β) : (ok a >>= f) = f a := rfl
@[simp] theorem err_bind {α β} (e : Err) (f : α → Res β) : ((err e : Res α) >>= f) = err e := rfl
@[simp] theorem panic_bind {α β} (w : String) (f : α → Res β) : ((panic w : Res α) >>= f) = panic w := rfl
@[simp] theorem map_ok {α β} (f : α → β) (a : α) : (ok a).map f = ok (f a) := rfl
@[simp] theorem map_err {α β} (f : α → β) (e : Err) : (err e : Res α).map f = err e := rfl
@[simp] theorem map_panic {α β} (f : α → β) (w : String) : (panic w : Res α).map f = panic w := rfl
@[simp] theorem fmap_ok {α β} (f : α → β) (a : α) : (f <$> (ok a : Res α)) = ok (f a) := rfl

theorem bind_assoc' {α β γ} (x : Res α) (f : α → Res β) (g : β → Res γ) :
    (x >>= f >>= g) = (x >>= fun a => f a >>= g) := by cases x <;> rfl

instance : LawfulMonad Res := LawfulMonad.mk' (m := Res)
  (id_map := by intro α x; cases x <;> rfl)
  (pure_bind := by intros; rfl)
  (bind_assoc := by intro α β γ x f g; cases x <;> rfl)

/-- The result is a run-time panic. -/
def isPanic {α} : Res α → Bool
  | panic _ => true
  | _ => false

/-- The result is a non-nil error. -/
def isErr {α} : Res α → Bool
  | err _ => true
  | _ => false

/-- The result is a success. -/
def isOk {α} : Res α → Bool
  | ok _ => true
  | _ => false

theorem bind_eq_ok {α β} {x : Res α} {f : α → Res β} {b : β} :
    (x >>= f) = ok b ↔ ∃ a, x = ok a ∧ f a = ok b := by
  cases x <;> simp

theorem map_eq_ok {α β} {x : Res α} {f : α → β} {b : β} :
    x.map f = ok b ↔ ∃ a, x = ok a ∧ f a = b := by
  cases x <;> simp

end Res

/-- Wrap an integer to the range of Go's 64 bit `int` (two's complement). -/
def wrap64 (x : Int) : Int := (x + 9223372036854775808) % 18446744073709551616 - 9223372036854775808

theorem wrap64_id {x : Int} (h1 : -9223372036854775808 ≤ x) (h2 : x < 9223372036854775808) :
    wrap64 x = x := by unfold wrap64; omega

/-- Largest number of bytes the Go runtime is willing to allocate (linux/amd64: 2^48). -/
def maxAlloc : Nat := 281474976710656

/-- `b[off:]` as a value. Go panics when `off` is negative or beyond the length. -/
def sliceFrom (b : Bytes) (off : Int) : Res Bytes :=
  if 0 ≤ off ∧ off ≤ b.length then .ok (b.drop off.toNat) else .panic "slice bounds out of range"

/-- Run a function that mutates the aliasing sub-slice `b[off:]`; returns the whole of `b`
afterwards. -/
def withSliceFrom (b : Bytes) (off : Int) (f : Bytes → Res Bytes) : Res Bytes :=
  if 0 ≤ off ∧ off ≤ b.length then (f (b.drop off.toNat)).map (b.take off.toNat ++ ·)
  else .panic "slice bounds out of range"

open Lean Elab Term in
/-- `b!"text"` is the list of the UTF-8 bytes of the text, written out as numerals. -/
elab:max "b!" s:str : term => do
  let bytes := s.getString.toUTF8.toList
  let u8 := Lean.mkConst ``UInt8
  let lits ← bytes.mapM fun b => Lean.Meta.mkNumeral u8 b.toNat
  Lean.Meta.mkListLit u8 lits

example : b!"SCALAR" = [83, 67, 65, 76, 65, 82] := rfl

end Gltf
