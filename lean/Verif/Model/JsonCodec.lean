/-
How encoding/json maps Go values to JSON values and back, as combinators.

A codec `JC α` has the zero value of the Go type, `json.Marshal` and `json.Unmarshal`. Unmarshalling
takes the current value of the variable, because encoding/json decodes into it: members that are
absent leave their fields as they are.

Simplifications: after a type mismatch encoding/json goes on and reports the error at the end; here
the error stops the decoding (the half filled value is not observed). Slices never have hidden
elements between their length and their capacity. Errors are not told apart.
-/
import Verif.Model.Doc
import Verif.Model.Float

namespace Gltf

/-- A codec. -/
structure JC (α : Type) where
  zero : α
  enc : α → Except Err JVal
  dec : JVal → α → Except Err α

/-- encoding/json, `UnmarshalTypeError` and the like. -/
def mismatch {α : Type} : Except Err α := .error (.msg "json: cannot unmarshal")

/-! ### Numbers -/

/-- Decimal digits of a number, with enough steps. -/
def digitsFuel : Nat → Nat → Bytes
  | 0, _ => []
  | f + 1, n => if n < 10 then [UInt8.ofNat (48 + n)] else digitsFuel f (n / 10) ++ [UInt8.ofNat (48 + n % 10)]

/-- strconv, `FormatUint` in base ten. -/
def printNat (n : Nat) : Bytes := digitsFuel (n + 1) n

/-- strconv, `FormatInt` in base ten. -/
def printInt : Int → Bytes
  | .ofNat n => printNat n
  | .negSucc n => 45 :: printNat (n + 1)

/-- The number written by decimal digits. -/
def digitsValue (s : Bytes) : Nat := s.foldl (fun n c => n * 10 + (c.toNat - 48)) 0

/-- strconv, `ParseUint` in base ten without the range check. -/
def readNat (s : Bytes) : Option Nat :=
  if s ≠ [] ∧ s.all (fun c => 48 ≤ c && c ≤ 57) then some (digitsValue s) else none

/-- strconv, `ParseInt` in base ten without the range check. -/
def readInt (s : Bytes) : Option Int :=
  if s.head? = some 45 then (readNat (s.drop 1)).map fun n => -(n : Int)
  else (readNat s).map fun n => (n : Int)

/-- Go `int`. -/
def JC.int : JC Int where
  zero := 0
  enc n := .ok (.num (printInt n))
  dec v cur :=
    match v with
    | .num lit =>
      match readInt lit with
      | some n => if -9223372036854775808 ≤ n ∧ n < 9223372036854775808 then .ok n else mismatch
      | none => mismatch
    | .null => .ok cur
    | _ => mismatch

/-- Decode a number of an unsigned type with the given number of values. -/
def decUint (size : Nat) (v : JVal) (cur : Nat) : Except Err Nat :=
  match v with
  | .num lit =>
    match readNat lit with
    | some n => if n < size then .ok n else mismatch
    | none => mismatch
  | .null => .ok cur
  | _ => mismatch

/-- Go `uint16` (the type `Target`). -/
def JC.uint16 : JC UInt16 where
  zero := 0
  enc n := .ok (.num (printNat n.toNat))
  dec v cur := (decUint 65536 v cur.toNat).map UInt16.ofNat

/-- How numbers of type `float64` are written and read: `strconv.AppendFloat` with the shortest
representation, and `strconv.ParseFloat`, which fails when the number is too large. Only these two
facts are used. -/
structure FloatIO where
  fmt : F64 → Bytes
  parse : Bytes → Option F64

/-- Go `float64`. NaN and the infinities cannot be encoded. -/
def JC.float (io : FloatIO) : JC F64 where
  zero := ⟨0⟩
  enc x := if x.finite then .ok (.num (io.fmt x)) else .error (.msg "json: unsupported value")
  dec v cur :=
    match v with
    | .num lit =>
      match io.parse lit with
      | some x => .ok x
      | none => mismatch
    | .null => .ok cur
    | _ => mismatch

/-! ### Other scalars -/

/-- Go `bool`. -/
def JC.bool : JC Bool where
  zero := false
  enc b := .ok (.bool b)
  dec v cur :=
    match v with
    | .bool b => .ok b
    | .null => .ok cur
    | _ => mismatch

/-- Go `string`. -/
def JC.string : JC Bytes where
  zero := []
  enc s := .ok (.str s)
  dec v cur :=
    match v with
    | .str s => .ok s
    | .null => .ok cur
    | _ => mismatch

/-- The enumerations of const.go that are numbers in JSON: `MarshalJSON` looks the value up in a table
(0 if it is missing) and `UnmarshalJSON` decodes into an unsigned integer that is zero before, then
looks it up. -/
def JC.enumNum {α : Type} (size : Nat) (zero : α) (toCode : α → Nat) (ofCode : Nat → α) : JC α where
  zero := zero
  enc a := .ok (.num (printNat (toCode a)))
  dec v _ := (decUint size v 0).map ofCode

/-- The enumerations of const.go that are strings in JSON. -/
def JC.enumStr {α : Type} (zero : α) (toCode : α → Bytes) (ofCode : Bytes → Except Err α) : JC α where
  zero := zero
  enc a := .ok (.str (toCode a))
  dec v _ := do ofCode (← JC.string.dec v [])

/-! ### Pointers, slices, arrays, maps -/

/-- Go `*T`. -/
def JC.ptr {α : Type} (c : JC α) : JC (Option α) where
  zero := none
  enc
    | none => .ok .null
    | some a => c.enc a
  dec v cur :=
    match v with
    | .null => .ok none
    | v => (c.dec v (cur.getD c.zero)).map some

/-- The elements of a slice or array. -/
def encList {α : Type} (c : JC α) : List α → Except Err (List JVal)
  | [] => .ok []
  | a :: l => do
    let v ← c.enc a
    let vs ← encList c l
    return v :: vs

/-- Elements are decoded into the elements that are there. -/
def decList {α : Type} (c : JC α) : List JVal → List α → Except Err (List α)
  | [], _ => .ok []
  | v :: vs, [] => do
    let a ← c.dec v c.zero
    let l ← decList c vs []
    return a :: l
  | v :: vs, cur :: curs => do
    let a ← c.dec v cur
    let l ← decList c vs curs
    return a :: l

/-- Go `[]T` where nil and empty are told apart. -/
def JC.slice {α : Type} (c : JC α) : JC (Option (List α)) where
  zero := none
  enc
    | none => .ok .null
    | some l => (encList c l).map .arr
  dec v cur :=
    match v with
    | .arr vs => (decList c vs (cur.getD [])).map some
    | .null => .ok none
    | _ => mismatch

/-- Go `[]T` where nil and empty are not told apart. -/
def JC.list {α : Type} (c : JC α) : JC (List α) where
  zero := []
  enc l := (encList c l).map .arr
  dec v cur :=
    match v with
    | .arr vs => decList c vs cur
    | .null => .ok []
    | _ => mismatch

/-- Go `[n]T`: surplus elements of the JSON array are skipped, missing ones are zero. -/
def decArray {α : Type} (c : JC α) : List α → List JVal → Except Err (List α)
  | [], _ => .ok []
  | _ :: curs, [] => do
    let l ← decArray c curs []
    return c.zero :: l
  | cur :: curs, v :: vs => do
    let a ← c.dec v cur
    let l ← decArray c curs vs
    return a :: l

theorem decArray_length {α : Type} (c : JC α) (curs : List α) (vs : List JVal) (l : List α)
    (h : decArray c curs vs = .ok l) : l.length = curs.length := by
  induction curs generalizing vs l with
  | nil => cases h; rfl
  | cons cur curs ih =>
    match vs with
    | [] =>
      simp only [decArray] at h
      cases h' : decArray c curs [] with
      | error e => rw [h'] at h; cases h
      | ok l' => rw [h'] at h; cases h; simp [ih _ _ h']
    | v :: vs =>
      simp only [decArray] at h
      cases h1 : c.dec v cur with
      | error e => rw [h1] at h; cases h
      | ok a =>
        cases h' : decArray c curs vs with
        | error e => rw [h1, h'] at h; cases h
        | ok l' => rw [h1, h'] at h; cases h; simp [ih _ _ h']

/-- A result together with the fact that it is the result. -/
def withResult {α : Type} (x : Except Err α) : Except Err { a // x = .ok a } :=
  match x with
  | .ok a => .ok ⟨a, rfl⟩
  | .error e => .error e

/-- Go `[n]T`. -/
def JC.array {α : Type} (n : Nat) (c : JC α) : JC (Vector α n) where
  zero := Vector.replicate n c.zero
  enc a := (encList c a.toList).map .arr
  dec v cur :=
    match v with
    | .arr vs => (withResult (decArray c cur.toList vs)).map fun l =>
        ⟨l.1.toArray, by simpa using decArray_length c _ _ _ l.2⟩
    | .null => .ok cur
    | _ => mismatch

/-- Order of byte strings, as used to sort the keys of maps. -/
def bytesLt : Bytes → Bytes → Bool
  | [], [] => false
  | [], _ :: _ => true
  | _ :: _, [] => false
  | a :: s, b :: t => if a < b then true else if b < a then false else bytesLt s t

/-- Assign to a key of a map. Maps are lists sorted by key, which is the order in which encoding/json
writes them. -/
def mapInsert {α : Type} (k : Bytes) (a : α) : List (Bytes × α) → List (Bytes × α)
  | [] => [(k, a)]
  | (k', a') :: m =>
    if k = k' then (k, a) :: m
    else if bytesLt k k' then (k, a) :: (k', a') :: m
    else (k', a') :: mapInsert k a m

/-- The members of a map. -/
def encMap {α : Type} (c : JC α) : List (Bytes × α) → Except Err (List (Bytes × JVal))
  | [] => .ok []
  | (k, a) :: m => do
    let v ← c.enc a
    let vs ← encMap c m
    return (k, v) :: vs

/-- Members are decoded from zero values and assigned one after the other. -/
def decMap {α : Type} (c : JC α) : List (Bytes × JVal) → List (Bytes × α) → Except Err (List (Bytes × α))
  | [], cur => .ok cur
  | (k, v) :: vs, cur => do
    let a ← c.dec v c.zero
    decMap c vs (mapInsert k a cur)

/-- Go `map[string]T`. -/
def JC.map {α : Type} (c : JC α) : JC (Option (List (Bytes × α))) where
  zero := none
  enc
    | none => .ok .null
    | some m => (encMap c m).map .obj
  dec v cur :=
    match v with
    | .obj vs => (decMap c vs (cur.getD [])).map some
    | .null => .ok none
    | _ => mismatch

/-! ### Values of type any -/

mutual
/-- Encoding of a value of type `any`. -/
def GoAny.enc (io : FloatIO) : GoAny → Except Err JVal
  | .null => .ok .null
  | .bool b => .ok (.bool b)
  | .num x => (JC.float io).enc x
  | .str s => .ok (.str s)
  | .arr l => (GoAny.encList io l).map .arr
  | .obj m => (GoAny.encMap io m).map .obj
def GoAny.encList (io : FloatIO) : List GoAny → Except Err (List JVal)
  | [] => .ok []
  | a :: l => do
    let v ← a.enc io
    let vs ← GoAny.encList io l
    return v :: vs
def GoAny.encMap (io : FloatIO) : List (Bytes × GoAny) → Except Err (List (Bytes × JVal))
  | [] => .ok []
  | (k, a) :: l => do
    let v ← a.enc io
    let vs ← GoAny.encMap io l
    return (k, v) :: vs
end

mutual
/-- Decoding into an empty variable of type `any`. -/
def GoAny.dec (io : FloatIO) : JVal → Except Err GoAny
  | .null => .ok .null
  | .bool b => .ok (.bool b)
  | .num lit => ((JC.float io).dec (.num lit) ⟨0⟩).map .num
  | .str s => .ok (.str s)
  | .arr l => (GoAny.decList io l).map .arr
  | .obj m => (GoAny.decMap io m []).map .obj
def GoAny.decList (io : FloatIO) : List JVal → Except Err (List GoAny)
  | [] => .ok []
  | v :: l => do
    let a ← GoAny.dec io v
    let as ← GoAny.decList io l
    return a :: as
def GoAny.decMap (io : FloatIO) : List (Bytes × JVal) → List (Bytes × GoAny) → Except Err (List (Bytes × GoAny))
  | [], cur => .ok cur
  | (k, v) :: l, cur => do
    let a ← GoAny.dec io v
    GoAny.decMap io l (mapInsert k a cur)
end

/-- Go `any`. The current value is replaced. -/
def JC.any (io : FloatIO) : JC GoAny where
  zero := .null
  enc := GoAny.enc io
  dec v _ := GoAny.dec io v

/-! ### Extensions -/

/-- gltf.go:467-489: the registered extensions, most recent first. A registered function gets the JSON of
the extension; the value that it returns is represented by the result of marshalling it. -/
abbrev Registry := List (Bytes × (JVal → Except Err (Except Err JVal)))

/-- gltf.go:475-479, `RegisterExtension`. -/
def Registry.register (r : Registry) (key : Bytes) (f : JVal → Except Err (Except Err JVal)) : Registry := (key, f) :: r

/-- gltf.go:481-486, `queryExtension`. -/
def Registry.query (r : Registry) (key : Bytes) : Option (JVal → Except Err (Except Err JVal)) := r.lookup key

/-- encode.go:447-459: one extension. -/
def Registry.decode (r : Registry) (key : Bytes) (v : JVal) : ExtVal :=
  match r.query key with
  | some f =>
    match f v with
    | .ok n => .typed n
    | .error _ => .raw v
  | none => .raw v

/-- A value of the map of extensions: a raw message is copied, another value is marshalled. -/
def ExtVal.enc : ExtVal → Except Err JVal
  | .raw v => .ok v
  | .typed n => n

/-- encode.go:446-459: the members in the order of the text. (Go ranges over a map that was filled from
the text; a repeated key keeps its last value.) -/
def decExtensions (r : Registry) : List (Bytes × JVal) → Extensions → Extensions
  | [], cur => cur
  | (k, v) :: vs, cur => decExtensions r vs (mapInsert k (r.decode k v) cur)

/-- encode.go:438-463, `Extensions.UnmarshalJSON`; marshalling is that of a map. -/
def JC.extensions (r : Registry) : JC Extensions where
  zero := []
  enc m := (encMap ⟨.raw .null, ExtVal.enc, fun _ c => .ok c⟩ m).map .obj
  dec v cur :=
    match v with
    | .obj vs => .ok (decExtensions r vs cur)
    | .null => .ok cur
    | _ => mismatch

/-! ### Structs -/

/-- encoding/json, `foldName`: the upper case form of a key. The two characters beyond ASCII that fold to
ASCII are the Kelvin sign and the long s. -/
def foldKey : Bytes → Bytes
  | 0xE2 :: 0x84 :: 0xAA :: s => 75 :: foldKey s
  | 0xC5 :: 0xBF :: s => 83 :: foldKey s
  | c :: s => (if 97 ≤ c ∧ c ≤ 122 then c - 32 else c) :: foldKey s
  | [] => []

/-- A field of a struct: it may be omitted. -/
structure FE (α : Type) where
  zero : α
  enc : α → Except Err (Option JVal)
  dec : JVal → α → Except Err α

/-- A field that is always written. -/
def JC.always {α : Type} (c : JC α) : FE α where
  zero := c.zero
  enc a := (c.enc a).map some
  dec := c.dec

/-- A field that is omitted in some cases (`omitempty`). -/
def JC.omitIf {α : Type} (c : JC α) (p : α → Bool) : FE α where
  zero := c.zero
  enc a := if p a then .ok none else (c.enc a).map some
  dec := c.dec

/-- The fields of a struct, as nested pairs in the order in which encoding/json writes them. -/
structure FC (τ : Type) where
  names : List Bytes
  zero : τ
  enc : τ → Except Err (List (Bytes × JVal))
  /-- decode one member; a member that matches no field is ignored -/
  dec : Bytes → JVal → τ → Except Err τ

/-- No fields. -/
def FC.nil : FC Unit := ⟨[], (), fun _ => .ok [], fun _ _ t => .ok t⟩

/-- One more field. -/
def FC.cons {α τ : Type} (name : Bytes) (f : FE α) (r : FC τ) : FC (α × τ) where
  names := name :: r.names
  zero := (f.zero, r.zero)
  enc t := do
    let v ← f.enc t.1
    let vs ← r.enc t.2
    return match v with
      | some v => (name, v) :: vs
      | none => vs
  dec k v t :=
    if foldKey k = foldKey name then (f.dec v t.1).map fun a => (a, t.2)
    else (r.dec k v t.2).map fun b => (t.1, b)

/-- A field without JSON form (`json:"-"`). -/
def FC.skip {α τ : Type} (zero : α) (r : FC τ) : FC (α × τ) where
  names := r.names
  zero := (zero, r.zero)
  enc t := r.enc t.2
  dec k v t := (r.dec k v t.2).map fun b => (t.1, b)

/-- Decode the members one after the other. -/
def FC.decAll {τ : Type} (fc : FC τ) : List (Bytes × JVal) → τ → Except Err τ
  | [], t => .ok t
  | (k, v) :: vs, t => do fc.decAll vs (← fc.dec k v t)

/-- A struct whose fields are `to s`. -/
def JC.struct {σ τ : Type} (to : σ → τ) (of : τ → σ) (fc : FC τ) : JC σ where
  zero := of fc.zero
  enc s := (fc.enc (to s)).map .obj
  dec v cur :=
    match v with
    | .obj vs => (fc.decAll vs (to cur)).map of
    | .null => .ok cur
    | _ => mismatch

/-- The `UnmarshalJSON` methods that decode into a fresh value with defaults. -/
def JC.withDefault {σ : Type} (c : JC σ) (d : σ) : JC σ := { c with dec := fun v _ => c.dec v d }

end Gltf
