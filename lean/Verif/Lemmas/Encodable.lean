/-
Lemmas: which values can be marshalled.
-/
import Verif.Model.Encode
import Verif.Spec.Encodable

namespace Gltf

open Spec

/-- There is no error. -/
def Succeeds {α : Type} (x : Except Err α) : Prop := ∃ v, x = .ok v

theorem suc_ok {α : Type} (a : α) : Succeeds (.ok a : Except Err α) ↔ True := ⟨fun _ => trivial, fun _ => ⟨_, rfl⟩⟩

theorem suc_error {α : Type} (e : Err) : Succeeds (.error e : Except Err α) ↔ False := ⟨fun ⟨_, h⟩ => (by cases h), False.elim⟩

theorem suc_map {α β : Type} (x : Except Err α) (f : α → β) : Succeeds (x.map f) ↔ Succeeds x := by
  cases x with
  | ok a => exact ⟨fun _ => ⟨_, rfl⟩, fun _ => ⟨_, rfl⟩⟩
  | error e => exact ⟨fun ⟨_, h⟩ => (by cases h), fun ⟨_, h⟩ => (by cases h)⟩

theorem suc_two {α β γ : Type} (x : Except Err α) (y : Except Err β) (f : α → β → γ) :
    Succeeds (do let a ← x; let b ← y; return f a b) ↔ Succeeds x ∧ Succeeds y := by
  cases x with
  | error e => exact ⟨fun ⟨_, h⟩ => (by cases h), fun ⟨⟨_, h⟩, _⟩ => (by cases h)⟩
  | ok a =>
    cases y with
    | error e => exact ⟨fun ⟨_, h⟩ => (by cases h), fun ⟨_, _, h⟩ => (by cases h)⟩
    | ok b => exact ⟨fun _ => ⟨⟨_, rfl⟩, _, rfl⟩, fun _ => ⟨_, rfl⟩⟩

/-! ### Structs -/

theorem suc_struct {σ τ : Type} (to : σ → τ) (of : τ → σ) (fc : FC τ) (s : σ) : Succeeds ((JC.struct to of fc).enc s) ↔ Succeeds (fc.enc (to s)) :=
  suc_map _ _

theorem suc_nil : Succeeds (FC.nil.enc ()) ↔ True := suc_ok _

theorem suc_cons {α τ : Type} (n : Bytes) (f : FE α) (r : FC τ) (a : α) (t : τ) :
    Succeeds ((FC.cons n f r).enc (a, t)) ↔ Succeeds (f.enc a) ∧ Succeeds (r.enc t) :=
  suc_two _ _ _

theorem suc_skip {α τ : Type} (z : α) (r : FC τ) (a : α) (t : τ) : Succeeds ((FC.skip z r).enc (a, t)) ↔ Succeeds (r.enc t) := Iff.rfl

theorem suc_always {α : Type} (c : JC α) (a : α) : Succeeds (c.always.enc a) ↔ Succeeds (c.enc a) := suc_map _ _

theorem suc_omitIf {α : Type} {c : JC α} {p : α → Bool} {a : α} (h : p a = true → Succeeds (c.enc a)) :
    Succeeds ((c.omitIf p).enc a) ↔ Succeeds (c.enc a) := by
  unfold JC.omitIf
  simp only
  split
  · next hp => exact ⟨fun _ => h hp, fun _ => ⟨_, rfl⟩⟩
  · exact suc_map _ _

/-! ### Pointers and slices -/

theorem suc_ptr {α : Type} (c : JC α) (o : Option α) : Succeeds ((JC.ptr c).enc o) ↔ AtPtr (fun a => Succeeds (c.enc a)) o := by
  cases o with
  | none => exact ⟨fun _ _ h => (by cases h), fun _ => ⟨_, rfl⟩⟩
  | some a => exact ⟨fun h b e => (by cases e; exact h), fun h => h a rfl⟩

theorem suc_encList {α : Type} (c : JC α) : ∀ l : List α, Succeeds (encList c l) ↔ ∀ a ∈ l, Succeeds (c.enc a)
  | [] => by simp [encList, suc_ok]
  | a :: l => by
    unfold encList
    rw [suc_two, suc_encList c l]
    simp

theorem suc_omitPtr {α : Type} (c : JC α) (o : Option α) :
    Succeeds (((JC.ptr c).omitIf Option.isNone).enc o) ↔ AtPtr (fun a => Succeeds (c.enc a)) o := by
  rw [suc_omitIf, suc_ptr]
  intro h
  cases o with
  | none => exact ⟨_, rfl⟩
  | some a => cases h

theorem suc_list {α : Type} (c : JC α) (l : List α) : Succeeds ((JC.list c).enc l) ↔ ∀ a ∈ l, Succeeds (c.enc a) :=
  (suc_map _ _).trans (suc_encList c l)

theorem suc_omitList {α : Type} (c : JC α) (l : List α) :
    Succeeds (((JC.list c).omitIf List.isEmpty).enc l) ↔ ∀ a ∈ l, Succeeds (c.enc a) := by
  rw [suc_omitIf, suc_list]
  intro h
  cases l with
  | nil => exact ⟨_, rfl⟩
  | cons a l => cases h

theorem suc_ptrs {α : Type} (c : JC α) (l : List (Option α)) :
    (∀ a ∈ l, Succeeds ((JC.ptr c).enc a)) ↔ AtPtrs (fun a => Succeeds (c.enc a)) l := by
  constructor
  · intro h a ha
    exact (suc_ptr c _).1 (h _ ha) a rfl
  · intro h o ho
    refine (suc_ptr c _).2 ?_
    rintro a rfl
    exact h a ho

theorem suc_omitPtrs {α : Type} (c : JC α) (l : List (Option α)) :
    Succeeds (((JC.list (JC.ptr c)).omitIf List.isEmpty).enc l) ↔ AtPtrs (fun a => Succeeds (c.enc a)) l :=
  (suc_omitList _ _).trans (suc_ptrs c l)

theorem suc_slice {α : Type} (c : JC α) (o : Option (List α)) : Succeeds ((JC.slice c).enc o) ↔ AtPtr (fun l => ∀ a ∈ l, Succeeds (c.enc a)) o := by
  cases o with
  | none => exact ⟨fun _ _ h => (by cases h), fun _ => ⟨_, rfl⟩⟩
  | some l =>
    refine Iff.trans (suc_map _ _) ((suc_encList c l).trans ?_)
    exact ⟨fun h b e => (by cases e; exact h), fun h => h l rfl⟩

theorem suc_slicePtrs {α : Type} (c : JC α) (o : Option (List (Option α))) :
    Succeeds ((JC.slice (JC.ptr c)).enc o) ↔ AtPtr (AtPtrs fun a => Succeeds (c.enc a)) o := by
  rw [suc_slice]
  simp only [suc_ptrs]

theorem suc_array {α : Type} {n : Nat} (c : JC α) (a : Vector α n) : Succeeds ((JC.array n c).enc a) ↔ ∀ x ∈ a.toList, Succeeds (c.enc x) :=
  (suc_map _ _).trans (suc_encList c _)

theorem suc_encMap {α : Type} (c : JC α) : ∀ m : List (Bytes × α), Succeeds (encMap c m) ↔ ∀ p ∈ m, Succeeds (c.enc p.2)
  | [] => by simp [encMap, suc_ok]
  | (k, a) :: m => by
    unfold encMap
    rw [suc_two, suc_encMap c m]
    simp

theorem suc_map' {α : Type} (c : JC α) (hc : ∀ a, Succeeds (c.enc a)) (o : Option (List (Bytes × α))) : Succeeds ((JC.map c).enc o) := by
  cases o with
  | none => exact ⟨_, rfl⟩
  | some m => exact (suc_map _ _).2 ((suc_encMap c m).2 fun p _ => hc p.2)

/-! ### Numbers -/

theorem suc_float (io : FloatIO) (x : F64) : Succeeds ((JC.float io).enc x) ↔ x.finite = true := by
  unfold JC.float
  simp only
  split
  · next h => exact ⟨fun _ => h, fun _ => ⟨_, rfl⟩⟩
  · next h => exact ⟨fun ⟨_, e⟩ => (by cases e), fun e => absurd e h⟩

theorem suc_envFloat (E : Env) (x : F64) : Succeeds (E.float.enc x) ↔ x.finite = true := suc_float _ _

theorem suc_floats (E : Env) (l : List F64) : Succeeds (E.floats.enc l) ↔ AllFinite l := by
  unfold Env.floats
  rw [suc_omitList]
  simp only [suc_envFloat]
  exact Iff.rfl

theorem atPtr_finite (o : Option F64) : AtPtr (fun x => x.finite = true) o ↔ AllFinite o.toList := by
  cases o <;> simp [AtPtr, AllFinite]

theorem suc_omitFloat (E : Env) (o : Option F64) : Succeeds (E.omitFloat.enc o) ↔ AllFinite o.toList := by
  unfold Env.omitFloat
  rw [suc_omitPtr]
  simp only [suc_envFloat]
  exact atPtr_finite o

theorem feq_finite {x y : F64} (h : x.feq y = true) (hy : y.finite = true) : x.finite = true := by
  unfold F64.feq at h
  simp only [Bool.and_eq_true, Bool.or_eq_true, decide_eq_true_eq] at h
  rcases h.2 with e | e
  · rw [e]; exact hy
  · unfold F64.finite
    rw [e.1]
    decide

theorem suc_omitFloatIf (E : Env) {d : F64} (hd : d.finite = true) (o : Option F64) : Succeeds ((E.omitFloatIf d).enc o) ↔ AllFinite o.toList := by
  unfold Env.omitFloatIf
  rw [suc_omitIf, suc_ptr]
  · simp only [suc_envFloat]
    exact atPtr_finite o
  · intro h
    cases o with
    | none => exact ⟨_, rfl⟩
    | some x => exact (suc_envFloat E x).2 (feq_finite h hd)

theorem arrayEq_finite {n : Nat} {a b : Vector F64 n} (h : arrayEq a b = true) (hb : AllFinite b.toList) : AllFinite a.toList := by
  have key : ∀ (l m : List F64), l.length = m.length → (l.zip m).all (fun p => p.1.feq p.2) = true → AllFinite m → AllFinite l := by
    intro l
    induction l with
    | nil => intro _ _ _ _ x hx; cases hx
    | cons x l ih =>
      intro m hl h hm
      cases m with
      | nil => cases hl
      | cons y m =>
        simp only [List.zip_cons_cons, List.all_cons, Bool.and_eq_true] at h
        intro z hz
        rcases List.mem_cons.1 hz with rfl | hz
        · exact feq_finite h.1 (hm y (.head _))
        · exact ih m (by simpa using hl) h.2 (fun w hw => hm w (.tail _ hw)) z hz
  exact key _ _ (by simp) h hb

theorem suc_omitArray (E : Env) {n : Nat} {p : Vector F64 n → Bool} (hp : ∀ a, p a = true → AllFinite a.toList) (a : Vector F64 n) :
    Succeeds (((JC.array n E.float).omitIf p).enc a) ↔ AllFinite a.toList := by
  have h : Succeeds ((JC.array n E.float).enc a) ↔ AllFinite a.toList := by
    rw [suc_array]
    simp only [suc_envFloat]
    exact Iff.rfl
  rw [suc_omitIf fun e => h.2 (hp a e), h]

/-! ### Extensions and extras -/

theorem suc_ext (E : Env) (e : Extensions) : Succeeds (E.ext.enc e) ↔ ∀ k err, (k, ExtVal.typed (.error err)) ∉ e := by
  unfold Env.ext
  have h : Succeeds ((JC.extensions E.reg).enc e) ↔ ∀ k err, (k, ExtVal.typed (.error err)) ∉ e := by
    refine (suc_map _ _).trans ((suc_encMap _ _).trans ?_)
    constructor
    · intro h k err hm
      obtain ⟨v, hv⟩ := h _ hm
      cases hv
    · rintro h ⟨k, v⟩ hm
      cases v with
      | raw v => exact ⟨_, rfl⟩
      | typed r =>
        cases r with
        | ok v => exact ⟨_, rfl⟩
        | error err => exact absurd hm (h k err)
  rw [suc_omitIf, h]
  intro he
  cases e with
  | nil => exact ⟨_, rfl⟩
  | cons _ _ => cases he

theorem allFinite_append (l m : List F64) : AllFinite (l ++ m) ↔ AllFinite l ∧ AllFinite m := by
  unfold AllFinite
  simp only [List.mem_append]
  exact ⟨fun h => ⟨fun x hx => h x (.inl hx), fun x hx => h x (.inr hx)⟩, fun h x hx => hx.elim (h.1 x) (h.2 x)⟩

theorem allFinite_nil : AllFinite [] ↔ True := ⟨fun _ => trivial, fun _ _ h => by cases h⟩

theorem allFinite_cons (x : F64) (l : List F64) : AllFinite (x :: l) ↔ x.finite = true ∧ AllFinite l := by
  simp [AllFinite]

mutual
theorem suc_any (io : FloatIO) : ∀ a : GoAny, Succeeds (a.enc io) ↔ AllFinite (numbers a)
  | .null => by simp [GoAny.enc, numbers, suc_ok, allFinite_nil]
  | .bool b => by simp [GoAny.enc, numbers, suc_ok, allFinite_nil]
  | .num x => by simp [GoAny.enc, numbers, suc_float, allFinite_nil, allFinite_cons]
  | .str s => by simp [GoAny.enc, numbers, suc_ok, allFinite_nil]
  | .arr l => by rw [GoAny.enc, numbers, suc_map, suc_anyList io l]
  | .obj m => by rw [GoAny.enc, numbers, suc_map, suc_anyMap io m]
theorem suc_anyList (io : FloatIO) : ∀ l : List GoAny, Succeeds (GoAny.encList io l) ↔ AllFinite (numbersList l)
  | [] => by simp [GoAny.encList, numbersList, suc_ok, allFinite_nil]
  | a :: l => by rw [GoAny.encList, numbersList, suc_two, allFinite_append, suc_any io a, suc_anyList io l]
theorem suc_anyMap (io : FloatIO) : ∀ m : List (Bytes × GoAny), Succeeds (GoAny.encMap io m) ↔ AllFinite (numbersMap m)
  | [] => by simp [GoAny.encMap, numbersMap, suc_ok, allFinite_nil]
  | (k, a) :: m => by rw [GoAny.encMap, numbersMap, suc_two, allFinite_append, suc_any io a, suc_anyMap io m]
end

theorem suc_extras (E : Env) (a : GoAny) : Succeeds (E.extras.enc a) ↔ AllFinite (numbers a) := by
  unfold Env.extras
  rw [suc_omitIf]
  · exact suc_any _ _
  · intro h
    cases a with
    | null => exact ⟨_, rfl⟩
    | _ => cases h

/-! ### Fields that can always be written -/

theorem suc_omitTotal {α : Type} {c : JC α} (hc : ∀ a, Succeeds (c.enc a)) (p : α → Bool) (a : α) : Succeeds ((c.omitIf p).enc a) ↔ True :=
  iff_true_intro ((suc_omitIf fun _ => hc a).2 (hc a))

theorem suc_int (n : Int) : Succeeds (JC.int.enc n) ↔ True := suc_ok _
theorem suc_string (s : Bytes) : Succeeds (JC.string.enc s) ↔ True := suc_ok _
theorem suc_componentType (c : ComponentType) : Succeeds (componentTypeC.enc c) ↔ True := suc_ok _
theorem suc_accessorType (c : AccessorType) : Succeeds (accessorTypeC.enc c) ↔ True := suc_ok _
theorem suc_trsProperty (c : TRSProperty) : Succeeds (trsPropertyC.enc c) ↔ True := suc_ok _
theorem suc_omitString (s : Bytes) : Succeeds (omitString.enc s) ↔ True := suc_omitTotal (fun _ => ⟨_, rfl⟩) _ _
theorem suc_omitInt (s : Int) : Succeeds (omitInt.enc s) ↔ True := suc_omitTotal (fun _ => ⟨_, rfl⟩) _ _
theorem suc_omitBool (s : Bool) : Succeeds (omitBool.enc s) ↔ True := suc_omitTotal (fun _ => ⟨_, rfl⟩) _ _
theorem suc_omitIndex (s : Option Int) : Succeeds (omitIndex.enc s) ↔ True :=
  suc_omitTotal (fun _ => (suc_ptr _ _).2 fun _ _ => ⟨_, rfl⟩) _ _
theorem suc_omitInts (s : List Int) : Succeeds (omitInts.enc s) ↔ True := suc_omitTotal (fun _ => (suc_list _ _).2 fun _ _ => ⟨_, rfl⟩) _ _
theorem suc_omitStrings (s : List Bytes) : Succeeds (omitStrings.enc s) ↔ True :=
  suc_omitTotal (fun _ => (suc_list _ _).2 fun _ _ => ⟨_, rfl⟩) _ _
theorem suc_ints (s : Option (List Int)) : Succeeds ((JC.slice JC.int).enc s) ↔ True :=
  iff_true_intro ((suc_slice _ _).2 fun _ _ _ _ => ⟨_, rfl⟩)
theorem suc_intMap (s : Option (List (Bytes × Int))) : Succeeds ((JC.map JC.int).enc s) ↔ True :=
  iff_true_intro (suc_map' _ (fun _ => ⟨_, rfl⟩) _)
theorem suc_intMaps (s : List (Option (List (Bytes × Int)))) : Succeeds (((JC.list (JC.map JC.int)).omitIf List.isEmpty).enc s) ↔ True :=
  suc_omitTotal (fun _ => (suc_list _ _).2 fun _ _ => suc_map' _ (fun _ => ⟨_, rfl⟩) _) _ _
theorem suc_target (p : UInt16 → Bool) (s : UInt16) : Succeeds ((JC.uint16.omitIf p).enc s) ↔ True := suc_omitTotal (fun _ => ⟨_, rfl⟩) _ _
theorem suc_mode (p : PrimitiveMode → Bool) (s : PrimitiveMode) : Succeeds ((primitiveModeC.omitIf p).enc s) ↔ True := suc_omitTotal (fun _ => ⟨_, rfl⟩) _ _
theorem suc_alphaMode (p : AlphaMode → Bool) (s : AlphaMode) : Succeeds ((alphaModeC.omitIf p).enc s) ↔ True := suc_omitTotal (fun _ => ⟨_, rfl⟩) _ _
theorem suc_magFilter (p : MagFilter → Bool) (s : MagFilter) : Succeeds ((magFilterC.omitIf p).enc s) ↔ True := suc_omitTotal (fun _ => ⟨_, rfl⟩) _ _
theorem suc_minFilter (p : MinFilter → Bool) (s : MinFilter) : Succeeds ((minFilterC.omitIf p).enc s) ↔ True := suc_omitTotal (fun _ => ⟨_, rfl⟩) _ _
theorem suc_wrap (p : WrappingMode → Bool) (s : WrappingMode) : Succeeds ((wrappingModeC.omitIf p).enc s) ↔ True := suc_omitTotal (fun _ => ⟨_, rfl⟩) _ _
theorem suc_interpolation (p : Interpolation → Bool) (s : Interpolation) : Succeeds ((interpolationC.omitIf p).enc s) ↔ True :=
  suc_omitTotal (fun _ => ⟨_, rfl⟩) _ _

/-! ### The structs of the document -/

set_option linter.unusedSimpArgs false

theorem suc_one (E : Env) (o : Option F64) : Succeeds ((E.omitFloatIf f64one).enc o) ↔ AllFinite o.toList := suc_omitFloatIf E (by decide) o
theorem suc_half (E : Env) (o : Option F64) : Succeeds ((E.omitFloatIf f64half).enc o) ↔ AllFinite o.toList := suc_omitFloatIf E (by decide) o

theorem suc_emissive (E : Env) (a : Vector F64 3) :
    Succeeds (((JC.array 3 E.float).omitIf (arrayEq · defaultTranslation)).enc a) ↔ AllFinite a.toList :=
  suc_omitArray E (fun _ h => arrayEq_finite h (by unfold AllFinite; decide)) a

theorem suc_translation (E : Env) (a : Vector F64 3) :
    Succeeds (((JC.array 3 E.float).omitIf fun m => arrayEq m defaultTranslation).enc a) ↔ AllFinite a.toList :=
  suc_omitArray E (fun _ h => arrayEq_finite h (by unfold AllFinite; decide)) a

theorem suc_omitArray2 (E : Env) {n : Nat} {d e : Vector F64 n} (hd : AllFinite d.toList) (he : AllFinite e.toList) (a : Vector F64 n) :
    Succeeds (((JC.array n E.float).omitIf fun m => arrayEq m d || arrayEq m e).enc a) ↔ AllFinite a.toList :=
  suc_omitArray E (fun _ h => ((Bool.or_eq_true _ _).mp h).elim (fun h => arrayEq_finite h hd) fun h => arrayEq_finite h he) a

theorem suc_matrix (E : Env) (a : Vector F64 16) :
    Succeeds (((JC.array 16 E.float).omitIf fun m => arrayEq m defaultMatrix || arrayEq m emptyMatrix).enc a) ↔ AllFinite a.toList :=
  suc_omitArray2 E (by unfold AllFinite; decide) (by unfold AllFinite; decide) a

theorem suc_rotation (E : Env) (a : Vector F64 4) :
    Succeeds (((JC.array 4 E.float).omitIf fun m => arrayEq m defaultRotation || arrayEq m emptyRotation).enc a) ↔ AllFinite a.toList :=
  suc_omitArray2 E (by unfold AllFinite; decide) (by unfold AllFinite; decide) a

theorem suc_scale (E : Env) (a : Vector F64 3) :
    Succeeds (((JC.array 3 E.float).omitIf fun m => arrayEq m defaultScale || arrayEq m emptyScale).enc a) ↔ AllFinite a.toList :=
  suc_omitArray2 E (by unfold AllFinite; decide) (by unfold AllFinite; decide) a

theorem suc_color (E : Env) (o : Option (Vector F64 4)) :
    Succeeds (((JC.ptr (JC.array 4 E.float)).omitIf fun m => m.all (arrayEq · white)).enc o) ↔ AtPtr (fun c => AllFinite c.toList) o := by
  have h : Succeeds ((JC.ptr (JC.array 4 E.float)).enc o) ↔ AtPtr (fun c => AllFinite c.toList) o := by
    rw [suc_ptr]
    simp only [suc_array, suc_envFloat]
    exact Iff.rfl
  rw [suc_omitIf, h]
  intro hp
  refine h.2 ?_
  rintro a rfl
  exact arrayEq_finite hp (by unfold AllFinite; decide)

theorem suc_sparseIndicesC (E : Env) (s : SparseIndices) : Succeeds ((sparseIndicesC E).enc s) ↔ Payload s.extensions s.extras := by
  unfold sparseIndicesC
  rw [suc_struct]
  simp only [suc_cons, suc_nil, suc_skip, suc_ext, suc_extras, suc_always, suc_int, suc_string, suc_omitString, suc_omitInt, suc_omitBool, suc_omitIndex,
    suc_omitInts, suc_omitStrings, suc_ints, suc_intMap, suc_intMaps, suc_target, suc_mode, suc_alphaMode, suc_magFilter, suc_minFilter, suc_wrap,
    suc_interpolation, suc_componentType, suc_accessorType, suc_trsProperty, suc_floats, suc_omitFloat, suc_envFloat, suc_omitPtr, suc_omitPtrs,
    suc_slicePtrs, suc_one, suc_half, suc_emissive, suc_matrix, suc_rotation, suc_scale, suc_translation, suc_color, allFinite_cons, allFinite_nil,
    and_true, true_and, and_assoc, Payload]
  try grind

theorem suc_sparseValuesC (E : Env) (s : SparseValues) : Succeeds ((sparseValuesC E).enc s) ↔ Payload s.extensions s.extras := by
  unfold sparseValuesC
  rw [suc_struct]
  simp only [suc_cons, suc_nil, suc_skip, suc_ext, suc_extras, suc_always, suc_int, suc_string, suc_omitString, suc_omitInt, suc_omitBool, suc_omitIndex,
    suc_omitInts, suc_omitStrings, suc_ints, suc_intMap, suc_intMaps, suc_target, suc_mode, suc_alphaMode, suc_magFilter, suc_minFilter, suc_wrap,
    suc_interpolation, suc_componentType, suc_accessorType, suc_trsProperty, suc_floats, suc_omitFloat, suc_envFloat, suc_omitPtr, suc_omitPtrs,
    suc_slicePtrs, suc_one, suc_half, suc_emissive, suc_matrix, suc_rotation, suc_scale, suc_translation, suc_color, allFinite_cons, allFinite_nil,
    and_true, true_and, and_assoc, Payload]
  try grind

theorem suc_sparseC (E : Env) (s : Sparse) : Succeeds ((sparseC E).enc s) ↔ SparseEnc s := by
  unfold sparseC SparseEnc
  rw [suc_struct]
  simp only [suc_cons, suc_nil, suc_skip, suc_ext, suc_extras, suc_always, suc_int, suc_string, suc_omitString, suc_omitInt, suc_omitBool, suc_omitIndex,
    suc_omitInts, suc_omitStrings, suc_ints, suc_intMap, suc_intMaps, suc_target, suc_mode, suc_alphaMode, suc_magFilter, suc_minFilter, suc_wrap,
    suc_interpolation, suc_componentType, suc_accessorType, suc_trsProperty, suc_floats, suc_omitFloat, suc_envFloat, suc_omitPtr, suc_omitPtrs,
    suc_slicePtrs, suc_one, suc_half, suc_emissive, suc_matrix, suc_rotation, suc_scale, suc_translation, suc_color, allFinite_cons, allFinite_nil,
    and_true, true_and, and_assoc, suc_sparseIndicesC, suc_sparseValuesC, Payload]
  try grind

theorem suc_accessorC (E : Env) (s : Accessor) : Succeeds ((accessorC E).enc s) ↔ AccessorEnc s := by
  unfold accessorC AccessorEnc
  rw [suc_struct]
  simp only [suc_cons, suc_nil, suc_skip, suc_ext, suc_extras, suc_always, suc_int, suc_string, suc_omitString, suc_omitInt, suc_omitBool, suc_omitIndex,
    suc_omitInts, suc_omitStrings, suc_ints, suc_intMap, suc_intMaps, suc_target, suc_mode, suc_alphaMode, suc_magFilter, suc_minFilter, suc_wrap,
    suc_interpolation, suc_componentType, suc_accessorType, suc_trsProperty, suc_floats, suc_omitFloat, suc_envFloat, suc_omitPtr, suc_omitPtrs,
    suc_slicePtrs, suc_one, suc_half, suc_emissive, suc_matrix, suc_rotation, suc_scale, suc_translation, suc_color, allFinite_cons, allFinite_nil,
    and_true, true_and, and_assoc, suc_sparseC, Payload]
  try grind

theorem suc_bufferC (E : Env) (s : Buffer) : Succeeds ((bufferC E).enc s) ↔ BufferEnc s := by
  unfold bufferC BufferEnc
  rw [suc_struct]
  simp only [suc_cons, suc_nil, suc_skip, suc_ext, suc_extras, suc_always, suc_int, suc_string, suc_omitString, suc_omitInt, suc_omitBool, suc_omitIndex,
    suc_omitInts, suc_omitStrings, suc_ints, suc_intMap, suc_intMaps, suc_target, suc_mode, suc_alphaMode, suc_magFilter, suc_minFilter, suc_wrap,
    suc_interpolation, suc_componentType, suc_accessorType, suc_trsProperty, suc_floats, suc_omitFloat, suc_envFloat, suc_omitPtr, suc_omitPtrs,
    suc_slicePtrs, suc_one, suc_half, suc_emissive, suc_matrix, suc_rotation, suc_scale, suc_translation, suc_color, allFinite_cons, allFinite_nil,
    and_true, true_and, and_assoc, Payload]
  try grind

theorem suc_bufferViewC (E : Env) (s : BufferView) : Succeeds ((bufferViewC E).enc s) ↔ BufferViewEnc s := by
  unfold bufferViewC BufferViewEnc
  rw [suc_struct]
  simp only [suc_cons, suc_nil, suc_skip, suc_ext, suc_extras, suc_always, suc_int, suc_string, suc_omitString, suc_omitInt, suc_omitBool, suc_omitIndex,
    suc_omitInts, suc_omitStrings, suc_ints, suc_intMap, suc_intMaps, suc_target, suc_mode, suc_alphaMode, suc_magFilter, suc_minFilter, suc_wrap,
    suc_interpolation, suc_componentType, suc_accessorType, suc_trsProperty, suc_floats, suc_omitFloat, suc_envFloat, suc_omitPtr, suc_omitPtrs,
    suc_slicePtrs, suc_one, suc_half, suc_emissive, suc_matrix, suc_rotation, suc_scale, suc_translation, suc_color, allFinite_cons, allFinite_nil,
    and_true, true_and, and_assoc, Payload]
  try grind

theorem suc_sceneC (E : Env) (s : Scene) : Succeeds ((sceneC E).enc s) ↔ SceneEnc s := by
  unfold sceneC SceneEnc
  rw [suc_struct]
  simp only [suc_cons, suc_nil, suc_skip, suc_ext, suc_extras, suc_always, suc_int, suc_string, suc_omitString, suc_omitInt, suc_omitBool, suc_omitIndex,
    suc_omitInts, suc_omitStrings, suc_ints, suc_intMap, suc_intMaps, suc_target, suc_mode, suc_alphaMode, suc_magFilter, suc_minFilter, suc_wrap,
    suc_interpolation, suc_componentType, suc_accessorType, suc_trsProperty, suc_floats, suc_omitFloat, suc_envFloat, suc_omitPtr, suc_omitPtrs,
    suc_slicePtrs, suc_one, suc_half, suc_emissive, suc_matrix, suc_rotation, suc_scale, suc_translation, suc_color, allFinite_cons, allFinite_nil,
    and_true, true_and, and_assoc, Payload]
  try grind

theorem suc_nodeC_ (E : Env) (s : Node) : Succeeds ((nodeC' E).enc s) ↔ NodeEnc s := by
  unfold nodeC' NodeEnc
  rw [suc_struct]
  simp only [suc_cons, suc_nil, suc_skip, suc_ext, suc_extras, suc_always, suc_int, suc_string, suc_omitString, suc_omitInt, suc_omitBool, suc_omitIndex,
    suc_omitInts, suc_omitStrings, suc_ints, suc_intMap, suc_intMaps, suc_target, suc_mode, suc_alphaMode, suc_magFilter, suc_minFilter, suc_wrap,
    suc_interpolation, suc_componentType, suc_accessorType, suc_trsProperty, suc_floats, suc_omitFloat, suc_envFloat, suc_omitPtr, suc_omitPtrs,
    suc_slicePtrs, suc_one, suc_half, suc_emissive, suc_matrix, suc_rotation, suc_scale, suc_translation, suc_color, allFinite_cons, allFinite_nil,
    and_true, true_and, and_assoc, Payload]
  try grind

theorem suc_nodeC (E : Env) (s : Node) : Succeeds ((nodeC E).enc s) ↔ NodeEnc s := suc_nodeC_ E s

theorem suc_skinC (E : Env) (s : Skin) : Succeeds ((skinC E).enc s) ↔ SkinEnc s := by
  unfold skinC SkinEnc
  rw [suc_struct]
  simp only [suc_cons, suc_nil, suc_skip, suc_ext, suc_extras, suc_always, suc_int, suc_string, suc_omitString, suc_omitInt, suc_omitBool, suc_omitIndex,
    suc_omitInts, suc_omitStrings, suc_ints, suc_intMap, suc_intMaps, suc_target, suc_mode, suc_alphaMode, suc_magFilter, suc_minFilter, suc_wrap,
    suc_interpolation, suc_componentType, suc_accessorType, suc_trsProperty, suc_floats, suc_omitFloat, suc_envFloat, suc_omitPtr, suc_omitPtrs,
    suc_slicePtrs, suc_one, suc_half, suc_emissive, suc_matrix, suc_rotation, suc_scale, suc_translation, suc_color, allFinite_cons, allFinite_nil,
    and_true, true_and, and_assoc, Payload]
  try grind

theorem suc_orthographicC (E : Env) (s : Orthographic) : Succeeds ((orthographicC E).enc s) ↔ OrthographicEnc s := by
  unfold orthographicC OrthographicEnc
  rw [suc_struct]
  simp only [suc_cons, suc_nil, suc_skip, suc_ext, suc_extras, suc_always, suc_int, suc_string, suc_omitString, suc_omitInt, suc_omitBool, suc_omitIndex,
    suc_omitInts, suc_omitStrings, suc_ints, suc_intMap, suc_intMaps, suc_target, suc_mode, suc_alphaMode, suc_magFilter, suc_minFilter, suc_wrap,
    suc_interpolation, suc_componentType, suc_accessorType, suc_trsProperty, suc_floats, suc_omitFloat, suc_envFloat, suc_omitPtr, suc_omitPtrs,
    suc_slicePtrs, suc_one, suc_half, suc_emissive, suc_matrix, suc_rotation, suc_scale, suc_translation, suc_color, allFinite_cons, allFinite_nil,
    and_true, true_and, and_assoc, Payload]
  try grind

theorem suc_perspectiveC (E : Env) (s : Perspective) : Succeeds ((perspectiveC E).enc s) ↔ PerspectiveEnc s := by
  unfold perspectiveC PerspectiveEnc
  rw [suc_struct]
  simp only [suc_cons, suc_nil, suc_skip, suc_ext, suc_extras, suc_always, suc_int, suc_string, suc_omitString, suc_omitInt, suc_omitBool, suc_omitIndex,
    suc_omitInts, suc_omitStrings, suc_ints, suc_intMap, suc_intMaps, suc_target, suc_mode, suc_alphaMode, suc_magFilter, suc_minFilter, suc_wrap,
    suc_interpolation, suc_componentType, suc_accessorType, suc_trsProperty, suc_floats, suc_omitFloat, suc_envFloat, suc_omitPtr, suc_omitPtrs,
    suc_slicePtrs, suc_one, suc_half, suc_emissive, suc_matrix, suc_rotation, suc_scale, suc_translation, suc_color, allFinite_cons, allFinite_nil,
    and_true, true_and, and_assoc, Payload]
  try grind

theorem suc_primitiveC (E : Env) (s : Primitive) : Succeeds ((primitiveC E).enc s) ↔ PrimitiveEnc s := by
  unfold primitiveC PrimitiveEnc
  rw [suc_struct]
  simp only [suc_cons, suc_nil, suc_skip, suc_ext, suc_extras, suc_always, suc_int, suc_string, suc_omitString, suc_omitInt, suc_omitBool, suc_omitIndex,
    suc_omitInts, suc_omitStrings, suc_ints, suc_intMap, suc_intMaps, suc_target, suc_mode, suc_alphaMode, suc_magFilter, suc_minFilter, suc_wrap,
    suc_interpolation, suc_componentType, suc_accessorType, suc_trsProperty, suc_floats, suc_omitFloat, suc_envFloat, suc_omitPtr, suc_omitPtrs,
    suc_slicePtrs, suc_one, suc_half, suc_emissive, suc_matrix, suc_rotation, suc_scale, suc_translation, suc_color, allFinite_cons, allFinite_nil,
    and_true, true_and, and_assoc, Payload]
  try grind

theorem suc_meshC (E : Env) (s : Mesh) : Succeeds ((meshC E).enc s) ↔ MeshEnc s := by
  unfold meshC MeshEnc
  rw [suc_struct]
  simp only [suc_cons, suc_nil, suc_skip, suc_ext, suc_extras, suc_always, suc_int, suc_string, suc_omitString, suc_omitInt, suc_omitBool, suc_omitIndex,
    suc_omitInts, suc_omitStrings, suc_ints, suc_intMap, suc_intMaps, suc_target, suc_mode, suc_alphaMode, suc_magFilter, suc_minFilter, suc_wrap,
    suc_interpolation, suc_componentType, suc_accessorType, suc_trsProperty, suc_floats, suc_omitFloat, suc_envFloat, suc_omitPtr, suc_omitPtrs,
    suc_slicePtrs, suc_one, suc_half, suc_emissive, suc_matrix, suc_rotation, suc_scale, suc_translation, suc_color, allFinite_cons, allFinite_nil,
    and_true, true_and, and_assoc, suc_primitiveC, Payload]
  try grind

theorem suc_normalTextureC_ (E : Env) (s : NormalTexture) : Succeeds ((normalTextureC' E).enc s) ↔ NormalTextureEnc s := by
  unfold normalTextureC' NormalTextureEnc
  rw [suc_struct]
  simp only [suc_cons, suc_nil, suc_skip, suc_ext, suc_extras, suc_always, suc_int, suc_string, suc_omitString, suc_omitInt, suc_omitBool, suc_omitIndex,
    suc_omitInts, suc_omitStrings, suc_ints, suc_intMap, suc_intMaps, suc_target, suc_mode, suc_alphaMode, suc_magFilter, suc_minFilter, suc_wrap,
    suc_interpolation, suc_componentType, suc_accessorType, suc_trsProperty, suc_floats, suc_omitFloat, suc_envFloat, suc_omitPtr, suc_omitPtrs,
    suc_slicePtrs, suc_one, suc_half, suc_emissive, suc_matrix, suc_rotation, suc_scale, suc_translation, suc_color, allFinite_cons, allFinite_nil,
    and_true, true_and, and_assoc, Payload]
  try grind

theorem suc_normalTextureC (E : Env) (s : NormalTexture) : Succeeds ((normalTextureC E).enc s) ↔ NormalTextureEnc s := suc_normalTextureC_ E s

theorem suc_occlusionTextureC_ (E : Env) (s : OcclusionTexture) : Succeeds ((occlusionTextureC' E).enc s) ↔ OcclusionTextureEnc s := by
  unfold occlusionTextureC' OcclusionTextureEnc
  rw [suc_struct]
  simp only [suc_cons, suc_nil, suc_skip, suc_ext, suc_extras, suc_always, suc_int, suc_string, suc_omitString, suc_omitInt, suc_omitBool, suc_omitIndex,
    suc_omitInts, suc_omitStrings, suc_ints, suc_intMap, suc_intMaps, suc_target, suc_mode, suc_alphaMode, suc_magFilter, suc_minFilter, suc_wrap,
    suc_interpolation, suc_componentType, suc_accessorType, suc_trsProperty, suc_floats, suc_omitFloat, suc_envFloat, suc_omitPtr, suc_omitPtrs,
    suc_slicePtrs, suc_one, suc_half, suc_emissive, suc_matrix, suc_rotation, suc_scale, suc_translation, suc_color, allFinite_cons, allFinite_nil,
    and_true, true_and, and_assoc, Payload]
  try grind

theorem suc_occlusionTextureC (E : Env) (s : OcclusionTexture) : Succeeds ((occlusionTextureC E).enc s) ↔ OcclusionTextureEnc s := suc_occlusionTextureC_ E s

theorem suc_textureInfoC (E : Env) (s : TextureInfo) : Succeeds ((textureInfoC E).enc s) ↔ TextureInfoEnc s := by
  unfold textureInfoC TextureInfoEnc
  rw [suc_struct]
  simp only [suc_cons, suc_nil, suc_skip, suc_ext, suc_extras, suc_always, suc_int, suc_string, suc_omitString, suc_omitInt, suc_omitBool, suc_omitIndex,
    suc_omitInts, suc_omitStrings, suc_ints, suc_intMap, suc_intMaps, suc_target, suc_mode, suc_alphaMode, suc_magFilter, suc_minFilter, suc_wrap,
    suc_interpolation, suc_componentType, suc_accessorType, suc_trsProperty, suc_floats, suc_omitFloat, suc_envFloat, suc_omitPtr, suc_omitPtrs,
    suc_slicePtrs, suc_one, suc_half, suc_emissive, suc_matrix, suc_rotation, suc_scale, suc_translation, suc_color, allFinite_cons, allFinite_nil,
    and_true, true_and, and_assoc, Payload]
  try grind

theorem suc_pbrC_ (E : Env) (s : PBRMetallicRoughness) : Succeeds ((pbrC' E).enc s) ↔ PBREnc s := by
  unfold pbrC' PBREnc
  rw [suc_struct]
  simp only [suc_cons, suc_nil, suc_skip, suc_ext, suc_extras, suc_always, suc_int, suc_string, suc_omitString, suc_omitInt, suc_omitBool, suc_omitIndex,
    suc_omitInts, suc_omitStrings, suc_ints, suc_intMap, suc_intMaps, suc_target, suc_mode, suc_alphaMode, suc_magFilter, suc_minFilter, suc_wrap,
    suc_interpolation, suc_componentType, suc_accessorType, suc_trsProperty, suc_floats, suc_omitFloat, suc_envFloat, suc_omitPtr, suc_omitPtrs,
    suc_slicePtrs, suc_one, suc_half, suc_emissive, suc_matrix, suc_rotation, suc_scale, suc_translation, suc_color, allFinite_cons, allFinite_nil,
    and_true, true_and, and_assoc, suc_textureInfoC, Payload]
  try grind

theorem suc_pbrC (E : Env) (s : PBRMetallicRoughness) : Succeeds ((pbrC E).enc s) ↔ PBREnc s := suc_pbrC_ E s

theorem suc_materialC_ (E : Env) (s : Material) : Succeeds ((materialC' E).enc s) ↔ MaterialEnc s := by
  unfold materialC' MaterialEnc
  rw [suc_struct]
  simp only [suc_cons, suc_nil, suc_skip, suc_ext, suc_extras, suc_always, suc_int, suc_string, suc_omitString, suc_omitInt, suc_omitBool, suc_omitIndex,
    suc_omitInts, suc_omitStrings, suc_ints, suc_intMap, suc_intMaps, suc_target, suc_mode, suc_alphaMode, suc_magFilter, suc_minFilter, suc_wrap,
    suc_interpolation, suc_componentType, suc_accessorType, suc_trsProperty, suc_floats, suc_omitFloat, suc_envFloat, suc_omitPtr, suc_omitPtrs,
    suc_slicePtrs, suc_one, suc_half, suc_emissive, suc_matrix, suc_rotation, suc_scale, suc_translation, suc_color, allFinite_cons, allFinite_nil,
    and_true, true_and, and_assoc, suc_pbrC, suc_normalTextureC, suc_occlusionTextureC, suc_textureInfoC, Payload]
  try grind

theorem suc_materialC (E : Env) (s : Material) : Succeeds ((materialC E).enc s) ↔ MaterialEnc s := suc_materialC_ E s

theorem suc_textureC (E : Env) (s : Texture) : Succeeds ((textureC E).enc s) ↔ TextureEnc s := by
  unfold textureC TextureEnc
  rw [suc_struct]
  simp only [suc_cons, suc_nil, suc_skip, suc_ext, suc_extras, suc_always, suc_int, suc_string, suc_omitString, suc_omitInt, suc_omitBool, suc_omitIndex,
    suc_omitInts, suc_omitStrings, suc_ints, suc_intMap, suc_intMaps, suc_target, suc_mode, suc_alphaMode, suc_magFilter, suc_minFilter, suc_wrap,
    suc_interpolation, suc_componentType, suc_accessorType, suc_trsProperty, suc_floats, suc_omitFloat, suc_envFloat, suc_omitPtr, suc_omitPtrs,
    suc_slicePtrs, suc_one, suc_half, suc_emissive, suc_matrix, suc_rotation, suc_scale, suc_translation, suc_color, allFinite_cons, allFinite_nil,
    and_true, true_and, and_assoc, Payload]
  try grind

theorem suc_samplerC (E : Env) (s : Sampler) : Succeeds ((samplerC E).enc s) ↔ SamplerEnc s := by
  unfold samplerC SamplerEnc
  rw [suc_struct]
  simp only [suc_cons, suc_nil, suc_skip, suc_ext, suc_extras, suc_always, suc_int, suc_string, suc_omitString, suc_omitInt, suc_omitBool, suc_omitIndex,
    suc_omitInts, suc_omitStrings, suc_ints, suc_intMap, suc_intMaps, suc_target, suc_mode, suc_alphaMode, suc_magFilter, suc_minFilter, suc_wrap,
    suc_interpolation, suc_componentType, suc_accessorType, suc_trsProperty, suc_floats, suc_omitFloat, suc_envFloat, suc_omitPtr, suc_omitPtrs,
    suc_slicePtrs, suc_one, suc_half, suc_emissive, suc_matrix, suc_rotation, suc_scale, suc_translation, suc_color, allFinite_cons, allFinite_nil,
    and_true, true_and, and_assoc, Payload]
  try grind

theorem suc_imageC (E : Env) (s : Image) : Succeeds ((imageC E).enc s) ↔ ImageEnc s := by
  unfold imageC ImageEnc
  rw [suc_struct]
  simp only [suc_cons, suc_nil, suc_skip, suc_ext, suc_extras, suc_always, suc_int, suc_string, suc_omitString, suc_omitInt, suc_omitBool, suc_omitIndex,
    suc_omitInts, suc_omitStrings, suc_ints, suc_intMap, suc_intMaps, suc_target, suc_mode, suc_alphaMode, suc_magFilter, suc_minFilter, suc_wrap,
    suc_interpolation, suc_componentType, suc_accessorType, suc_trsProperty, suc_floats, suc_omitFloat, suc_envFloat, suc_omitPtr, suc_omitPtrs,
    suc_slicePtrs, suc_one, suc_half, suc_emissive, suc_matrix, suc_rotation, suc_scale, suc_translation, suc_color, allFinite_cons, allFinite_nil,
    and_true, true_and, and_assoc, Payload]
  try grind

theorem suc_animationSamplerC (E : Env) (s : AnimationSampler) : Succeeds ((animationSamplerC E).enc s) ↔ AnimationSamplerEnc s := by
  unfold animationSamplerC AnimationSamplerEnc
  rw [suc_struct]
  simp only [suc_cons, suc_nil, suc_skip, suc_ext, suc_extras, suc_always, suc_int, suc_string, suc_omitString, suc_omitInt, suc_omitBool, suc_omitIndex,
    suc_omitInts, suc_omitStrings, suc_ints, suc_intMap, suc_intMaps, suc_target, suc_mode, suc_alphaMode, suc_magFilter, suc_minFilter, suc_wrap,
    suc_interpolation, suc_componentType, suc_accessorType, suc_trsProperty, suc_floats, suc_omitFloat, suc_envFloat, suc_omitPtr, suc_omitPtrs,
    suc_slicePtrs, suc_one, suc_half, suc_emissive, suc_matrix, suc_rotation, suc_scale, suc_translation, suc_color, allFinite_cons, allFinite_nil,
    and_true, true_and, and_assoc, Payload]
  try grind

theorem suc_animationChannelTargetC (E : Env) (s : AnimationChannelTarget) : Succeeds ((animationChannelTargetC E).enc s) ↔ Payload s.extensions s.extras := by
  unfold animationChannelTargetC
  rw [suc_struct]
  simp only [suc_cons, suc_nil, suc_skip, suc_ext, suc_extras, suc_always, suc_int, suc_string, suc_omitString, suc_omitInt, suc_omitBool, suc_omitIndex,
    suc_omitInts, suc_omitStrings, suc_ints, suc_intMap, suc_intMaps, suc_target, suc_mode, suc_alphaMode, suc_magFilter, suc_minFilter, suc_wrap,
    suc_interpolation, suc_componentType, suc_accessorType, suc_trsProperty, suc_floats, suc_omitFloat, suc_envFloat, suc_omitPtr, suc_omitPtrs,
    suc_slicePtrs, suc_one, suc_half, suc_emissive, suc_matrix, suc_rotation, suc_scale, suc_translation, suc_color, allFinite_cons, allFinite_nil,
    and_true, true_and, and_assoc, Payload]
  try grind

theorem suc_animationChannelC (E : Env) (s : AnimationChannel) : Succeeds ((animationChannelC E).enc s) ↔ AnimationChannelEnc s := by
  unfold animationChannelC AnimationChannelEnc
  rw [suc_struct]
  simp only [suc_cons, suc_nil, suc_skip, suc_ext, suc_extras, suc_always, suc_int, suc_string, suc_omitString, suc_omitInt, suc_omitBool, suc_omitIndex,
    suc_omitInts, suc_omitStrings, suc_ints, suc_intMap, suc_intMaps, suc_target, suc_mode, suc_alphaMode, suc_magFilter, suc_minFilter, suc_wrap,
    suc_interpolation, suc_componentType, suc_accessorType, suc_trsProperty, suc_floats, suc_omitFloat, suc_envFloat, suc_omitPtr, suc_omitPtrs,
    suc_slicePtrs, suc_one, suc_half, suc_emissive, suc_matrix, suc_rotation, suc_scale, suc_translation, suc_color, allFinite_cons, allFinite_nil,
    and_true, true_and, and_assoc, suc_animationChannelTargetC, Payload]
  try grind

theorem suc_animationC (E : Env) (s : Animation) : Succeeds ((animationC E).enc s) ↔ AnimationEnc s := by
  unfold animationC AnimationEnc
  rw [suc_struct]
  simp only [suc_cons, suc_nil, suc_skip, suc_ext, suc_extras, suc_always, suc_int, suc_string, suc_omitString, suc_omitInt, suc_omitBool, suc_omitIndex,
    suc_omitInts, suc_omitStrings, suc_ints, suc_intMap, suc_intMaps, suc_target, suc_mode, suc_alphaMode, suc_magFilter, suc_minFilter, suc_wrap,
    suc_interpolation, suc_componentType, suc_accessorType, suc_trsProperty, suc_floats, suc_omitFloat, suc_envFloat, suc_omitPtr, suc_omitPtrs,
    suc_slicePtrs, suc_one, suc_half, suc_emissive, suc_matrix, suc_rotation, suc_scale, suc_translation, suc_color, allFinite_cons, allFinite_nil,
    and_true, true_and, and_assoc, suc_animationChannelC, suc_animationSamplerC, Payload]
  try grind

theorem suc_cameraC_ (E : Env) (s : Camera) : Succeeds ((cameraC' E).enc s) ↔
    Payload s.extensions s.extras ∧ AtPtr OrthographicEnc s.orthographic ∧ AtPtr PerspectiveEnc s.perspective := by
  unfold cameraC'
  rw [suc_struct]
  simp only [suc_cons, suc_nil, suc_ext, suc_extras, suc_omitString, suc_omitPtr, suc_orthographicC, suc_perspectiveC, and_true, true_and, Payload, and_assoc]

theorem suc_cameraC (E : Env) (s : Camera) : Succeeds ((cameraC E).enc s) ↔ CameraEnc s := by
  unfold cameraC CameraEnc
  simp only
  by_cases hp : s.perspective.isSome = true
  · rw [if_pos hp, suc_map, suc_cameraC_]
    have : s.perspective ≠ none := by intro e; rw [e] at hp; cases hp
    exact ⟨fun h => ⟨h.1, h.2.1, h.2.2, .inl this⟩, fun h => ⟨h.1, h.2.1, h.2.2.1⟩⟩
  · rw [if_neg hp]
    by_cases ho : s.orthographic.isSome = true
    · rw [if_pos ho, suc_map, suc_cameraC_]
      have : s.orthographic ≠ none := by intro e; rw [e] at ho; cases ho
      exact ⟨fun h => ⟨h.1, h.2.1, h.2.2, .inr this⟩, fun h => ⟨h.1, h.2.1, h.2.2.1⟩⟩
    · rw [if_neg ho, suc_error]
      refine ⟨False.elim, fun h => ?_⟩
      rcases h.2.2.2 with h | h
      · exact hp (Option.isSome_iff_ne_none.2 h)
      · exact ho (Option.isSome_iff_ne_none.2 h)

theorem suc_assetC (E : Env) (s : Asset) : Succeeds ((assetC E).enc s) ↔ AssetEnc s := by
  unfold assetC AssetEnc
  simp only
  split
  · rw [suc_map]
    unfold assetMembers
    simp only [suc_cons, suc_nil, suc_ext, suc_extras, suc_always, suc_string, suc_omitString, and_true, true_and, Payload]
  · unfold assetC'
    rw [suc_struct]
    simp only [suc_cons, suc_nil, suc_ext, suc_extras, suc_always, suc_string, suc_omitString, and_true, true_and, Payload]

theorem suc_documentC (E : Env) (s : Document) : Succeeds ((documentC E).enc s) ↔ DocumentEnc s := by
  unfold documentC
  rw [suc_struct]
  simp only [suc_cons, suc_nil, suc_ext, suc_extras, suc_always, suc_omitStrings, suc_omitIndex, suc_omitPtrs, suc_bufferC, suc_accessorC, suc_animationC,
    suc_assetC, suc_bufferViewC, suc_cameraC, suc_imageC, suc_materialC, suc_meshC, suc_nodeC, suc_samplerC, suc_sceneC, suc_skinC, suc_textureC,
    and_true, true_and]
  constructor
  · rintro ⟨h1, h2, h3, h4, h5, h6, h7, h8, h9, h10, h11, h12, h13, h14, h15, h16⟩
    exact ⟨⟨h2, h3⟩, h6, h4, h5, h1, h7, h8, h9, h10, h11, h12, h13, h14, h15, h16⟩
  · rintro ⟨⟨h2, h3⟩, h6, h4, h5, h1, h7, h8, h9, h10, h11, h12, h13, h14, h15, h16⟩
    exact ⟨h1, h2, h3, h4, h5, h6, h7, h8, h9, h10, h11, h12, h13, h14, h15, h16⟩

/-! ### The Encoder -/

theorem customBuffer_enc {first : Bool} {b b' : Buffer} (h : customBuffer first (some b) = .ok b') :
    b'.extensions = b.extensions ∧ b'.extras = b.extras := by
  unfold customBuffer at h
  simp only at h
  split at h
  · cases h; exact ⟨rfl, rfl⟩
  · split at h
    · cases h; exact ⟨rfl, rfl⟩
    · cases h; exact ⟨rfl, rfl⟩

theorem customBuffer_enc_some (first : Bool) (b : Buffer) : ∃ b', customBuffer first (some b) = .ok b' := by
  unfold customBuffer
  simp only
  split
  · exact ⟨_, rfl⟩
  · split <;> exact ⟨_, rfl⟩

theorem mapCustom_enc : ∀ (l : List (Option Buffer)), none ∉ l →
    ∃ bs, mapRes (customBuffer false) l = .ok bs ∧ (AtPtrs BufferEnc (bs.map some) ↔ AtPtrs BufferEnc l)
  | [], _ => ⟨[], rfl, Iff.rfl⟩
  | none :: _, h => absurd (.head _) h
  | some b :: l, h => by
    obtain ⟨b', hb⟩ := customBuffer_enc_some false b
    obtain ⟨bs, hl, he⟩ := mapCustom_enc l fun hn => h (.tail _ hn)
    obtain ⟨e1, e2⟩ := customBuffer_enc hb
    refine ⟨b' :: bs, ?_, ?_⟩
    · unfold mapRes
      rw [hb, hl]
      rfl
    · unfold AtPtrs BufferEnc at he ⊢
      simp only [List.map_cons, List.mem_cons, Option.some.injEq, forall_eq_or_imp, he, e1, e2]

theorem customBuffers_enc (bin : Bool) : ∀ (l : List (Option Buffer)), none ∉ l →
    ∃ bs, customBuffers bin l = .ok bs ∧ (AtPtrs BufferEnc (bs.map some) ↔ AtPtrs BufferEnc l)
  | [], _ => ⟨[], rfl, Iff.rfl⟩
  | none :: _, h => absurd (.head _) h
  | some b :: l, h => by
    obtain ⟨b', hb⟩ := customBuffer_enc_some bin b
    obtain ⟨bs, hl, he⟩ := mapCustom_enc l fun hn => h (.tail _ hn)
    obtain ⟨e1, e2⟩ := customBuffer_enc hb
    refine ⟨b' :: bs, ?_, ?_⟩
    · unfold customBuffers
      simp only [hb, hl]
      rfl
    · unfold AtPtrs BufferEnc at he ⊢
      simp only [List.map_cons, List.mem_cons, Option.some.injEq, forall_eq_or_imp, he, e1, e2]

theorem documentEnc_buffers {d : Document} {bs : List (Option Buffer)} (h : AtPtrs BufferEnc bs ↔ AtPtrs BufferEnc d.buffers) :
    DocumentEnc { d with buffers := bs } ↔ DocumentEnc d :=
  ⟨fun ⟨h1, h2, h3, h4, h5, h6, h7, h8, h9, h10, h11, h12, h13, h14, h15⟩ => ⟨h1, h2, h3, h4, h.1 h5, h6, h7, h8, h9, h10, h11, h12, h13, h14, h15⟩,
   fun ⟨h1, h2, h3, h4, h5, h6, h7, h8, h9, h10, h11, h12, h13, h14, h15⟩ => ⟨h1, h2, h3, h4, h.2 h5, h6, h7, h8, h9, h10, h11, h12, h13, h14, h15⟩⟩

/-- The document has a JSON text exactly if it has a JSON form. -/
theorem marshal_enc (E : Env) (o : EncOpts) {d : Document} (hn : none ∉ d.buffers) :
    (DocumentEnc d ∧ ∃ v bs, (documentC E).enc { d with buffers := bs } = .ok v ∧ marshalJSONDoc E o d = .ok (v.print o.layout 0)) ∨
      (¬ DocumentEnc d ∧ ∃ e, marshalJSONDoc E o d = .err e) := by
  obtain ⟨bs, hb, he⟩ := customBuffers_enc o.asBinary d.buffers hn
  have hm : marshalJSONDoc E o d = match (documentC E).enc { d with buffers := bs.map some } with
      | .ok v => .ok (v.print o.layout 0)
      | .error e => .err e := by
    unfold marshalJSONDoc
    rw [hb]
    rfl
  have hs := (suc_documentC E { d with buffers := bs.map some }).trans (documentEnc_buffers he)
  cases hx : (documentC E).enc { d with buffers := bs.map some } with
  | ok v =>
    rw [hx] at hm hs
    exact .inl ⟨hs.1 ⟨_, rfl⟩, v, _, hx, hm⟩
  | error e =>
    rw [hx] at hm hs
    exact .inr ⟨fun hd => (suc_error e).1 (hs.2 hd), e, hm⟩

end Gltf
