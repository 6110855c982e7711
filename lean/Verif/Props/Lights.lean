/-
Properties C40 and C47: punctual lights.
-/
import Verif.Lemmas.Transform
import Verif.Props.Defaults

namespace Gltf
open Spec

namespace Spec

/-- A quarter of pi and infinity. -/
def quarterPi : F64 := ⟨0x3FE921FB54442D18⟩
@[inherit_doc quarterPi]
def infinity : F64 := ⟨0x7FF0000000000000⟩

structure SpotOk (s : Spot) : Prop where
  inner : s.innerConeAngle.finite = true
  outer : ∀ x ∈ s.outerConeAngle, x.finite = true

/-- Lights that JSON can express. -/
structure LightOk (l : Light) : Prop where
  type : IsUtf8 l.type
  name : IsUtf8 l.name
  color : ∀ a ∈ l.color, ∀ x ∈ a.toList, x.finite = true
  intensity : ∀ x ∈ l.intensity, x.finite = true
  range : ∀ x ∈ l.range, x.finite = true
  spot : ∀ s ∈ l.spot, SpotOk s

/-- The same cone, with the default filled in. -/
structure SameSpot (s s' : Spot) : Prop where
  inner : Same s.innerConeAngle s'.innerConeAngle
  outer : s'.outerConeAngle = some (s.outerConeAngle.getD quarterPi)

/-- The same light, with the defaults filled in. -/
structure SameLight (l l' : Light) : Prop where
  type : l'.type = l.type
  name : l'.name = l.name
  color : l'.color = some (l.color.getD #v[one, one, one])
  intensity : l'.intensity = some (l.intensity.getD one)
  range : l'.range = some (l.range.getD infinity)
  spot : SamePtr SameSpot l.spot l'.spot

end Spec

/-! ### The codecs -/

def normSpot (s : Spot) : Spot where
  innerConeAngle := if s.innerConeAngle.feq f64zero then f64zero else s.innerConeAngle
  outerConeAngle := some (s.outerConeAngle.getD quarterPi)

def normLight (l : Light) : Light where
  type := l.type
  name := l.name
  color := some (l.color.getD ones)
  intensity := some (l.intensity.getD one)
  range := some (l.range.getD infinity)
  spot := l.spot.map normSpot

/-- A pointer that is written unless it is nil. -/
theorem filled_fe {α : Type} {c : JC α} {D : Nat} {ok : α → Prop} (d : α) (hn : c.NonNull) (h : c.Law D d ok id) :
    ((JC.ptr c).omitIf Option.isNone).Law D (some d) (fun o => ∀ a ∈ o, ok a) (fun o => some (o.getD d)) := by
  refine omitIf_law (ptr_law (some d) hn h) (fun o ho hp => ?_) (fun o ho hp => ⟨ho, ?_⟩)
  · rw [isNone_none hp]; rfl
  · cases o with
    | none => cases hp
    | some a => rfl

theorem spotC'_law {E : Env} (hf : FloatLaws E.io) : (spotC' E).Law 1 { outerConeAngle := some f64quarterPi } SpotOk normSpot :=
  struct_law (cons_law (by by_names) (omitZero_fe hf) (cons_law (by by_names) (filled_fe _ (float_nonNull _) (float_law hf 0 _)) (nil_law 0)))
    (by by_names) rfl (fun s h => ⟨h.inner, h.outer, trivial⟩) (fun s => rfl)

theorem spotC_nonNull (E : Env) : (spotC E).NonNull := by
  show (spotC' E).NonNull
  exact struct_nonNull _ _ _

theorem lightC'_law {E : Env} (hf : FloatLaws E.io) :
    (lightC' E).Law 2 { color := some defaultScale, intensity := some f64one, range := some f64inf } LightOk normLight :=
  struct_law (cons_law (by by_names) ((always_law (string_law 0 _)).mono (by omega)) <|
    (cons_law (by by_names) (omitString_fe.mono (by omega)) <|
    (cons_law (by by_names) (filled_fe _ (array_nonNull _ _) (array_float_law hf 3 _)) <|
    (cons_law (by by_names) ((filled_fe _ (float_nonNull _) (float_law hf 0 _)).mono (by omega)) <|
    (cons_law (by by_names) ((filled_fe _ (float_nonNull _) (float_law hf 0 _)).mono (by omega)) <|
    (cons_law (by by_names) (opt_fe (spotC_nonNull E) (withDefault_law (spotC'_law hf) _)) (nil_law 1)))))))
    (by by_names) rfl (fun s h => ⟨h.type, h.name, h.color, h.intensity, h.range, h.spot, trivial⟩)
    (fun s => by
      have : defaultScale = ones := by decide +kernel
      simp only [this]
      rfl)

theorem lightC_law {E : Env} (hf : FloatLaws E.io) (start : Light) : (lightC E).Law 2 start LightOk normLight :=
  withDefault_law (lightC'_law hf) start

theorem lightC_nonNull (E : Env) : (lightC E).NonNull := by
  show (lightC' E).NonNull
  exact struct_nonNull _ _ _

theorem normSpot_same {s : Spot} (h : SpotOk s) : SameSpot s (normSpot s) := by
  refine ⟨?_, rfl⟩
  show Same s.innerConeAngle (if s.innerConeAngle.feq f64zero then f64zero else s.innerConeAngle)
  split
  · rename_i hz
    exact (feq_iff h.inner (by decide)).1 hz
  · exact .inl rfl

theorem normLight_same {l : Light} (h : LightOk l) : SameLight l (normLight l) := by
  refine ⟨rfl, rfl, rfl, rfl, rfl, ?_⟩
  unfold normLight
  cases hs : l.spot with
  | none => trivial
  | some s => exact normSpot_same (h.spot s hs)

/-! ### Defaults -/

/-- C40, for lights: after encoding and decoding a light, its methods report what they reported before, and the pointers
with a default are set. -/
theorem C40_lights (E : Env) (hf : FloatLaws E.io) (l : Light) (h : LightOk l) (start : Light) :
    ∃ v l', (lightC E).enc l = .ok v ∧ (lightC E).dec v start = .ok l' ∧
      (l'.color = some l.colorOrDefault ∧ l'.colorOrDefault = l.colorOrDefault) ∧
      (l'.intensity = some l.intensityOrDefault ∧ l'.intensityOrDefault = l.intensityOrDefault) ∧
      l'.range.isSome = true ∧
      SamePtr (fun s s' => s'.outerConeAngle = some s.outerConeAngleOrDefault ∧ s'.outerConeAngleOrDefault = s.outerConeAngleOrDefault)
        l.spot l'.spot := by
  obtain ⟨v, h1, _, _, h4⟩ := lightC_law hf start l h
  refine ⟨v, _, h1, h4, ?_, ?_, rfl, ?_⟩
  · unfold normLight Light.colorOrDefault
    have : defaultScale = ones := by decide +kernel
    cases l.color with
    | none => simp only [this]; exact ⟨rfl, rfl⟩
    | some a => exact ⟨rfl, rfl⟩
  · unfold normLight Light.intensityOrDefault
    cases l.intensity <;> exact ⟨rfl, rfl⟩
  · unfold normLight
    cases l.spot with
    | none => trivial
    | some s =>
      show _ ∧ _
      unfold normSpot Spot.outerConeAngleOrDefault
      cases s.outerConeAngle <;> exact ⟨rfl, rfl⟩

/-! ### Lists of lights and indices -/

/-- C47, the values: a list of lights is written as the value of the member `lights` from which it is read again.

Missing: that the member and the object around it are written; they are not, see `C47_full_fails`. -/
theorem C47_lights_partial (E : Env) (hf : FloatLaws E.io) (ls : List (Option Light)) (h : ∀ o ∈ ls, ∀ l ∈ o, LightOk l) :
    ∃ v ls', lightsEnc E (.lights (some ls)) = .ok v ∧ lightsDec E (.obj [(b!"lights", v)]) = .ok (.lights (some ls')) ∧
      ls'.length = ls.length ∧ ∀ (i : Nat) (o : Option Light), ls[i]? = some o → ∃ o', ls'[i]? = some o' ∧ SamePtr SameLight o o' := by
  obtain ⟨v, h1, h2, h3, h4⟩ := slice_law (ptr_law none (lightC_nonNull E) (lightC_law hf _)) (some ls) (fun l hl => by cases hl; exact h)
  refine ⟨v, ls.map (Option.map normLight), h1, ?_, by simp, ?_⟩
  · unfold lightsDec envelopC
    simp only [JC.struct, FC.decAll, FC.cons, id]
    rw [if_pos (by decide +kernel)]
    simp only [JC.always, lightsC]
    rw [h4]
    rfl
  · intro i o ho
    refine ⟨o.map normLight, by simp [ho], ?_⟩
    cases o with
    | none => trivial
    | some l => exact normLight_same (h _ (List.mem_of_getElem? ho) l rfl)

/-- C47, the values: the index of a light is written as the value of the member `light` from which it is read again.

Missing: that the member and the object around it are written; they are not, see `C47_full_fails`. -/
theorem C47_index_partial (E : Env) (i : Int) (hi : IntOk i) :
    ∃ v, lightsEnc E (.index i) = .ok v ∧ lightsDec E (.obj [(b!"light", v)]) = .ok (.index i) := by
  obtain ⟨v, h1, h2, h3, h4⟩ := ptr_law none int_nonNull (int_law 0 0) (some i) (fun j hj => by cases hj; exact hi)
  have hv : v = .num (printInt i) := by
    simp only [JC.ptr, JC.int] at h1
    cases h1; rfl
  refine ⟨v, by rw [hv]; rfl, ?_⟩
  unfold lightsDec envelopC
  simp only [JC.struct, FC.decAll, FC.cons, id]
  rw [if_neg (by decide +kernel), if_pos (by decide +kernel)]
  simp only [JC.always]
  rw [h4]
  rfl

/-! ### The claim for documents is false -/

/-- Only objects are accepted. -/
theorem lightsExt_bare (E : Env) (v : JVal) (h1 : ∀ ms, v ≠ .obj ms) (h2 : v ≠ .null) : ∃ e, lightsExt E v = .error e := by
  cases v with
  | obj ms => exact absurd rfl (h1 ms)
  | null => exact absurd rfl h2
  | _ => exact ⟨_, rfl⟩

/-- The name of the extension. -/
def lightsName : Bytes := b!"KHR_lights_punctual"

theorem standard_lights (E : Env) (v : JVal) : (standardExtensions E).decode lightsName v =
    match lightsExt E v with | .ok n => .typed n | .error _ => .raw v := rfl

/-- C47 is false: the reference of a node to a light is written as a bare number, which is not accepted when it is read. -/
theorem C47_full_fails (E : Env) (i : Int) (hi : IntOk i) :
    (standardExtensions E).decode lightsName (.obj [(b!"light", .num (printInt i))]) = .typed (.ok (.num (printInt i))) ∧
    (standardExtensions E).decode lightsName (.num (printInt i)) = .raw (.num (printInt i)) := by
  obtain ⟨v, h1, h2⟩ := C47_index_partial E i hi
  cases h1
  refine ⟨?_, rfl⟩
  rw [standard_lights]
  unfold lightsExt
  rw [h2]
  rfl

/-- Lists of lights are written as bare arrays, which are not accepted either. -/
theorem C47_lists_fail (E : Env) (v w : JVal) (h : lightsExt E v = .ok (.ok w)) (h0 : w ≠ .null) :
    (standardExtensions E).decode lightsName w = .raw w := by
  have hw : ∀ ms, w ≠ .obj ms := by
    intro ms e
    subst e
    unfold lightsExt at h
    cases hd : lightsDec E v with
    | error e => rw [hd] at h; cases h
    | ok x =>
      rw [hd] at h
      injection h with h
      cases x with
      | index i => cases h
      | lights l =>
        cases l with
        | none => cases h
        | some l =>
          simp only [lightsEnc, lightsC, JC.slice] at h
          cases hl : encList (JC.ptr (lightC E)) l with
          | error e => rw [hl] at h; cases h
          | ok vs => rw [hl] at h; cases h
  obtain ⟨e, he⟩ := lightsExt_bare E w hw h0
  rw [standard_lights, he]

theorem cons_enc_error {α τ : Type} {name : Bytes} {f : FE α} {r : FC τ} {a : α} {t : τ}
    (h : (∃ e, f.enc a = .error e) ∨ ∃ e, r.enc t = .error e) : ∃ e, (FC.cons name f r).enc (a, t) = .error e := by
  unfold FC.cons
  cases h1 : f.enc a with
  | error e => exact ⟨e, by simp only [h1]; rfl⟩
  | ok v =>
    rcases h with ⟨e, h⟩ | ⟨e, h⟩
    · rw [h1] at h; cases h
    · exact ⟨e, by simp only [h1, h]; rfl⟩

theorem encList_error {α : Type} {c : JC α} {a : α} (h : ∃ e, c.enc a = .error e) : ∀ {l : List α}, a ∈ l → ∃ e, encList c l = .error e
  | b :: l, hm => by
    unfold encList
    cases h1 : c.enc b with
    | error e => exact ⟨e, rfl⟩
    | ok v =>
      have : a ∈ l := by
        rcases List.mem_cons.1 hm with rfl | hm
        · obtain ⟨e, h⟩ := h
          rw [h1] at h; cases h
        · exact hm
      obtain ⟨e, h2⟩ := encList_error h this
      exact ⟨e, by rw [h2]; rfl⟩

/-- A light with an infinite range cannot be written. -/
theorem light_infinite {E : Env} {l : Light} (h : l.range = some infinity) : ∃ e, (lightC E).enc l = .error e := by
  have h1 : ((JC.ptr E.float).omitIf Option.isNone).enc l.range = .error (.msg "json: unsupported value") := by
    rw [h]; rfl
  obtain ⟨e, he⟩ := cons_enc_error (name := b!"type") (f := JC.string.always) (a := l.type) <| .inr <|
    cons_enc_error (name := b!"name") (f := omitString) (a := l.name) <| .inr <|
    cons_enc_error (name := b!"color") (f := (JC.ptr (JC.array 3 E.float)).omitIf Option.isNone) (a := l.color) <| .inr <|
    cons_enc_error (name := b!"intensity") (f := (JC.ptr E.float).omitIf Option.isNone) (a := l.intensity) <| .inr <|
    cons_enc_error (name := b!"range") (r := .cons b!"spot" ((JC.ptr (spotC E)).omitIf Option.isNone) .nil) (t := (l.spot, ())) <| .inl ⟨_, h1⟩
  refine ⟨e, ?_⟩
  show (lightC' E).enc l = _
  unfold lightC'
  simp only [JC.struct, he]
  rfl

/-- Lights that are read have an infinite range if none is given, and then the lights cannot be written. -/
theorem C47_range_fails (E : Env) (ls : List (Option Light)) (l : Light) (hl : some l ∈ ls) (h : l.range = some infinity) :
    ∃ e, lightsEnc E (.lights (some ls)) = .error e := by
  obtain ⟨e, he⟩ := light_infinite (E := E) h
  obtain ⟨e, he⟩ := encList_error (c := JC.ptr (lightC E)) (a := some l) ⟨e, he⟩ hl
  refine ⟨e, ?_⟩
  simp only [lightsEnc, lightsC, JC.slice, he]
  rfl

/-- A light without a range is read with an infinite range. -/
example (E : Env) : ∃ l, lightsDec E (.obj [(b!"lights", .arr [.obj [(b!"type", .str b!"point")]])]) = .ok (.lights (some [some l])) ∧
    l.range = some infinity := ⟨_, rfl, rfl⟩

/-- A spot light. -/
def spotLight : Light := { type := b!"spot", name := b!"lamp", intensity := some half, spot := some { innerConeAngle := half } }

example : LightOk spotLight :=
  ⟨utf8_ascii (by decide +kernel), utf8_ascii (by decide +kernel), fun a ha => (nomatch ha), fun x hx => by cases hx; rfl,
    fun x hx => (nomatch hx), fun s hs => by cases hs; exact ⟨rfl, fun x hx => (nomatch hx)⟩⟩

example : (((lightC ⟨goFloatIO, []⟩).enc spotLight).map (·.print compact 0)).toOption =
    some b!"{\"type\":\"spot\",\"name\":\"lamp\",\"intensity\":0.5,\"spot\":{\"innerConeAngle\":0.5}}" := by decide +kernel

end Gltf
